import Verif.Stats.Spec
/-!
# C111: what the difference of two readings is
-/
namespace Verif.Stats

/-- Count or time. -/
def Kernel.stat (k : Kernel) : Bool → Prog → Nat → Nat
  | false => k.cnt
  | true => k.ns

def weight : Bool → Done → Nat
  | false => one
  | true => took

def total (k : Kernel) (t : Bool) (p : Prog) : Nat := ((List.range k.cpus).map (k.stat t p)).sum

/-- Counters agree with the runs that ended. -/
structure Inv (k : Kernel) : Prop where
  ended : ∀ d ∈ k.done, d.ended < k.moment
  cpu : ∀ b ∈ k.busy, b.cpu < k.cpus
  doneBegan : ∀ d ∈ k.done, d.began < k.moment
  busyBegan : ∀ b ∈ k.busy, b.began < k.moment
  total : ∀ t p, total k t p = tally (weight t) (fun d => d.prog = p && d.counted) k.done

/-- What becomes of a kernel. -/
structure Ext (k k' : Kernel) : Prop where
  cpus : k'.cpus = k.cpus
  moment : k.moment ≤ k'.moment
  done : ∃ l, k'.done = l ++ k.done ∧ ∀ d ∈ l, k.moment ≤ d.ended
  stat : ∀ t p c, k.stat t p c ≤ k'.stat t p c

/-- The process has a descriptor since moment `e`. -/
structure Held (e : Nat) (fd : Fd) (k : Kernel) : Prop where
  mine : fd ∈ k.mine
  done : ∀ d ∈ k.done, e ≤ d.began → d.counted = true
  busy : ∀ b ∈ k.busy, e ≤ b.began → b.counted = true

theorem ext_refl (k : Kernel) : Ext k k := ⟨rfl, Nat.le_refl _, ⟨[], rfl, fun _ h => by cases h⟩, fun _ _ _ => Nat.le_refl _⟩

theorem Ext.trans {a b c : Kernel} (h1 : Ext a b) (h2 : Ext b c) : Ext a c := by
  obtain ⟨l1, e1, m1⟩ := h1.done
  obtain ⟨l2, e2, m2⟩ := h2.done
  refine ⟨h2.cpus.trans h1.cpus, Nat.le_trans h1.moment h2.moment, ⟨l2 ++ l1, by rw [e2, e1, List.append_assoc], fun d hd => ?_⟩,
    fun t p c => Nat.le_trans (h1.stat t p c) (h2.stat t p c)⟩
  rcases List.mem_append.1 hd with h | h
  · exact Nat.le_trans h1.moment (m2 d h)
  · exact m1 d h

theorem bump_le (g : Prog → Nat → Nat) (p : Prog) (c x : Nat) (p' : Prog) (c' : Nat) : g p' c' ≤ bump g p c x p' c' := by
  simp only [bump]; split <;> omega

theorem sum_bump (g : Prog → Nat → Nat) (p p' : Prog) (c x : Nat) : ∀ l : List Nat, l.Nodup →
    (l.map (bump g p c x p')).sum = (l.map (g p')).sum + if p' = p ∧ c ∈ l then x else 0 := by
  intro l
  induction l with
  | nil => intro _; simp
  | cons a l ih =>
    intro hn
    have hn' := List.nodup_cons.1 hn
    simp only [List.map_cons, List.sum_cons, ih hn'.2]
    by_cases hp : p' = p
    · by_cases ha : a = c
      · subst ha hp
        have : bump g p' a x p' a = g p' a + x := if_pos ⟨rfl, rfl⟩
        simp only [this, hn'.1, List.mem_cons, true_or, and_self, and_false, if_true, if_false]
        omega
      · have : bump g p c x p' a = g p' a := if_neg (fun h => ha h.2)
        have hc : (c = a) = False := eq_false (fun h => ha h.symm)
        simp only [this, List.mem_cons, hc, false_or]
        omega
    · have : bump g p c x p' a = g p' a := if_neg (fun h => hp h.1)
      simp only [this, hp, false_and, if_false]
      omega

theorem finish_stat (k : Kernel) (i : Nat) (b : Busy) (t : Bool) :
    (k.finish i b).stat t = if b.counted then bump (k.stat t) b.prog b.cpu (weight t ⟨b.prog, b.cpu, b.began, k.moment, b.since, k.now, b.counted⟩)
      else k.stat t := by
  cases t <;> rfl

theorem finish_ext (k : Kernel) (i : Nat) (b : Busy) : Ext k (k.finish i b) := by
  refine ⟨rfl, Nat.le_succ _, ⟨[_], rfl, fun d hd => ?_⟩, fun t p c => ?_⟩
  · rw [List.mem_singleton] at hd
    subst hd
    exact Nat.le_refl _
  · rw [finish_stat]
    split
    · exact bump_le ..
    · exact Nat.le_refl _

theorem finish_inv {k : Kernel} {i : Nat} {b : Busy} (h : Inv k) (hb : b ∈ k.busy) : Inv (k.finish i b) := by
  refine ⟨fun d hd => ?_, fun b hb => h.cpu b (List.mem_of_mem_eraseIdx hb), fun d hd => ?_,
    fun b hb => Nat.lt_succ_of_lt (h.busyBegan b (List.mem_of_mem_eraseIdx hb)), fun t p => ?_⟩
  · rcases List.mem_cons.1 hd with rfl | hd
    · exact Nat.lt_succ_self _
    · exact Nat.lt_succ_of_lt (h.ended d hd)
  · rcases List.mem_cons.1 hd with rfl | hd
    · exact Nat.lt_succ_of_lt (h.busyBegan b hb)
    · exact Nat.lt_succ_of_lt (h.doneBegan d hd)
  · have ht := h.total t p
    simp only [total, finish_stat] at ht ⊢
    have hc : (k.finish i b).cpus = k.cpus := rfl
    have hm : b.cpu ∈ List.range k.cpus := List.mem_range.2 (h.cpu b hb)
    have hd : (k.finish i b).done = ⟨b.prog, b.cpu, b.began, k.moment, b.since, k.now, b.counted⟩ :: k.done := rfl
    rw [hc, hd]
    cases hcnt : b.counted with
    | false =>
      simp only [hcnt, Bool.false_eq_true, if_false, tally, List.filter_cons, Bool.and_false] at ht ⊢
      exact ht
    | true =>
      simp only [if_true, sum_bump _ _ _ _ _ _ List.nodup_range, hm, and_true, tally, List.filter_cons, Bool.and_true, decide_eq_true_eq] at ht ⊢
      rw [ht]
      by_cases hp : b.prog = p
      · simp only [hp, if_true, List.map_cons, List.sum_cons]
        omega
      · have : ¬ p = b.prog := fun h => hp h.symm
        simp only [hp, this, if_false]
        omega

theorem finish_held {e : Nat} {fd : Fd} {k : Kernel} {i : Nat} {b : Busy} (h : Held e fd k) (hb : b ∈ k.busy) : Held e fd (k.finish i b) := by
  refine ⟨h.mine, fun d hd he => ?_, fun b hb => h.busy b (List.mem_of_mem_eraseIdx hb)⟩
  rcases List.mem_cons.1 hd with rfl | hd
  · exact h.busy b hb he
  · exact h.done d hd he

theorem total_congr {k k' : Kernel} (h1 : k'.cpus = k.cpus) (h2 : k'.cnt = k.cnt) (h3 : k'.ns = k.ns) (t : Bool) (p : Prog) :
    total k' t p = total k t p := by
  cases t <;> simp only [total, Kernel.stat, h1, h2, h3]

theorem act_good (k : Kernel) (x : Act) (h : Inv k) : Inv (k.act x) ∧ Ext k (k.act x) ∧ ∀ e fd, Held e fd k → Held e fd (k.act x) := by
  have hmom : ∀ d ∈ k.done, d.ended < k.moment + 1 := fun d hd => Nat.lt_succ_of_lt (h.ended d hd)
  have hm2 : ∀ d ∈ k.done, d.began < k.moment + 1 := fun d hd => Nat.lt_succ_of_lt (h.doneBegan d hd)
  have hm3 : ∀ b ∈ k.busy, b.began < k.moment + 1 := fun b hb => Nat.lt_succ_of_lt (h.busyBegan b hb)
  have hex : ∀ k' : Kernel, k'.cpus = k.cpus → k'.moment = k.moment + 1 → k'.done = k.done → k'.cnt = k.cnt → k'.ns = k.ns → Ext k k' :=
    fun k' h1 h2 h3 h4 h5 => ⟨h1, by omega, ⟨[], h3, fun _ h => by cases h⟩, fun t p c => by cases t <;> simp only [Kernel.stat, h4, h5] <;> exact Nat.le_refl _⟩
  cases x with
  | pass d => exact ⟨⟨hmom, h.cpu, hm2, hm3, h.total⟩, hex _ rfl rfl rfl rfl rfl, fun e fd hh => ⟨hh.1, hh.2, hh.3⟩⟩
  | enable => exact ⟨⟨hmom, h.cpu, hm2, hm3, h.total⟩, hex _ rfl rfl rfl rfl rfl, fun e fd hh => ⟨hh.1, hh.2, hh.3⟩⟩
  | disable => exact ⟨⟨hmom, h.cpu, hm2, hm3, h.total⟩, hex _ rfl rfl rfl rfl rfl, fun e fd hh => ⟨hh.1, hh.2, hh.3⟩⟩
  | start p c =>
    simp only [Kernel.act]
    split
    · rename_i hc
      refine ⟨⟨hmom, fun b hb => ?_, hm2, fun b hb => ?_, h.total⟩, hex _ rfl rfl rfl rfl rfl, fun e fd hh => ⟨hh.1, hh.2, fun b hb he => ?_⟩⟩
      · rcases List.mem_cons.1 hb with rfl | hb
        · exact hc
        · exact h.cpu b hb
      · rcases List.mem_cons.1 hb with rfl | hb
        · exact Nat.lt_succ_self _
        · exact hm3 b hb
      · rcases List.mem_cons.1 hb with rfl | hb
        · have : k.mine.isEmpty = false := by
            cases hm : k.mine with
            | nil => have := hh.mine; rw [hm] at this; cases this
            | cons => rfl
          simp only [Kernel.enabled, this, Bool.not_false, Bool.true_or]
        · exact hh.busy b hb he
    · exact ⟨h, ext_refl k, fun _ _ hh => hh⟩
  | stop i =>
    simp only [Kernel.act]
    split
    · rename_i b hb
      have hb := List.mem_of_getElem? hb
      exact ⟨finish_inv h hb, finish_ext k i b, fun _ _ hh => finish_held hh hb⟩
    · exact ⟨h, ext_refl k, fun _ _ hh => hh⟩

theorem act_same (k : Kernel) (x : Act) : (k.act x).mine = k.mine ∧ (k.act x).did = k.did ∧ (k.act x).next = k.next := by
  cases x with
  | start => dsimp only [Kernel.act]; split <;> exact ⟨rfl, rfl, rfl⟩
  | stop => dsimp only [Kernel.act]; split <;> exact ⟨rfl, rfl, rfl⟩
  | _ => exact ⟨rfl, rfl, rfl⟩

/-- What a step in which the process does nothing keeps. -/
structure Calm (k k' : Kernel) : Prop where
  inv : Inv k'
  ext : Ext k k'
  held : ∀ e fd, Held e fd k → Held e fd k'
  mine : k'.mine = k.mine
  did : k'.did = k.did
  next : k'.next = k.next

theorem Calm.trans {a b c : Kernel} (h1 : Calm a b) (h2 : Calm b c) : Calm a c :=
  ⟨h2.inv, h1.ext.trans h2.ext, fun e fd h => h2.held e fd (h1.held e fd h), h2.mine.trans h1.mine, h2.did.trans h1.did, h2.next.trans h1.next⟩

theorem calm_refl {k : Kernel} (h : Inv k) : Calm k k := ⟨h, ext_refl k, fun _ _ h => h, rfl, rfl, rfl⟩

theorem calm_acts : ∀ (as : List Act) (k : Kernel), Inv k → Calm k (as.foldl Kernel.act k) := by
  intro as
  induction as with
  | nil => exact fun k h => calm_refl h
  | cons a as ih =>
    intro k h
    obtain ⟨h1, h2, h3⟩ := act_good k a h
    obtain ⟨s1, s2, s3⟩ := act_same k a
    exact Calm.trans ⟨h1, h2, h3, s1, s2, s3⟩ (ih _ h1)

theorem calm_pause (w : World) (h : Inv w.k) : Calm w.k w.pause.k := by
  simp only [World.pause]
  split
  · exact calm_refl h
  · exact calm_acts _ _ h

theorem failing_k (w : World) : w.failing.2.k = w.k := by
  simp only [World.failing]; split <;> rfl

theorem sum_le {f g : Nat → Nat} (h : ∀ c, f c ≤ g c) : ∀ l : List Nat, (l.map f).sum ≤ (l.map g).sum := by
  intro l
  induction l with
  | nil => exact Nat.le_refl _
  | cons c l ih => simp only [List.map_cons, List.sum_cons]; exact Nat.add_le_add (h c) ih

/-- A number of the pair that is read. -/
def pick (x : Nat × Nat) : Bool → Nat
  | false => x.1
  | true => x.2

theorem readCpus_between (p : Prog) (t : Bool) : ∀ (cs : List Nat) (w : World), Inv w.k →
    Calm w.k (readCpus p cs w).2.k ∧ (cs.map (w.k.stat t p)).sum ≤ pick (readCpus p cs w).1 t ∧
      pick (readCpus p cs w).1 t ≤ (cs.map ((readCpus p cs w).2.k.stat t p)).sum := by
  intro cs
  induction cs with
  | nil => intro w h; refine ⟨calm_refl h, ?_, ?_⟩ <;> cases t <;> exact Nat.le_refl _
  | cons c cs ih =>
    intro w h
    have hp := calm_pause w h
    obtain ⟨i1, i2, i3⟩ := ih w.pause hp.inv
    have e2 : (readCpus p (c :: cs) w).2 = (readCpus p cs w.pause).2 := rfl
    have e1 : pick (readCpus p (c :: cs) w).1 t = w.pause.k.stat t p c + pick (readCpus p cs w.pause).1 t := by cases t <;> rfl
    have hmono : (cs.map (w.k.stat t p)).sum ≤ (cs.map (w.pause.k.stat t p)).sum :=
      sum_le (fun c => hp.ext.stat t p c) cs
    rw [e2, e1]
    refine ⟨hp.trans i1, ?_, ?_⟩
    · simp only [List.map_cons, List.sum_cons]
      exact Nat.add_le_add (hp.ext.stat t p c) (Nat.le_trans hmono i2)
    · simp only [List.map_cons, List.sum_cons]
      exact Nat.add_le_add (i1.ext.stat t p c) i3

/-- Runs that had ended at an earlier moment are those of the end that ended before it. -/
theorem tally_at {k k' : Kernel} (h : Inv k) (hx : Ext k k') (f : Done → Nat) (q : Done → Bool) :
    tally f q k.done = tally f (fun d => q d && decide (d.ended < k.moment)) k'.done := by
  obtain ⟨l, hl, hm⟩ := hx.done
  have h1 : l.filter (fun d => q d && decide (d.ended < k.moment)) = [] :=
    List.filter_eq_nil_iff.2 fun d hd => by have := hm d hd; simp; intro _; omega
  have h2 : k.done.filter (fun d => q d && decide (d.ended < k.moment)) = k.done.filter q :=
    List.filter_congr fun d hd => by simp [h.ended d hd]
  simp only [tally, hl, List.filter_append, h1, h2, List.nil_append]

theorem tally_le (f : Done → Nat) (q q' : Done → Bool) : ∀ l : List Done, (∀ d ∈ l, q d = true → q' d = true) → tally f q l ≤ tally f q' l := by
  intro l
  induction l with
  | nil => intro _; exact Nat.le_refl _
  | cons d l ih =>
    intro h
    have ih := ih fun d hd => h d (List.mem_cons_of_mem _ hd)
    have hd := h d (List.mem_cons_self ..)
    simp only [tally, List.filter_cons] at ih ⊢
    cases hq : q d with
    | true => simp only [hd hq, if_true, List.map_cons, List.sum_cons]; omega
    | false =>
      simp only [Bool.false_eq_true, if_false]
      split
      · simp only [List.map_cons, List.sum_cons]; omega
      · exact ih

theorem tally_split (f : Done → Nat) (q r : Done → Bool) : ∀ l : List Done,
    tally f q l = tally f (fun d => q d && r d) l + tally f (fun d => q d && !r d) l := by
  intro l
  induction l with
  | nil => rfl
  | cons d l ih =>
    simp only [tally, List.filter_cons] at ih ⊢
    cases q d <;> cases r d <;> simp only [Bool.false_and, Bool.true_and, Bool.not_true, Bool.not_false, Bool.false_eq_true, if_false, if_true,
      List.map_cons, List.sum_cons] <;> omega

theorem Kernel.total_final (k : Kernel) {k' : Kernel} (h : Inv k) (hx : Ext k k') (t : Bool) (p : Prog) :
    Verif.Stats.total k t p = tally (weight t) (fun d => (d.prog = p && d.counted) && decide (d.ended < k.moment)) k'.done := by
  rw [h.total t p, tally_at h hx]

theorem inv_fresh {k : Kernel} (h : k.Fresh) : Inv k := by
  have hd : ∀ d, d ∉ k.done := fun d hd => by rw [h.done] at hd; cases hd
  have hb : ∀ b, b ∉ k.busy := fun b hb => by rw [h.busy] at hb; cases hb
  refine ⟨fun d h => (hd d h).elim, fun b h => (hb b h).elim, fun d h => (hd d h).elim, fun b h => (hb b h).elim, fun t p => ?_⟩
  have : ∀ l : List Nat, (l.map (k.stat t p)).sum = 0 := by
    intro l
    induction l with
    | nil => rfl
    | cons c l ih =>
      have : k.stat t p c = 0 := by cases t; exact h.cnt p c; exact h.ns p c
      simp only [List.map_cons, List.sum_cons, ih, this]
  simp only [total, this, h.done, tally, List.filter_nil, List.map_nil, List.sum_nil]

theorem fail_cases (w : World) (h : Inv w.k) :
    Calm w.k w.pause.failing.2.k := by
  rw [failing_k]; exact calm_pause w h

/-- Asking for the information. -/
theorem info_ok {w w' : World} {p : Prog} {i : RawInfo} (h : Inv w.k) (hr : World.sys.info p w = (.ok i, w')) :
    ∃ k1 k2 : Kernel, Calm w.k k1 ∧ Calm k1 k2 ∧ w'.k = { k2 with did := k2.did ++ [.asked p k1.moment k2.moment] } ∧
      ∀ t, total k1 t p ≤ pick (i.runCnt, i.runTimeNs) t ∧ pick (i.runCnt, i.runTimeNs) t ≤ total k2 t p := by
  have hc := fail_cases w h
  simp only [World.sys] at hr
  generalize w.pause.failing = x at hr hc
  obtain ⟨f, v⟩ := x
  cases f with
  | some e => cases hr
  | none =>
    dsimp only at hr hc
    have hb := fun t => readCpus_between p t (List.range v.k.cpus) v hc.inv
    generalize hg : readCpus p (List.range v.k.cpus) v = y at hr hb
    obtain ⟨y1, y2⟩ := y
    dsimp only at hr hb
    cases hr
    refine ⟨v.k, y2.k, hc, (hb false).1, rfl, fun t => ⟨(hb t).2.1, ?_⟩⟩
    have := (hb t).2.2
    simp only [total, (hb t).1.ext.cpus]
    exact this

theorem info_error {w w' : World} {p : Prog} {e : Nat} (h : Inv w.k) (hr : World.sys.info p w = (.error e, w')) : Calm w.k w'.k := by
  have hc := fail_cases w h
  simp only [World.sys] at hr
  generalize w.pause.failing = x at hr hc
  obtain ⟨f, v⟩ := x
  cases f with
  | some e => cases hr; exact hc
  | none => cases hr

theorem enable_ok {w w' : World} {fd : Fd} (h : Inv w.k) (hr : World.sys.enable 0 w = (.ok fd, w')) :
    ∃ k1 : Kernel, Calm w.k k1 ∧ fd = k1.next ∧
      w'.k = { k1 with mine := k1.next :: k1.mine, next := k1.next + 1, moment := k1.moment + 1, did := k1.did ++ [.enabled k1.moment] } := by
  have hc := fail_cases w h
  simp only [World.sys] at hr
  generalize w.pause.failing = x at hr hc
  obtain ⟨f, v⟩ := x
  cases f with
  | some e => cases hr
  | none => cases hr; exact ⟨v.k, hc, rfl, rfl⟩

theorem enable_error {w w' : World} {e : Nat} (h : Inv w.k) (hr : World.sys.enable 0 w = (.error e, w')) : Calm w.k w'.k := by
  have hc := fail_cases w h
  simp only [World.sys] at hr
  generalize w.pause.failing = x at hr hc
  obtain ⟨f, v⟩ := x
  cases f with
  | some e => cases hr; exact hc
  | none => cases hr

/-- Changes that the counters and runs do not see. -/
theorem inv_congr {k k' : Kernel} (h : Inv k) (h1 : k'.cpus = k.cpus) (h2 : k.moment ≤ k'.moment) (h3 : k'.done = k.done) (h4 : k'.busy = k.busy)
    (h5 : k'.cnt = k.cnt) (h6 : k'.ns = k.ns) : Inv k' ∧ Ext k k' :=
  ⟨⟨fun d hd => Nat.lt_of_lt_of_le (h.ended d (h3 ▸ hd)) h2, fun b hb => by rw [h1]; exact h.cpu b (h4 ▸ hb),
    fun d hd => Nat.lt_of_lt_of_le (h.doneBegan d (h3 ▸ hd)) h2, fun b hb => Nat.lt_of_lt_of_le (h.busyBegan b (h4 ▸ hb)) h2,
    fun t p => by rw [total_congr h1 h5 h6, h.total, h3]⟩,
   ⟨h1, h2, ⟨[], h3, fun _ h => by cases h⟩, fun t p c => by cases t <;> simp only [Kernel.stat, h5, h6] <;> exact Nat.le_refl _⟩⟩

theorem close_good (w : World) (fd : Fd) (h : Inv w.k) :
    ∃ k1 : Kernel, Calm w.k k1 ∧ Inv (World.sys.close fd w).k ∧ Ext k1 (World.sys.close fd w).k ∧
      (World.sys.close fd w).k.mine = k1.mine.erase fd ∧ (World.sys.close fd w).k.did = k1.did ++ [.released k1.moment] := by
  have hc := calm_pause w h
  obtain ⟨h1, h2⟩ := inv_congr (k' := (World.sys.close fd w).k) hc.inv rfl (Nat.le_succ _) rfl rfl rfl rfl
  exact ⟨_, hc, h1, h2, rfl, rfl⟩

theorem infoOf_ok {w w' : World} {p : Prog} {i : RawInfo} (hr : infoOf World.sys p w = (.ok i, w')) : World.sys.info p w = (.ok i, w') := by
  simp only [infoOf] at hr
  split at hr
  · cases hr
  · rename_i h; cases hr; exact h

theorem infoOf_error {w w' : World} {p : Prog} {e : SyscallError} (hr : infoOf World.sys p w = (.error e, w')) :
    e.call = "bpf_obj_get_info_by_fd" ∧ World.sys.info p w = (.error e.errno, w') := by
  simp only [infoOf] at hr
  split at hr
  · rename_i h; cases hr; exact ⟨rfl, h⟩
  · cases hr

theorem enableStats_ok {w w' : World} {fd : Fd} (hr : enableStats World.sys .runTime w = (.ok fd, w')) : World.sys.enable 0 w = (.ok fd, w') := by
  simp only [enableStats, bpfEnableStats, Kind.raw] at hr
  split at hr
  · cases hr
  · rename_i h; cases hr; exact h

theorem enableStats_error {w w' : World} {e : SyscallError} (hr : enableStats World.sys .runTime w = (.error e, w')) :
    e.call = "bpf_enable_stats" ∧ World.sys.enable 0 w = (.error e.errno, w') := by
  simp only [enableStats, bpfEnableStats, Kind.raw] at hr
  split at hr
  · rename_i h; cases hr; exact ⟨rfl, h⟩
  · cases hr

theorem measure_bounds {w w' : World} {p : Prog} {x : Nat × Nat} (h : Inv w.k) (hr : measure World.sys p w = (.ok x, w')) :
    ∃ e a b c d r, w'.k.did = w.k.did ++ [.enabled e, .asked p a b, .asked p c d, .released r] ∧
      e < a ∧ a ≤ b ∧ b ≤ c ∧ c ≤ d ∧ d ≤ r ∧ ∀ t,
        tally (weight t) (fun r => r.prog = p && e ≤ r.began && b ≤ r.ended && r.ended < c) w'.k.done ≤ pick x t ∧
        pick x t ≤ tally (weight t) (fun r => r.prog = p && a ≤ r.ended && r.ended < d) w'.k.done := by
  simp only [measure] at hr
  split at hr
  · cases hr
  rename_i fd w1 h1
  split at hr
  · cases hr
  rename_i i1 w2 h2
  split at hr
  · cases hr
  rename_i i2 w3 h3
  cases hr
  obtain ⟨k0, c0, rfl, e1⟩ := enable_ok h (enableStats_ok h1)
  have hk1 := inv_congr (k' := w1.k) c0.inv (by rw [e1]) (by rw [e1]; exact Nat.le_succ _) (by rw [e1]) (by rw [e1]) (by rw [e1]) (by rw [e1])
  have hheld : Held k0.moment k0.next w1.k := by
    rw [e1]
    exact ⟨List.mem_cons_self .., fun d hd he => absurd (c0.inv.doneBegan d hd) (Nat.not_lt.2 he),
      fun b hb he => absurd (c0.inv.busyBegan b hb) (Nat.not_lt.2 he)⟩
  have hm1 : w1.k.moment = k0.moment + 1 := by rw [e1]
  have hd1 : w1.k.did = w.k.did ++ [.enabled k0.moment] := by rw [e1, ← c0.did]
  clear e1
  obtain ⟨ka, kb, ca, cb, e2, b1⟩ := info_ok hk1.1 (infoOf_ok h2)
  have hk2 := inv_congr (k' := w2.k) cb.inv (by rw [e2]) (Nat.le_of_eq (by rw [e2])) (by rw [e2]) (by rw [e2]) (by rw [e2]) (by rw [e2])
  have hheld2 : Held k0.moment k0.next w2.k := by
    have := cb.held _ _ (ca.held _ _ hheld)
    rw [e2]
    exact ⟨this.1, this.2, this.3⟩
  have hm2 : w2.k.moment = kb.moment := by rw [e2]
  have hd2 : w2.k.did = kb.did ++ [.asked p ka.moment kb.moment] := by rw [e2]
  clear e2
  obtain ⟨kc, kd, cc, cd, e3, b2⟩ := info_ok hk2.1 (infoOf_ok h3)
  have hk3 := inv_congr (k' := w3.k) cd.inv (by rw [e3]) (Nat.le_of_eq (by rw [e3])) (by rw [e3]) (by rw [e3]) (by rw [e3]) (by rw [e3])
  have hd3 : w3.k.did = kd.did ++ [.asked p kc.moment kd.moment] := by rw [e3]
  have hm3 : w3.k.moment = kd.moment := by rw [e3]
  clear e3
  have hheldc := cc.held _ _ hheld2
  obtain ⟨kr, cr, hr1, hr2, _, hdr⟩ := close_good w3 k0.next hk3.1
  have xr : Ext w3.k (World.sys.close k0.next w3).k := cr.ext.trans hr2
  have xd : Ext kd (World.sys.close k0.next w3).k := hk3.2.trans xr
  have xc := cd.ext.trans xd
  have xb := hk2.2.trans (cc.ext.trans xc)
  have xa := cb.ext.trans xb
  refine ⟨k0.moment, ka.moment, kb.moment, kc.moment, kd.moment, kr.moment, ?_, ?_, cb.ext.moment, ?_, cd.ext.moment, ?_, fun t => ?_⟩
  · rw [hdr, cr.did, hd3, cd.did, cc.did, hd2, cb.did, ca.did, hd1]
    simp only [List.append_assoc, List.cons_append, List.nil_append]
  · have := ca.ext.moment; omega
  · have := cc.ext.moment; omega
  · have := cr.ext.moment; omega
  · have ta := ka.total_final ca.inv xa t p
    have tb := kb.total_final cb.inv xb t p
    have tc := kc.total_final cc.inv xc t p
    have td := kd.total_final cd.inv xd t p
    have hx : pick (runCount i2 - runCount i1, runTime i2 - runTime i1) t =
        pick (i2.runCnt, i2.runTimeNs) t - pick (i1.runCnt, i1.runTimeNs) t := by cases t <;> rfl
    rw [hx]
    generalize hl : (World.sys.close k0.next w3).k.done = l at *
    have sc := tally_split (weight t) (fun d => (d.prog = p && d.counted) && decide (d.ended < kc.moment)) (fun d => decide (d.ended < kb.moment)) l
    have sd := tally_split (weight t) (fun d => (d.prog = p && d.counted) && decide (d.ended < kd.moment)) (fun d => decide (d.ended < ka.moment)) l
    have mbc : kb.moment ≤ kc.moment := by have := cc.ext.moment; omega
    have mad : ka.moment ≤ kd.moment := Nat.le_trans cb.ext.moment (Nat.le_trans mbc cd.ext.moment)
    have sc1 : tally (weight t) (fun d => (d.prog = p && d.counted) && decide (d.ended < kb.moment)) l ≤
        tally (weight t) (fun d => ((d.prog = p && d.counted) && decide (d.ended < kc.moment)) && decide (d.ended < kb.moment)) l :=
      tally_le _ _ _ l fun d _ hq => by simp only [Bool.and_eq_true, decide_eq_true_eq] at hq ⊢; exact ⟨⟨hq.1, by omega⟩, hq.2⟩
    have sd1 : tally (weight t) (fun d => ((d.prog = p && d.counted) && decide (d.ended < kd.moment)) && decide (d.ended < ka.moment)) l ≤
        tally (weight t) (fun d => (d.prog = p && d.counted) && decide (d.ended < ka.moment)) l :=
      tally_le _ _ _ l fun d _ hq => by simp only [Bool.and_eq_true, decide_eq_true_eq] at hq ⊢; exact ⟨hq.1.1, hq.2⟩
    have sc2 : tally (weight t) (fun r => r.prog = p && k0.moment ≤ r.began && kb.moment ≤ r.ended && r.ended < kc.moment) l ≤
        tally (weight t) (fun d => ((d.prog = p && d.counted) && decide (d.ended < kc.moment)) && !decide (d.ended < kb.moment)) l := by
      refine tally_le _ _ _ l fun d hd hq => ?_
      simp only [Bool.and_eq_true, decide_eq_true_eq, Bool.not_eq_true', decide_eq_false_iff_not] at hq ⊢
      refine ⟨⟨⟨hq.1.1.1, ?_⟩, hq.2⟩, by omega⟩
      obtain ⟨n, hn, hm⟩ := xc.done
      rw [hl] at hn
      rw [hn] at hd
      rcases List.mem_append.1 hd with hd | hd
      · have := hm d hd; omega
      · exact hheldc.done d hd hq.1.1.2
    have sd2 : tally (weight t) (fun d => ((d.prog = p && d.counted) && decide (d.ended < kd.moment)) && !decide (d.ended < ka.moment)) l ≤
        tally (weight t) (fun r => r.prog = p && ka.moment ≤ r.ended && r.ended < kd.moment) l := by
      refine tally_le _ _ _ l fun d hd hq => ?_
      simp only [Bool.and_eq_true, decide_eq_true_eq, Bool.not_eq_true', decide_eq_false_iff_not] at hq ⊢
      exact ⟨⟨hq.1.1.1, by omega⟩, hq.1.2⟩
    have q1 := b1 t
    have q2 := b2 t
    omega

end Verif.Stats
