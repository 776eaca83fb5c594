import Verif.Exit.Props
/-!
# C110: what is left, on all kernels
-/
namespace Verif.Exit

/-- A program that a perf event open in other programs may run. -/
def ByPerfEvent (f : Features) (ops : List Op) (h : Hook) (p : Prog) : Prop := .attach .perfEvent h p ∈ ops ∧ f.perfLink = false

/-- What holds at all times. -/
structure Inv (w₀ : World) (f : Features) (ops : List Op) (w : World) : Prop where
  hooks : ∀ x ∈ w.hooks, x ∈ w₀.hooks ∨ ∃ k, .attach k x.1 x.2 ∈ ops ∧ k.noLink f = true
  probes : ∀ h ∈ w.probes, h ∈ w₀.probes ∨ (f.v417 = false ∧ ∃ p, .attach .probe h p ∈ ops)
  files : ∀ g ∈ w.files, g.fd < w.next ∧ (∀ id, g.obj = .link id → g.cloexec = true) ∧ (∀ id, g.obj = .perf id → g.fd = id)
  nodup : (w.files.map (·.fd)).Nodup
  children : ∀ o ∈ w.children, .spawn ∈ ops ∧ ∃ id, o = .perf id ∧ id < w.next ∧ (∀ g ∈ w.files, g.obj = .perf id → g.cloexec = false) ∧
    (∀ h p b, w.perf id = (h, some p, b) → ByPerfEvent f ops h p)
  perf : ∀ g ∈ w.files, g.cloexec = false → ∀ id, g.obj = .perf id → ∀ h p b, w.perf id = (h, some p, b) → ByPerfEvent f ops h p

variable {w₀ : World} {f : Features} {ops : List Op} {w : World}

theorem inj_of_nodup : ∀ {l : List File}, (l.map (·.fd)).Nodup → ∀ {a b : File}, a ∈ l → b ∈ l → a.fd = b.fd → a = b
  | [], _, _, _, h, _, _ => by cases h
  | x :: l, hn, a, b, ha, hb, e => by
    rw [List.map_cons, List.nodup_cons] at hn
    rcases List.mem_cons.mp ha with h1 | h1 <;> rcases List.mem_cons.mp hb with h2 | h2
    · rw [h1, h2]
    · exact absurd (List.mem_map.mpr ⟨b, h2, by rw [← h1, e]⟩) hn.1
    · exact absurd (List.mem_map.mpr ⟨a, h1, by rw [← h2, e]⟩) hn.1
    · exact inj_of_nodup hn.2 h1 h2 e

theorem same_file (hw : Inv w₀ f ops w) {a b : File} (ha : a ∈ w.files) (hb : b ∈ w.files) (h : a.fd = b.fd) : a = b :=
  inj_of_nodup hw.nodup ha hb h

theorem inv_openLink (hw : Inv w₀ f ops w) (l : Nat → Hook × Prog) (i : Nat) :
    Inv w₀ f ops ({ w with link := l }.opened (.link i) true) where
  hooks := hw.hooks
  probes := hw.probes
  files := by
    intro g hg
    rcases List.mem_cons.mp hg with rfl | hg
    · exact ⟨Nat.lt_succ_self _, fun _ _ => rfl, fun _ h => by cases h⟩
    · obtain ⟨a, b⟩ := hw.files g hg; exact ⟨Nat.lt_succ_of_lt a, b⟩
  nodup := by
    refine List.nodup_cons.mpr ⟨fun h => ?_, hw.nodup⟩
    obtain ⟨g, hg, e⟩ := List.mem_map.mp h
    have := (hw.files g hg).1
    exact absurd e (Nat.ne_of_lt this)
  children := by
    intro o ho
    obtain ⟨a, id, b, c, d, e⟩ := hw.children o ho
    refine ⟨a, id, b, Nat.lt_succ_of_lt c, fun g hg hh => ?_, e⟩
    rcases List.mem_cons.mp hg with rfl | hg
    · cases hh
    · exact d g hg hh
  perf := by
    intro g hg hc
    rcases List.mem_cons.mp hg with rfl | hg
    · cases hc
    · exact hw.perf g hg hc

theorem inv_hooks (hw : Inv w₀ f ops w) (l : List (Hook × Prog))
    (h : ∀ x ∈ l, x ∈ w.hooks ∨ ∃ k, .attach k x.1 x.2 ∈ ops ∧ k.noLink f = true) : Inv w₀ f ops { w with hooks := l } where
  hooks := fun x hx => (h x hx).elim (hw.hooks x) .inr
  probes := hw.probes
  files := hw.files
  nodup := hw.nodup
  children := hw.children
  perf := hw.perf

theorem inv_probes (hw : Inv w₀ f ops w) (l : List Hook)
    (h : ∀ x ∈ l, x ∈ w.probes ∨ (f.v417 = false ∧ ∃ p, .attach .probe x p ∈ ops)) : Inv w₀ f ops { w with probes := l } where
  hooks := hw.hooks
  probes := fun x hx => (h x hx).elim (hw.probes x) .inr
  files := hw.files
  nodup := hw.nodup
  children := hw.children
  perf := hw.perf

theorem inv_perfOpen (hw : Inv w₀ f ops w) (h : Hook) (cl : Bool) :
    Inv w₀ f ops ({ w with perf := setAt w.perf w.next (h, none, true) }.opened (.perf w.next) cl) where
  hooks := hw.hooks
  probes := hw.probes
  files := by
    intro g hg
    rcases List.mem_cons.mp hg with rfl | hg
    · exact ⟨Nat.lt_succ_self _, fun _ h => (by cases h), fun _ h => by cases h; rfl⟩
    · obtain ⟨a, b⟩ := hw.files g hg; exact ⟨Nat.lt_succ_of_lt a, b⟩
  nodup := by
    refine List.nodup_cons.mpr ⟨fun h => ?_, hw.nodup⟩
    obtain ⟨g, hg, e⟩ := List.mem_map.mp h
    have := (hw.files g hg).1
    exact absurd e (Nat.ne_of_lt this)
  children := by
    intro o ho
    obtain ⟨a, id, b, c, d, e⟩ := hw.children o ho
    refine ⟨a, id, b, Nat.lt_succ_of_lt c, fun g hg hh => ?_, fun h' p b' hh => ?_⟩
    · rcases List.mem_cons.mp hg with rfl | hg
      · cases hh; exact absurd c (Nat.lt_irrefl _)
      · exact d g hg hh
    · have : setAt w.perf w.next (h, none, true) id = w.perf id := if_neg (Nat.ne_of_lt c)
      exact e h' p b' (this ▸ hh)
  perf := by
    intro g hg hc id hid h' p b hh
    rcases List.mem_cons.mp hg with rfl | hg
    · cases hid
      have : setAt w.perf w.next (h, none, true) w.next = (h, none, true) := if_pos rfl
      have hh : setAt w.perf w.next (h, none, true) w.next = (h', some p, b) := hh
      rw [this] at hh; cases hh
    · have hlt := (hw.files g hg).1
      rw [(hw.files g hg).2.2 id hid] at hlt
      have : setAt w.perf w.next (h, none, true) id = w.perf id := if_neg (Nat.ne_of_lt hlt)
      exact hw.perf g hg hc id hid h' p b (this ▸ hh)

/-- A change of one perf event. -/
theorem inv_setPerf (hw : Inv w₀ f ops w) (i : Nat) (x : Hook × Option Prog × Bool)
    (h : ∀ h' p b, x = (h', some p, b) → (∃ b', w.perf i = (h', some p, b')) ∨ ByPerfEvent f ops h' p ∨
      ∃ g ∈ w.files, g.obj = .perf i ∧ g.cloexec = true) : Inv w₀ f ops { w with perf := setAt w.perf i x } where
  hooks := hw.hooks
  probes := hw.probes
  files := hw.files
  nodup := hw.nodup
  children := by
    intro o ho
    obtain ⟨a, id, b, c, d, e⟩ := hw.children o ho
    refine ⟨a, id, b, c, d, fun h' p b' hh => ?_⟩
    by_cases hi : id = i
    · subst hi
      have hs : setAt w.perf id x id = x := if_pos rfl
      rcases h h' p b' (hs ▸ hh) with ⟨b'', h1⟩ | h1 | ⟨g, hg, h1, h2⟩
      · exact e _ _ _ h1
      · exact h1
      · rw [d g hg h1] at h2; cases h2
    · have hs : setAt w.perf i x id = w.perf id := if_neg hi
      exact e h' p b' (hs ▸ hh)
  perf := by
    intro g hg hc id hid h' p b' hh
    by_cases hi : id = i
    · subst hi
      have hs : setAt w.perf id x id = x := if_pos rfl
      rcases h h' p b' (hs ▸ hh) with ⟨b'', h1⟩ | h1 | ⟨g', hg', h1, h2⟩
      · exact hw.perf g hg hc id hid _ _ _ h1
      · exact h1
      · have e1 := (hw.files g hg).2.2 id hid
        have e2 := (hw.files g' hg').2.2 id h1
        have := same_file hw hg hg' (e1.trans e2.symm)
        subst this
        rw [hc] at h2; cases h2
    · have hs : setAt w.perf i x id = w.perf id := if_neg hi
      exact hw.perf g hg hc id hid h' p b' (hs ▸ hh)

/-- A call that keeps what holds by itself. -/
def Plain (f : Features) (ops : List Op) : Call → Prop
  | .progAttach h p => ∃ k, .attach k h p ∈ ops ∧ k.noLink f = true
  | .netlinkSet h p => ∃ k, .attach k h p ∈ ops ∧ k.noLink f = true
  | .writeProbe h => f.v417 = false ∧ ∃ p, .attach .probe h p ∈ ops
  | .setBpf _ _ => False
  | .spawn => .spawn ∈ ops
  | _ => True

theorem inv_act (c : Call) (hc : Plain f ops c) (w : World) (hw : Inv w₀ f ops w) : Inv w₀ f ops (w.act c).2 := by
  cases c with
  | linkCreate t p =>
    cases t with
    | hook h => exact inv_openLink hw _ _
    | perf fd =>
      simp only [World.act]
      split
      · exact inv_openLink hw _ _
      · exact hw
  | rawOpen h p => exact inv_openLink hw _ _
  | linkUpdate fd p =>
    simp only [World.act]
    split
    · exact ⟨hw.hooks, hw.probes, hw.files, hw.nodup, hw.children, hw.perf⟩
    · exact hw
  | progAttach h p =>
    refine inv_hooks hw _ fun x hx => ?_
    rcases List.mem_cons.mp hx with rfl | hx
    · exact .inr hc
    · exact .inl hx
  | progDetach h p => exact inv_hooks hw _ fun x hx => .inl (List.mem_of_mem_erase hx)
  | netlinkSet h p =>
    refine inv_hooks hw _ fun x hx => ?_
    rcases List.mem_cons.mp hx with rfl | hx
    · exact .inr hc
    · exact .inl (List.mem_filter.mp hx).1
  | netlinkClear h => exact inv_hooks hw _ fun x hx => .inl (List.mem_filter.mp hx).1
  | perfOpen h c => exact inv_perfOpen hw h c
  | setBpf fd p => exact hc.elim
  | enable fd =>
    simp only [World.act]
    split
    · rename_i i _ _
      refine inv_setPerf hw _ _ fun h' p b hx => .inl ⟨(w.perf i).2.2, ?_⟩
      simp only [Prod.mk.injEq] at hx
      obtain ⟨h1, h2, h3⟩ := hx
      exact Prod.ext h1 (Prod.ext h2 rfl)
    · exact hw
  | disable fd =>
    simp only [World.act]
    split
    · rename_i i _ _
      refine inv_setPerf hw _ _ fun h' p b hx => .inl ⟨(w.perf i).2.2, ?_⟩
      simp only [Prod.mk.injEq] at hx
      obtain ⟨h1, h2, h3⟩ := hx
      exact Prod.ext h1 (Prod.ext h2 rfl)
    · exact hw
  | writeProbe h =>
    refine inv_probes hw _ fun x hx => ?_
    rcases List.mem_cons.mp hx with rfl | hx
    · exact .inr hc
    · exact .inl hx
  | deleteProbe h => exact inv_probes hw _ fun x hx => .inl (List.mem_of_mem_erase hx)
  | close fd =>
    refine ⟨hw.hooks, hw.probes, fun g hg => hw.files g (List.mem_filter.mp hg).1, ?_, fun o ho => ?_,
      fun g hg => hw.perf g (List.mem_filter.mp hg).1⟩
    · exact hw.nodup.sublist (List.filter_sublist.map _)
    · obtain ⟨a, id, b, c, d, e⟩ := hw.children o ho
      exact ⟨a, id, b, c, fun g hg => d g (List.mem_filter.mp hg).1, e⟩
  | pin fd path =>
    simp only [World.act]
    split
    · exact hw
    · split
      · exact ⟨hw.hooks, hw.probes, hw.files, hw.nodup, hw.children, hw.perf⟩
      · exact hw
  | objGet path =>
    simp only [World.act]
    split
    · exact inv_openLink hw w.link _
    · exact hw
  | unlink path => exact ⟨hw.hooks, hw.probes, hw.files, hw.nodup, hw.children, hw.perf⟩
  | spawn =>
    refine ⟨hw.hooks, hw.probes, hw.files, hw.nodup, fun o ho => ?_, hw.perf⟩
    rcases List.mem_append.mp ho with ho | ho
    · obtain ⟨g, hg, rfl⟩ := List.mem_map.mp ho
      obtain ⟨hg, hcl⟩ := List.mem_filter.mp hg
      have hcl : g.cloexec = false := by simpa using hcl
      obtain ⟨h1, h2, h3⟩ := hw.files g hg
      cases ho : g.obj with
      | link id => rw [h2 id ho] at hcl; cases hcl
      | perf id =>
        have hid := h3 id ho
        refine ⟨hc, id, rfl, hid ▸ h1, fun g' hg' ho' => ?_, hw.perf g hg hcl id ho⟩
        have := same_file hw hg hg' (hid.trans ((hw.files g' hg').2.2 id ho').symm)
        subst this
        exact hcl
    · exact hw.children o ho

/-- A perf event that was just opened. -/
def Opened (w₀ : World) (f : Features) (ops : List Op) (fd : Fd) (h : Hook) (cl : Bool) (w : World) : Prop :=
  Inv w₀ f ops w ∧ ⟨fd, .perf fd, cl⟩ ∈ w.files ∧ w.file fd = some ⟨fd, .perf fd, cl⟩ ∧ (w.perf fd).1 = h

def AfterOpen (w₀ : World) (f : Features) (ops : List Op) (h : Hook) (cl : Bool) (r : Except Nat Nat) (w : World) : Prop :=
  match r with
  | .ok fd => Opened w₀ f ops fd h cl w
  | .error _ => Inv w₀ f ops w

variable {φ : Fate} {h : Hook} {p : Prog} {cl : Bool}

theorem perfOpen_triple : Triple (Inv w₀ f ops) (Inv w₀ f ops) (sys φ.sys (.perfOpen h cl)) (AfterOpen w₀ f ops h cl) := by
  refine triple_sys (fun _ h => h) (fun _ _ h _ _ => h) (fun _ _ _ h => by cases h) fun w hw => ⟨inv_perfOpen hw h cl, ?_⟩
  refine ⟨inv_perfOpen hw h cl, List.mem_cons_self .., ?_, ?_⟩
  · simp only [World.act, World.file, World.opened]
    rw [List.find?_cons_of_pos]
    simp
  · simp only [World.act, World.opened, setAt, if_pos]

theorem setBpf_triple {fd : Fd} (hb : cl = true ∨ ByPerfEvent f ops h p) :
    Triple (Inv w₀ f ops) (Opened w₀ f ops fd h cl) (sys φ.sys (.setBpf fd p)) (fun _ => Inv w₀ f ops) := by
  refine triple_sys (fun _ h => h.1) (fun _ _ h _ _ => h.1) (fun _ _ _ h => by cases h) fun w hw => ?_
  obtain ⟨hi, hm, hf, hh⟩ := hw
  have : Inv w₀ f ops (w.act (.setBpf fd p)).2 := by
    simp only [World.act, hf]
    refine inv_setPerf hi _ _ fun h' p' b hx => .inr ?_
    simp only [Prod.mk.injEq, Option.some.injEq] at hx
    obtain ⟨h1, h2, _⟩ := hx
    rcases hb with hb | hb
    · exact .inr ⟨_, hm, rfl, hb⟩
    · rw [← h1, ← h2, hh]; exact .inl hb
  exact ⟨this, this⟩

theorem plain_giveUp (fd : Fd) (ev : Option Hook) (e : Nat) :
    Triple (Inv w₀ f ops) (Inv w₀ f ops) (giveUp φ.sys fd ev e) (fun _ => Inv w₀ f ops) := by
  cases ev with
  | none => exact keeps_andThen (keeps_sysUnit (inv_act _ trivial)) fun _ => keeps_ret
  | some h =>
    exact keeps_andThen (keeps_sysUnit (inv_act _ trivial)) fun _ => keeps_andThen (keeps_sysUnit (inv_act _ trivial)) fun _ =>
      keeps_ret

theorem attachPerf_triple {fd : Fd} {ev : Option Hook} (hb : cl = true ∨ ByPerfEvent f ops h p) :
    Triple (Inv w₀ f ops) (Opened w₀ f ops fd h cl) (attachPerf φ.sys fd ev p) (fun _ => Inv w₀ f ops) := by
  refine triple_andThen (setBpf_triple hb) fun r => ?_
  cases r with
  | error e => exact plain_giveUp _ _ _
  | ok _ =>
    refine keeps_andThen (keeps_sys (inv_act _ trivial)) fun r => ?_
    cases r with
    | error e => exact plain_giveUp _ _ _
    | ok _ => exact keeps_ret

theorem attachBpfLink_triple {fd : Fd} :
    Triple (Inv w₀ f ops) (Inv w₀ f ops) (attachBpfLink φ.sys fd p) (fun _ => Inv w₀ f ops) := by
  refine keeps_andThen (keeps_sys (inv_act _ trivial)) fun r => keeps_andThen (keeps_sysUnit (inv_act _ trivial)) fun _ => ?_
  cases r <;> exact keeps_ret

theorem perfAttach_triple {fd : Fd} (hb : cl = true ∨ (.attach .perfEvent h p : Op) ∈ ops) :
    Triple (Inv w₀ f ops) (Opened w₀ f ops fd h cl) (perfAttach φ.sys f fd p) (fun _ => Inv w₀ f ops) := by
  unfold perfAttach
  split
  · exact triple_weaken attachBpfLink_triple (fun _ h => h.1) (fun _ _ h => h)
  · rename_i hf
    exact attachPerf_triple (hb.imp id fun h => ⟨h, by simpa using hf⟩)

theorem attach_inv (k : Kind) (hm : .attach k h p ∈ ops) :
    Triple (Inv w₀ f ops) (Inv w₀ f ops) (attach φ.sys f k h p) (fun _ => Inv w₀ f ops) := by
  have hl : Triple (Inv w₀ f ops) (Inv w₀ f ops) (attachLink φ.sys h p) (fun _ => Inv w₀ f ops) :=
    keeps_onOk (keeps_sys (inv_act _ trivial)) fun _ => keeps_ret
  have hp : k.noLink f = true → Triple (Inv w₀ f ops) (Inv w₀ f ops) (attachProg φ.sys h p) (fun _ => Inv w₀ f ops) :=
    fun hk => keeps_onOk (keeps_sys (inv_act _ ⟨k, hm, hk⟩)) fun _ => keeps_ret
  have hn : k.noLink f = true → Triple (Inv w₀ f ops) (Inv w₀ f ops) (attachTcNetlink φ.sys h p) (fun _ => Inv w₀ f ops) :=
    fun hk => keeps_onOk (keeps_sys (inv_act _ ⟨k, hm, hk⟩)) fun _ => keeps_ret
  have ho : ∀ {g : Nat → M Run (Except Nat Lk)} {cl : Bool}, (∀ fd, Triple (Inv w₀ f ops) (Opened w₀ f ops fd h cl) (g fd)
      (fun _ => Inv w₀ f ops)) → Triple (Inv w₀ f ops) (Inv w₀ f ops) (onOk (sys φ.sys (.perfOpen h cl)) g) (fun _ => Inv w₀ f ops) :=
    fun hg => triple_onOk perfOpen_triple (fun _ _ h => ⟨h, h⟩) hg
  cases k <;> simp only [attach]
  · unfold attachCgroup; split
    · exact hl
    · rename_i hf; exact hp (by simp only [Kind.noLink]; simpa using hf)
  · exact hl
  · exact keeps_onOk (keeps_sys (inv_act _ trivial)) fun _ => keeps_ret
  · exact hp rfl
  · exact keeps_onOk (keeps_sys (inv_act _ ⟨_, hm, rfl⟩)) fun _ => keeps_ret
  · refine keeps_andThen (keeps_sys (inv_act _ trivial)) fun r => ?_
    cases r with
    | ok fd => exact keeps_ret
    | error e =>
      dsimp only
      split
      · exact keeps_ret
      · exact keeps_onOk (keeps_sys (inv_act _ ⟨_, hm, rfl⟩)) fun _ => keeps_ret
  · unfold attachTc; split
    · exact hl
    · rename_i c hf
      refine hn ?_
      simp only [Kind.noLink]
      cases c <;> simp_all
  · exact hl
  · exact hn rfl
  · exact ho fun fd => perfAttach_triple (.inl rfl)
  · exact ho fun fd => perfAttach_triple (.inr hm)
  · unfold attachProbe
    split
    · exact ho fun fd => triple_weaken attachBpfLink_triple (fun _ h => h.1) (fun _ _ h => h)
    · rename_i hpl
      split
      · exact ho fun fd => attachPerf_triple (.inl rfl)
      · rename_i hv
        have hv : f.v417 = false := by simpa using hv
        refine triple_onOk (R := AfterOpen w₀ f ops h true) ?_ (fun _ _ h => ⟨h, h⟩) fun fd => attachPerf_triple (.inl rfl)
        refine triple_onOk (R := fun _ => Inv w₀ f ops) (keeps_sys (inv_act _ ⟨hv, _, hm⟩)) (fun _ _ h => ⟨h, h⟩) fun _ => ?_
        refine triple_andThen perfOpen_triple fun r => ?_
        cases r with
        | error e =>
          exact triple_andThen (keeps_sysUnit (inv_act _ trivial)) fun _ => triple_ret fun _ h => ⟨h, h⟩
        | ok fd => exact triple_ret fun _ h => ⟨h.1, h⟩

theorem inv_fresh {w : World} (h : w.Fresh) : Inv w f ops w where
  hooks := fun _ h => .inl h
  probes := fun _ h => .inl h
  files := by rw [h.files]; intro g hg; cases hg
  nodup := by rw [h.files]; exact .nil
  children := by rw [h.children]; intro g hg; cases hg
  perf := by rw [h.files]; intro g hg; cases hg

theorem run_inv (φ : Fate) (f : Features) (ops : List Op) (st : Store) (r : Run) (hr : r.w.Fresh) :
    Inv r.w f ops (runOps φ.sys f ops st r).2.w :=
  (runOps_keeps (φ := φ) (I := Inv r.w f ops) (fun k h p hm => attach_inv k hm)
    (fun c hc w hw => inv_act c (by cases c <;> first | trivial | exact hc.elim) w hw)
    (fun c hc w hw => inv_act c (by cases c <;> first | trivial | exact hc.elim | exact hc) w hw)
    ops (fun _ h => h) st r (inv_fresh hr)).1

/-- Whenever the process ends, on any kernel: a program that still runs was running before without a link, or by a link that is
    pinned, or was attached by the process in a way for which there are no links, or by a perf event, on a kernel that has no links for
    perf events, of which another program that the process started has got the descriptor. -/
theorem C110_left_partial (φ : Fate) (f : Features) (ops : List Op) (r : Run) (hr : r.w.Fresh) (h : Hook) (p : Prog)
    (hl : (runOps φ.sys f ops [] r).2.w.ended.runs h p) :
    (h, p) ∈ r.w.hooks ∨ (runOps φ.sys f ops [] r).2.w.runsPinned h p ∨
    (∃ k, .attach k h p ∈ ops ∧ k.noLink f = true) ∨
    (.attach .perfEvent h p ∈ ops ∧ f.perfLink = false ∧ .spawn ∈ ops) := by
  have hi := run_inv φ f ops [] r hr
  rcases hl with hl | ⟨id, hl | ⟨path, hl⟩, he⟩ | ⟨id, hl, he⟩
  · exact (hi.hooks _ hl).imp id (fun h => .inr (.inl h))
  · rcases hl with ⟨g, hg, _⟩ | hl
    · cases hg
    · obtain ⟨_, _, h, _⟩ := hi.children _ hl; cases h
  · exact .inr (.inl ⟨path, id, hl, he⟩)
  · rcases hl with ⟨g, hg, _⟩ | hl
    · cases hg
    · obtain ⟨hs, id', h1, _, _, h4⟩ := hi.children _ hl
      cases h1
      obtain ⟨h5, h6⟩ := h4 _ _ _ he
      exact .inr (.inr (.inr ⟨h5, h6, hs⟩))

/-- Entries of probes are left on kernels before 4.17 only. -/
theorem C110_entries_partial (φ : Fate) (f : Features) (ops : List Op) (r : Run) (hr : r.w.Fresh) (h : Hook)
    (hl : h ∈ (runOps φ.sys f ops [] r).2.w.ended.probes) :
    h ∈ r.w.probes ∨ (f.v417 = false ∧ ∃ p, .attach .probe h p ∈ ops) :=
  (run_inv φ f ops [] r hr).probes h hl

end Verif.Exit
