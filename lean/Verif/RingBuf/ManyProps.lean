import Verif.RingBuf.Many
import Verif.RingBuf.Props
/-!
# C104: a ring buffer that is opened more than once
-/
set_option linter.unusedSimpArgs false
set_option linter.unusedVariables false
namespace Verif.RingBuf.Many
open Verif.RingBuf Verif.Bytes

/-! ## One reader among many compared with a reader alone -/

/-- The reader's variables agree, as far as they have been set. -/
def ConEq (c d : Consumer) : Prop :=
  d.pc = c.pc ∧ (c.pc ≠ .absent → d.pos = c.pos ∧ d.needsWakeup = c.needsWakeup) ∧
    (c.pc ≠ .absent → c.pc ≠ .creating → d.cache = c.cache)

/-- `s` is a ring with one reader that is, for this reader, what `v` is. -/
structure Rel (v s : Sys) : Prop where
  mem : s.mem = v.mem
  prod : s.prod = v.prod
  buf : s.buf = v.buf
  recs : s.recs = v.recs
  con : ConEq v.con s.con

theorem ConEq.full {c d : Consumer} (h : ConEq c d) (h1 : c.pc ≠ .absent) (h2 : c.pc ≠ .creating) : d = c := by
  obtain ⟨a, b, e⟩ := h
  obtain ⟨b1, b2⟩ := b h1
  have e := e h1 h2
  cases c; cases d; simp_all

theorem ConEq.rfl' (c : Consumer) : ConEq c c := ⟨rfl, fun _ => ⟨rfl, rfl⟩, fun _ _ => rfl⟩

/-- What a step does not depend on. -/
theorem cstep_ghost (size : Nat) (v s v' : Sys) (a : CAct) (hm : s.mem = v.mem) (hp : s.prod = v.prod)
    (hb : s.buf = v.buf) (hr : s.recs = v.recs) (hc : s.con = v.con) (hn : a ≠ .newPos)
    (hd : v.delivered = []) (h : cstep size v a = some v') :
    ∃ s', cstep size s a = some s' ∧ s'.mem = v'.mem ∧ s'.prod = v'.prod ∧ s'.buf = v'.buf ∧ s'.recs = v'.recs ∧
      s'.con = v'.con ∧ s'.consMem = s.consMem ∧ v'.consMem = v.consMem ∧
      s'.delivered = s.delivered ++ v'.delivered := by
  obtain ⟨sm, sp, sc, sb, scon, sr, sd, sn, ss⟩ := s
  obtain ⟨vm, vp, vc, vb, vcon, vr, vd, vn, vs⟩ := v
  simp only at hm hp hb hr hc hd
  subst hm hp hb hr hc hd
  cases a with
  | newPos => exact absurd rfl hn
  | newCache =>
    simp only [cstep] at h ⊢
    split at h
    · rename_i hc; cases h; rw [if_pos hc]; exact ⟨_, rfl, rfl, rfl, rfl, rfl, rfl, rfl, rfl, by simp⟩
    · cases h
  | destroy =>
    simp only [cstep] at h ⊢
    split at h
    · rename_i hc; cases h; rw [if_pos hc]; exact ⟨_, rfl, rfl, rfl, rfl, rfl, rfl, rfl, rfl, by simp⟩
    · cases h
  | callNext =>
    simp only [cstep] at h ⊢
    split at h
    · rename_i hc; cases h; rw [if_pos hc]; exact ⟨_, rfl, rfl, rfl, rfl, rfl, rfl, rfl, rfl, by simp⟩
    · cases h
  | daFence =>
    simp only [cstep] at h ⊢
    split at h
    · rename_i hc; cases h; rw [if_pos hc]; exact ⟨_, rfl, rfl, rfl, rfl, rfl, rfl, rfl, rfl, by simp⟩
    · cases h
  | daLoad =>
    simp only [cstep] at h ⊢
    split at h
    · rename_i hc
      rw [if_pos hc]
      split at h
      · rename_i hne; cases h; rw [if_pos hne]; exact ⟨_, rfl, rfl, rfl, rfl, rfl, rfl, rfl, rfl, by simp⟩
      · rename_i hne; cases h; rw [if_neg hne]; exact ⟨_, rfl, rfl, rfl, rfl, rfl, rfl, rfl, rfl, by simp [returnNone]⟩
    · cases h
  | readHdr =>
    simp only [cstep] at h ⊢
    split at h
    · rename_i hc
      rw [if_pos hc]
      rcases e : readItem sm size scon.pos with _ | l | b | _
      · simp only [e] at h ⊢
        split at h
        · rename_i hw; cases h; rw [if_pos hw]; exact ⟨_, rfl, rfl, rfl, rfl, rfl, rfl, rfl, rfl, by simp [returnNone]⟩
        · rename_i hw; cases h; rw [if_neg hw]; exact ⟨_, rfl, rfl, rfl, rfl, rfl, rfl, rfl, rfl, by simp⟩
      · simp only [e] at h ⊢
        cases h; exact ⟨_, rfl, rfl, rfl, rfl, rfl, rfl, rfl, rfl, by simp [consume]⟩
      · simp only [e] at h ⊢
        cases h; exact ⟨_, rfl, rfl, rfl, rfl, rfl, rfl, rfl, rfl, by simp⟩
      · simp only [e] at h ⊢
        cases h; exact ⟨_, rfl, rfl, rfl, rfl, rfl, rfl, rfl, rfl, by simp⟩
    · cases h
  | busyFence =>
    simp only [cstep] at h ⊢
    split at h
    · rename_i hc; cases h; rw [if_pos hc]; exact ⟨_, rfl, rfl, rfl, rfl, rfl, rfl, rfl, rfl, by simp⟩
    · cases h
  | drop =>
    simp only [cstep] at h ⊢
    rcases e : scon.pc with _ | _ | _ | _ | _ | _ | _ | d | _ <;> simp only [e] at h ⊢ <;> try (cases h; done)
    cases h; exact ⟨_, rfl, rfl, rfl, rfl, rfl, rfl, rfl, rfl, by simp [consume]⟩

theorem cstep_rel (size : Nat) (v s v' : Sys) (a : CAct) (hr : Rel v s)
    (hcm : a = .newPos → s.consMem = v.consMem) (hd : v.delivered = []) (h : cstep size v a = some v') :
    ∃ s', cstep size s a = some s' ∧ Rel v' s' ∧ s'.consMem = s.consMem ∧ v'.consMem = v.consMem ∧
      s'.delivered = s.delivered ++ v'.delivered := by
  by_cases ha : v.con.pc = .absent
  · have hs : s.con.pc = .absent := hr.con.1.trans ha
    cases a <;> simp only [cstep, ha, hs] at h ⊢ <;> try (simp at h; done)
    simp only [if_true] at h ⊢
    cases h
    have hcm := hcm rfl
    exact ⟨_, rfl, ⟨hr.mem, hr.prod, hr.buf, hr.recs, rfl, fun _ => ⟨hcm, rfl⟩, fun _ hx => absurd rfl hx⟩,
      rfl, rfl, by simp [hd]⟩
  by_cases hcr : v.con.pc = .creating
  · have hs : s.con.pc = .creating := hr.con.1.trans hcr
    cases a <;> simp only [cstep, hcr, hs] at h ⊢ <;> try (simp at h; done)
    simp only [if_true] at h ⊢
    cases h
    exact ⟨_, rfl, ⟨hr.mem, hr.prod, hr.buf, hr.recs, rfl, fun _ => hr.con.2.1 ha, fun _ _ => hr.prod⟩,
      rfl, rfl, by simp [hd]⟩
  have hcon := hr.con.full ha hcr
  have hn : a ≠ .newPos := by
    rintro rfl
    simp [cstep, ha] at h
  obtain ⟨s', h1, h2, h3, h4, h5, h6, h7, h8, h9⟩ := cstep_ghost size v s v' a hr.mem hr.prod hr.buf hr.recs hcon hn hd h
  exact ⟨s', h1, ⟨h2, h3, h4, h5, by rw [h6]; exact ConEq.rfl' _⟩, h7, h8, h9⟩

/-- A step of the kernel, seen by one reader. -/
theorem kstep_rel (size : Nat) (v s v' : Sys) (a : KAct) (hf : a ≠ .flush) (hm : s.mem = v.mem)
    (hp : s.prod = v.prod) (hr : s.recs = v.recs)
    (hg : ∀ len pg, a = .reserve len pg → s.prod + kRoundUp8 (kHdrSz + len) < s.consMem + size)
    (h : kstep size v a = some v') :
    ∃ s', kstep size s a = some s' ∧ s'.mem = v'.mem ∧ s'.prod = v'.prod ∧ s'.recs = v'.recs ∧
      s'.buf = s.buf ∧ s'.con = s.con ∧ s'.consMem = s.consMem ∧ s'.delivered = s.delivered ∧
      v'.consMem = v.consMem ∧ v'.buf = v.buf := by
  obtain ⟨sm, sp, sc, sb, scon, sr, sd, sn, ss⟩ := s
  obtain ⟨vm, vp, vc, vb, vcon, vr, vd, vn, vs⟩ := v
  simp only at hm hp hr hg
  subst hm hp hr
  cases a with
  | flush => exact absurd rfl hf
  | reserve len pg =>
    have hg := hg len pg rfl
    simp only [kstep] at h ⊢
    split at h
    · rename_i hc; cases h; rw [if_pos ⟨hc.1, hg⟩]; exact ⟨_, rfl, rfl, rfl, rfl, rfl, rfl, rfl, rfl, rfl, rfl⟩
    · cases h
  | write i j b =>
    simp only [kstep] at h ⊢
    rcases e : sr[i]? with _ | r <;> simp only [e] at h ⊢
    · cases h
    · split at h
      · rename_i hc; cases h; rw [if_pos hc]; exact ⟨_, rfl, rfl, rfl, rfl, rfl, rfl, rfl, rfl, rfl, rfl⟩
      · cases h
  | commit i d =>
    simp only [kstep] at h ⊢
    rcases e : sr[i]? with _ | r <;> simp only [e] at h ⊢
    · cases h
    · split at h
      · rename_i hc; cases h; rw [if_pos hc]; exact ⟨_, rfl, rfl, rfl, rfl, rfl, rfl, rfl, rfl, rfl, rfl⟩
      · cases h
  | check i =>
    simp only [kstep] at h ⊢
    rcases e : sr[i]? with _ | r <;> simp only [e] at h ⊢
    · cases h
    · rcases e2 : r.status with _ | d | d <;> simp only [e2] at h ⊢ <;> try (cases h; done)
      cases h; exact ⟨_, rfl, rfl, rfl, rfl, rfl, rfl, rfl, rfl, rfl, rfl⟩
  | spurious =>
    simp only [kstep] at h ⊢
    cases h; exact ⟨_, rfl, rfl, rfl, rfl, rfl, rfl, rfl, rfl, rfl, rfl⟩

theorem run_append (size : Nat) : ∀ (l : List Act) (s t u : Sys) (a : Act), run size s l = some t →
    step size t a = some u → run size s (l ++ [a]) = some u := by
  intro l
  induction l with
  | nil => intro s t u a h1 h2; simp only [run] at h1; cases h1; simp [run, h2]
  | cons b l ih =>
    intro s t u a h1 h2
    simp only [run, List.cons_append] at h1 ⊢
    rcases e : step size s b with _ | x
    · rw [e] at h1; cases h1
    · rw [e] at h1
      exact ih x t u a h1 h2

theorem Reach.snoc {size : Nat} {s t : Sys} (a : Act) (h : Spec.Reachable size s) (hs : step size s a = some t) :
    Spec.Reachable size t := by
  obtain ⟨mem, base, sched, hb, hr⟩ := h
  exact ⟨mem, base, sched ++ [a], hb, run_append size sched _ _ _ a hr hs⟩

/-! ## Readers that take turns -/

/-- The single reader that stands for all of them. -/
structure Sim (size : Nat) (m : Multi) (o : Option Nat) (s : Sys) : Prop where
  reach : Spec.Reachable size s
  mem : s.mem = m.mem
  prod : s.prod = m.prod
  recs : s.recs = m.recs
  cons : s.consMem = m.consMem
  given : s.delivered = m.given
  hnone : o = none → s.con.pc = .absent ∧ s.buf = []
  hsome : ∀ i, o = some i → s.buf = (m.readers i).buf ∧ ConEq (m.readers i).con s.con
  others : ∀ j, o ≠ some j → (m.readers j).con.pc = .absent → (m.readers j).buf = []

theorem put_given (m : Multi) (i : Nat) (s : Sys) : (m.put i s).given = m.given ++ s.delivered := by
  simp [Multi.given, Multi.put, List.map_map, Function.comp_def]

theorem absent_buf (size : Nat) (v v' : Sys) (a : CAct) (h : cstep size v a = some v') (ha : openOrClose a = true)
    (hb : v.con.pc = .absent → v.buf = []) :
    (v'.con.pc = .absent → v'.buf = []) ∧ v'.mem = v.mem ∧ v'.prod = v.prod ∧ v'.recs = v.recs ∧
      v'.consMem = v.consMem ∧ v'.delivered = v.delivered := by
  cases a <;> simp only [openOrClose] at ha <;> try (cases ha; done)
  · simp only [cstep] at h; split at h
    · cases h; exact ⟨fun hx => (nomatch hx), rfl, rfl, rfl, rfl, rfl⟩
    · cases h
  · simp only [cstep] at h; split at h
    · cases h; exact ⟨fun hx => (nomatch hx), rfl, rfl, rfl, rfl, rfl⟩
    · cases h
  · simp only [cstep] at h; split at h
    · rename_i hc; cases h; exact ⟨fun _ => hc.2, rfl, rfl, rfl, rfl, rfl⟩
    · cases h

theorem turns_sim (size : Nat) {m : Multi} {o : Option Nat} (h : Turns size m o) : ∃ s, Sim size m o s := by
  induction h with
  | start mem base hb =>
    refine ⟨init mem base, ⟨mem, base, [], hb, rfl⟩, rfl, rfl, rfl, rfl, rfl, fun _ => ⟨rfl, rfl⟩, fun i hi => (nomatch hi),
      fun j _ _ => rfl⟩
  | kernel m m' o a h hs ih =>
    obtain ⟨s, ih⟩ := ih
    simp only [mstep] at hs
    split at hs
    · rename_i hk
      rcases e : kstep size m.kview a with _ | t
      · rw [e] at hs; cases hs
      · rw [e] at hs
        cases hs
        have hf : a ≠ .flush := by rintro rfl; simp [kernelMay] at hk
        obtain ⟨s', h1, h2, h3, h4, h5, h6, h7, h8, h9, _⟩ := kstep_rel size m.kview s t a hf ih.mem ih.prod ih.recs
          (by
            rintro len pg rfl
            simp only [kstep] at e
            split at e
            · rename_i hc; rw [ih.prod, ih.cons]; exact hc.2
            · cases e) e
        refine ⟨s', Reach.snoc (.k a) ih.reach h1, h2, h3, h4, ?_, ?_, ?_, ?_, ?_⟩
        · rw [h7, ih.cons]; exact h9.symm
        · rw [h8, ih.given]; rfl
        · intro ho; rw [h5, h6]; exact ih.hnone ho
        · intro i ho; rw [h5, h6]; exact ih.hsome i ho
        · intro j hj hx; exact ih.others j hj hx
    · cases hs
  | use m m' i a h hs ih =>
    obtain ⟨s, ih⟩ := ih
    simp only [mstep] at hs
    rcases e : cstep size (m.view i) a with _ | t
    · rw [e] at hs; cases hs
    · rw [e] at hs
      cases hs
      obtain ⟨hb, hc⟩ := ih.hsome i rfl
      obtain ⟨s', h1, h2, h3, h4, h5⟩ := cstep_rel size (m.view i) s t a
        ⟨ih.mem, ih.prod, hb, ih.recs, hc⟩ (fun _ => ih.cons) rfl e
      refine ⟨s', Reach.snoc (.c a) ih.reach h1, h2.mem, h2.prod, h2.recs, ?_, ?_, fun ho => (nomatch ho), ?_, ?_⟩
      · rw [h3, ih.cons]; exact h4.symm
      · rw [h5, put_given, ih.given]
      · intro j ho; cases ho
        simp only [Multi.put, if_true]
        exact ⟨h2.buf, h2.con⟩
      · intro j hj hx
        have : j ≠ i := fun hh => hj (by rw [hh])
        simp only [Multi.put, if_neg this] at hx ⊢
        exact ih.others j hj hx
  | flush m m' i h hs ih =>
    obtain ⟨s, ih⟩ := ih
    obtain ⟨hb, hc⟩ := ih.hsome i rfl
    simp only [mstep, kstep] at hs
    rcases e : (m.view i).buf with _ | ⟨p, rest⟩
    · rw [e] at hs; cases hs
    · rw [e] at hs
      cases hs
      have hb : s.buf = p :: rest := by rw [hb]; exact e
      have h1 : kstep size s .flush = some { s with consMem := p, buf := rest } := by simp only [kstep, hb]
      refine ⟨_, Reach.snoc (.k .flush) ih.reach h1, ih.mem, ih.prod, ih.recs, rfl, ?_, fun ho => (nomatch ho), ?_, ?_⟩
      · rw [put_given]; simp [ih.given, Multi.view]
      · intro j ho; cases ho
        simp only [Multi.put, if_true]
        first | exact ⟨rfl, hc⟩ | exact ⟨trivial, hc⟩
      · intro j hj hx
        have : j ≠ i := fun hh => hj (by rw [hh])
        simp only [Multi.put, if_neg this] at hx ⊢
        exact ih.others j hj hx
  | other m m' o j a h hj ha hs ih =>
    obtain ⟨s, ih⟩ := ih
    simp only [mstep] at hs
    rcases e : cstep size (m.view j) a with _ | t
    · rw [e] at hs; cases hs
    · rw [e] at hs
      cases hs
      obtain ⟨g1, g2, g3, g4, g5, g6⟩ := absent_buf size _ _ a e ha (ih.others j hj)
      refine ⟨s, ih.reach, ?_, ?_, ?_, ?_, ?_, ih.hnone, ?_, ?_⟩
      · rw [ih.mem]; exact g2.symm
      · rw [ih.prod]; exact g3.symm
      · rw [ih.recs]; exact g4.symm
      · rw [ih.cons]; exact g5.symm
      · rw [put_given, g6, ih.given]; simp [Multi.view]
      · intro i ho
        have : i ≠ j := fun hh => hj (by rw [ho, hh])
        simp only [Multi.put, if_neg this]
        exact ih.hsome i ho
      · intro i hi hx
        simp only [Multi.put] at hx ⊢
        by_cases hij : i = j
        · subst hij; simp only [if_true] at hx ⊢; exact g1 hx
        · simp only [if_neg hij] at hx ⊢; exact ih.others i hi hx
  | turn m o j h hdone hj ih =>
    obtain ⟨s, ih⟩ := ih
    have hjb : (m.readers j).buf = [] := by
      by_cases ho : o = some j
      · exact (hdone j ho).2
      · exact ih.others j ho hj
    have key : ∃ s', Spec.Reachable size s' ∧ s'.mem = s.mem ∧ s'.prod = s.prod ∧ s'.recs = s.recs ∧
        s'.consMem = s.consMem ∧ s'.delivered = s.delivered ∧ s'.con.pc = .absent ∧ s'.buf = [] := by
      rcases ho : o with _ | i
      · exact ⟨s, ih.reach, rfl, rfl, rfl, rfl, rfl, (ih.hnone ho).1, (ih.hnone ho).2⟩
      · obtain ⟨hpc, hb⟩ := hdone i ho
        obtain ⟨hb', hc⟩ := ih.hsome i ho
        rw [hb] at hb'
        rcases hpc with hpc | hpc
        · have hs : s.con.pc = .idle := hc.1.trans hpc
          exact ⟨{ s with con := { s.con with pc := .absent }, sleeping := false },
            Reach.snoc (.c .destroy) ih.reach (by simp only [step, cstep, hs, hb', and_self, if_true]),
            rfl, rfl, rfl, rfl, rfl, rfl, hb'⟩
        · exact ⟨s, ih.reach, rfl, rfl, rfl, rfl, rfl, hc.1.trans hpc, hb'⟩
    obtain ⟨s', k1, k2, k3, k4, k5, k6, k7, k8⟩ := key
    refine ⟨s', k1, k2.trans ih.mem, k3.trans ih.prod, k4.trans ih.recs, k5.trans ih.cons, k6.trans ih.given,
      fun hx => (nomatch hx), ?_, ?_⟩
    · intro i hi; cases hi
      exact ⟨k8.trans hjb.symm, k7.trans hj.symm, fun hx => absurd hj hx, fun hx => absurd hj hx⟩
    · intro i hi hx
      by_cases hoi : o = some i
      · exact (hdone i hoi).2
      · exact ih.others i hoi hx

/-- **C104.** Readers that take turns: together they are given exactly the submitted samples among the
first `n` reservations, in reservation order, each of them once and to one reader, however many other readers
are open meanwhile. Missing for the full claim: readers that are read from at the same time (refuted below),
ring size 2^31. -/
theorem C104_turns_partial (n : Nat) (h3 : 3 ≤ n) (hn : n ≤ 30) (m : Multi) (o : Option Nat)
    (h : Turns (2 ^ n) m o) :
    ∃ k, k ≤ m.recs.length ∧ (∀ r ∈ m.recs.take k, Spec.Committed r) ∧ m.given = Spec.samples m.recs k := by
  obtain ⟨s, hs⟩ := turns_sim _ h
  obtain ⟨k, h1, h2, h3⟩ := C01_delivered_exact_partial n h3 hn s hs.reach
  rw [hs.recs] at h1 h2 h3
  exact ⟨k, h1, h2, by rw [← hs.given]; exact h3⟩

/-- **C104.** Readers that take turns: the bytes of an item that is held are those of a submitted record,
and stay so while it is held. -/
theorem C104_turns_held_partial (n : Nat) (h3 : 3 ≤ n) (hn : n ≤ 30) (m : Multi) (i : Nat)
    (h : Turns (2 ^ n) m (some i)) (data : List UInt8) (hpc : (m.readers i).con.pc = .held data) :
    readBytes m.mem (2 ^ n) ((m.readers i).con.pos + hdrSz) data.length = data ∧
    ∃ r ∈ m.recs, r.start = (m.readers i).con.pos ∧ Spec.sample r = some data := by
  obtain ⟨s, hs⟩ := turns_sim _ h
  obtain ⟨_, hc⟩ := hs.hsome i rfl
  have hc := hc.full (by rw [hpc]; simp) (by rw [hpc]; simp)
  have := C02_held_stable_partial n h3 hn s hs.reach data (by rw [hc]; exact hpc)
  rw [hs.mem, hs.recs, hc] at this
  exact this

/-! ## Readers in the first lap -/

/-- Each reader is like a reader alone. -/
structure Lap (size base : Nat) (m : Multi) (i : Nat) (s : Sys) : Prop where
  reach : Spec.Reachable size s
  mem : s.mem = m.mem
  prod : s.prod = m.prod
  recs : s.recs = m.recs
  buf : s.buf = (m.readers i).buf
  con : ConEq (m.readers i).con s.con
  given : s.delivered = m.givenTo i
  ge : base ≤ s.consMem
  bufGt : ∀ p ∈ s.buf, base < p
  posGe : s.con.pc ≠ .absent → base ≤ s.con.pos
  same : m.consMem = base → s.consMem = base

theorem put_givenTo (m : Multi) (i j : Nat) (s : Sys) :
    (m.put i s).givenTo j = m.givenTo j ++ (if j = i then s.delivered else []) := by
  simp only [Multi.givenTo, Multi.put, List.filter_append, List.map_append]
  congr 1
  by_cases h : j = i
  · subst h
    rw [if_pos rfl, List.filter_eq_self.mpr (by simp)]
    simp [List.map_map, Function.comp_def]
  · rw [if_neg h, List.filter_eq_nil_iff.mpr]
    · rfl
    · intro p hp
      obtain ⟨d, _, rfl⟩ := List.mem_map.mp hp
      simpa using fun hh => h hh.symm

theorem cstep_pos (size base : Nat) (s s' : Sys) (a : CAct) (h : cstep size s a = some s')
    (hb : ∀ p ∈ s.buf, base < p) (hp : s.con.pc ≠ .absent → base ≤ s.con.pos)
    (hn : a = .newPos → base ≤ s.consMem) :
    (∀ p ∈ s'.buf, base < p) ∧ (s'.con.pc ≠ .absent → base ≤ s'.con.pos) := by
  have hcons : ∀ len, (∀ p ∈ (consume s len).buf, base < p) ∨ s.con.pc = .absent := by
    intro len
    by_cases ha : s.con.pc = .absent
    · exact .inr ha
    · refine .inl ?_
      intro p hp'
      simp only [consume, List.mem_append, List.mem_singleton] at hp'
      rcases hp' with hp' | rfl
      · exact hb p hp'
      · have := hp ha
        have := nm8_ge (hdrSz + len)
        simp only [hdrSz] at this ⊢
        omega
  cases a with
  | newPos =>
    simp only [cstep] at h; split at h
    · cases h; exact ⟨hb, fun _ => hn rfl⟩
    · cases h
  | newCache =>
    simp only [cstep] at h; split at h
    · rename_i hc; cases h; exact ⟨hb, fun _ => hp (by rw [hc]; simp)⟩
    · cases h
  | destroy =>
    simp only [cstep] at h; split at h
    · cases h; exact ⟨hb, fun hx => absurd rfl hx⟩
    · cases h
  | callNext =>
    simp only [cstep] at h; split at h
    · rename_i hc; cases h
      refine ⟨hb, fun _ => ?_⟩
      have := hp (by rw [hc]; simp)
      simp only [enterLoop]; (repeat' split) <;> exact this
    · cases h
  | daFence =>
    simp only [cstep] at h; split at h
    · rename_i hc; cases h; exact ⟨hb, fun _ => hp (by rw [hc.1]; simp)⟩
    · cases h
  | daLoad =>
    simp only [cstep] at h; split at h
    · rename_i hc
      have := hp (by rw [hc]; simp)
      split at h <;> cases h <;> exact ⟨hb, fun _ => this⟩
    · cases h
  | readHdr =>
    simp only [cstep] at h; split at h
    · rename_i hc
      have hna : s.con.pc ≠ .absent := by rw [hc]; simp
      have := hp hna
      rcases e : readItem s.mem size s.con.pos with _ | l | b | _ <;> simp only [e] at h
      · split at h <;> cases h <;> exact ⟨hb, fun _ => this⟩
      · cases h
        refine ⟨(hcons l).resolve_right hna, fun _ => ?_⟩
        have hpos : base ≤ (consume s l).con.pos := by simp only [consume]; omega
        simp only [enterLoop]; (repeat' split) <;> exact hpos
      · cases h; exact ⟨hb, fun _ => this⟩
      · cases h; exact ⟨hb, fun _ => this⟩
    · cases h
  | busyFence =>
    simp only [cstep] at h; split at h
    · rename_i hc; cases h
      refine ⟨hb, fun _ => ?_⟩
      have := hp (by rw [hc.1]; simp)
      simp only [enterLoop]; (repeat' split) <;> exact this
    · cases h
  | drop =>
    simp only [cstep] at h
    rcases e : s.con.pc with _ | _ | _ | _ | _ | _ | _ | d | _ <;> simp only [e] at h <;> try (cases h; done)
    cases h
    have hna : s.con.pc ≠ .absent := by rw [e]; simp
    refine ⟨(hcons _).resolve_right hna, fun _ => ?_⟩
    have := hp hna
    simp only [consume]; omega

/-- A reader changes nothing but its own variables. -/
theorem cstep_shared (size : Nat) (v v' : Sys) (a : CAct) (h : cstep size v a = some v') :
    v'.mem = v.mem ∧ v'.prod = v.prod ∧ v'.recs = v.recs ∧ v'.consMem = v.consMem := by
  cases a with
  | readHdr =>
    simp only [cstep] at h; split at h
    · rcases e : readItem v.mem size v.con.pos with _ | l | b | _ <;> simp only [e] at h
      · split at h <;> cases h <;> exact ⟨rfl, rfl, rfl, rfl⟩
      all_goals (cases h; exact ⟨rfl, rfl, rfl, rfl⟩)
    · cases h
  | daLoad =>
    simp only [cstep] at h; split at h
    · split at h <;> cases h <;> exact ⟨rfl, rfl, rfl, rfl⟩
    · cases h
  | drop =>
    simp only [cstep] at h
    rcases e : v.con.pc with _ | _ | _ | _ | _ | _ | _ | d | _ <;> simp only [e] at h <;> try (cases h; done)
    cases h; exact ⟨rfl, rfl, rfl, rfl⟩
  | _ =>
    simp only [cstep] at h; split at h
    · cases h; exact ⟨rfl, rfl, rfl, rfl⟩
    · cases h

theorem lap_sim (size base : Nat) {m : Multi} (h : FirstLap size base m) : ∀ i, ∃ s, Lap size base m i s := by
  induction h with
  | start mem hb =>
    intro i
    exact ⟨init mem base, ⟨mem, base, [], hb, rfl⟩, rfl, rfl, rfl, rfl, ConEq.rfl' _, rfl, Nat.le_refl _,
      (fun p hp => (nomatch hp)), (fun hx => absurd rfl hx), fun _ => rfl⟩
  | step m m' a h hs hopen hlap ih =>
    intro i
    obtain ⟨s, L⟩ := ih i
    cases a with
    | r j a =>
      simp only [mstep] at hs
      rcases e : cstep size (m.view j) a with _ | t
      · rw [e] at hs; cases hs
      · rw [e] at hs
        cases hs
        by_cases hij : i = j
        · subst hij
          obtain ⟨s', h1, h2, h3, h4, h5⟩ := cstep_rel size (m.view i) s t a
            ⟨L.mem, L.prod, L.buf, L.recs, L.con⟩
            (fun ha => by have := hopen i (by rw [ha]); exact (L.same this).trans this.symm) rfl e
          obtain ⟨p1, p2⟩ := cstep_pos size base s s' a h1 L.bufGt L.posGe (fun _ => L.ge)
          refine ⟨s', Reach.snoc (.c a) L.reach h1, h2.mem, h2.prod, h2.recs, ?_, ?_, ?_, ?_, p1, p2, ?_⟩
          · simp only [Multi.put, if_true]; exact h2.buf
          · simp only [Multi.put, if_true]; exact h2.con
          · rw [put_givenTo, if_pos rfl, h5, L.given]
          · rw [h3]; exact L.ge
          · intro hx; rw [h3]; exact L.same (by rw [← hx]; exact h4.symm)
        · have hsh : t.mem = m.mem ∧ t.prod = m.prod ∧ t.recs = m.recs ∧ t.consMem = m.consMem := by
            exact cstep_shared size (m.view j) t a e
          refine ⟨s, L.reach, ?_, ?_, ?_, ?_, ?_, ?_, L.ge, L.bufGt, L.posGe, ?_⟩
          · rw [L.mem]; exact hsh.1.symm
          · rw [L.prod]; exact hsh.2.1.symm
          · rw [L.recs]; exact hsh.2.2.1.symm
          · simp only [Multi.put, if_neg hij]; exact L.buf
          · simp only [Multi.put, if_neg hij]; exact L.con
          · rw [put_givenTo, if_neg hij, L.given, List.append_nil]
          · intro hx; exact L.same (by rw [← hx]; exact hsh.2.2.2.symm)
    | flush j =>
      simp only [mstep, kstep] at hs
      obtain ⟨sj, Lj⟩ := ih j
      rcases e : (m.view j).buf with _ | ⟨p, rest⟩
      · rw [e] at hs; cases hs
      · rw [e] at hs
        cases hs
        have hbj : sj.buf = p :: rest := by rw [Lj.buf]; exact e
        have hpgt : base < p := Lj.bufGt p (by rw [hbj]; simp)
        by_cases hij : i = j
        · subst hij
          have hb : s.buf = p :: rest := by rw [L.buf]; exact e
          have h1 : kstep size s .flush = some { s with consMem := p, buf := rest } := by simp only [kstep, hb]
          refine ⟨_, Reach.snoc (.k .flush) L.reach h1, L.mem, L.prod, L.recs, ?_, ?_, ?_, ?_, ?_, L.posGe, ?_⟩
          · simp only [Multi.put, if_true]
          · simp only [Multi.put, if_true]; exact L.con
          · rw [put_givenTo, if_pos rfl]; simp [L.given, Multi.view]
          · exact Nat.le_of_lt hpgt
          · intro q hq; exact L.bufGt q (by rw [hb]; exact List.mem_cons_of_mem _ hq)
          · intro hx
            have : p = base := hx
            omega
        · refine ⟨s, L.reach, L.mem, L.prod, L.recs, ?_, ?_, ?_, L.ge, L.bufGt, L.posGe, ?_⟩
          · simp only [Multi.put, if_neg hij]; exact L.buf
          · simp only [Multi.put, if_neg hij]; exact L.con
          · rw [put_givenTo, if_neg hij, L.given, List.append_nil]
          · intro hx
            have : p = base := hx
            omega
    | k a =>
      simp only [mstep] at hs
      split at hs
      · rename_i hk
        rcases e : kstep size m.kview a with _ | t
        · rw [e] at hs; cases hs
        · rw [e] at hs
          cases hs
          have hf : a ≠ .flush := by rintro rfl; simp [kernelMay] at hk
          obtain ⟨s', h1, h2, h3, h4, h5, h6, h7, h8, h9, _⟩ := kstep_rel size m.kview s t a hf L.mem L.prod L.recs
            (by
              rintro len pg rfl
              simp only [kstep] at e
              split at e
              · cases e
                have hl : m.prod + kRoundUp8 (kHdrSz + len) < base + size := hlap
                have := L.ge
                rw [L.prod]
                omega
              · cases e) e
          refine ⟨s', Reach.snoc (.k a) L.reach h1, h2, h3, h4, ?_, ?_, ?_, ?_, ?_, ?_, ?_⟩
          · rw [h5, L.buf]; rfl
          · rw [h6]; exact L.con
          · rw [h8, L.given]; rfl
          · rw [h7]; exact L.ge
          · rw [h5]; exact L.bufGt
          · rw [h6]; exact L.posGe
          · intro hx; rw [h7]; exact L.same (by rw [← hx]; exact h9.symm)
      · cases hs

/-- **C104.** Readers that read at the same time, before the ring was filled once: every reader is given
every record, in order and unaltered, as far as it has come; the others take nothing away from it. A record
is therefore delivered once per reader. -/
theorem C104_first_lap_partial (n : Nat) (h3 : 3 ≤ n) (hn : n ≤ 30) (base : Nat) (m : Multi)
    (h : FirstLap (2 ^ n) base m) (i : Nat) :
    ∃ k, k ≤ m.recs.length ∧ (∀ r ∈ m.recs.take k, Spec.Committed r) ∧ m.givenTo i = Spec.samples m.recs k := by
  obtain ⟨s, hs⟩ := lap_sim _ base h i
  obtain ⟨k, h1, h2, h3⟩ := C01_delivered_exact_partial n h3 hn s hs.reach
  rw [hs.recs] at h1 h2 h3
  exact ⟨k, h1, h2, by rw [← hs.given]; exact h3⟩

/-! ## Whatever the others do, a reader stays within the mapping -/

theorem readItem_bounds (n : Nat) (h3 : 3 ≤ n) (mem : Nat → UInt8) (pos : Nat) (hp : pos % 8 = 0) :
    readItem mem (2 ^ n) pos ≠ .panic ∧
      ∀ d, readItem mem (2 ^ n) pos = .data d → pos % 2 ^ n + 8 + d.length ≤ 2 * 2 ^ n := by
  have hpos : 0 < 2 ^ n := Nat.two_pow_pos n
  have h8 : 2 ^ n = 8 * 2 ^ (n - 3) := by
    rw [show (8 : Nat) = 2 ^ 3 from rfl, ← Nat.pow_add]; congr 1; omega
  have hoff : pos % 2 ^ n + 8 ≤ 2 ^ n := by
    have h1 : pos % 2 ^ n < 2 ^ n := Nat.mod_lt _ hpos
    have h2 : pos % 2 ^ n % 8 = 0 := by
      rw [h8, Nat.mod_mul_right_mod]; exact hp
    generalize pos % 2 ^ n = x at h1 h2 ⊢
    generalize 2 ^ (n - 3) = y at h8
    omega
  have hlen : ∀ h : Nat, h % 2 ^ n < 2 ^ n := fun h => Nat.mod_lt _ hpos
  simp only [readItem, Nat.and_two_pow_sub_one_eq_mod, hdrSz]
  generalize 2 ^ n = sz at *
  rw [if_pos (by omega)]
  constructor
  · split
    · simp
    · split
      · simp
      · rw [if_pos (by have := hlen (ofLe (readBytes mem sz (pos % sz) 4)); omega)]; simp
  · intro d hd
    split at hd
    · cases hd
    · split at hd
      · cases hd
      · split at hd
        · rename_i hle
          cases hd
          simpa using hle
        · cases hd

theorem nm8_mod (n : Nat) : nextMultipleOf8 n % 8 = 0 := by simp [nextMultipleOf8]

/-- What the reader's variables satisfy however the ring's memory is changed. -/
structure Fit (n : Nat) (c : Consumer) (buf : List Nat) : Prop where
  pos : c.pos % 8 = 0
  buf : ∀ p ∈ buf, p % 8 = 0
  pan : c.pc ≠ .panicked
  held : ∀ d, c.pc = .held d → c.pos % 2 ^ n + 8 + d.length ≤ 2 * 2 ^ n

theorem enterLoop_pc (c : Consumer) : (enterLoop c).pos = c.pos ∧ (enterLoop c).pc ≠ .panicked ∧
    ∀ d, (enterLoop c).pc ≠ .held d := by
  simp only [enterLoop]
  (repeat' split) <;> exact ⟨rfl, by simp, by simp⟩

theorem consume_fit (n : Nat) (s : Sys) (len : Nat) (h : Fit n s.con s.buf) :
    (consume s len).con.pos % 8 = 0 ∧ ∀ p ∈ (consume s len).buf, p % 8 = 0 := by
  have h1 := h.pos
  have h2 := nm8_mod (hdrSz + len)
  have h3 : (s.con.pos + nextMultipleOf8 (hdrSz + len)) % 8 = 0 := by omega
  refine ⟨h3, ?_⟩
  intro p hp
  simp only [consume, List.mem_append, List.mem_singleton] at hp
  rcases hp with hp | rfl
  · exact h.buf p hp
  · exact h3

theorem cstep_fit (n : Nat) (h3 : 3 ≤ n) (s s' : Sys) (a : CAct) (hc : s.consMem % 8 = 0)
    (h : Fit n s.con s.buf) (hs : cstep (2 ^ n) s a = some s') : Fit n s'.con s'.buf := by
  cases a with
  | newPos =>
    simp only [cstep] at hs; split at hs
    · cases hs; exact ⟨hc, h.buf, by simp, by simp⟩
    · cases hs
  | newCache =>
    simp only [cstep] at hs; split at hs
    · cases hs; exact ⟨h.pos, h.buf, by simp, by simp⟩
    · cases hs
  | destroy =>
    simp only [cstep] at hs; split at hs
    · cases hs; exact ⟨h.pos, h.buf, by simp, by simp⟩
    · cases hs
  | callNext =>
    simp only [cstep] at hs; split at hs
    · cases hs
      obtain ⟨e1, e2, e3⟩ := enterLoop_pc s.con
      exact ⟨by simp only [e1]; exact h.pos, h.buf, e2, fun d hd => absurd hd (e3 d)⟩
    · cases hs
  | daFence =>
    simp only [cstep] at hs; split at hs
    · cases hs; exact ⟨h.pos, h.buf, by simp, by simp⟩
    · cases hs
  | daLoad =>
    simp only [cstep] at hs; split at hs
    · split at hs <;> cases hs
      · exact ⟨h.pos, h.buf, by simp, by simp⟩
      · exact ⟨h.pos, h.buf, by simp [returnNone], by simp [returnNone]⟩
    · cases hs
  | readHdr =>
    simp only [cstep] at hs; split at hs
    · obtain ⟨b1, b2⟩ := readItem_bounds n h3 s.mem s.con.pos h.pos
      rcases e : readItem s.mem (2 ^ n) s.con.pos with _ | l | b | _ <;> simp only [e] at hs
      · split at hs <;> cases hs
        · exact ⟨h.pos, h.buf, by simp [returnNone], by simp [returnNone]⟩
        · exact ⟨h.pos, h.buf, by simp, by simp⟩
      · cases hs
        obtain ⟨c1, c2⟩ := consume_fit n s l h
        obtain ⟨e1, e2, e3⟩ := enterLoop_pc (consume s l).con
        exact ⟨by simp only [e1]; exact c1, c2, e2, fun d hd => absurd hd (e3 d)⟩
      · cases hs
        refine ⟨h.pos, h.buf, by simp, ?_⟩
        intro d hd
        simp only [Pc.held.injEq] at hd
        subst hd
        exact b2 b e
      · exact absurd e b1
    · cases hs
  | busyFence =>
    simp only [cstep] at hs; split at hs
    · cases hs
      obtain ⟨e1, e2, e3⟩ := enterLoop_pc { s.con with needsWakeup := false }
      exact ⟨by simp only [e1]; exact h.pos, h.buf, e2, fun d hd => absurd hd (e3 d)⟩
    · cases hs
  | drop =>
    simp only [cstep] at hs
    rcases e : s.con.pc with _ | _ | _ | _ | _ | _ | _ | d | _ <;> simp only [e] at hs <;> try (cases hs; done)
    cases hs
    obtain ⟨c1, c2⟩ := consume_fit n s d.length h
    exact ⟨c1, c2, by simp, by simp⟩

theorem mstep_fit (n : Nat) (h3 : 3 ≤ n) (m m' : Multi) (a : MAct) (hc : m.consMem % 8 = 0)
    (h : ∀ i, Fit n (m.readers i).con (m.readers i).buf) (hs : mstep (2 ^ n) m a = some m') :
    m'.consMem % 8 = 0 ∧ ∀ i, Fit n (m'.readers i).con (m'.readers i).buf := by
  cases a with
  | r j a =>
    simp only [mstep] at hs
    rcases e : cstep (2 ^ n) (m.view j) a with _ | t
    · rw [e] at hs; cases hs
    · rw [e] at hs
      cases hs
      refine ⟨?_, ?_⟩
      · rw [show (m.put j t).consMem = t.consMem from rfl, (cstep_shared _ _ _ _ e).2.2.2]; exact hc
      · intro i
        simp only [Multi.put]
        by_cases hij : i = j
        · subst hij; rw [if_pos rfl]; exact cstep_fit n h3 (m.view i) t a hc (h i) e
        · rw [if_neg hij]; exact h i
  | flush j =>
    simp only [mstep, kstep] at hs
    rcases e : (m.view j).buf with _ | ⟨p, rest⟩
    · rw [e] at hs; cases hs
    · rw [e] at hs
      cases hs
      have hj := h j
      have hb : (m.readers j).buf = p :: rest := e
      refine ⟨hj.buf p (by rw [hb]; simp), ?_⟩
      intro i
      simp only [Multi.put]
      by_cases hij : i = j
      · subst hij; rw [if_pos rfl]
        exact ⟨hj.pos, fun q hq => hj.buf q (by rw [hb]; exact List.mem_cons_of_mem _ hq), hj.pan, hj.held⟩
      · rw [if_neg hij]; exact h i
  | k a =>
    simp only [mstep] at hs
    split at hs
    · rename_i hk
      rcases e : kstep (2 ^ n) m.kview a with _ | t
      · rw [e] at hs; cases hs
      · rw [e] at hs
        cases hs
        have hf : a ≠ .flush := by rintro rfl; simp [kernelMay] at hk
        obtain ⟨s', h1, h2, h3, h4, h5, h6, h7, h8, h9, _⟩ := kstep_rel (2 ^ n) m.kview m.kview t a hf rfl rfl rfl
          (by
            rintro len pg rfl
            simp only [kstep] at e
            split at e
            · rename_i hc; exact hc.2
            · cases e) e
        exact ⟨by rw [show (m.kput t).consMem = t.consMem from rfl, h9]; exact hc, fun i => h i⟩
    · cases hs

theorem mrun_fit (n : Nat) (h3 : 3 ≤ n) : ∀ (l : List MAct) (m m' : Multi), m.consMem % 8 = 0 →
    (∀ i, Fit n (m.readers i).con (m.readers i).buf) → mrun (2 ^ n) m l = some m' →
    ∀ i, Fit n (m'.readers i).con (m'.readers i).buf := by
  intro l
  induction l with
  | nil => intro m m' hc h hr; simp only [mrun] at hr; cases hr; exact h
  | cons a l ih =>
    intro m m' hc h hr
    simp only [mrun] at hr
    rcases e : mstep (2 ^ n) m a with _ | x
    · rw [e] at hr; cases hr
    · rw [e] at hr
      obtain ⟨g1, g2⟩ := mstep_fit n h3 m x a hc h e
      exact ih x m' g1 g2 hr

/-- **C104.** For every ring size and every schedule, with any number of readers in each other's way: no
reader panics, and the slice of an item that is held lies within the mapped data area. -/
theorem C104_in_bounds (n : Nat) (h3 : 3 ≤ n) (m : Multi) (h : MReachable (2 ^ n) m) (i : Nat) :
    (m.readers i).con.pc ≠ .panicked ∧
    ∀ data, (m.readers i).con.pc = .held data →
      (m.readers i).con.pos % 2 ^ n + 8 + data.length ≤ 2 * 2 ^ n := by
  obtain ⟨mem, base, sched, hb, hr⟩ := h
  have := mrun_fit n h3 sched (minit mem base) m hb
    (fun j => ⟨hb, by simp [minit], by simp [minit], by simp [minit]⟩) hr i
  exact ⟨this.pan, this.held⟩

/-! ## Concrete runs -/

/-- A `RingBuf` is made. -/
def openR (i : Nat) : List MAct := [.r i .newPos, .r i .newCache]
/-- A record of length `len`, number `k`, submitted. -/
def submit (k len : Nat) : List MAct := [.k (.reserve len 0), .k (.commit k false), .k (.check k)]
/-- `next`, with a look at the producer position, finding a record. -/
def nextR (i : Nat) : List MAct := [.r i .callNext, .r i .daLoad, .r i .readHdr]
/-- `next` after something was released; the fence waits for the store. -/
def nextF (i : Nat) : List MAct := [.r i .callNext, .r i .daFence, .r i .daLoad, .r i .readHdr]
/-- `next` while the producer position known is ahead. -/
def nextC (i : Nat) : List MAct := [.r i .callNext, .r i .readHdr]
/-- `next` that returns `None`. -/
def noneR (i : Nat) : List MAct := [.r i .callNext, .r i .daFence, .r i .daLoad]
/-- The item is dropped. -/
def dropR (i : Nat) : List MAct := [.r i .drop, .flush i]

theorem mrun_ok (size : Nat) (m : Multi) (l : List MAct) (P : Multi → Prop) [DecidablePred P]
    (h : (mrun size m l).any (fun m => decide (P m)) = true) : ∃ m', mrun size m l = some m' ∧ P m' := by
  rcases e : mrun size m l with _ | m'
  · rw [e] at h; cases h
  · rw [e] at h
    exact ⟨m', rfl, by simpa using h⟩

def mayOpen (base : Nat) (m : Multi) : MAct → Bool
  | .r _ .newPos => decide (m.consMem = base)
  | _ => true

/-- Runs a schedule of readers in the first lap, checking the conditions on the way. -/
def lapRun (size base : Nat) (m : Multi) : List MAct → Option Multi
  | [] => some m
  | a :: as =>
    (mstep size m a).bind fun m' =>
      if mayOpen base m a = true ∧ m'.prod < base + size then
        lapRun size base m' as
      else none

theorem lapRun_lap (size base : Nat) : ∀ (l : List MAct) (m m' : Multi), FirstLap size base m →
    lapRun size base m l = some m' → FirstLap size base m' := by
  intro l
  induction l with
  | nil => intro m m' h hr; simp only [lapRun] at hr; cases hr; exact h
  | cons a l ih =>
    intro m m' h hr
    simp only [lapRun] at hr
    rcases e : mstep size m a with _ | x
    · rw [e] at hr; cases hr
    · rw [e] at hr
      simp only [Option.bind_some] at hr
      split at hr
      · rename_i hc
        refine ih x m' (.step m x a h e ?_ hc.2) hr
        rintro i rfl
        simpa [mayOpen] using hc.1
      · cases hr

/-- Two readers read two records in the first lap, in each other's way: both are given both. -/
example : ∃ m, FirstLap (2 ^ 12) 8 m ∧ m.givenTo 0 = [[0, 0, 0], [0]] ∧ m.givenTo 1 = [[0, 0, 0], [0]] := by
  have h : (lapRun (2 ^ 12) 8 (minit (fun _ => 0) 8)
      (openR 0 ++ openR 1 ++ submit 0 3 ++ submit 1 1 ++ nextR 0 ++ nextR 1 ++ dropR 1 ++ nextC 1 ++ dropR 0 ++
        nextC 0)).map (fun m => (m.givenTo 0, m.givenTo 1)) = some ([[0, 0, 0], [0]], [[0, 0, 0], [0]]) := by
    decide +kernel
  rcases e : lapRun (2 ^ 12) 8 (minit (fun _ => 0) 8)
      (openR 0 ++ openR 1 ++ submit 0 3 ++ submit 1 1 ++ nextR 0 ++ nextR 1 ++ dropR 1 ++ nextC 1 ++ dropR 0 ++
        nextC 0) with _ | m
  · rw [e] at h; cases h
  · rw [e] at h
    simp only [Option.map_some, Option.some.injEq, Prod.mk.injEq] at h
    exact ⟨m, lapRun_lap _ _ _ _ _ (.start _ rfl) e, h.1, h.2⟩

/-- Steps of readers that take turns. -/
inductive TAct where
  | k (a : KAct) | use (a : CAct) | flush | other (j : Nat) (a : CAct) | turn (j : Nat)

def tstep (size : Nat) (p : Multi × Option Nat) : TAct → Option (Multi × Option Nat)
  | .k a => (mstep size p.1 (.k a)).map (fun m => (m, p.2))
  | .use a => p.2.bind (fun i => (mstep size p.1 (.r i a)).map (fun m => (m, some i)))
  | .flush => p.2.bind (fun i => (mstep size p.1 (.flush i)).map (fun m => (m, some i)))
  | .other j a =>
    if p.2 ≠ some j ∧ openOrClose a = true then (mstep size p.1 (.r j a)).map (fun m => (m, p.2)) else none
  | .turn j =>
    if (p.2.all (fun i => ((p.1.readers i).con.pc = .idle ∨ (p.1.readers i).con.pc = .absent) ∧
        (p.1.readers i).buf = [])) = true ∧ (p.1.readers j).con.pc = .absent then some (p.1, some j) else none

def trun (size : Nat) (p : Multi × Option Nat) : List TAct → Option (Multi × Option Nat)
  | [] => some p
  | a :: as => (tstep size p a).bind (fun p => trun size p as)

theorem tstep_turns (size : Nat) (p q : Multi × Option Nat) (a : TAct) (h : Turns size p.1 p.2)
    (hs : tstep size p a = some q) : Turns size q.1 q.2 := by
  obtain ⟨m, o⟩ := p
  cases a with
  | k a =>
    simp only [tstep] at hs
    rcases e : mstep size m (.k a) with _ | x <;> rw [e] at hs <;> cases hs
    exact .kernel m x o a h e
  | use a =>
    simp only [tstep] at hs
    rcases o with _ | i
    · cases hs
    · simp only [Option.bind_some] at hs
      rcases e : mstep size m (.r i a) with _ | x <;> rw [e] at hs <;> cases hs
      exact .use m x i a h e
  | flush =>
    simp only [tstep] at hs
    rcases o with _ | i
    · cases hs
    · simp only [Option.bind_some] at hs
      rcases e : mstep size m (.flush i) with _ | x <;> rw [e] at hs <;> cases hs
      exact .flush m x i h e
  | other j a =>
    simp only [tstep] at hs
    split at hs
    · rename_i hc
      rcases e : mstep size m (.r j a) with _ | x <;> rw [e] at hs <;> cases hs
      exact .other m x o j a h hc.1 hc.2 e
    · cases hs
  | turn j =>
    simp only [tstep] at hs
    split at hs
    · rename_i hc
      cases hs
      refine .turn m o j h ?_ hc.2
      rintro i rfl
      simpa using hc.1
    · cases hs

theorem trun_turns (size : Nat) : ∀ (l : List TAct) (p q : Multi × Option Nat), Turns size p.1 p.2 →
    trun size p l = some q → Turns size q.1 q.2 := by
  intro l
  induction l with
  | nil => intro p q h hr; simp only [trun] at hr; cases hr; exact h
  | cons a l ih =>
    intro p q h hr
    simp only [trun] at hr
    rcases e : tstep size p a with _ | x
    · rw [e] at hr; cases hr
    · rw [e] at hr
      exact ih x q (tstep_turns size p x a h e) hr

/-- Reader 0 reads a record and lets go of it, but stays open; the turn goes to reader 1, which is given the
next record and holds it. A third reader is open throughout. -/
def turnsRun : List TAct :=
  [.turn 0, .use .newPos, .use .newCache, .other 2 .newPos, .other 2 .newCache,
   .k (.reserve 4 0), .k (.commit 0 false), .k (.check 0), .use .callNext, .use .daLoad, .use .readHdr,
   .use .drop, .flush, .turn 1, .use .newPos, .use .newCache,
   .k (.reserve 2 0), .k (.commit 1 false), .k (.check 1), .use .callNext, .use .daLoad, .use .readHdr]

example : ∃ m, Turns (2 ^ 12) m (some 1) ∧ m.log = [(0, [0, 0, 0, 0]), (1, [0, 0])] ∧
    (m.readers 1).con.pc = .held [0, 0] ∧ (m.readers 0).con.pc = .idle ∧ (m.readers 2).con.pc = .idle := by
  have h : (trun (2 ^ 12) (minit (fun _ => 0) 8, none) turnsRun).map (fun p =>
      (p.2, p.1.log, (p.1.readers 1).con.pc, (p.1.readers 0).con.pc, (p.1.readers 2).con.pc)) =
      some (some 1, [(0, [0, 0, 0, 0]), (1, [0, 0])], .held [0, 0], .idle, .idle) := by decide +kernel
  rcases e : trun (2 ^ 12) (minit (fun _ => 0) 8, none) turnsRun with _ | ⟨m, o⟩
  · rw [e] at h; cases h
  · rw [e] at h
    simp only [Option.map_some, Option.some.injEq, Prod.mk.injEq] at h
    obtain ⟨h1, h2, h3, h4, h5⟩ := h
    subst h1
    exact ⟨m, trun_turns _ _ _ (m, some 1) (.start _ 8 rfl) e, h2, h3, h4, h5⟩

/-- One record, two readers. -/
def twiceRun : List MAct := openR 0 ++ openR 1 ++ submit 0 16 ++ nextR 0 ++ nextR 1

/-- **C104 refuted: a record is delivered twice.** Of two readers open at the same time, both are given the
only record there is. -/
theorem C104_twice_violated :
    ∃ m, MReachable (2 ^ 12) m ∧ m.recs.length = 1 ∧ ∃ d, m.log = [(0, d), (1, d)] := by
  obtain ⟨m, hr, hp⟩ := mrun_ok (2 ^ 12) (minit (fun _ => 0) 0) twiceRun
    (fun m => m.recs.length = 1 ∧ m.log = [(0, List.replicate 16 0), (1, List.replicate 16 0)]) (by decide +kernel)
  exact ⟨m, ⟨_, 0, twiceRun, rfl, hr⟩, hp.1, _, hp.2⟩

/-- Reader 0 holds the first record; reader 1 releases it; two more records are submitted, and the last one
gets its storage. -/
def heldRun : List MAct :=
  openR 0 ++ openR 1 ++ submit 0 16 ++ nextR 0 ++ nextR 1 ++ dropR 1 ++ submit 1 4000 ++
    [.k (.reserve 72 0), .k (.write 2 64 9)]

/-- **C104 refuted: a held item changes.** Reader 0 holds an item. Its bytes, which it sees through a shared
slice, are no longer those it was given: reader 1 has released the record, and the kernel has given the
storage to another one. -/
theorem C104_held_violated :
    ∃ m, MReachable (2 ^ 12) m ∧ ∃ data, (m.readers 0).con.pc = .held data ∧
      readBytes m.mem (2 ^ 12) ((m.readers 0).con.pos + hdrSz) data.length ≠ data := by
  obtain ⟨m, hr, hp⟩ := mrun_ok (2 ^ 12) (minit (fun _ => 0) 0) heldRun
    (fun m => (m.readers 0).con.pc = .held (List.replicate 16 0) ∧
      readBytes m.mem (2 ^ 12) ((m.readers 0).con.pos + hdrSz) 16 ≠ List.replicate 16 0) (by decide +kernel)
  exact ⟨m, ⟨_, 0, heldRun, rfl, hr⟩, _, hp.1, by simpa using hp.2⟩

/-- Reader 0 has not read yet; reader 1 releases the first record, and the storage is filled with something
else. -/
def garbageRun : List MAct :=
  openR 0 ++ openR 1 ++ submit 0 16 ++ nextR 1 ++ dropR 1 ++ submit 1 4000 ++
    [.k (.reserve 72 0), .k (.write 2 56 3), .k (.write 2 64 9), .k (.commit 2 false)] ++ nextR 0

/-- **C104 refuted: something is delivered that nobody submitted.** Reader 0 is given bytes that are the
content of no record: it takes the middle of one for the beginning of another. -/
theorem C104_garbage_violated :
    ∃ m, MReachable (2 ^ 12) m ∧ ∃ d, (0, d) ∈ m.log ∧ ∀ r ∈ m.recs, r.content ≠ d := by
  obtain ⟨m, hr, hp⟩ := mrun_ok (2 ^ 12) (minit (fun _ => 0) 0) garbageRun
    (fun m => (0, [9, 0, 0]) ∈ m.log ∧ m.recs.map (fun r => r.content.length) = [16, 4000, 72]) (by decide +kernel)
  refine ⟨m, ⟨_, 0, garbageRun, rfl, hr⟩, _, hp.1, ?_⟩
  intro r hr' hc
  have h1 : r.content.length ∈ m.recs.map (fun r => r.content.length) := List.mem_map_of_mem hr'
  rw [hp.2, hc] at h1
  simp at h1

/-- Reader 1 reads three records that fill the ring while reader 0 holds the first; then reader 0 lets go. -/
def stuckRun : List MAct :=
  openR 0 ++ openR 1 ++ submit 0 16 ++ nextR 0 ++ nextR 1 ++ dropR 1 ++ submit 1 4000 ++ submit 2 72 ++
    nextF 1 ++ dropR 1 ++ nextC 1 ++ dropR 1 ++ dropR 0 ++ noneR 1

/-- **C104 refuted: the ring is full although everything was read.** Reader 1 has been given every record
and has released all of them; reader 0 holds nothing and is not inside any call; all stores are visible. Yet
the kernel refuses every reservation, of whatever length: releasing its item, reader 0 has moved the shared
position back. -/
theorem C104_stuck_violated :
    ∃ m, MReachable (2 ^ 12) m ∧ m.recs.length = 3 ∧ (∀ r ∈ m.recs, r.status = .done false) ∧
      m.givenTo 1 = Spec.samples m.recs 3 ∧
      (m.readers 0).con.pc = .idle ∧ (m.readers 0).buf = [] ∧
      (m.readers 1).con.pc = .idle ∧ (m.readers 1).buf = [] ∧
      ∀ len pg, mstep (2 ^ 12) m (.k (.reserve len pg)) = none := by
  obtain ⟨m, hr, hp⟩ := mrun_ok (2 ^ 12) (minit (fun _ => 0) 0) stuckRun
    (fun m => m.recs.length = 3 ∧ (∀ r ∈ m.recs, r.status = .done false) ∧
      m.givenTo 1 = Spec.samples m.recs 3 ∧
      (m.readers 0).con.pc = .idle ∧ (m.readers 0).buf = [] ∧
      (m.readers 1).con.pc = .idle ∧ (m.readers 1).buf = [] ∧ m.prod = 4112 ∧ m.consMem = 24) (by decide +kernel)
  obtain ⟨h1, h2, h3, h4, h5, h6, h7, h8, h9⟩ := hp
  refine ⟨m, ⟨_, 0, stuckRun, rfl, hr⟩, h1, h2, h3, h4, h5, h6, h7, ?_⟩
  intro len pg
  have : ¬ (len < 2 ^ 30 ∧ m.prod + kRoundUp8 (kHdrSz + len) < m.consMem + 2 ^ 12) := by
    rw [h8, h9]
    rintro ⟨_, hx⟩
    have : 8 ≤ kRoundUp8 (kHdrSz + len) := by
      rw [kRoundUp8_eq]; have := nm8_ge (kHdrSz + len); simp only [kHdrSz] at this ⊢; omega
    omega
  have hk : kstep (2 ^ 12) m.kview (.reserve len pg) = none := if_neg this
  simp only [mstep, hk]
  split <;> rfl

/-- Reader 1 has read two records and waits; reader 0 reads the first of them and is closed; then a third
record is submitted. -/
def unwokenRun : List MAct :=
  openR 0 ++ openR 1 ++ submit 0 16 ++ submit 1 16 ++ nextR 1 ++ dropR 1 ++ nextC 1 ++ dropR 1 ++ noneR 1 ++
    nextR 0 ++ dropR 0 ++ [.r 0 .destroy] ++ submit 2 16

/-- **C104 refuted: a wake-up is lost.** Reader 1 was told that the ring is empty and waits; it is by now the
only reader. A record is there, completely submitted, that it was not given, and no notification was sent:
the shared position, which the kernel goes by, is that of a reader that is gone. -/
theorem C104_unwoken_violated :
    ∃ m, MReachable (2 ^ 12) m ∧ (m.readers 0).con.pc = .absent ∧
      (m.readers 1).sleeping = true ∧ (m.readers 1).notified = false ∧
      m.recs.map Rec.status = [.done false, .done false, .done false] ∧
      m.givenTo 1 = Spec.samples m.recs 2 := by
  obtain ⟨m, hr, hp⟩ := mrun_ok (2 ^ 12) (minit (fun _ => 0) 0) unwokenRun
    (fun m => (m.readers 0).con.pc = .absent ∧
      (m.readers 1).sleeping = true ∧ (m.readers 1).notified = false ∧
      m.recs.map Rec.status = [.done false, .done false, .done false] ∧
      m.givenTo 1 = Spec.samples m.recs 2) (by decide +kernel)
  exact ⟨m, ⟨_, 0, unwokenRun, rfl, hr⟩, hp⟩

end Verif.RingBuf.Many
