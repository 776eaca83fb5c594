import Verif.Core.Runs
/-! # C19 for the whole pass: every record is applied to the instruction it points to -/
set_option linter.unusedSimpArgs false
set_option linter.unusedVariables false
namespace Verif.Core
open Verif.Btf Verif.Btf.Spec Verif.Core.Spec Verif.Bpf

/-- `apply` looks at the relocated instruction and, for class LD, at the next one. -/
theorem apply_local {lb tb : Btf} {c : Comp} {a b a' : List Insn} {j : Nat} {x : Insn} (hx : a[j]? = some x)
    (hj : b[j]? = some x) (hn : cls x = 0 → b[j + 1]? = a[j + 1]?) (h : apply lb tb c a j = .ok a') :
    ∃ b', apply lb tb c b j = .ok b' ∧ b'[j]? = a'[j]? ∧ (cls x = 0 → b'[j + 1]? = a'[j + 1]?) := by
  have hla := (List.getElem?_eq_some_iff.mp hx).1
  have hlb := (List.getElem?_eq_some_iff.mp hj).1
  unfold apply at h ⊢
  rw [hx] at h
  rw [hj]
  simp only at h ⊢
  have at0 : ∀ (l : List Insn) (y z : Insn), j < l.length → ((l.set j y).set (j + 1) z)[j]? = some y := by
    intro l y z hl
    rw [List.getElem?_set_ne (by omega), List.getElem?_set_self hl]
  have at1 : ∀ (l : List Insn) (y z : Insn), j + 1 < l.length → ((l.set j y).set (j + 1) z)[j + 1]? = some z := by
    intro l y z hl
    rw [List.getElem?_set_self (by simpa using hl)]
  have one : ∀ y : Insn, (cls x = 0 → False) → (b.set j y)[j]? = (a.set j y)[j]? ∧
      (cls x = 0 → (b.set j y)[j + 1]? = (a.set j y)[j + 1]?) := by
    intro y hc
    exact ⟨by rw [List.getElem?_set_self hla, List.getElem?_set_self hlb], fun h => (hc h).elim⟩
  cases ht : c.target with
  | none =>
    rw [ht] at h
    simp only at h ⊢
    split at h
    · rename_i h18
      have hc : cls x = 0 := by unfold cls; rw [h18]
      rw [if_pos h18]
      split at h
      · rename_i hlen
        cases h
        have hlb1 : j + 1 < b.length := by
          have := hn hc
          rw [List.getElem?_eq_getElem hlen] at this
          exact (List.getElem?_eq_some_iff.mp this).1
        refine ⟨_, if_pos hlb1, ?_, fun _ => ?_⟩
        · rw [at0 _ _ _ hla, at0 _ _ _ hlb]
        · rw [at1 _ _ _ hlen, at1 _ _ _ hlb1]
      · cases h
    · rename_i h18
      rw [if_neg h18]
      cases h
      refine ⟨_, rfl, by rw [List.getElem?_set_self hla, List.getElem?_set_self hlb], fun hc => ?_⟩
      rw [List.getElem?_set_ne (by omega), List.getElem?_set_ne (by omega)]
      exact hn hc
  | some t =>
    rw [ht] at h
    simp only at h ⊢
    split at h
    · rename_i hm
      split at h
      · cases h
      · rename_i hs
        cases h
        rw [if_neg hs]
        exact ⟨_, rfl, one _ (fun hc => by unfold cls at hc; omega)⟩
    · rename_i hm
      split at h
      · cases h
      · rename_i hs
        cases h
        rw [if_neg hs]
        exact ⟨_, rfl, one _ (fun hc => by unfold cls at hc; omega)⟩
    · rename_i hm
      split at h
      · cases h
      · rename_i hp; cases h
        exact ⟨_, rfl, one _ (fun hc => by unfold cls at hc; omega)⟩
    · rename_i hm
      split at h
      · cases h
      · rename_i hp; cases h
        exact ⟨_, rfl, one _ (fun hc => by unfold cls at hc; omega)⟩
    · rename_i hm
      split at h
      · cases h
      · rename_i hp; cases h
        exact ⟨_, rfl, one _ (fun hc => by unfold cls at hc; omega)⟩
    · rename_i hm
      rw [hn hm]
      cases hnx : a[j + 1]? with
      | none => rw [hnx] at h; cases h
      | some next =>
        rw [hnx] at h
        cases h
        have l1 := (List.getElem?_eq_some_iff.mp hnx).1
        have l2 := (List.getElem?_eq_some_iff.mp ((hn hm).trans hnx)).1
        refine ⟨_, rfl, ?_, fun _ => ?_⟩
        · rw [at0 _ _ _ hla, at0 _ _ _ hlb]
        · rw [at1 _ _ _ l1, at1 _ _ _ l2]
    · cases h

/-- Functions as the parser stores them: under their section, aligned, and those of one section do not overlap. -/
structure Stored (fs : List (Nat × Linker.Func)) : Prop where
  ok : FuncsOk fs
  key : ∀ p ∈ fs, p.1 = p.2.sectionIndex
  aligned : ∀ p ∈ fs, p.2.sectionOffset % 8 = 0
  apart : ∀ (k1 k2 : Nat) (p1 p2 : Nat × Linker.Func) (off j1 j2 : Nat), fs[k1]? = some p1 → fs[k2]? = some p2 → p1.1 = p2.1 →
    j1 < p1.2.insns.length → j2 < p2.2.insns.length → InInsn p1.2.sectionOffset off j1 →
    InInsn p2.2.sectionOffset off j2 → k1 = k2

/-- Record `b` of section `s` does not point to an instruction that record `a` of the same section changes. -/
def Clear (fs : List (Nat × Linker.Func)) (a b : Nat × Relo) : Prop :=
  a.1 = b.1 → ∀ p ∈ fs, p.1 = a.1 → ∀ (i j : Nat) (x : Insn), InInsn p.2.sectionOffset a.2.insOff i →
    InInsn p.2.sectionOffset b.2.insOff j → p.2.insns[i]? = some x → j ≠ i ∧ (cls x = 0 → j ≠ i + 1)

/-- No two records touch the same instruction. -/
def RecordsApart (fs : List (Nat × Linker.Func)) (steps : List (Nat × Relo)) : Prop :=
  steps.Pairwise (fun a b => Clear fs a b ∧ Clear fs b a)

theorem kept_get {hit : Linker.Func → Nat → Prop} {a b : List (Nat × Linker.Func)} (h : Kept hit a b) {k : Nat}
    {p : Nat × Linker.Func} (hp : b[k]? = some p) : ∃ f, a[k]? = some (p.1, f) ∧ p.2 = { f with insns := p.2.insns } ∧
      Frame (hit f) f.insns p.2.insns := by
  have hlt : k < a.length := by
    have := (List.getElem?_eq_some_iff.mp hp).1
    have := h.length
    omega
  rcases hq : a[k] with ⟨key, f⟩
  have ha : a[k]? = some (key, f) := by rw [List.getElem?_eq_getElem hlt, hq]
  obtain ⟨insns, hb, fr⟩ := h.each k key f ha
  rw [hp] at hb
  simp only [Option.some.injEq] at hb
  subst hb
  exact ⟨f, ha, rfl, fr⟩

theorem kept_mem {hit : Linker.Func → Nat → Prop} {a b : List (Nat × Linker.Func)} (h : Kept hit a b)
    {p : Nat × Linker.Func} (hp : p ∈ b) : ∃ f, (p.1, f) ∈ a ∧ p.2 = { f with insns := p.2.insns } ∧
      Frame (hit f) f.insns p.2.insns := by
  obtain ⟨k, hk, e⟩ := List.mem_iff_getElem.mp hp
  obtain ⟨f, h1, h2⟩ := kept_get h (k := k) (p := p) (by rw [List.getElem?_eq_getElem hk, e])
  exact ⟨f, List.mem_of_getElem? h1, h2⟩

theorem kept_stored {hit : Linker.Func → Nat → Prop} {a b : List (Nat × Linker.Func)} (h : Kept hit a b) (ha : Stored a) :
    Stored b := by
  refine ⟨kept_funcsOk h ha.ok, ?_, ?_, ?_⟩
  · intro p hp
    obtain ⟨f, h1, h2, -⟩ := kept_mem h hp
    rw [h2]; exact ha.key _ h1
  · intro p hp
    obtain ⟨f, h1, h2, -⟩ := kept_mem h hp
    rw [h2]; exact ha.aligned _ h1
  · intro k1 k2 p1 p2 off j1 j2 g1 g2 hs hl1 hl2 i1 i2
    obtain ⟨f1, a1, e1, fr1⟩ := kept_get h g1
    obtain ⟨f2, a2, e2, fr2⟩ := kept_get h g2
    rw [e1] at i1
    rw [e2] at i2
    exact ha.apart k1 k2 _ _ off j1 j2 a1 a2 hs (by rw [← fr1.length]; exact hl1) (by rw [← fr2.length]; exact hl2) i1 i2

theorem kept_clear {hit : Linker.Func → Nat → Prop} {a b : List (Nat × Linker.Func)} (h : Kept hit a b) {r s : Nat × Relo}
    (hc : Clear a r s) : Clear b r s := by
  intro e p hp hs i j x hi hj hx
  obtain ⟨f, h1, h2, fr⟩ := kept_mem h hp
  rw [h2] at hi hj
  have hlt : i < f.insns.length := by
    rw [← fr.length]; exact (List.getElem?_eq_some_iff.mp hx).1
  have := hc e _ h1 hs i j _ hi hj (List.getElem?_eq_getElem hlt)
  refine ⟨this.1, fun hx0 => this.2 ?_⟩
  by_cases hz : cls f.insns[i] = 0
  · exact hz
  · obtain ⟨y, hy, hyc⟩ := fr.notLd i _ (List.getElem?_eq_getElem hlt) hz
    rw [hx] at hy
    simp only [Option.some.injEq] at hy
    exact absurd (hy ▸ hx0) hyc

theorem inside_iff {sec : Nat} {f : Linker.Func} {r : Relo} (ha : f.sectionOffset % 8 = 0) :
    inside sec f r = true ↔ f.sectionIndex = sec ∧ ∃ j, j < f.insns.length ∧ InInsn f.sectionOffset r.insOff j := by
  simp only [inside, Bool.and_eq_true, beq_iff_eq, decide_eq_true_eq]
  constructor
  · rintro ⟨⟨h1, h2⟩, h3⟩
    refine ⟨h1.symm, (r.insOff - f.sectionOffset) / 8, by omega, ?_⟩
    unfold InInsn
    omega
  · rintro ⟨h1, j, h2, h3⟩
    unfold InInsn at h3
    refine ⟨⟨h1.symm, by omega⟩, by omega⟩

/-- Where record `r` of section `sec` belongs. -/
structure Home (fs : List (Nat × Linker.Func)) (sec : Nat) (r : Relo) (k : Nat) (f : Linker.Func) (j : Nat) : Prop where
  get : fs[k]? = some (sec, f)
  lt : j < f.insns.length
  at_ : InInsn f.sectionOffset r.insOff j

theorem insIndex_home {f : Linker.Func} {r : Relo} {j : Nat} (hr : r.insOff < 2 ^ 32)
    (hf : f.sectionOffset + 8 * f.insns.length ≤ 2 ^ 64) (hlt : j < f.insns.length)
    (h : InInsn f.sectionOffset r.insOff j) : insIndex f r = j := by
  unfold InInsn at h
  unfold insIndex
  omega

theorem pick_home {fs : List (Nat × Linker.Func)} (hs : Stored fs) {sec : Nat} {r : Relo} {k : Nat} {f : Linker.Func} {j : Nat}
    (h : Home fs sec r k f j) (last : Option Nat) : pick sec fs last r = some k := by
  have hkey := hs.key _ (List.mem_of_getElem? h.get)
  have hin : inside sec f r = true :=
    (inside_iff (hs.aligned _ (List.mem_of_getElem? h.get))).mpr ⟨hkey.symm, j, h.lt, h.at_⟩
  have huniq : ∀ (k' : Nat) (p : Nat × Linker.Func), fs[k']? = some p → inside sec p.2 r = true → k' = k := by
    intro k' p hp hi
    obtain ⟨h1, j', h2, h3⟩ := (inside_iff (hs.aligned _ (List.mem_of_getElem? hp))).mp hi
    exact hs.apart k' k p (sec, f) r.insOff j' j hp h.get ((hs.key _ (List.mem_of_getElem? hp)).trans h1) h2 h.lt h3 h.at_
  have search : fs.findIdx? (fun f => f.1 == sec && inside sec f.2 r) = some k := by
    rw [List.findIdx?_eq_some_iff_getElem]
    have hlt := (List.getElem?_eq_some_iff.mp h.get).1
    have hg := (List.getElem?_eq_some_iff.mp h.get).2
    refine ⟨hlt, by rw [hg]; simp [hin], ?_⟩
    intro i hi hc
    simp only [Bool.and_eq_true] at hc
    have := huniq i _ (List.getElem?_eq_getElem (by omega)) hc.2
    omega
  unfold pick
  simp only
  cases last with
  | none => exact search
  | some i =>
    cases hi : fs[i]? with
    | none => simp only [hi]; exact search
    | some p =>
      simp only [hi]
      by_cases hp : inside sec p.2 r = true
      · rw [if_pos hp, huniq i p hi hp]
      · rw [if_neg hp]; exact search

/-- One step, when it succeeds. -/
theorem one_home {lb tb : Btf} {sec k : Nat} {r : Relo} {fs out : List (Nat × Linker.Func)} {last : Option Nat}
    (hs : Stored fs) (hr : r.insOff < 2 ^ 32) (h : relocateOne lb tb sec r fs last = .ok (out, k)) :
    ∃ f j c insns, Home fs sec r k f j ∧ compute lb tb r = .ok c ∧ apply lb tb c f.insns j = .ok insns ∧
      out = fs.set k (sec, { f with insns := insns }) := by
  unfold relocateOne at h
  split at h
  · cases h
  · rename_i k' hpick
    split at h
    · cases h
    · rename_i key f hk
      split at h
      · cases h
      · rename_i hidx
        split at h
        · cases h
        · rename_i c hc
          split at h
          · cases h
          · rename_i insns ha
            cases h
            have hm := List.mem_of_getElem? hk
            obtain ⟨h1, j, h2, h3⟩ := (inside_iff (hs.aligned _ hm)).mp (pick_inside hpick hk)
            have hkey : key = sec := (hs.key _ hm).trans h1
            subst hkey
            have hj := insIndex_home hr (hs.ok _ hm).2 h2 h3
            rw [hj] at ha
            exact ⟨f, j, c, insns, ⟨hk, h2, h3⟩, hc, ha, rfl⟩

theorem one_ok {lb tb : Btf} {sec k : Nat} {r : Relo} {fs : List (Nat × Linker.Func)} {f : Linker.Func} {j : Nat} {c : Comp}
    {insns : List Insn} (hs : Stored fs) (hr : r.insOff < 2 ^ 32) (hh : Home fs sec r k f j)
    (hc : compute lb tb r = .ok c) (ha : apply lb tb c f.insns j = .ok insns) (last : Option Nat) :
    relocateOne lb tb sec r fs last = .ok (fs.set k (sec, { f with insns := insns }), k) := by
  unfold relocateOne
  rw [pick_home hs hh last]
  simp only
  rw [hh.get]
  simp only
  have hj := insIndex_home hr (hs.ok _ (List.mem_of_getElem? hh.get)).2 hh.lt hh.at_
  rw [hj, if_neg (by have := hh.lt; omega), hc]
  simp only
  rw [ha]

/-- The steps of the whole pass, one after the other. -/
inductive Steps (lb tb : Btf) : List (Nat × Relo) → List (Nat × Linker.Func) → List (Nat × Linker.Func) → Prop where
  | nil (fs) : Steps lb tb [] fs fs
  | cons {sec r rest fs fs' out k} (last : Option Nat) (h : relocateOne lb tb sec r fs last = .ok (fs', k))
      (hr : Steps lb tb rest fs' out) : Steps lb tb ((sec, r) :: rest) fs out

theorem Steps.kept {lb tb : Btf} {steps : List (Nat × Relo)} {fs out : List (Nat × Linker.Func)}
    (h : Steps lb tb steps fs out) (hf : FuncsOk fs) (hr : ∀ s ∈ steps, s.2.insOff < 2 ^ 32) :
    Kept (fun f j => ∃ s ∈ steps, f.sectionIndex = s.1 ∧ InInsn f.sectionOffset s.2.insOff j) fs out := by
  induction h with
  | nil fs => exact Kept.refl _ _
  | cons last h hs ih =>
    rename_i sec r rest fs fs' out k
    have k1 := one_kept hf (hr (sec, r) (by simp)) h
    refine k1.trans (ih (kept_funcsOk k1 hf) (fun s hs => hr s (by simp [hs]))) ?_
    intro f j insns
    exact ⟨fun h => ⟨(sec, r), by simp, h⟩, fun ⟨s, h1, h2⟩ => ⟨s, by simp [h1], h2⟩⟩

/-- What a record does. -/
structure Done (lb tb : Btf) (fs out : List (Nat × Linker.Func)) (sec : Nat) (r : Relo) (k : Nat) (f : Linker.Func) (j : Nat)
    (c : Comp) (x : Insn) (ins' new : List Insn) : Prop where
  home : Home fs sec r k f j
  comp : compute lb tb r = .ok c
  insn : f.insns[j]? = some x
  patch : apply lb tb c f.insns j = .ok ins'
  out : out[k]? = some (sec, { f with insns := new })
  first : new[j]? = ins'[j]?
  second : cls x = 0 → new[j + 1]? = ins'[j + 1]?

theorem Steps.done {lb tb : Btf} {steps : List (Nat × Relo)} {fs out : List (Nat × Linker.Func)}
    (h : Steps lb tb steps fs out) (hs : Stored fs) (hr : ∀ s ∈ steps, s.2.insOff < 2 ^ 32) (ha : RecordsApart fs steps) :
    ∀ s ∈ steps, ∃ k f j c x ins' new, Done lb tb fs out s.1 s.2 k f j c x ins' new := by
  induction h with
  | nil fs => intro s hs; cases hs
  | cons last h hst ih =>
    rename_i sec r rest fs fs' out k
    have hr0 := hr (sec, r) (by simp)
    have hr' : ∀ s ∈ rest, s.2.insOff < 2 ^ 32 := fun s hs => hr s (by simp [hs])
    have k1 := one_kept hs.ok hr0 h
    have hs' := kept_stored k1 hs
    obtain ⟨ha0, ha1⟩ := List.pairwise_cons.mp ha
    obtain ⟨f, j, c, insns, hh, hc, hap, rfl⟩ := one_home hs hr0 h
    have hklt := (List.getElem?_eq_some_iff.mp hh.get).1
    have hk2 := hst.kept hs'.ok hr'
    have hx := List.getElem?_eq_getElem hh.lt
    have hpatch := C19_patch lb tb c f.insns insns j (hs.ok _ (List.mem_of_getElem? hh.get)).1 hap
    intro s hsm
    rcases List.mem_cons.mp hsm with rfl | hsm
    · obtain ⟨new, hout, fr⟩ := hk2.each k sec { f with insns := insns } (List.getElem?_set_self hklt)
      have hsec : f.sectionIndex = sec := (hs.key _ (List.mem_of_getElem? hh.get)).symm
      refine ⟨k, f, j, c, _, insns, new, hh, hc, hx, hap, hout, ?_, ?_⟩
      · -- nothing after touches instruction `j`
        apply fr.same
        · rintro ⟨s, h1, h2, h3⟩
          have := ((ha0 s h1).1 (hsec.symm.trans h2) _ (List.mem_of_getElem? hh.get) rfl j j _ hh.at_ h3 hx).1
          exact this rfl
        · rintro j' e ⟨s, h1, h2, h3⟩ y hy hcls
          have hy : insns[j']? = some y := hy
          have hne : f.insns[j']? = some y := by rw [← hpatch.2.1 j' (by omega) (by omega)]; exact hy
          have := ((ha0 s h1).2 (h2.symm.trans hsec) _ (List.mem_of_getElem? hh.get) (hsec.symm.trans h2) j' j _ h3 hh.at_ hne).2 hcls
          exact this e
      · intro hx0
        apply fr.same
        · rintro ⟨s, h1, h2, h3⟩
          have := ((ha0 s h1).1 (hsec.symm.trans h2) _ (List.mem_of_getElem? hh.get) rfl j (j + 1) _ hh.at_ h3 hx).2 hx0
          exact this rfl
        · rintro j' e ⟨s, h1, h2, h3⟩ y hy hcls
          obtain rfl : j' = j := by omega
          have := ((ha0 s h1).1 (hsec.symm.trans h2) _ (List.mem_of_getElem? hh.get) rfl j' j' _ hh.at_ h3 hx).1
          exact this rfl
    · have ha1' : RecordsApart (fs.set k (sec, { f with insns := insns })) rest :=
        ha1.imp (fun ⟨h1, h2⟩ => ⟨kept_clear k1 h1, kept_clear k1 h2⟩)
      obtain ⟨k', f', j', c', x', ins'', new, hd⟩ := ih hs' hr' ha1' s hsm
      by_cases hkk : k' = k
      · subst hkk
        have hg := hd.home.get
        rw [List.getElem?_set_self hklt] at hg
        simp only [Option.some.injEq, Prod.mk.injEq] at hg
        obtain ⟨hsec, rfl⟩ := hg
        have hat : InInsn f.sectionOffset s.2.insOff j' := hd.home.at_
        have hlt' : j' < f.insns.length := by rw [← hpatch.1]; exact hd.home.lt
        have hclr := (ha0 s hsm).1 hsec _ (List.mem_of_getElem? hh.get) rfl j j' _ hh.at_ hat hx
        have hclr2 := (ha0 s hsm).2 hsec.symm _ (List.mem_of_getElem? hh.get) hsec j' j _ hat hh.at_ (List.getElem?_eq_getElem hlt')
        -- instruction `j'` is as before
        have hsame : insns[j']? = f.insns[j']? := by
          by_cases e : j' = j + 1
          · subst e
            obtain ⟨ins, -, hi, -, hn, -⟩ := hpatch.2.2
            rw [hx] at hi
            simp only [Option.some.injEq] at hi
            exact hn (fun hz => hclr.2 (hi ▸ hz) rfl)
          · exact hpatch.2.1 j' hclr.1 e
        have hxi : insns[j']? = some x' := hd.insn
        have hxf : f.insns[j']? = some x' := hsame.symm.trans hxi
        have hnext : cls x' = 0 → f.insns[j' + 1]? = insns[j' + 1]? := by
          intro hz
          have hz' : cls f.insns[j'] = 0 := by
            rw [List.getElem?_eq_getElem hlt'] at hxf
            simp only [Option.some.injEq] at hxf
            rw [hxf]; exact hz
          have hne := hclr2.2 hz'
          by_cases e : j' + 1 = j + 1
          · exact absurd (by omega) hclr.1
          · exact (hpatch.2.1 (j' + 1) (fun h => hne h.symm) e).symm
        obtain ⟨b', g1, g2, g3⟩ := apply_local hxi hxf hnext hd.patch
        exact ⟨k', f, j', c', x', b', new, ⟨hsec ▸ hh.get, hlt', hat⟩, hd.comp, hxf, g1, hd.out, hd.first.trans g2.symm,
          fun hz => (hd.second hz).trans (g3 hz).symm⟩
      · have hg := hd.home.get
        rw [List.getElem?_set_ne (by omega)] at hg
        exact ⟨k', f', j', c', x', ins'', new, ⟨hg, hd.home.lt, hd.home.at_⟩, hd.comp, hd.insn, hd.patch, hd.out, hd.first,
          hd.second⟩

/-- The records of the object with the sections they are for; the name of a section is read as in C17. -/
inductive Records (lb : Btf) (infos : List UInt8 → Option Nat) : List (Nat × List Relo) → List (Nat × Relo) → Prop where
  | nil : Records lb infos [] []
  | cons {nameOff name sec relos rest steps} (hn : lb.stringAt nameOff = .ok name) (hi : infos name = some sec)
      (h : Records lb infos rest steps) : Records lb infos ((nameOff, relos) :: rest) (relos.map (fun r => (sec, r)) ++ steps)

theorem Steps.append {lb tb : Btf} {a b : List (Nat × Relo)} {fs mid out : List (Nat × Linker.Func)}
    (h1 : Steps lb tb a fs mid) (h2 : Steps lb tb b mid out) : Steps lb tb (a ++ b) fs out := by
  induction h1 with
  | nil fs => exact h2
  | cons last h _ ih => exact .cons last h (ih h2)

theorem section_steps {lb tb : Btf} {sec : Nat} : ∀ (rs : List Relo) (fs out : List (Nat × Linker.Func)) (last : Option Nat),
    relocateSection lb tb sec rs fs last = .ok out → Steps lb tb (rs.map (fun r => (sec, r))) fs out
  | [], fs, out, last, h => by cases h; exact .nil _
  | r :: rs, fs, out, last, h => by
    rw [relocateSection] at h
    split at h
    · cases h
    · rename_i fs' k h1
      exact .cons last h1 (section_steps rs fs' out (some k) h)

theorem btf_steps {lb tb : Btf} {infos : List UInt8 → Option Nat} {secs : List (Nat × List Relo)} {steps : List (Nat × Relo)}
    {fs out : List (Nat × Linker.Func)} (hrec : Records lb infos secs steps)
    (h : relocateBtf lb tb infos secs fs = .ok out) : Steps lb tb steps fs out := by
  induction hrec generalizing fs with
  | nil => cases h; exact .nil _
  | cons hn hi _ ih =>
    rw [relocateBtf, hn] at h
    simp only [hi] at h
    split at h
    · cases h
    · rename_i fs' h1
      exact (section_steps _ _ _ _ h1).append (ih h)

/-- **C19.** When relocating an object succeeds, every record has been applied: it points into one function of its
section, the relocation it asks for has been computed, and the instruction it points to (for class LD also the next one) is
the original one patched for that (`C19_patch` says how). Functions are stored as the parser does, and no two records touch
the same instruction. -/
theorem C19_every_record (lb tb : Btf) (infos : List UInt8 → Option Nat) (secs : List (Nat × List Relo))
    (steps : List (Nat × Relo)) (fs out : List (Nat × Linker.Func)) (hrec : Records lb infos secs steps) (hs : Stored fs)
    (hr : ∀ s ∈ steps, s.2.insOff < 2 ^ 32) (ha : RecordsApart fs steps) (h : relocateBtf lb tb infos secs fs = .ok out) :
    ∀ s ∈ steps, ∃ (k : Nat) (f : Linker.Func) (j : Nat) (c : Comp) (x : Insn) (patched insns : List Insn), fs[k]? = some (s.1, f) ∧ InInsn f.sectionOffset s.2.insOff j ∧
      f.insns[j]? = some x ∧ compute lb tb s.2 = .ok c ∧ apply lb tb c f.insns j = .ok patched ∧
      out[k]? = some (s.1, { f with insns := insns }) ∧ insns[j]? = patched[j]? ∧
      (cls x = 0 → insns[j + 1]? = patched[j + 1]?) := by
  intro s hsm
  obtain ⟨k, f, j, c, x, ins', new, hd⟩ := (btf_steps hrec h).done hs hr ha s hsm
  exact ⟨k, f, j, c, x, ins', new, hd.home.get, hd.home.at_, hd.insn, hd.comp, hd.patch, hd.out, hd.first, hd.second⟩

/-- The record can be applied to the object as it is. -/
def Applicable (lb tb : Btf) (fs : List (Nat × Linker.Func)) (s : Nat × Relo) : Prop :=
  ∃ (k : Nat) (f : Linker.Func) (j : Nat) (c : Comp) (insns : List Insn), fs[k]? = some (s.1, f) ∧ j < f.insns.length ∧ InInsn f.sectionOffset s.2.insOff j ∧
    compute lb tb s.2 = .ok c ∧ apply lb tb c f.insns j = .ok insns

/-- A record stays applicable when another one has been applied. -/
theorem applicable_after {lb tb : Btf} {fs : List (Nat × Linker.Func)} (hs : Stored fs) {a b : Nat × Relo}
    (hab : Clear fs a b ∧ Clear fs b a) {k : Nat} {f : Linker.Func} {j : Nat} {c : Comp} {insns : List Insn}
    (hh : Home fs a.1 a.2 k f j) (hap : apply lb tb c f.insns j = .ok insns) (hb : Applicable lb tb fs b) :
    Applicable lb tb (fs.set k (a.1, { f with insns := insns })) b := by
  obtain ⟨k', f', j', c', insns', hg, hlt, hat, hc, hap'⟩ := hb
  have hklt := (List.getElem?_eq_some_iff.mp hh.get).1
  have hpatch := C19_patch lb tb c f.insns insns j (hs.ok _ (List.mem_of_getElem? hh.get)).1 hap
  by_cases hkk : k' = k
  · subst hkk
    rw [hh.get] at hg
    simp only [Option.some.injEq, Prod.mk.injEq] at hg
    obtain ⟨hsec, rfl⟩ := hg
    have hx := List.getElem?_eq_getElem hh.lt
    have hx' := List.getElem?_eq_getElem hlt
    have hclr := hab.1 hsec _ (List.mem_of_getElem? hh.get) rfl j j' _ hh.at_ hat hx
    have hclr2 := hab.2 hsec.symm _ (List.mem_of_getElem? hh.get) hsec j' j _ hat hh.at_ hx'
    have hsame : insns[j']? = f.insns[j']? := by
      by_cases e : j' = j + 1
      · subst e
        obtain ⟨ins, -, hi, -, hn, -⟩ := hpatch.2.2
        rw [hx] at hi
        simp only [Option.some.injEq] at hi
        exact hn (fun hz => hclr.2 (hi ▸ hz) rfl)
      · exact hpatch.2.1 j' hclr.1 e
    have hnext : cls f.insns[j'] = 0 → insns[j' + 1]? = f.insns[j' + 1]? := by
      intro hz
      by_cases e : j' + 1 = j + 1
      · exact absurd (by omega) hclr.1
      · exact hpatch.2.1 (j' + 1) (fun h => hclr2.2 hz h.symm) e
    obtain ⟨b', g1, -⟩ := apply_local hx' (hsame.trans hx') hnext hap'
    exact ⟨k', { f with insns := insns }, j', c', b', by rw [List.getElem?_set_self hklt, hsec], by rw [hpatch.1]; exact hlt, hat,
      hc, g1⟩
  · exact ⟨k', f', j', c', insns', by rw [List.getElem?_set_ne (by omega)]; exact hg, hlt, hat, hc, hap'⟩

/-- The section succeeds if its records can be applied, and then the others still can. -/
theorem section_ok {lb tb : Btf} {sec : Nat} : ∀ (rs : List Relo) (rest : List (Nat × Relo)) (fs : List (Nat × Linker.Func))
    (last : Option Nat), Stored fs → (∀ s ∈ rs.map (fun r => (sec, r)) ++ rest, s.2.insOff < 2 ^ 32) →
    RecordsApart fs (rs.map (fun r => (sec, r)) ++ rest) →
    (∀ s ∈ rs.map (fun r => (sec, r)) ++ rest, Applicable lb tb fs s) →
    ∃ out, relocateSection lb tb sec rs fs last = .ok out ∧ Stored out ∧ RecordsApart out rest ∧
      ∀ s ∈ rest, Applicable lb tb out s
  | [], rest, fs, last, hs, _, ha, happ => ⟨fs, rfl, hs, ha, happ⟩
  | r :: rs, rest, fs, last, hs, hr, ha, happ => by
    simp only [List.map_cons, List.cons_append] at hr ha happ
    obtain ⟨k, f, j, c, insns, hg, hlt, hat, hc, hap⟩ := happ (sec, r) (by simp)
    have hh : Home fs sec r k f j := ⟨hg, hlt, hat⟩
    have hr0 := hr (sec, r) (by simp)
    have h1 := one_ok (lb := lb) (tb := tb) hs hr0 hh hc hap last
    have k1 := one_kept hs.ok hr0 h1
    obtain ⟨ha0, ha1⟩ := List.pairwise_cons.mp ha
    obtain ⟨out, e, rest'⟩ := section_ok rs rest _ (some k) (kept_stored k1 hs) (fun s hs => hr s (by simp [hs]))
      (ha1.imp (fun ⟨h1, h2⟩ => ⟨kept_clear k1 h1, kept_clear k1 h2⟩))
      (fun s hsm => applicable_after hs (ha0 s hsm) hh hap (happ s (by simp [hsm])))
    refine ⟨out, ?_, rest'⟩
    rw [relocateSection, h1]
    exact e

/-- **C19.** Relocating an object succeeds exactly if each of its records can be applied: a function of the section
contains the instruction, the relocation can be computed, and the instruction is of a kind that can be patched with it. -/
theorem C19_succeeds (lb tb : Btf) (infos : List UInt8 → Option Nat) (secs : List (Nat × List Relo))
    (steps : List (Nat × Relo)) (fs : List (Nat × Linker.Func)) (hrec : Records lb infos secs steps) (hs : Stored fs)
    (hr : ∀ s ∈ steps, s.2.insOff < 2 ^ 32) (ha : RecordsApart fs steps) :
    (∃ out, relocateBtf lb tb infos secs fs = .ok out) ↔
    ∀ s ∈ steps, ∃ (k : Nat) (f : Linker.Func) (j : Nat) (c : Comp) (patched : List Insn), fs[k]? = some (s.1, f) ∧ j < f.insns.length ∧ InInsn f.sectionOffset s.2.insOff j ∧
      compute lb tb s.2 = .ok c ∧ apply lb tb c f.insns j = .ok patched := by
  constructor
  · rintro ⟨out, h⟩ s hsm
    obtain ⟨k, f, j, c, x, patched, insns, h1, h2, h3, h4, h5, -⟩ :=
      C19_every_record lb tb infos secs steps fs out hrec hs hr ha h s hsm
    exact ⟨k, f, j, c, patched, h1, (List.getElem?_eq_some_iff.mp h3).1, h2, h4, h5⟩
  · intro h
    have happ : ∀ s ∈ steps, Applicable lb tb fs s := h
    clear h
    induction hrec generalizing fs with
    | nil => exact ⟨fs, rfl⟩
    | cons hn hi hrest ih =>
      obtain ⟨mid, e, hs', ha', happ'⟩ := section_ok _ _ fs none hs hr ha happ
      obtain ⟨out, ho⟩ := ih mid hs' (fun s hs => hr s (by simp [hs])) ha' happ'
      refine ⟨out, ?_⟩
      rw [relocateBtf, hn]
      simp only [hi]
      rw [e]
      exact ho

/-- The hypotheses hold of the object of `Runs` with its three records, two functions in the section. -/
example : Records localTask infos [(16, relos)] (relos.map (fun r => (5, r))) ∧
    Stored [(5, ⟨0, 5, 0, [⟨0x95, 0, 0, 0, 0⟩, ⟨0x95, 0, 0, 0, 0⟩], [], []⟩), (5, func)] ∧
    RecordsApart [(5, ⟨0, 5, 0, [⟨0x95, 0, 0, 0, 0⟩, ⟨0x95, 0, 0, 0, 0⟩], [], []⟩), (5, func)] (relos.map (fun r => (5, r))) ∧
    (∃ out, relocateBtf localTask kernelTask infos [(16, relos)]
      [(5, ⟨0, 5, 0, [⟨0x95, 0, 0, 0, 0⟩, ⟨0x95, 0, 0, 0, 0⟩], [], []⟩), (5, func)] = .ok out) := by
  refine ⟨?_, ⟨?_, by decide, by decide, ?_⟩, ?_, ?_⟩
  · have := Records.cons (lb := localTask) (infos := infos) (nameOff := 16) (name := "sec".toUTF8.toList) (sec := 5) (relos := relos)
      (by decide +kernel) (by decide +kernel) .nil
    simpa using this
  · intro p hp
    simp only [List.mem_cons, List.not_mem_nil, or_false] at hp
    rcases hp with rfl | rfl
    · exact ⟨by unfold CodesOk; decide, by decide⟩
    · exact ⟨by unfold CodesOk; decide, by decide⟩
  · intro k1 k2 p1 p2 off j1 j2 h1 h2 _ l1 l2 i1 i2
    unfold InInsn at i1 i2
    match k1, k2 with
    | 0, 0 => rfl
    | 1, 1 => rfl
    | 0, 1 =>
      cases h1; cases h2
      simp only [List.length_cons, List.length_nil, func] at *
      omega
    | 1, 0 =>
      cases h1; cases h2
      simp only [List.length_cons, List.length_nil, func] at *
      omega
    | n + 2, _ => simp at h1
    | 0, n + 2 => simp at h2
    | 1, n + 2 => simp at h2
  · have clear : ∀ a b : Relo, a ∈ relos → b ∈ relos → a.insOff / 8 < b.insOff / 8 →
        Clear [(5, ⟨0, 5, 0, [⟨0x95, 0, 0, 0, 0⟩, ⟨0x95, 0, 0, 0, 0⟩], [], []⟩), (5, func)] (5, a) (5, b) ∧
        Clear [(5, ⟨0, 5, 0, [⟨0x95, 0, 0, 0, 0⟩, ⟨0x95, 0, 0, 0, 0⟩], [], []⟩), (5, func)] (5, b) (5, a) := by
      intro a b ha hb hlt
      simp only [relos, List.mem_cons, List.not_mem_nil, or_false] at ha hb
      constructor <;> intro _ p hp _ i j x hi hj hx <;> unfold InInsn at hi hj <;>
        simp only [List.mem_cons, List.not_mem_nil, or_false] at hp <;>
        rcases hp with rfl | rfl <;> rcases ha with rfl | rfl | rfl <;> rcases hb with rfl | rfl | rfl <;>
        simp only [func] at hi hj hx hlt <;> (try omega) <;> refine ⟨by omega, fun hz => ?_⟩ <;> (try omega) <;>
        (have hi4 : i < 4 := by omega
         have e : i = 0 ∨ i = 1 ∨ i = 2 ∨ i = 3 := by omega
         rcases e with rfl | rfl | rfl | rfl <;>
           first | omega | (cases hx; done) | (cases hx; exact absurd hz (by decide)))
    simp only [relos, List.map_cons, List.map_nil, RecordsApart, List.pairwise_cons, List.mem_cons, List.not_mem_nil, or_false,
      false_implies, forall_eq_or_imp, forall_eq, implies_true, List.Pairwise.nil, and_true]
    refine ⟨⟨clear _ _ (by decide) (by decide) (by decide), clear _ _ (by decide) (by decide) (by decide)⟩,
      clear _ _ (by decide) (by decide) (by decide)⟩
  · have h : (relocateBtf localTask kernelTask infos [(16, relos)]
      [(5, ⟨0, 5, 0, [⟨0x95, 0, 0, 0, 0⟩, ⟨0x95, 0, 0, 0, 0⟩], [], []⟩), (5, func)]).toOption.isSome = true := by decide +kernel
    cases e : relocateBtf localTask kernelTask infos [(16, relos)]
      [(5, ⟨0, 5, 0, [⟨0x95, 0, 0, 0, 0⟩, ⟨0x95, 0, 0, 0, 0⟩], [], []⟩), (5, func)] with
    | error e' => rw [e] at h; cases h
    | ok o => exact ⟨o, rfl⟩

end Verif.Core
