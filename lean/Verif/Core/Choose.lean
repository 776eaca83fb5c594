import Verif.Core.Basic
import Verif.Core.Runs
/-! # The choice among several matching kernel types -/
set_option linter.unusedSimpArgs false
set_option linter.unusedVariables false
namespace Verif.Core
open Verif.Btf Verif.Btf.Spec Verif.Core.Spec Verif.Bpf

/-- Two matches give the field the same position and the relocation the same value. -/
def Agree (a b : Match) : Prop :=
  a.spec.bitOffset = b.spec.bitOffset ∧ a.comp.target.map (·.value) = b.comp.target.map (·.value)

theorem conflicts_false {a b : Match} (ha : a.comp.target.isSome) (hb : b.comp.target.isSome) :
    conflicts a b = false ↔ Agree a b := by
  obtain ⟨va, ha⟩ := Option.isSome_iff_exists.mp ha
  obtain ⟨vb, hb⟩ := Option.isSome_iff_exists.mp hb
  unfold conflicts Agree
  rw [ha, hb]
  by_cases h : b.spec.bitOffset = a.spec.bitOffset
  · rw [if_neg (fun g => g h)]
    simp only [bne_eq_false_iff_eq, Option.map_some, Option.some.injEq]
    exact ⟨fun g => ⟨h.symm, g.symm⟩, fun g => g.2.symm⟩
  · rw [if_pos h]
    exact ⟨fun g => by simp at g, fun g => absurd g.1.symm h⟩

theorem choose_cons_ok {m : Match} {ms : List Match} {c : Option Comp} :
    choose (m :: ms) = .ok c ↔ c = some m.comp ∧ ∀ x ∈ ms, conflicts m x = false := by
  have e : choose (m :: ms) = match (ms.filter (conflicts m)).map (·.name) with
    | [] => .ok (some m.comp)
    | names => .error (.conflictingCandidates names) := rfl
  rw [e]
  split
  · rename_i h
    simp only [List.map_eq_nil_iff, List.filter_eq_nil_iff, Bool.not_eq_true] at h
    constructor
    · intro g; cases g; exact ⟨rfl, h⟩
    · rintro ⟨rfl, _⟩; rfl
  · rename_i h
    simp only [List.map_eq_nil_iff, List.filter_eq_nil_iff, Bool.not_eq_true] at h
    constructor
    · intro g; cases g
    · rintro ⟨_, g⟩; exact absurd g h

/-- **C21.** If a value could be computed for every matching type, then the relocation is resolved exactly if all of them
agree on position and value, and the result has this value. What is missing: matches for which no value could be computed
(`C21_order_violated`), and the width of the field (`C21_width_violated`). -/
theorem C21_choice_partial (ms : List Match) (hall : ∀ m ∈ ms, m.comp.target.isSome) :
    ((∃ c, choose ms = .ok c) ↔ ∀ a ∈ ms, ∀ b ∈ ms, Agree a b) ∧
    (∀ c, choose ms = .ok (some c) → ∀ m ∈ ms, m.comp.target.map (·.value) = c.target.map (·.value)) := by
  cases ms with
  | nil => exact ⟨⟨fun _ a ha => by simp at ha, fun _ => ⟨none, rfl⟩⟩, fun c h => by cases h⟩
  | cons m ms =>
    have hm := hall m (by simp)
    have hx : ∀ x ∈ ms, conflicts m x = false ↔ Agree m x := fun x h => conflicts_false hm (hall x (by simp [h]))
    refine ⟨⟨?_, ?_⟩, ?_⟩
    · rintro ⟨c, h⟩
      obtain ⟨_, hno⟩ := choose_cons_ok.mp h
      have key : ∀ a ∈ m :: ms, Agree m a := by
        intro a ha
        rcases List.mem_cons.mp ha with rfl | ha
        · exact ⟨rfl, rfl⟩
        · exact (hx a ha).mp (hno a ha)
      intro a ha b hb
      exact ⟨(key a ha).1.symm.trans (key b hb).1, (key a ha).2.symm.trans (key b hb).2⟩
    · intro h
      exact ⟨_, choose_cons_ok.mpr ⟨rfl, fun x hxm => (hx x hxm).mpr (h m (by simp) x (by simp [hxm]))⟩⟩
    · intro c h x hxm
      obtain ⟨h1, hno⟩ := choose_cons_ok.mp h
      cases h1
      rcases List.mem_cons.mp hxm with rfl | hxm
      · rfl
      · exact ((hx x hxm).mp (hno x hxm)).2.symm

/-- **C21.** Neither success nor the value depend on the order of the candidates, if a value could be computed for each. -/
theorem C21_order_partial (ms ms' : List Match) (hp : ms.Perm ms') (hall : ∀ m ∈ ms, m.comp.target.isSome) :
    ((∃ c, choose ms = .ok c) ↔ ∃ c, choose ms' = .ok c) ∧
    ∀ c c', choose ms = .ok (some c) → choose ms' = .ok (some c') → c.target.map (·.value) = c'.target.map (·.value) := by
  have hall' : ∀ m ∈ ms', m.comp.target.isSome := fun m hm => hall m (hp.mem_iff.mpr hm)
  obtain ⟨h1, h2⟩ := C21_choice_partial ms hall
  obtain ⟨h1', h2'⟩ := C21_choice_partial ms' hall'
  refine ⟨?_, ?_⟩
  · rw [h1, h1']
    exact ⟨fun h a ha b hb => h a (hp.mem_iff.mpr ha) b (hp.mem_iff.mpr hb),
      fun h a ha b hb => h a (hp.mem_iff.mp ha) b (hp.mem_iff.mp hb)⟩
  · intro c c' hc hc'
    cases ms with
    | nil => cases hc
    | cons m ms => exact (h2 c hc m (by simp)).symm.trans (h2' c' hc' m (hp.mem_iff.mp (by simp)))

theorem choose_error {ms : List Match} {e : RFail} (h : choose ms = .error e) :
    ∃ m rest, ms = m :: rest ∧ e = .conflictingCandidates ((rest.filter (conflicts m)).map (·.name)) ∧
      ∃ x ∈ rest, conflicts m x = true := by
  cases ms with
  | nil => cases h
  | cons m rest =>
    refine ⟨m, rest, rfl, ?_⟩
    have e' : choose (m :: rest) = match (rest.filter (conflicts m)).map (·.name) with
      | [] => .ok (some m.comp)
      | names => .error (.conflictingCandidates names) := rfl
    rw [e'] at h
    split at h
    · cases h
    · rename_i hne
      cases h
      refine ⟨rfl, ?_⟩
      have : rest.filter (conflicts m) ≠ [] := fun g => hne (by rw [g]; rfl)
      obtain ⟨x, hx⟩ := List.exists_mem_of_ne_nil _ this
      exact ⟨x, (List.mem_filter.mp hx).1, (List.mem_filter.mp hx).2⟩

/-- **C21.** An error of the choice names matching types, and is only given if two matches differ in position or in the
values computed for them. -/
theorem C21_reported (ms : List Match) (e : RFail) (h : choose ms = .error e) :
    ∃ names, e = .conflictingCandidates names ∧ names ≠ [] ∧ (∀ n ∈ names, ∃ m ∈ ms, m.name = n) ∧
      ∃ a ∈ ms, ∃ b ∈ ms, ¬ Agree a b := by
  obtain ⟨m, rest, rfl, rfl, x, hx, hc⟩ := choose_error h
  refine ⟨_, rfl, ?_, ?_, m, by simp, x, by simp [hx], ?_⟩
  · intro g
    simp only [List.map_eq_nil_iff, List.filter_eq_nil_iff] at g
    exact g x hx hc
  · intro n hn
    obtain ⟨y, hy, rfl⟩ := List.mem_map.mp hn
    exact ⟨y, by simp [(List.mem_filter.mp hy).1], rfl⟩
  · rintro ⟨g1, g2⟩
    unfold conflicts at hc
    rw [if_neg (by simp [g1])] at hc
    split at hc
    · rename_i a b ha hb
      rw [ha, hb] at g2
      simp at g2 hc
      exact hc g2.symm
    · cases hc

theorem collect_ok {lb tb : Btf} {kind : RelKind} {l : AccSpec} : ∀ {cs : List Cand} {ms : List Match},
    collect lb tb kind l cs = .ok ms →
    ∀ c ∈ cs, ∀ t, matchCandidate lb tb kind l c = .ok (some t) →
      ∃ comp, compNew lb tb kind l (some t) = .ok comp ∧ ⟨c.name, t, comp⟩ ∈ ms
  | [], ms, h, c, hc, t, ht => by simp at hc
  | c :: cs, ms, h, c', hc', t, ht => by
    rw [collect] at h
    split at h
    · cases h
    · rename_i hn
      rcases List.mem_cons.mp hc' with rfl | hc'
      · rw [hn] at ht; cases ht
      · exact collect_ok h c' hc' t ht
    · rename_i t' ht'
      split at h
      · cases h
      · rename_i comp hcomp
        split at h
        · cases h
        · rename_i ms' hms
          cases h
          rcases List.mem_cons.mp hc' with rfl | hc'
          · rw [ht'] at ht; cases ht
            exact ⟨comp, hcomp, by simp⟩
          · obtain ⟨comp', h1, h2⟩ := collect_ok hms c' hc' t ht
            exact ⟨comp', h1, by simp [h2]⟩

/-- **C21.** When the relocation of a record is resolved to a value, every candidate type of the kernel that has the field,
variant or type gives it this value, if it gives it any, and all of them have it at one position. -/
theorem C21_resolved (lb tb : Btf) (r : Relo) (c : Comp) (v : CVal) (hk : r.kind ≠ .typeIdLocal)
    (h : compute lb tb r = .ok c) (hv : c.target = some v) :
    ∃ lt lname access l cs, lb.types[r.typeId]? = some lt ∧ lb.stringAt lt.name = .ok lname ∧
      lb.stringAt r.accessOff = .ok access ∧ specNew lb r.typeId access r.kind = .ok l ∧
      findCandidates tb lt lname = .ok cs ∧
      ∃ pos, ∀ cand ∈ cs, ∀ t, matchCandidate lb tb r.kind l cand = .ok (some t) → t.bitOffset = pos ∧
        ∃ comp, compNew lb tb r.kind l (some t) = .ok comp ∧ ∀ v', comp.target = some v' → v'.value = v.value := by
  unfold compute at h
  obtain ⟨lt, hlt, h⟩ := bind_ok.mp h
  obtain ⟨lname, hln, h⟩ := bind_ok.mp h
  obtain ⟨access, hacc, h⟩ := bind_ok.mp h
  obtain ⟨l, hl, h⟩ := bind_ok.mp h
  rw [if_neg hk] at h
  obtain ⟨cs, hcs, h⟩ := bind_ok.mp h
  obtain ⟨ms, hms, h⟩ := bind_ok.mp h
  obtain ⟨o, ho, h⟩ := bind_ok.mp h
  refine ⟨lt, lname, access, l, cs, typeById_ok.mp (lift_ok.mp hlt), lift_ok.mp hln, lift_ok.mp hacc, hl, hcs, ?_⟩
  cases ms with
  | nil =>
    refine ⟨0, fun cand hcand t ht => ?_⟩
    obtain ⟨_, _, g⟩ := collect_ok hms cand hcand t ht
    simp at g
  | cons m ms =>
    obtain ⟨rfl, hall⟩ := choose_cons_ok.mp ho
    cases h
    refine ⟨m.spec.bitOffset, fun cand hcand t ht => ?_⟩
    obtain ⟨comp, g1, g2⟩ := collect_ok hms cand hcand t ht
    rcases List.mem_cons.mp g2 with e | g2
    · subst e
      refine ⟨rfl, comp, g1, fun v' hv' => ?_⟩
      simp only at hv
      rw [hv] at hv'; cases hv'; rfl
    · have hc := hall _ g2
      unfold conflicts at hc
      split at hc
      · cases hc
      · rename_i hb
        refine ⟨by simpa using hb, comp, g1, fun v' hv' => ?_⟩
        simp only [hv', hv] at hc
        simpa using hc

/-! ## Violations -/

/-- `struct task { unsigned long x:4 at bit 4; }`; "0:0" at 8, "sec" at 12. -/
def localX : Btf := btfOf ",task,x,0:0,sec," [mkInt 0 8 0 0, .struct 1 (2 ^ 31 + 4 * 2 ^ 24 + 1) 8 [⟨6, 1, 4 * 2 ^ 24 + 4⟩]]

/-- A type of the same layout, and one, of another flavour, where the 63 bits of `x` cross an 8 byte boundary, so that no
load covers it. `task___b` is at 8. -/
def near : BtfType := .struct 1 (2 ^ 31 + 4 * 2 ^ 24 + 1) 8 [⟨6, 1, 4 * 2 ^ 24 + 4⟩]
def crossing : BtfType := .struct 8 (2 ^ 31 + 4 * 2 ^ 24 + 1) 16 [⟨6, 1, 63 * 2 ^ 24 + 4⟩]

def kernelOf (ts : List BtfType) : Btf := btfOf ",task,x,task___b," (mkInt 0 8 0 0 :: ts)

/-- `r3 = 0`. -/
def funcX : Linker.Func := ⟨0, 5, 16, [⟨0xb7, 3, 0, 0, 9⟩], [], []⟩

/-- **C21 violated**: the result depends on the order of the kernel's types. With the usable type first the instruction is
patched although the other type disagrees; in the other order it is poisoned. -/
theorem C21_order_violated :
    relocateBtf localX (kernelOf [near, crossing]) infos [(12, [⟨.fieldByteOffset, 16, 2, 8⟩])] [(5, funcX)] =
      .ok [(5, { funcX with insns := [⟨0xb7, 3, 0, 0, 0⟩] })] ∧
    relocateBtf localX (kernelOf [crossing, near]) infos [(12, [⟨.fieldByteOffset, 16, 2, 8⟩])] [(5, funcX)] =
      .ok [(5, { funcX with insns := [poisoned] })] := by
  constructor <;> decide +kernel

/-- `struct task { unsigned x; }`, and kernels with an `x` of 4 and one of 8 bytes. -/
def localY : Btf := btfOf ",task,x,0:0,sec," [mkInt 0 4 0 0, mkStruct 1 [⟨6, 1, 0⟩] 4]
def kernelY (ts : List BtfType) : Btf := btfOf ",task,x,task___b," (mkInt 0 4 0 0 :: mkInt 0 8 0 0 :: ts)

/-- `r1 = *(u32 *)(r2 + 0)`. -/
def funcY : Linker.Func := ⟨0, 5, 16, [⟨0x61, 1, 2, 0, 0⟩], [], []⟩

/-- **C21 violated**: two kernel types with a field of the same name, offset and kind but of different width are not
reported as conflicting, and the width of the access is that of whichever comes first. -/
theorem C21_width_violated :
    relocateBtf localY (kernelY [mkStruct 1 [⟨6, 1, 0⟩] 4, mkStruct 8 [⟨6, 2, 0⟩] 8]) infos
      [(12, [⟨.fieldByteOffset, 16, 2, 8⟩])] [(5, funcY)] = .ok [(5, { funcY with insns := [⟨0x61, 1, 2, 0, 0⟩] })] ∧
    relocateBtf localY (kernelY [mkStruct 8 [⟨6, 2, 0⟩] 8, mkStruct 1 [⟨6, 1, 0⟩] 4]) infos
      [(12, [⟨.fieldByteOffset, 16, 2, 8⟩])] [(5, funcY)] = .ok [(5, { funcY with insns := [⟨0x79, 1, 2, 0, 0⟩] })] := by
  constructor <;> decide +kernel

/-- Two agreeing types, and two conflicting ones. -/
example : (∃ c v, compute localY (kernelY [mkStruct 1 [⟨6, 1, 0⟩] 4, mkStruct 8 [⟨6, 1, 0⟩] 8]) ⟨.fieldByteOffset, 16, 2, 8⟩ = .ok c ∧
      c.target = some v ∧ v.value = 0) ∧
    compute localY (kernelY [mkStruct 1 [⟨6, 1, 0⟩] 4, mkStruct 8 [⟨6, 1, 32⟩] 8]) ⟨.fieldByteOffset, 16, 2, 8⟩ =
      .error (.conflictingCandidates ["task___b".toUTF8.toList]) :=
  ⟨⟨⟨⟨0, 4, some 1⟩, some ⟨0, 4, some 1⟩⟩, ⟨0, 4, some 1⟩, by decide +kernel, rfl, rfl⟩, by decide +kernel⟩

end Verif.Core
