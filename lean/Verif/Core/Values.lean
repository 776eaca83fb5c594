import Verif.Core.Types
import Verif.Core.Missing
import Verif.Core.Choose
/-! # Existence, type and enumerator relocations -/
set_option linter.unusedSimpArgs false
set_option linter.unusedVariables false
namespace Verif.Core
open Verif.Btf Verif.Btf.Spec Verif.Core.Spec Verif.Bpf

theorem collect_mem {lb tb : Btf} {kind : RelKind} {l : AccSpec} : ∀ {cs : List Cand} {ms : List Match},
    collect lb tb kind l cs = .ok ms →
    ∀ m ∈ ms, ∃ c ∈ cs, matchCandidate lb tb kind l c = .ok (some m.spec) ∧ compNew lb tb kind l (some m.spec) = .ok m.comp
  | [], ms, h, m, hm => by cases h; simp at hm
  | c :: cs, ms, h, m, hm => by
    rw [collect] at h
    split at h
    · cases h
    · obtain ⟨c', h1, h2⟩ := collect_mem h m hm
      exact ⟨c', by simp [h1], h2⟩
    · rename_i t ht
      split at h
      · cases h
      · rename_i comp hcomp
        split at h
        · cases h
        · rename_i ms' hms
          cases h
          rcases List.mem_cons.mp hm with rfl | hm
          · exact ⟨c, by simp, ht, hcomp⟩
          · obtain ⟨c', h1, h2⟩ := collect_mem hms m hm
            exact ⟨c', by simp [h1], h2⟩

theorem collect_total {lb tb : Btf} {kind : RelKind} {l : AccSpec} : ∀ {cs : List Cand} {ms : List Match},
    collect lb tb kind l cs = .ok ms → ∀ c ∈ cs, ∃ o, matchCandidate lb tb kind l c = .ok o
  | [], ms, h, c, hc => by simp at hc
  | c :: cs, ms, h, c', hc => by
    rw [collect] at h
    split at h
    · cases h
    · rename_i hn
      rcases List.mem_cons.mp hc with rfl | hc
      · exact ⟨_, hn⟩
      · exact collect_total h c' hc
    · rename_i t ht
      rcases List.mem_cons.mp hc with rfl | hc
      · exact ⟨_, ht⟩
      · split at h
        · cases h
        · split at h
          · cases h
          · rename_i hms
            exact collect_total hms c' hc

/-- The parts of a computed relocation. -/
theorem compute_parts {lb tb : Btf} {r : Relo} {c : Comp} (hk : r.kind ≠ .typeIdLocal) (h : compute lb tb r = .ok c) :
    ∃ lt lname access l cs ms, lb.types[r.typeId]? = some lt ∧ lb.stringAt lt.name = .ok lname ∧
      lb.stringAt r.accessOff = .ok access ∧ specNew lb r.typeId access r.kind = .ok l ∧
      findCandidates tb lt lname = .ok cs ∧ collect lb tb r.kind l cs = .ok ms ∧
      ((ms = [] ∧ compNew lb tb r.kind l none = .ok c) ∨
        ∃ m rest, ms = m :: rest ∧ c = m.comp ∧ ∀ x ∈ rest, conflicts m x = false) := by
  unfold compute at h
  obtain ⟨lt, hlt, h⟩ := bind_ok.mp h
  obtain ⟨lname, hln, h⟩ := bind_ok.mp h
  obtain ⟨access, hacc, h⟩ := bind_ok.mp h
  obtain ⟨l, hl, h⟩ := bind_ok.mp h
  rw [if_neg hk] at h
  obtain ⟨cs, hcs, h⟩ := bind_ok.mp h
  obtain ⟨ms, hms, h⟩ := bind_ok.mp h
  obtain ⟨o, ho, h⟩ := bind_ok.mp h
  refine ⟨lt, lname, access, l, cs, ms, typeById_ok.mp (lift_ok.mp hlt), lift_ok.mp hln, lift_ok.mp hacc, hl, hcs, hms, ?_⟩
  cases ms with
  | nil => cases ho; exact .inl ⟨rfl, h⟩
  | cons m rest =>
    obtain ⟨rfl, hall⟩ := choose_cons_ok.mp ho
    cases h
    exact .inr ⟨m, rest, rfl, rfl, hall⟩

/-- The candidates of a type of the program: kernel types of the same kind and the same name up to flavour. -/
def Candidate (lb tb : Btf) (l t : Nat) : Prop :=
  ∃ (lt tt : BtfType) (ln tn b : List UInt8), lb.types[l]? = some lt ∧ tb.types[t]? = some tt ∧ StringAt lb.strings lt.name ln ∧
    StringAt tb.strings tt.name tn ∧ Base ln b ∧ Base tn b ∧
    (tt.kind = lt.kind ∨ tt.kind = 19 ∧ ∃ nm i s ms f, lt = .union nm i s ms (some f))

theorem candidate_iff {lb tb : Btf} {l : Nat} {lt : BtfType} {lname : List UInt8} {cs : List Cand}
    (hl : lb.types[l]? = some lt) (hn : lb.stringAt lt.name = .ok lname) (hcs : findCandidates tb lt lname = .ok cs) (t : Nat) :
    (∃ n, ⟨n, t⟩ ∈ cs) ↔ Candidate lb tb l t := by
  have hn := C17_string _ _ _ hn
  constructor
  · rintro ⟨n, h⟩
    obtain ⟨tt, h1, h2, ⟨b, h3, h4⟩, h5⟩ := (C20_candidates tb lt lname cs hcs n t).mp h
    exact ⟨lt, tt, lname, n, b, hl, h1, hn, h2, h3, h4, h5⟩
  · rintro ⟨lt', tt, ln, tn, b, h0, h1, h2, h3, h4, h5, h6⟩
    rw [hl] at h0; cases h0
    cases stringAt_unique hn h2
    exact ⟨tn, (C20_candidates tb lt lname cs hcs tn t).mpr ⟨tt, h1, h3, ⟨b, h4, h5⟩, h6⟩⟩

/-! ## Enumerators -/

theorem variantNames_enumerator {ty : BtfType} {strings : List UInt8} {names : List Nat} (h : variantNames ty = some names)
    {k : Nat} {nm : List UInt8} {o : Nat} (hk : names[k]? = some o) (hs : StringAt strings o nm)
    {v : Nat} (hv : variantValue ty k = .ok v) (hw : ∀ n i s vs x, ty = .enum n i s vs → x ∈ vs → x.value < 2 ^ 32) :
    Enumerator strings ty k nm v := by
  unfold variantNames at h
  split at h
  · cases h
    rename_i n i s vs
    simp only [List.getElem?_map, Option.map_eq_some_iff] at hk
    obtain ⟨x, hx, rfl⟩ := hk
    simp only [variantValue, hx] at hv
    cases hv
    by_cases hi : i / 2 ^ 31 = 1
    · have e : infoSigned i = true := by simp [infoSigned, hi]
      rw [e, if_pos rfl]
      have hlt := hw _ _ _ _ x rfl (List.mem_of_getElem? hx)
      have e2 : sext32 x.value = ((BitVec.ofNat 32 x.value).signExtend 64).toNat := by
        unfold sext32
        rw [BitVec.toNat_signExtend]
        have hm : x.value % 4294967296 = x.value := Nat.mod_eq_of_lt (by simpa using hlt)
        simp only [BitVec.toNat_setWidth, BitVec.toNat_ofNat, BitVec.msb_eq_decide, Nat.reducePow, Nat.reduceSub, hm]
        by_cases g : x.value < 2147483648
        · rw [if_pos g]
          have : decide (2147483648 ≤ x.value) = false := by simp; omega
          simp [this]; omega
        · rw [if_neg g]
          have : decide (2147483648 ≤ x.value) = true := by simp; omega
          simp [this]; omega
      rw [e2]
      exact .signed hx hs hi
    · have e : infoSigned i = false := by simp [infoSigned, hi]
      rw [e, if_neg (by simp)]
      exact .unsigned hx hs hi
  · cases h
    simp only [List.getElem?_map, Option.map_eq_some_iff] at hk
    obtain ⟨x, hx, rfl⟩ := hk
    simp only [variantValue, hx] at hv
    cases hv
    exact .wide hx hs
  · cases h
    simp only [List.getElem?_map, Option.map_eq_some_iff] at hk
    obtain ⟨x, hx, rfl⟩ := hk
    simp only [variantValue, hx] at hv
    cases hv
    exact .replaced hx hs
  · cases h

theorem variantNames_value {ty : BtfType} {names : List Nat} (h : variantNames ty = some names) {k o : Nat}
    (hk : names[k]? = some o) : ∃ v, variantValue ty k = .ok v := by
  unfold variantNames at h
  split at h
  all_goals first
    | (cases h; simp only [List.getElem?_map, Option.map_eq_some_iff] at hk; obtain ⟨x, hx, rfl⟩ := hk
       simp only [variantValue, hx]; exact ⟨_, rfl⟩)
    | cases h

theorem enumerator_names {ty : BtfType} {strings : List UInt8} {k : Nat} {nm : List UInt8} {v : Nat}
    (h : Enumerator strings ty k nm v) : ∃ (names : List Nat) (o : Nat), variantNames ty = some names ∧ names[k]? = some o ∧ StringAt strings o nm := by
  cases h with
  | signed h1 h2 h3 => exact ⟨_, _, rfl, by rw [List.getElem?_map, h1]; rfl, h2⟩
  | unsigned h1 h2 h3 => exact ⟨_, _, rfl, by rw [List.getElem?_map, h1]; rfl, h2⟩
  | wide h1 h2 => exact ⟨_, _, rfl, by rw [List.getElem?_map, h1]; rfl, h2⟩
  | replaced h1 h2 => exact ⟨_, _, rfl, by rw [List.getElem?_map, h1]; rfl, h2⟩

theorem enumLoop_ok {tb : Btf} {name : List UInt8} : ∀ {ns : List Nat} {i : Nat} {o : Option Nat},
    enumLoop tb name i ns = .ok o →
    (∀ k, o = some k → ∃ (j x : Nat) (s : List UInt8), k = i + j ∧ ns[j]? = some x ∧ StringAt tb.strings x s ∧ flavorless name = flavorless s ∧
      ∀ (j' x' : Nat) (s' : List UInt8), j' < j → ns[j']? = some x' → StringAt tb.strings x' s' → flavorless name ≠ flavorless s') ∧
    (o = none → ∀ (j x : Nat) (s : List UInt8), ns[j]? = some x → StringAt tb.strings x s → flavorless name ≠ flavorless s)
  | [], i, o, h => by
    cases h
    exact ⟨fun k e => (by cases e), fun _ j x s hx => (by simp at hx)⟩
  | n :: ns, i, o, h => by
    rw [enumLoop] at h
    split at h
    · cases h
    · rename_i s hs
      have hs := C17_string _ _ _ hs
      split at h
      · rename_i hf
        cases h
        refine ⟨fun k e => ?_, fun e => by cases e⟩
        cases e
        exact ⟨0, n, s, rfl, rfl, hs, hf, fun j' x' s' hj => by omega⟩
      · rename_i hf
        obtain ⟨h1, h2⟩ := enumLoop_ok h
        refine ⟨fun k e => ?_, fun e j x s' hx hs' => ?_⟩
        · obtain ⟨j, x, s', g1, g2, g3, g4, g5⟩ := h1 k e
          refine ⟨j + 1, x, s', by omega, by simpa using g2, g3, g4, ?_⟩
          intro j' x' s'' hj hx' hs''
          cases j' with
          | zero =>
            simp at hx'; subst hx'
            rw [← stringAt_unique hs hs'']; exact hf
          | succ j' => exact g5 j' x' s'' (by omega) (by simpa using hx') hs''
        · cases j with
          | zero =>
            simp at hx; subst hx
            rw [← stringAt_unique hs hs']; exact hf
          | succ j => exact h2 e j x s' (by simpa using hx) hs'

/-- The kernel type `t` has, as number `k`, an enumerator of the name `nm` up to flavour, and no earlier one, with value `v`. -/
def KernelEnumerator (tb : Btf) (t : Nat) (nm : List UInt8) (v : Nat) : Prop :=
  ∃ (r : Nat) (tt : BtfType) (k : Nat) (n b : List UInt8), Resolves tb.types t r tt ∧ Enumerator tb.strings tt k n v ∧
    Base nm b ∧ Base n b ∧ ∀ k' n' v', k' < k → Enumerator tb.strings tt k' n' v' → ¬ Base n' b

/-- The enumerators' values are 32-bit words. -/
def EnumWords (ts : List BtfType) : Prop := ∀ n i s vs x, BtfType.enum n i s vs ∈ ts → x ∈ vs → x.value < 2 ^ 32

theorem enumerator_unique {strings : List UInt8} {ty : BtfType} {k : Nat} {n n' : List UInt8} {v v' : Nat}
    (h : Enumerator strings ty k n v) (h' : Enumerator strings ty k n' v') : n = n' ∧ v = v' := by
  cases h with
  | signed h1 h2 h3 =>
    cases h' with
    | signed g1 g2 g3 => rw [h1] at g1; cases g1; exact ⟨stringAt_unique h2 g2, rfl⟩
    | unsigned g1 g2 g3 => exact absurd h3 g3
  | unsigned h1 h2 h3 =>
    cases h' with
    | signed g1 g2 g3 => exact absurd g3 h3
    | unsigned g1 g2 g3 => rw [h1] at g1; cases g1; exact ⟨stringAt_unique h2 g2, rfl⟩
  | wide h1 h2 =>
    cases h' with
    | wide g1 g2 => rw [h1] at g1; cases g1; exact ⟨stringAt_unique h2 g2, rfl⟩
  | replaced h1 h2 =>
    cases h' with
    | replaced g1 g2 => rw [h1] at g1; cases g1; exact ⟨stringAt_unique h2 g2, rfl⟩

theorem kernelEnumerator_unique {tb : Btf} (hw : EnumWords tb.types) {t : Nat} {nm : List UInt8} {v w : Nat}
    (h : KernelEnumerator tb t nm v) (h' : KernelEnumerator tb t nm w) : v = w := by
  obtain ⟨r, tt, k, n, b, h1, h2, h3, h4, h5⟩ := h
  obtain ⟨r', tt', k', n', b', g1, g2, g3, g4, g5⟩ := h'
  obtain ⟨rfl, rfl⟩ := resolves_unique h1 g1
  cases base_unique h3 g3
  have : k = k' := by
    rcases Nat.lt_trichotomy k k' with lt | e | gt
    · exact absurd h4 (g5 _ _ _ lt h2)
    · exact e
    · exact absurd g4 (h5 _ _ _ gt g2)
  subst this
  exact (enumerator_unique h2 g2).2

theorem matchEnum_some {lb tb : Btf} (hw : EnumWords tb.types) {kind : RelKind} (hk : kind = .enumExists ∨ kind = .enumValue)
    {l : AccSpec} {a i : Nat} {nm : List UInt8} (hl : l.accessors = [⟨a, i, some nm⟩]) {c : Cand} {t : AccSpec}
    (h : matchCandidate lb tb kind l c = .ok (some t)) :
    ∃ (r k v : Nat) (tt : BtfType), t.accessors = [⟨r, k, none⟩] ∧ tb.types[r]? = some tt ∧ variantValue tt k = .ok v ∧
      KernelEnumerator tb c.tyId nm v := by
  have e : matchCandidate lb tb kind l c = matchEnum tb l c := by rcases hk with rfl | rfl <;> rfl
  rw [e, matchEnum] at h
  obtain ⟨r, hr, h⟩ := bind_ok.mp h
  obtain ⟨tt, htt, h⟩ := bind_ok.mp h
  have htt := typeById_ok.mp (lift_ok.mp htt)
  have hr := resolve_ok (lift_ok.mp hr) htt
  split at h
  · cases h
  · rename_i names hnames
    rw [hl] at h
    obtain ⟨o, ho, h⟩ := bind_ok.mp h
    cases o with
    | none => cases h
    | some k =>
      cases h
      obtain ⟨j, x, s, g1, g2, g3, g4, g5⟩ := (enumLoop_ok ho).1 k rfl
      rw [Nat.zero_add] at g1; subst g1
      obtain ⟨v, hv⟩ := variantNames_value hnames g2
      have hen := variantNames_enumerator hnames g2 g3 hv (fun n i s vs x e hx => hw n i s vs x (e ▸ List.mem_of_getElem? htt) hx)
      refine ⟨r, k, v, tt, rfl, htt, hv, r, tt, k, s, flavorless nm, hr, hen, flavorless_base nm, g4 ▸ flavorless_base s, ?_⟩
      intro k' n' v' hk' hen' hb
      obtain ⟨names', o', e1, e2, e3⟩ := enumerator_names hen'
      rw [hnames] at e1; cases e1
      exact g5 k' o' n' hk' e2 e3 (base_unique hb (flavorless_base n')).symm.symm
  
theorem matchEnum_none {lb tb : Btf} {kind : RelKind} (hk : kind = .enumExists ∨ kind = .enumValue)
    {l : AccSpec} {a i : Nat} {nm : List UInt8} (hl : l.accessors = [⟨a, i, some nm⟩]) {c : Cand}
    (h : matchCandidate lb tb kind l c = .ok none) : ∀ v, ¬ KernelEnumerator tb c.tyId nm v := by
  have e : matchCandidate lb tb kind l c = matchEnum tb l c := by rcases hk with rfl | rfl <;> rfl
  rw [e, matchEnum] at h
  obtain ⟨r, hr, h⟩ := bind_ok.mp h
  obtain ⟨tt, htt, h⟩ := bind_ok.mp h
  have htt := typeById_ok.mp (lift_ok.mp htt)
  have hr := resolve_ok (lift_ok.mp hr) htt
  rintro v ⟨r', tt', k, n, b, h1, h2, h3, h4, _⟩
  obtain ⟨rfl, rfl⟩ := resolves_unique hr h1
  obtain ⟨names, o, e1, e2, e3⟩ := enumerator_names h2
  rw [e1, hl] at h
  obtain ⟨oo, ho, h⟩ := bind_ok.mp h
  cases oo with
  | some k => cases h
  | none => exact (enumLoop_ok ho).2 rfl k o n e2 e3 (flavorless_eq.mpr ⟨b, h3, h4⟩)

theorem specNew_enum {b : Btf} {root i : Nat} {kind : RelKind} (hk : kind = .enumExists ∨ kind = .enumValue) (hi : i < 2 ^ 64)
    {l : AccSpec} (h : specNew b root (accessString [i]) kind = .ok l) :
    ∃ (r : Nat) (ty : BtfType) (names : List Nat) (o : Nat) (nm : List UInt8), Resolves b.types root r ty ∧ variantNames ty = some names ∧ names[i]? = some o ∧
      StringAt b.strings o nm ∧ l.accessors = [⟨r, i, some nm⟩] := by
  have e : specNew b root (accessString [i]) kind = (do
    let tyId ← lift (resolveType b.types root)
    let ty ← lift (typeById b.types tyId)
    match variantNames ty with
      | none => .error .invalidKindForType
      | some names =>
          match names[i]? with
          | none => .error (.invalidAccessIndex i names.length)
          | some n => do
            let nm ← lift (b.stringAt n)
            .ok ⟨root, [i], [⟨tyId, i, some nm⟩], 0⟩) := by
    unfold specNew
    rw [parseParts_access [i] (by simp) (by simpa using hi)]
    rcases hk with rfl | rfl <;> rfl
  rw [e] at h
  obtain ⟨r, hr, h⟩ := bind_ok.mp h
  obtain ⟨ty, hty, h⟩ := bind_ok.mp h
  have hr := resolve_ok (lift_ok.mp hr) (typeById_ok.mp (lift_ok.mp hty))
  split at h
  · cases h
  · rename_i names hnames
    split at h
    · cases h
    · rename_i n hn
      obtain ⟨nm, hnm, h⟩ := bind_ok.mp h
      cases h
      exact ⟨r, ty, names, n, nm, hr, hnames, hn, C17_string _ _ _ (lift_ok.mp hnm), rfl⟩

/-- The program's own enumerator a relocation record names. -/
def LocalName (lb : Btf) (l i : Nat) (nm : List UInt8) : Prop :=
  ∃ (r : Nat) (ty : BtfType) (v : Nat), Resolves lb.types l r ty ∧ Enumerator lb.strings ty i nm v

/-- **C64.** A relocation of the value of the program's enumerator number `i`: if it is resolved, some candidate type of
the kernel has an enumerator of this name up to flavour, and each candidate's first such has the relocated value; the
instruction is poisoned exactly if no candidate has one. -/
theorem C64_enum_value (lb tb : Btf) (hlw : EnumWords lb.types) (hw : EnumWords tb.types) (r : Relo) (i : Nat) (hi : i < 2 ^ 64)
    (c : Comp) (hk : r.kind = .enumValue) (hacc : lb.stringAt r.accessOff = .ok (accessString [i]))
    (h : compute lb tb r = .ok c) :
    ∃ nm, LocalName lb r.typeId i nm ∧
      (∀ v, c.target = some v → (∃ t, Candidate lb tb r.typeId t ∧ KernelEnumerator tb t nm v.value) ∧
        ∀ t w, Candidate lb tb r.typeId t → KernelEnumerator tb t nm w → w = v.value) ∧
      (c.target = none ↔ ∀ t w, Candidate lb tb r.typeId t → ¬ KernelEnumerator tb t nm w) := by
  obtain ⟨lt, lname, access, l, cs, ms, h1, h2, h3, h4, h5, h6, h7⟩ := compute_parts (by rw [hk]; decide) h
  rw [hacc] at h3; cases h3
  have hcand := candidate_iff h1 h2 h5
  rw [hk] at h4 h6 h7
  obtain ⟨rr, ty, names, o, nm, s1, s2, s3, s4, s5⟩ := specNew_enum (.inr rfl) hi h4
  obtain ⟨lv, hlv⟩ := variantNames_value s2 s3
  have hloc : LocalName lb r.typeId i nm := by
    refine ⟨rr, ty, lv, s1, variantNames_enumerator s2 s3 s4 hlv ?_⟩
    intro n i s vs x e hx
    obtain ⟨_, _, _, hty, _⟩ := s1
    exact hlw n i s vs x (e ▸ List.mem_of_getElem? hty) hx
  -- the value computed for a match
  have hval : ∀ {cand : Cand} {t : AccSpec} {comp : Comp}, matchCandidate lb tb .enumValue l cand = .ok (some t) →
      compNew lb tb .enumValue l (some t) = .ok comp →
      ∃ v, comp.target = some ⟨v, 0, none⟩ ∧ KernelEnumerator tb cand.tyId nm v := by
    intro cand t comp hm hc
    obtain ⟨r', k, v, tt, g1, g2, g3, g4⟩ := matchEnum_some hw (.inr rfl) s5 hm
    refine ⟨v, ?_, g4⟩
    unfold compNew at hc
    simp only at hc
    obtain ⟨x, _, hc⟩ := bind_ok.mp hc
    have : computeEnum tb .enumValue (some t) = .ok ⟨v, 0, none⟩ := by
      unfold computeEnum
      rw [if_neg (by decide)]
      simp only [g1, typeById_ok.mpr g2, lift_okk, ok_bind, g3]
    rw [this] at hc
    cases hc
    rfl
  -- a kernel enumerator is matched
  have hmatch : ∀ t w, Candidate lb tb r.typeId t → KernelEnumerator tb t nm w → ∃ m ∈ ms, m.comp.target = some ⟨w, 0, none⟩ := by
    intro t w hc hke
    obtain ⟨n, hn⟩ := (hcand t).mpr hc
    obtain ⟨o, ho⟩ := collect_total h6 _ hn
    cases o with
    | none => exact absurd hke (matchEnum_none (.inr rfl) s5 ho w)
    | some t' =>
      obtain ⟨comp, g1, g2⟩ := collect_ok h6 _ hn t' ho
      obtain ⟨v, e1, e2⟩ := hval ho g1
      cases kernelEnumerator_unique hw e2 hke
      exact ⟨_, g2, e1⟩
  have hms : ∀ m ∈ ms, ∃ t v, Candidate lb tb r.typeId t ∧ m.comp.target = some ⟨v, 0, none⟩ ∧ KernelEnumerator tb t nm v := by
    intro m hm
    obtain ⟨cand, g1, g2, g3⟩ := collect_mem h6 m hm
    obtain ⟨v, e1, e2⟩ := hval g2 g3
    exact ⟨cand.tyId, v, (hcand _).mp ⟨cand.name, g1⟩, e1, e2⟩
  refine ⟨nm, hloc, ?_, ?_⟩
  · intro v hv
    rcases h7 with ⟨rfl, hc⟩ | ⟨m, rest, rfl, rfl, hall⟩
    · unfold compNew at hc
      simp only at hc
      obtain ⟨x, _, hc⟩ := bind_ok.mp hc
      cases hc
      cases hv
    · obtain ⟨t, v', e1, e2, e3⟩ := hms m (by simp)
      rw [hv] at e2; cases e2
      refine ⟨⟨t, e1, e3⟩, fun t' w hc hke => ?_⟩
      obtain ⟨m', g1, g2⟩ := hmatch t' w hc hke
      rcases List.mem_cons.mp g1 with rfl | g1
      · rw [hv] at g2; cases g2; rfl
      · have := hall m' g1
        unfold conflicts at this
        split at this
        · cases this
        · rw [g2, hv] at this
          simpa using this
  · constructor
    · intro hn t w hc hke
      obtain ⟨m', g1, g2⟩ := hmatch t w hc hke
      rcases h7 with ⟨rfl, hc⟩ | ⟨m, rest, rfl, rfl, hall⟩
      · simp at g1
      · obtain ⟨t, v', e1, e2, e3⟩ := hms m (by simp)
        rw [hn] at e2; cases e2
    · intro hno
      rcases h7 with ⟨rfl, hc⟩ | ⟨m, rest, rfl, rfl, hall⟩
      · unfold compNew at hc
        simp only at hc
        obtain ⟨x, _, hc⟩ := bind_ok.mp hc
        cases hc
        rfl
      · obtain ⟨t, v', e1, e2, e3⟩ := hms m (by simp)
        exact absurd e3 (hno t v' e1)

/-! ## Existence -/

/-- The kinds of relocation that ask whether something exists. -/
def ExistsKind (k : RelKind) : Prop := k = .fieldExists ∨ k = .enumExists ∨ k = .typeExists

theorem compNew_exists {lb tb : Btf} {kind : RelKind} (hk : ExistsKind kind) {l : AccSpec} {t : Option AccSpec} {c : Comp}
    (h : compNew lb tb kind l t = .ok c) : c.target = some ⟨if t.isSome then 1 else 0, 0, none⟩ := by
  rcases hk with rfl | rfl | rfl
  · unfold compNew at h
    simp only at h
    obtain ⟨x, _, h⟩ := bind_ok.mp h
    cases t <;> cases h <;> rfl
  · unfold compNew at h
    simp only at h
    obtain ⟨x, _, h⟩ := bind_ok.mp h
    cases t <;> cases h <;> rfl
  · unfold compNew at h
    simp only at h
    obtain ⟨x, _, h⟩ := bind_ok.mp h
    cases t <;> cases h <;> rfl

theorem exists_match {lb tb : Btf} {r : Relo} {c : Comp} (hk : ExistsKind r.kind) (h : compute lb tb r = .ok c) :
    ∃ lt lname access l cs v, lb.types[r.typeId]? = some lt ∧ lb.stringAt lt.name = .ok lname ∧
      lb.stringAt r.accessOff = .ok access ∧ specNew lb r.typeId access r.kind = .ok l ∧
      findCandidates tb lt lname = .ok cs ∧ (∀ cand ∈ cs, ∃ o, matchCandidate lb tb r.kind l cand = .ok o) ∧
      c.target = some v ∧ (v.value = 0 ∨ v.value = 1) ∧
      (v.value = 1 ↔ ∃ cand ∈ cs, ∃ t, matchCandidate lb tb r.kind l cand = .ok (some t)) := by
  have hne : r.kind ≠ .typeIdLocal := by rcases hk with h | h | h <;> rw [h] <;> decide
  obtain ⟨lt, lname, access, l, cs, ms, h1, h2, h3, h4, h5, h6, h7⟩ := compute_parts hne h
  rcases h7 with ⟨rfl, hc⟩ | ⟨m, rest, rfl, rfl, hall⟩
  · refine ⟨lt, lname, access, l, cs, _, h1, h2, h3, h4, h5, collect_total h6, compNew_exists hk hc, .inl rfl, ?_⟩
    constructor
    · intro g; cases g
    · rintro ⟨cand, hc, t, ht⟩
      obtain ⟨_, _, g⟩ := collect_ok h6 cand hc t ht
      simp at g
  · obtain ⟨cand, g1, g2, g3⟩ := collect_mem h6 m (by simp)
    exact ⟨lt, lname, access, l, cs, _, h1, h2, h3, h4, h5, collect_total h6, compNew_exists hk g3, .inr rfl,
      fun _ => ⟨cand, g1, _, g2⟩, fun _ => rfl⟩

/-- **C64.** "Does the enumerator exist" is relocated to 1 if some candidate type of the kernel has an enumerator of this
name up to flavour, else to 0. -/
theorem C64_enum_exists (lb tb : Btf) (hlw : EnumWords lb.types) (hw : EnumWords tb.types) (r : Relo) (i : Nat) (hi : i < 2 ^ 64)
    (c : Comp) (hk : r.kind = .enumExists) (hacc : lb.stringAt r.accessOff = .ok (accessString [i]))
    (h : compute lb tb r = .ok c) :
    ∃ nm v, LocalName lb r.typeId i nm ∧ c.target = some v ∧ (v.value = 0 ∨ v.value = 1) ∧
      (v.value = 1 ↔ ∃ t w, Candidate lb tb r.typeId t ∧ KernelEnumerator tb t nm w) := by
  obtain ⟨lt, lname, access, l, cs, v, h1, h2, h3, h4, h5, h6, h7, h8, h9⟩ := exists_match (.inr (.inl hk)) h
  rw [hacc] at h3; cases h3
  have hcand := candidate_iff h1 h2 h5
  rw [hk] at h4 h6 h9
  obtain ⟨rr, ty, names, o, nm, s1, s2, s3, s4, s5⟩ := specNew_enum (.inl rfl) hi h4
  obtain ⟨lv, hlv⟩ := variantNames_value s2 s3
  have hloc : LocalName lb r.typeId i nm := by
    refine ⟨rr, ty, lv, s1, variantNames_enumerator s2 s3 s4 hlv ?_⟩
    intro n i s vs x e hx
    obtain ⟨_, _, _, hty, _⟩ := s1
    exact hlw n i s vs x (e ▸ List.mem_of_getElem? hty) hx
  refine ⟨nm, v, hloc, h7, h8, h9.trans ⟨?_, ?_⟩⟩
  · rintro ⟨cand, hc, t, ht⟩
    obtain ⟨_, _, w, _, _, _, _, g⟩ := matchEnum_some hw (.inl rfl) s5 ht
    exact ⟨cand.tyId, w, (hcand _).mp ⟨cand.name, hc⟩, g⟩
  · rintro ⟨t, w, hc, hke⟩
    obtain ⟨n, hn⟩ := (hcand t).mpr hc
    obtain ⟨o, ho⟩ := h6 _ hn
    cases o with
    | none => exact absurd hke (matchEnum_none (.inl rfl) s5 ho w)
    | some t' => exact ⟨_, hn, t', ho⟩

/-- **C64.** "Does the field exist" is relocated to 1 if in some candidate type of the kernel a path of members of the same
names and compatible types leads to it, else to 0. What is missing: as in C20. -/
theorem C64_field_exists_partial (lb tb : Btf) (hw : Words tb.types) (hdis : Distinct tb)
    (hflex : ∀ n k e x len, BtfType.array n k e x len ∈ tb.types → len ≠ 0) (r : Relo) (parts : List Nat) (ss : List Step)
    (hp : ∀ p ∈ parts, p < 2 ^ 64) (hne : parts ≠ []) (c : Comp) (hk : r.kind = .fieldExists)
    (hacc : lb.stringAt r.accessOff = .ok (accessString parts))
    (hs : Spells lb.types lb.strings true r.typeId parts ss) (h : compute lb tb r = .ok c) :
    ∃ v, c.target = some v ∧ (v.value = 0 ∨ v.value = 1) ∧
      (v.value = 1 ↔ ∃ t off last, Candidate lb tb r.typeId t ∧ PathAt lb tb true t ss off last) := by
  obtain ⟨lt, lname, access, l, cs, v, h1, h2, h3, h4, h5, h6, h7, h8, h9⟩ := exists_match (.inl hk) h
  rw [hacc] at h3; cases h3
  have hcand := candidate_iff h1 h2 h5
  rw [hk] at h4 h6 h9
  have hfk : FieldKind .fieldExists := .inr (.inr (.inl rfl))
  refine ⟨v, h7, h8, h9.trans ⟨?_, ?_⟩⟩
  · rintro ⟨cand, hc, t, ht⟩
    obtain ⟨off, last, g, _⟩ := C20_path_partial lb tb hw _ parts _ l t cand ss hfk hp hne hs h4 ht
    exact ⟨cand.tyId, off, last, (hcand _).mp ⟨cand.name, hc⟩, g⟩
  · rintro ⟨t, off, last, hc, hpath⟩
    obtain ⟨n, hn⟩ := (hcand t).mpr hc
    obtain ⟨o, ho⟩ := h6 _ hn
    cases o with
    | none => exact absurd hpath (C20_missing_partial lb tb hw hdis hflex _ parts _ l _ ss hfk hp hne hs h4 ho off last)
    | some t' => exact ⟨_, hn, t', ho⟩

/-! ## Types -/

theorem matchType {lb tb : Btf} {kind : RelKind} (hk : kind = .typeExists ∨ kind = .typeSize ∨ kind = .typeIdTarget)
    {l : AccSpec} {c : Cand} {o : Option AccSpec} (h : matchCandidate lb tb kind l c = .ok o) :
    ∃ lt tt : BtfType, lb.types[l.root]? = some lt ∧ tb.types[c.tyId]? = some tt ∧
      ((∃ t, o = some t) ↔ Kinds lt tt ∧ SameType lb tb l.root c.tyId) ∧ ∀ t, o = some t → t.root = c.tyId ∧ t.bitOffset = 0 := by
  have e : matchCandidate lb tb kind l c = (do
    let ok ← typesCompatible lb l.root tb c.tyId
    .ok (if ok then some ⟨c.tyId, [], [], 0⟩ else none)) := by rcases hk with rfl | rfl | rfl <;> rfl
  rw [e] at h
  obtain ⟨b, hb, h⟩ := bind_ok.mp h
  obtain ⟨lt, tt, h1, h2, h3⟩ := C64_same_type _ _ _ _ _ hb
  cases h
  refine ⟨lt, tt, h1, h2, ?_, ?_⟩
  · rw [show (Kinds lt tt ∧ SameType lb tb l.root c.tyId) ↔ b = true from h3.symm]
    cases b <;> simp
  · intro t ht
    cases b with
    | false => cases ht
    | true => cases ht; exact ⟨rfl, rfl⟩

theorem specNew_root {b : Btf} {root : Nat} {access : List UInt8} {kind : RelKind} {l : AccSpec}
    (hk : kind = .typeExists ∨ kind = .typeSize ∨ kind = .typeIdTarget ∨ kind = .typeIdLocal)
    (h : specNew b root access kind = .ok l) : l.root = root := by
  unfold specNew at h
  split at h
  · cases h
  · rename_i parts _
    obtain ⟨_, _, h⟩ := bind_ok.mp h
    obtain ⟨_, _, h⟩ := bind_ok.mp h
    have : (if parts ≠ [0] then .error .invalidAccessString else .ok ⟨root, parts, [], 0⟩ : Except RFail AccSpec) = .ok l := by
      rcases hk with rfl | rfl | rfl | rfl <;> exact h
    split at this
    · cases this
    · cases this; rfl

/-- A candidate type of the kernel that is the same type. -/
def KernelType (lb tb : Btf) (l t : Nat) : Prop := Candidate lb tb l t ∧ SameType lb tb l t

/-- The type of the program is not an enum of 64-bit values rewritten into a union for an old kernel. -/
def NotReplaced (lb : Btf) (l : Nat) : Prop := ∀ nm i s ms f, lb.types[l]? ≠ some (.union nm i s ms (some f))

theorem kernelType_kinds {lb tb : Btf} {l t : Nat} {lt tt : BtfType} (hnr : NotReplaced lb l) (h : Candidate lb tb l t)
    (hl : lb.types[l]? = some lt) (ht : tb.types[t]? = some tt) : Kinds lt tt := by
  obtain ⟨lt', tt', _, _, _, h1, h2, _, _, _, _, h3⟩ := h
  rw [hl] at h1; cases h1
  rw [ht] at h2; cases h2
  rcases h3 with h | ⟨_, nm, i, s, ms, f, rfl⟩
  · exact .inl h.symm
  · exact absurd hl (hnr nm i s ms f)

/-- **C64.** "Does the type exist" is relocated to 1 if the kernel has the type, else to 0. What is missing: enums of 64-bit
values that were rewritten into unions (`C64_replaced_violated`). -/
theorem C64_type_exists_partial (lb tb : Btf) (r : Relo) (c : Comp) (hk : r.kind = .typeExists) (hnr : NotReplaced lb r.typeId)
    (h : compute lb tb r = .ok c) :
    ∃ v, c.target = some v ∧ (v.value = 0 ∨ v.value = 1) ∧ (v.value = 1 ↔ ∃ t, KernelType lb tb r.typeId t) := by
  obtain ⟨lt, lname, access, l, cs, v, h1, h2, h3, h4, h5, h6, h7, h8, h9⟩ := exists_match (.inr (.inr hk)) h
  have hcand := candidate_iff h1 h2 h5
  rw [hk] at h4 h6 h9
  have hroot := specNew_root (.inl rfl) h4
  refine ⟨v, h7, h8, h9.trans ⟨?_, ?_⟩⟩
  · rintro ⟨cand, hc, t, ht⟩
    obtain ⟨_, _, _, _, g, _⟩ := matchType (.inl rfl) ht
    have := (g.mp ⟨t, rfl⟩).2
    rw [hroot] at this
    exact ⟨cand.tyId, (hcand _).mp ⟨cand.name, hc⟩, this⟩
  · rintro ⟨t, hc, hsame⟩
    obtain ⟨n, hn⟩ := (hcand t).mpr hc
    obtain ⟨o, ho⟩ := h6 _ hn
    obtain ⟨lt', tt, g1, g2, g3, _⟩ := matchType (.inl rfl) ho
    rw [hroot] at g1 g3
    obtain ⟨t', rfl⟩ := g3.mpr ⟨kernelType_kinds hnr hc g1 g2, hsame⟩
    exact ⟨_, hn, t', ho⟩

/-- **C64.** A relocation of the id of the program's own type gives that id, whatever the kernel has. -/
theorem C64_local_id (lb tb : Btf) (r : Relo) (c : Comp) (hk : r.kind = .typeIdLocal) (h : compute lb tb r = .ok c) :
    ∃ v, c.target = some v ∧ v.value = r.typeId := by
  unfold compute at h
  obtain ⟨lt, h1, h⟩ := bind_ok.mp h
  obtain ⟨lname, h2, h⟩ := bind_ok.mp h
  obtain ⟨access, h3, h⟩ := bind_ok.mp h
  obtain ⟨l, h4, h⟩ := bind_ok.mp h
  rw [hk] at h4 h
  simp only [if_true] at h
  obtain ⟨ms, h5, h⟩ := bind_ok.mp h
  cases h5
  obtain ⟨c', h6, h⟩ := bind_ok.mp h
  cases h6
  simp only [compNew] at h
  obtain ⟨lv, h7, h⟩ := bind_ok.mp h
  obtain ⟨tv, h8, h⟩ := bind_ok.mp h
  cases h
  have hroot := specNew_root (.inr (.inr (.inr rfl))) h4
  simp only [computeType, dropError, Except.ok.injEq] at h7 h8
  exact ⟨_, h8.symm, hroot⟩

/-- The numbers of the kernel's `enum bpf_core_relo_kind` (`include/uapi/linux/bpf.h`). -/
def kindTable : List (Nat × RelKind) :=
  [(0, .fieldByteOffset), (1, .fieldByteSize), (2, .fieldExists), (3, .fieldSigned), (4, .fieldLShift), (5, .fieldRShift),
   (6, .typeIdLocal), (7, .typeIdTarget), (8, .typeExists), (9, .typeSize), (10, .enumExists), (11, .enumValue)]

/-- **C64.** What a record asks for is what its kind number means to the compiler; a record of another kind is refused. -/
theorem C64_kinds (n : Nat) (k : RelKind) : RelKind.ofWord n = some k ↔ (n, k) ∈ kindTable := by
  constructor
  · intro h
    unfold RelKind.ofWord at h
    split at h <;> first | (cases h; decide) | cases h
  · intro h
    have : ∀ p ∈ kindTable, RelKind.ofWord p.1 = some p.2 := by decide
    exact this _ h

/-- **C64.** A relocation of the size or the id of a kernel type that succeeds: the kernel has the type, and every candidate
that is the same type has this size or id. What is missing: the case that the kernel does not have the type
(`C64_missing_type_violated`), and as above. -/
theorem C64_type_value_partial (lb tb : Btf) (r : Relo) (c : Comp) (hk : r.kind = .typeSize ∨ r.kind = .typeIdTarget)
    (hnr : NotReplaced lb r.typeId) (h : compute lb tb r = .ok c) :
    ∃ v, c.target = some v ∧ (∃ t, KernelType lb tb r.typeId t) ∧ ∀ t, KernelType lb tb r.typeId t →
      (r.kind = .typeSize → Sized tb.types t v.value) ∧ (r.kind = .typeIdTarget → v.value = t) := by
  have hne : r.kind ≠ .typeIdLocal := by rcases hk with h | h <;> rw [h] <;> decide
  obtain ⟨lt, lname, access, l, cs, ms, h1, h2, h3, h4, h5, h6, h7⟩ := compute_parts hne h
  have hcand := candidate_iff h1 h2 h5
  have hroot := specNew_root (hk.elim (fun h => .inr (.inl h)) (fun h => .inr (.inr (.inl h)))) h4
  have hk' : r.kind = .typeExists ∨ r.kind = .typeSize ∨ r.kind = .typeIdTarget := .inr hk
  have hcomp : ∀ {t : Option AccSpec} {comp : Comp}, compNew lb tb r.kind l t = .ok comp →
      ∃ s v, t = some s ∧ comp.target = some v ∧ (r.kind = .typeSize → Sized tb.types s.root v.value) ∧
        (r.kind = .typeIdTarget → v.value = s.root) := by
    intro t comp hc
    have e : compNew lb tb r.kind l t = (do
      let lv ← computeType tb r.kind l.root t
      let tv ← dropError (computeType tb r.kind l.root t)
      .ok ⟨lv, tv⟩) := by rcases hk with h | h <;> rw [h] <;> rfl
    rw [e] at hc
    obtain ⟨lv, hlv, hc⟩ := bind_ok.mp hc
    rw [hlv] at hc
    cases hc
    rcases hk with hk | hk
    · rw [hk] at hlv
      cases t with
      | none => cases hlv
      | some s =>
        rw [show computeType tb .typeSize l.root (some s) = (do
          let size ← lift (typeSize tb.types s.root)
          .ok ⟨size, 0, none⟩) from rfl] at hlv
        obtain ⟨sz, hsz, hlv⟩ := bind_ok.mp hlv
        cases hlv
        exact ⟨s, _, rfl, rfl, fun _ => typeSize_sized (lift_ok.mp hsz), fun h => (by rw [hk] at h; cases h)⟩
    · rw [hk] at hlv
      cases t with
      | none => cases hlv
      | some s =>
        cases hlv
        exact ⟨s, _, rfl, rfl, fun h => (by rw [hk] at h; cases h), fun _ => rfl⟩
  rcases h7 with ⟨rfl, hc⟩ | ⟨m, rest, rfl, rfl, hall⟩
  · obtain ⟨s, v, e, _⟩ := hcomp hc
    cases e
  · obtain ⟨cand, g1, g2, g3⟩ := collect_mem h6 m (by simp)
    obtain ⟨s, v, e, hv, _⟩ := hcomp g3
    cases e
    obtain ⟨_, _, _, _, k1, _⟩ := matchType hk' g2
    have hsame := (k1.mp ⟨_, rfl⟩).2
    rw [hroot] at hsame
    refine ⟨v, hv, ⟨cand.tyId, (hcand _).mp ⟨cand.name, g1⟩, hsame⟩, ?_⟩
    rintro t ⟨hc, hsame'⟩
    obtain ⟨n, hn⟩ := (hcand t).mpr hc
    obtain ⟨o, ho⟩ := collect_total h6 _ hn
    obtain ⟨lt', tt, q1, q2, q3, q4⟩ := matchType hk' ho
    rw [hroot] at q1 q3
    obtain ⟨t', rfl⟩ := q3.mpr ⟨kernelType_kinds hnr hc q1 q2, hsame'⟩
    obtain ⟨comp, p1, p2⟩ := collect_ok h6 _ hn t' ho
    obtain ⟨s', v', e', hv', z1, z2⟩ := hcomp p1
    cases e'
    have hval : v'.value = v.value := by
      rcases List.mem_cons.mp p2 with e | p2
      · subst e
        simp only at hv
        rw [hv] at hv'; cases hv'; rfl
      · have := hall _ p2
        unfold conflicts at this
        split at this
        · cases this
        · simp only [hv', hv] at this
          simpa using this
    have hr := (q4 t' rfl).1
    simp only at hr
    rw [hval, hr] at z1
    rw [hval, hr] at z2
    exact ⟨z1, z2⟩

/-! ## Concrete cases and violations -/

/-- `enum state { IDLE = 0, BUSY = 1 }`; "1" at 18, "sec" at 20. -/
def localEnum : Btf := btfOf ",state,IDLE,BUSY,1,sec," [mkEnum 1 false [⟨7, 0⟩, ⟨12, 1⟩]]

/-- The kernel's `enum state { NEW = 3, BUSY = -2 }`, signed. -/
def kernelEnum : Btf := btfOf ",state,NEW,BUSY," [mkEnum 1 true [⟨7, 3⟩, ⟨11, 0xfffffffe⟩]]

/-- `r1 = 1 ll`. -/
def funcE : Linker.Func := ⟨0, 5, 16, [⟨0x18, 1, 0, 0, 1⟩, ⟨0, 0, 0, 0, 0⟩], [], []⟩

/-- The value of `BUSY` becomes -2 in 64 bits, its existence 1. -/
example : relocateBtf localEnum kernelEnum infos [(19, [⟨.enumValue, 16, 1, 17⟩])] [(5, funcE)] =
      .ok [(5, { funcE with insns := [⟨0x18, 1, 0, 0, -2⟩, ⟨0, 0, 0, 0, -1⟩] })] ∧
    relocateBtf localEnum kernelEnum infos [(19, [⟨.enumExists, 16, 1, 17⟩])] [(5, funcE)] =
      .ok [(5, { funcE with insns := [⟨0x18, 1, 0, 0, 1⟩, ⟨0, 0, 0, 0, 0⟩] })] := by
  constructor <;> decide +kernel

/-- The hypotheses of `C64_enum_value` hold. -/
example : EnumWords localEnum.types ∧ EnumWords kernelEnum.types ∧ localEnum.stringAt 17 = .ok (accessString [1]) := by
  refine ⟨?_, ?_, by decide +kernel⟩
  · intro n i s vs x h hx
    simp [localEnum, btfOf, mkEnum] at h
    obtain ⟨_, _, _, rfl⟩ := h
    simp at hx
    rcases hx with rfl | rfl <;> decide
  · intro n i s vs x h hx
    simp [kernelEnum, btfOf, mkEnum] at h
    obtain ⟨_, _, _, rfl⟩ := h
    simp at hx
    rcases hx with rfl | rfl <;> decide

/-- `struct task` with "0" at 8. -/
def localType : Btf := btfOf ",task,a,0,sec," [mkInt 0 4 1 0, mkStruct 1 [⟨6, 1, 0⟩] 4]

/-- `if (r1 = exists(struct task)) r2 = sizeof(struct task)`: both instructions are relocated. -/
def funcT : Linker.Func := ⟨0, 5, 16, [⟨0xb7, 1, 0, 0, 1⟩, ⟨0x15, 1, 0, 1, 0⟩, ⟨0xb7, 2, 0, 0, 4⟩, ⟨0x95, 0, 0, 0, 0⟩], [], []⟩

example : relocateBtf localType kernelTask infos [(10, [⟨.typeExists, 16, 2, 8⟩, ⟨.typeSize, 32, 2, 8⟩])] [(5, funcT)] =
    .ok [(5, { funcT with insns := [⟨0xb7, 1, 0, 0, 1⟩, ⟨0x15, 1, 0, 1, 0⟩, ⟨0xb7, 2, 0, 0, 16⟩, ⟨0x95, 0, 0, 0, 0⟩] })] := by
  decide +kernel

/-- The id of the program's own type, for `C64_local_id`. -/
example : relocateBtf localType kernelTask infos [(10, [⟨.typeIdLocal, 16, 2, 8⟩])] [(5, funcT)] =
    .ok [(5, { funcT with insns := funcT.insns.set 0 { funcT.insns.headD default with imm := 2 } })] := by decide +kernel

/-- **C64 violated**: a program that uses the size of a type only after checking that the type exists cannot be loaded on a
kernel without it: the size is not poisoned, relocation fails. (With the enumerator kinds it is poisoned.) -/
theorem C64_missing_type_violated :
    relocateBtf localType (btfOf "," []) infos [(10, [⟨.typeExists, 16, 2, 8⟩, ⟨.typeSize, 32, 2, 8⟩])] [(5, funcT)] =
      .error .missingTarget ∧
    relocateBtf localEnum (btfOf "," []) infos [(19, [⟨.enumValue, 16, 1, 17⟩])] [(5, funcE)] =
      .ok [(5, { funcE with insns := [poisoned, poisoned] })] := by
  constructor <;> decide +kernel

/-- An `enum big` of 64-bit values as rewritten for a kernel without BTF support for it, and the kernel's own. -/
def localBig : Btf :=
  btfOf ",big,A,0,sec," [.union 1 (5 * 2 ^ 24 + 1) 8 [⟨5, 2, 0⟩] (some ⟨false, [⟨5, 2 ^ 40⟩]⟩), mkInt 0 8 0 0]

def kernelBig : Btf := btfOf ",big,A," [mkEnum64 1 false [⟨5, 7, 1⟩]]

/-- **C64 violated**: for an enum of 64-bit values that was rewritten, the enumerators of the kernel's enum are found, but
the type itself is said not to exist. -/
theorem C64_replaced_violated :
    relocateBtf localBig kernelBig infos [(9, [⟨.typeExists, 16, 1, 7⟩])] [(5, funcE)] =
      .ok [(5, { funcE with insns := [⟨0x18, 1, 0, 0, 0⟩, ⟨0, 0, 0, 0, 0⟩] })] ∧
    relocateBtf localBig kernelBig infos [(9, [⟨.enumValue, 16, 1, 7⟩])] [(5, funcE)] =
      .ok [(5, { funcE with insns := [⟨0x18, 1, 0, 0, 7⟩, ⟨0, 0, 0, 0, 1⟩] })] := by
  constructor <;> decide +kernel

end Verif.Core
