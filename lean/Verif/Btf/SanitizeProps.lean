import Verif.Btf.SanitizeGood
import Verif.Common.Except
/-!
# C14: sanitising BTF for the running kernel
-/
set_option linter.unusedSimpArgs false
set_option linter.unusedVariables false
namespace Verif.Btf
open Verif.Bytes Verif.Btf.Spec

theorem getFiller_len (s : San) : s.b.types.length ≤ (getFiller s).1.b.types.length := by
  unfold getFiller
  cases s.filler with
  | some _ => exact Nat.le_refl _
  | none => simp [Btf.addType, Btf.addString]

theorem getPlaceholder_len (s : San) : s.b.types.length ≤ (getPlaceholder s).1.b.types.length := by
  unfold getPlaceholder
  cases s.placeholder with
  | some _ => exact Nat.le_refl _
  | none => simp [Btf.addType, Btf.addString]

theorem setType_len (s : San) (i : Nat) (t : BtfType) : (s.setType i t).b.types.length = s.b.types.length := by
  simp [San.setType]

theorem renamed_types (b : Btf) (a c : UInt8) (name : List UInt8) (n : Nat) : (renamed b a c name n).1.types = b.types := by
  unfold renamed
  simp only
  split <;> rfl

theorem fixDataSec_len {f : Feat} {secSize symOff : List UInt8 → Option Nat} {s s' : San} {i n : Nat} {name : List UInt8}
    {es : List SecEntry} (h : fixDataSec f secSize symOff s i n name es = .ok s') : s.b.types.length ≤ s'.b.types.length := by
  unfold fixDataSec at h
  split at h
  · cases h
  rename_i size64 hsz
  simp only at h
  by_cases hcond : (es.isEmpty && (size64 % 2 ^ 32 == 0 || !f.dataSecZero)) = true
  · simp only [if_pos hcond] at h
    split at h
    · cases h
    cases h
    rw [setType_len]
    simp only [resized_types]
    exact getFiller_len s
  · simp only [if_neg hcond] at h
    split at h
    · cases h
    cases h
    rw [setType_len]
    simp only [resized_types]
    exact Nat.le_refl _

theorem sanitizeOne_len {f : Feat} {secSize symOff : List UInt8 → Option Nat} {s s' : San} {i : Nat}
    (h : sanitizeOne f secSize symOff s i = .ok s') : s.b.types.length ≤ s'.b.types.length := by
  unfold sanitizeOne at h
  split at h
  · cases h
  split at h
  · cases h; rw [setType_len]; exact Nat.le_refl _
  · split at h <;> cases h
    · rw [setType_len]; exact Nat.le_refl _
    · exact Nat.le_refl _
  · split at h
    · cases h
    split at h
    · simp only at h
      split at h
      · cases h
      cases h
      rw [setType_len]
      simp only [renamed_types]
      exact Nat.le_refl _
    · simp only at h
      split at h
      · cases h
        rw [setType_len]
        simp only [renamed_types]
        exact Nat.le_refl _
      · have := fixDataSec_len h
        simp only [renamed_types] at this
        exact this
  · split at h <;> cases h
    · rw [setType_len]
      simp only [(nameParams_ok _ _ _).1.1]
      exact Nat.le_refl _
    · rw [setType_len]; exact Nat.le_refl _
  · split at h
    · cases h
    split at h
    · cases h; rw [setType_len]; exact Nat.le_refl _
    split at h
    · split at h
      · cases h; rw [setType_len]; exact Nat.le_refl _
      · split at h <;> cases h
        · rw [setType_len]; exact Nat.le_refl _
        · exact Nat.le_refl _
    · cases h; exact Nat.le_refl _
  · split at h <;> cases h
    · rw [setType_len]; exact Nat.le_refl _
    · exact Nat.le_refl _
  · split at h <;> cases h
    · rw [setType_len]; exact Nat.le_refl _
    · exact Nat.le_refl _
  · split at h <;> cases h
    · rw [setType_len]; exact Nat.le_refl _
    · exact Nat.le_refl _
  · split at h <;> cases h
    · rw [setType_len]; exact Nat.le_refl _
    · exact Nat.le_refl _
  · split at h <;> cases h
    · rw [setType_len]; exact getPlaceholder_len s
    · exact Nat.le_refl _
  · cases h; exact Nat.le_refl _

theorem sanitizeLoop_len {f : Feat} {secSize symOff : List UInt8 → Option Nat} (k i : Nat) (s s' : San)
    (h : sanitizeLoop f secSize symOff k i s = .ok s') : s.b.types.length ≤ s'.b.types.length := by
  induction k generalizing i s with
  | zero => cases h; exact Nat.le_refl _
  | succ k ih =>
    rw [sanitizeLoop] at h
    split at h
    · cases h
    rename_i s1 h1
    exact Nat.le_trans (sanitizeOne_len h1) (ih _ _ h)

/-- State of the loop before record `i`. -/
structure Inv (f : Feat) (secSize symOff : List UInt8 → Option Nat) (b : Btf) (i : Nat) (s : San) : Prop where
  len : b.types.length ≤ s.b.types.length
  rest : ∀ j : Nat, i ≤ j → j < b.types.length → s.b.types[j]? = b.types[j]?
  done : ∀ (j : Nat) (t : BtfType), j < i → b.types[j]? = some t → ∃ t', s.b.types[j]? = some t' ∧
    Becomes f secSize symOff b.types s.b.types s.b.strings t t'
  extra : ∀ (j : Nat) (t : BtfType), b.types.length ≤ j → s.b.types[j]? = some t → Extra f t
  strings : ∃ ext, s.b.strings = b.strings ++ ext
  ph : ∀ p, s.placeholder = some p → PlaceholderAt b.types.length s.b.types p
  fl : ∀ p, s.filler = some p → FillerAt b.types.length s.b.types p

theorem inv_step {f : Feat} {secSize symOff : List UInt8 → Option Nat} {b : Btf} {i : Nat} {s s' : San}
    (hi : i < b.types.length) (inv : Inv f secSize symOff b i s) (h : sanitizeOne f secSize symOff s i = .ok s')
    (hb : s'.b.types.length < 2 ^ 32) : Inv f secSize symOff b (i + 1) s' := by
  have hold : b.types[i]? = some b.types[i] := List.getElem?_eq_getElem hi
  have hcur : s.b.types[i]? = some b.types[i] := by rw [inv.rest i (Nat.le_refl _) hi, hold]
  have hvar : ∀ (j vn vi x l : Nat), b.types[j]? = some (.var vn vi x l) → ∃ t', s.b.types[j]? = some t' ∧ t'.name = vn := by
    intro j vn vi x l hj
    have hjl : j < b.types.length := by rw [List.getElem?_eq_some_iff] at hj; exact hj.1
    by_cases hji : j < i
    · obtain ⟨t', h1, h2⟩ := inv.done j _ hji hj
      refine ⟨t', h1, ?_⟩
      simp only [Becomes] at h2
      split at h2
      · subst h2; rfl
      · obtain ⟨i', d, rfl, _⟩ := h2; rfl
    · exact ⟨_, by rw [inv.rest j (by omega) hjl, hj], rfl⟩
  have st := sanitizeOne_ok inv.len hi hcur hvar inv.ph inv.fl h hb
  obtain ⟨extra, t', hT, hE, hB⟩ := st.types
  obtain ⟨ext, hS⟩ := st.strings
  have g : Grows f b.types.length s.b.types s'.b.types := by
    rw [hT]; exact grows_of hi hcur (becomes_var hB)
  refine ⟨Nat.le_trans inv.len (sanitizeOne_len h), ?_, ?_, ?_, ?_, st.ph, st.fl⟩
  · intro j hj hjl
    have hjs : j < s.b.types.length := Nat.lt_of_lt_of_le hjl inv.len
    rw [hT, List.getElem?_set_ne (by omega), List.getElem?_append_left hjs]
    exact inv.rest j (by omega) hjl
  · intro j t hj hbt
    by_cases hji : j = i
    · subst hji
      rw [hold] at hbt
      cases hbt
      refine ⟨t', ?_, hB⟩
      rw [hT, List.getElem?_set_self]
      have := inv.len
      rw [List.length_append]; omega
    · obtain ⟨t1, h1, h2⟩ := inv.done j t (by omega) hbt
      refine ⟨t1, ?_, ?_⟩
      · have hjs : j < s.b.types.length := by rw [List.getElem?_eq_some_iff] at h1; exact h1.1
        rw [hT, List.getElem?_set_ne (by omega), List.getElem?_append_left hjs, h1]
      · rw [hS]; exact becomes_mono g ext h2
  · intro j t hj ht
    rw [hT, List.getElem?_set_ne (by omega)] at ht
    by_cases hjs : j < s.b.types.length
    · rw [List.getElem?_append_left hjs] at ht
      exact inv.extra j t hj ht
    · rw [List.getElem?_append_right (by omega)] at ht
      exact hE t (List.mem_of_getElem? ht)
  · obtain ⟨e0, h0⟩ := inv.strings
    exact ⟨e0 ++ ext, by rw [hS, h0, List.append_assoc]⟩

theorem inv_loop {f : Feat} {secSize symOff : List UInt8 → Option Nat} {b : Btf} (k i : Nat) (s s' : San)
    (hk : i + k = b.types.length) (inv : Inv f secSize symOff b i s) (h : sanitizeLoop f secSize symOff k i s = .ok s')
    (hb : s'.b.types.length < 2 ^ 32) : Inv f secSize symOff b b.types.length s' := by
  induction k generalizing i s with
  | zero =>
    cases h
    have : i = b.types.length := by omega
    rw [this] at inv
    exact inv
  | succ k ih =>
    rw [sanitizeLoop] at h
    split at h
    · cases h
    rename_i s1 h1
    have hl := sanitizeLoop_len _ _ _ _ h
    exact ih (i + 1) s1 (by omega) (inv_step (by omega) inv h1 (by omega)) h

theorem inv_init (f : Feat) (secSize symOff : List UInt8 → Option Nat) (b : Btf) : Inv f secSize symOff b 0 ⟨b, none, none⟩ :=
  ⟨Nat.le_refl _, fun _ _ _ => rfl, fun j t h => absurd h (by omega),
    fun j t h ht => by rw [List.getElem?_eq_some_iff] at ht; exact absurd ht.1 (by show ¬ j < b.types.length; omega),
    ⟨[], by simp⟩, by simp, by simp⟩

theorem good_loop {f : Feat} {secSize symOff : List UInt8 → Option Nat} (k i : Nat) (s s' : San) (hg : GoodSan s)
    (h : sanitizeLoop f secSize symOff k i s = .ok s') : GoodSan s' := by
  induction k generalizing i s with
  | zero => cases h; exact hg
  | succ k ih =>
    rw [sanitizeLoop] at h
    split at h
    · cases h
    rename_i s1 h1
    exact ih _ _ (sanitizeOne_good hg h1) h

theorem sanitize_split {f : Feat} {secSize symOff : List UInt8 → Option Nat} {b r : Btf}
    (h : fixupAndSanitize f secSize symOff none b = .ok r) :
    ∃ s, sanitizeLoop f secSize symOff b.types.length 0 ⟨b, none, none⟩ = .ok s ∧ s.b = r := by
  unfold fixupAndSanitize fixupExterns at h
  simp only at h
  split at h
  · cases h
  rename_i s hs
  cases h
  exact ⟨s, hs, rfl⟩

/-- **C14.** Sanitising keeps every type id: record `j` of the result is what record `j` of the input may become for this
kernel, whether or not the kernel knows the feature; strings keep their offsets; and what is added is one-byte INTs and, if
sections are supported, static variables. -/
theorem C14_records (f : Feat) (secSize symOff : List UInt8 → Option Nat) (b r : Btf)
    (h : fixupAndSanitize f secSize symOff none b = .ok r) (hr : r.types.length < 2 ^ 32) :
    b.types.length ≤ r.types.length ∧ (∃ ext, r.strings = b.strings ++ ext) ∧
    (∀ (j : Nat) (t : BtfType), b.types[j]? = some t → ∃ t', r.types[j]? = some t' ∧
      Becomes f secSize symOff b.types r.types r.strings t t') ∧
    (∀ (j : Nat) (t : BtfType), b.types.length ≤ j → r.types[j]? = some t →
      (∃ n, ByteInt n t) ∨ (f.dataSec = true ∧ ∃ n i x, t = .var n i x 0)) := by
  obtain ⟨s, hs, rfl⟩ := sanitize_split h
  have inv := inv_loop _ _ _ _ (by omega) (inv_init f secSize symOff b) hs hr
  refine ⟨inv.len, inv.strings, fun j t hj => ?_, inv.extra⟩
  exact inv.done j t (by rw [List.getElem?_eq_some_iff] at hj; exact hj.1) hj

theorem becomes_supported {f : Feat} {secSize symOff : List UInt8 → Option Nat} {oldt newt : List BtfType} {news : List UInt8}
    {t t' : BtfType} (h : Becomes f secSize symOff oldt newt news t t') : Supported f t' ∨ SizedEmptySection t' := by
  cases t with
  | ref k n i x =>
    cases k <;> simp only [Becomes] at h
    · subst h; exact .inl trivial
    · subst h; exact .inl trivial
    · subst h; exact .inl trivial
    · subst h; exact .inl trivial
    · subst h; exact .inl trivial
    · split at h <;> rename_i hf
      · obtain ⟨i', name, rfl, h2, h3, h4, h5⟩ := h
        refine .inl ⟨hf, fun hl => ?_⟩
        by_cases hl0 : Linkage i 1
        · obtain ⟨h6, h7⟩ := h5 hl0
          cases hg : f.funcGlobal with
          | true => rfl
          | false =>
            have := h7 (.inl hg)
            unfold Linkage at this hl; omega
        · rw [h4 hl0] at hl; exact absurd hl hl0
      · obtain ⟨i', rfl, _⟩ := h; exact .inl trivial
    · split at h <;> rename_i hf
      · subst h; exact .inl hf
      · obtain ⟨i', rfl, _⟩ := h; exact .inl trivial
  | var n i x l =>
    simp only [Becomes] at h
    split at h <;> rename_i hf
    · subst h; exact .inl hf
    · obtain ⟨i', d, rfl, _⟩ := h; exact .inl trivial
  | declTag n i x l =>
    simp only [Becomes] at h
    split at h <;> rename_i hf
    · subst h; exact .inl hf
    · obtain ⟨i', d, rfl, _⟩ := h; exact .inl trivial
  | float n i s =>
    simp only [Becomes] at h
    split at h <;> rename_i hf
    · subst h; exact .inl hf
    · obtain ⟨i', rfl, _⟩ := h; exact .inl trivial
  | enum n i s vs =>
    simp only [Becomes] at h
    split at h <;> rename_i hf
    · subst h; exact .inl (fun _ => hf)
    · obtain ⟨i', rfl, _, h2⟩ := h; exact .inl (fun h => absurd h h2)
  | enum64 n i s vs =>
    simp only [Becomes] at h
    split at h <;> rename_i hf
    · subst h; exact .inl hf
    · obtain ⟨i', p, pt, pn, sg, rfl, _⟩ := h; exact .inl trivial
  | funcProto n i r ps =>
    simp only [Becomes] at h
    split at h <;> rename_i hf
    · obtain ⟨ps', rfl, _⟩ := h; exact .inl hf
    · obtain ⟨i', rfl, _, _, h2⟩ := h; exact .inl (fun h => absurd h h2)
  | dataSec n i s es =>
    simp only [Becomes] at h
    split at h <;> rename_i hf
    · obtain ⟨n', i', s', es', rfl, _, h3, h4⟩ := h
      by_cases hs : s = 0
      · left
        refine ⟨hf, fun he => ?_⟩
        obtain ⟨_, _, name, size, _, _, h5, h6⟩ := h4 hs
        by_cases hes : es = []
        · obtain ⟨h7, h8⟩ := h6 hes
          cases hz : f.dataSecZero with
          | true => rfl
          | false =>
            obtain ⟨_, e, h9, _⟩ := h8 (.inr hz)
            rw [he] at h9; cases h9
        · obtain ⟨_, h7, _⟩ := h5 hes
          rw [he] at h7
          exact absurd (List.eq_nil_of_length_eq_zero h7.symm) hes
      · obtain ⟨_, rfl, rfl⟩ := h3 hs
        by_cases he : es' = []
        · exact .inr ⟨hs, he⟩
        · exact .inl ⟨hf, fun h => absurd h he⟩
    · obtain ⟨n', i', s', ms, rfl, _⟩ := h; exact .inl trivial
  | unknown => simp only [Becomes] at h; subst h; exact .inl trivial
  | fwd _ _ => simp only [Becomes] at h; subst h; exact .inl trivial
  | int _ _ _ _ => simp only [Becomes] at h; subst h; exact .inl trivial
  | array _ _ _ _ _ => simp only [Becomes] at h; subst h; exact .inl trivial
  | struct _ _ _ _ => simp only [Becomes] at h; subst h; exact .inl trivial
  | union _ _ _ _ _ => simp only [Becomes] at h; subst h; exact .inl trivial

/-- **C14.** No record of the result uses a feature the kernel lacks, except for empty data sections whose size the
compiler filled in. -/
theorem C14_only_supported_partial (f : Feat) (secSize symOff : List UInt8 → Option Nat) (b r : Btf)
    (h : fixupAndSanitize f secSize symOff none b = .ok r) (hr : r.types.length < 2 ^ 32) (t : BtfType) (ht : t ∈ r.types) :
    Supported f t ∨ SizedEmptySection t := by
  obtain ⟨h1, h2, h3, h4⟩ := C14_records f secSize symOff b r h hr
  obtain ⟨j, hj, rfl⟩ := List.getElem_of_mem ht
  by_cases hjb : j < b.types.length
  · obtain ⟨t', h5, h6⟩ := h3 j _ (List.getElem?_eq_getElem hjb)
    rw [List.getElem?_eq_getElem hj] at h5
    cases h5
    exact becomes_supported h6
  · rcases h4 j _ (by omega) (List.getElem?_eq_getElem hj) with ⟨n, i, d, h5, _⟩ | ⟨h5, n, i, x, h6⟩
    · rw [h5]; exact .inl trivial
    · rw [h6]; exact .inl h5

/-- Every feature. -/
def allFeat : Feat := ⟨true, true, true, true, true, true, true, true⟩

/-- **C14 refuted in full.** An empty data section with its size filled in is left alone although the kernel
rejects empty data sections. -/
theorem C14_sized_empty_section_violated : ∃ b r t, fixupAndSanitize { allFeat with dataSecZero := false } (fun _ => some 4)
    (fun _ => none) none b = .ok r ∧ Good b ∧ t ∈ r.types ∧ ¬ Supported { allFeat with dataSecZero := false } t := by
  refine ⟨⟨⟨0xeb9f, 1, 0, 24, 0, 12, 12, 3⟩, [0, 97, 0], [.unknown, mkDataSec 1 [] 4]⟩, _, mkDataSec 1 [] 4, rfl, ?_, by decide, ?_⟩
  · refine ⟨[mkDataSec 1 [] 4], rfl, ?_, by decide, rfl, by decide, rfl, rfl, by decide, by decide, by decide⟩
    intro t ht
    rw [List.mem_singleton] at ht
    subst ht
    refine ⟨?_, ?_, ?_, ?_, ?_, by simp⟩ <;> simp only [U32, Announces, Counts] <;> decide
  · rintro ⟨_, h⟩
    exact absurd (h rfl) (by decide)

/-- **C14.** The result stays well formed: it can be serialised and parsed back to the same records and strings, whatever
was replaced (`Good`: header and records of the input agree). -/
theorem C14_well_formed (f : Feat) (secSize symOff : List UInt8 → Option Nat) (b r : Btf) (hb : Good b)
    (h : fixupAndSanitize f secSize symOff none b = .ok r) (h1 : ((r.types.drop 1).map recordSize).sum < 2 ^ 32)
    (h2 : r.strings.length < 2 ^ 32) :
    Good r ∧ Btf.parse r.toBytes = .ok { r with types := r.types.map wire } := by
  obtain ⟨s, hs, rfl⟩ := sanitize_split h
  have hg := (good_loop _ _ _ _ (⟨hb, by simp, by simp⟩ : GoodSan ⟨b, none, none⟩) hs).good
  refine ⟨hg, ?_⟩
  obtain ⟨ts, e, hco, _⟩ := id hg
  rw [C13_roundtrip_partial s.b ts e (good_canonical hg h1 h2) hco, e]
  rfl

/-- A BTF with every kind that sanitising touches: `int`, a variable, a data section without size, a function with an
unnamed parameter, a float, tags, a signed enumeration and a 64-bit one. -/
def exBtf : Btf :=
  let ts := [mkInt 0 4 1 0, mkVar 1 1 1, mkDataSec 3 [⟨2, 0, 4⟩] 0, mkFuncProto [⟨0, 1⟩] 1, mkFunc 1 4 1, mkFloat 1 4,
    mkDeclTag 1 2 0, mkTypeTag 1 1, mkEnum 1 true [⟨1, 5⟩], mkEnum64 1 true [⟨1, 7, 1⟩], mkPtr 1 1, mkDataSec 3 [] 0]
  ⟨⟨0xeb9f, 1, 0, 24, 0, (ts.map recordSize).sum, (ts.map recordSize).sum, 8⟩, [0, 97, 0, 46, 98, 47, 99, 0], .unknown :: ts⟩

/-- A kernel with none of the features. -/
def noFeat : Feat := ⟨false, false, false, false, false, false, false, false⟩

theorem exBtf_good : Good exBtf := by
  refine ⟨_, rfl, ?_, by decide, rfl, by decide, rfl, rfl, by decide, by decide, by decide⟩
  simp only [List.forall_mem_cons, List.not_mem_nil, false_implies, implies_true, and_true]
  simp only [mkInt, mkVar, mkDataSec, mkFuncProto, mkFunc, mkFloat, mkDeclTag, mkTypeTag, mkEnum, mkEnum64, mkPtr, Coherent,
    U32, Announces, Counts, refKindNo, List.forall_mem_cons, List.not_mem_nil, false_implies, implies_true, and_true]
  decide

example : (fixupAndSanitize noFeat (fun _ => some 4) (fun _ => some 0) none exBtf).map (fun r => r.types.length) = .ok 14 ∧
    (fixupAndSanitize { allFeat with dataSecZero := false } (fun _ => some 4) (fun _ => some 8) none exBtf).map
      (fun r => (r.types.length, r.types[3]?)) = .ok (15, some (mkDataSec 8 [⟨2, 8, 4⟩] 4)) := by
  decide +kernel

/-- **C14, a further defect.** The STRUCT that stands for a data section has the number of its variables as its size
instead of the size of the section, so its members may lie outside it: here a section of 8 bytes with a variable of 4
bytes at offset 4. -/
theorem C14_section_struct_size_violated : ∃ b r n i ms,
    fixupAndSanitize { allFeat with dataSec := false } (fun _ => some 8) (fun _ => some 4) none b = .ok r ∧
    b.types[3]? = some (mkDataSec 1 [⟨2, 4, 4⟩] 8) ∧
    r.types[3]? = some (.struct n i 1 ms) ∧ ∃ m ∈ ms, m.offset = 32 := by
  refine ⟨⟨⟨0xeb9f, 1, 0, 24, 0, 56, 56, 3⟩, [0, 97, 0], [.unknown, mkInt 0 4 1 0, mkVar 1 1 1, mkDataSec 1 [⟨2, 4, 4⟩] 8]⟩,
    ⟨⟨0xeb9f, 1, 0, 24, 0, 56, 56, 3⟩, [0, 97, 0], [.unknown, mkInt 0 4 1 0, mkInt 1 1 0 0, mkStruct 1 [⟨1, 2, 32⟩] 1]⟩,
    1, _, [⟨1, 2, 32⟩], by decide +kernel, by decide +kernel, rfl, ⟨1, 2, 32⟩, by simp, rfl⟩

end Verif.Btf
