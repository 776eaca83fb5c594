import Verif.ObjMaps.Spec
import Verif.Btf.Props
import Verif.Common.Except
/-!
# BTF map definitions are read as written

Property C65.
-/
set_option linter.unusedSimpArgs false
set_option linter.unusedVariables false
namespace Verif.ObjMaps
open Verif.Btf Verif.Btf.Spec Verif.ObjMaps.Spec

theorem bind_ok {ε α β : Type} {x : Except ε α} {f : α → Except ε β} {b : β} :
    (x >>= f) = .ok b ↔ ∃ a, x = .ok a ∧ f a = .ok b := by
  cases x with
  | error e => constructor
               · intro h; cases h
               · rintro ⟨a, h, _⟩; cases h
  | ok a => constructor
            · intro h; exact ⟨a, rfl, h⟩
            · rintro ⟨a', h, h'⟩; cases h; exact h'

theorem lift_ok {α : Type} {x : Except Btf.Fail α} {a : α} : lift x = .ok a ↔ x = .ok a := by
  cases x with
  | error e => simp [lift]
  | ok a' => simp [lift]

theorem byId_ok {ts : List BtfType} {id : Nat} {t : BtfType} : typeById ts id = .ok t ↔ ts[id]? = some t := by
  unfold typeById
  cases h : ts[id]? <;> simp

theorem asPtr_ok {t : BtfType} {p : Nat} : asPtr t = .ok p ↔ ∃ n i : Nat, t = .ref .ptr n i p := by
  constructor
  · intro h; unfold asPtr at h; split at h
    · cases h; exact ⟨_, _, rfl⟩
    · cases h
  · rintro ⟨n, i, rfl⟩; rfl

theorem asArray_ok {t : BtfType} {e len : Nat} : asArray t = .ok (e, len) ↔ ∃ n i x : Nat, t = .array n i e x len := by
  constructor
  · intro h; unfold asArray at h; split at h
    · cases h; exact ⟨_, _, _, rfl⟩
    · cases h
  · rintro ⟨n, i, x, rfl⟩; rfl

theorem asStruct_ok {t : BtfType} {ms : List Member} : asStruct t = .ok ms ↔ ∃ n i s : Nat, t = .struct n i s ms := by
  constructor
  · intro h; unfold asStruct at h; split at h
    · cases h; exact ⟨_, _, _, rfl⟩
    · cases h
  · rintro ⟨n, i, x, rfl⟩; rfl

theorem asVar_ok {t : BtfType} {n u : Nat} : asVar t = .ok (n, u) ↔ ∃ i l : Nat, t = .var n i u l := by
  constructor
  · intro h; unfold asVar at h; split at h
    · cases h; exact ⟨_, _, rfl⟩
    · cases h
  · rintro ⟨i, l, rfl⟩; rfl

theorem is_iff {ts : List BtfType} {a : Nat} {t : BtfType} : Is ts a t ↔ ∃ r, resolveType ts a = .ok r ∧ ts[r]? = some t := by
  constructor
  · rintro ⟨k, r, hk, hl, ht, hn⟩
    exact ⟨r, ((C15_resolve ts a).1 r).mpr ⟨k, hk, hl, t, ht, hn⟩, ht⟩
  · rintro ⟨r, hr, ht⟩
    obtain ⟨k, hk, hl, t', ht', hn⟩ := ((C15_resolve ts a).1 r).mp hr
    rw [ht] at ht'; cases ht'
    exact ⟨k, r, hk, hl, ht, hn⟩

theorem getMapField_ok {ts : List BtfType} {id n : Nat} :
    getMapField ts id = .ok n ↔ ∃ p x i e y : Nat, Points ts id p ∧ ts[p]? = some (.array x i e y n) := by
  unfold getMapField
  simp only [bind_ok, lift_ok, byId_ok, asPtr_ok]
  constructor
  · rintro ⟨t, ht, p, ⟨a, b, rfl⟩, u, hu, ⟨e, len⟩, hr, hn⟩
    obtain ⟨x, i, y, rfl⟩ := asArray_ok.mp hr
    cases hn
    exact ⟨p, x, i, e, y, ⟨a, b, ht⟩, hu⟩
  · rintro ⟨p, x, i, e, y, ⟨a, b, ht⟩, hu⟩
    exact ⟨_, ht, p, ⟨a, b, rfl⟩, _, hu, (e, n), asArray_ok.mpr ⟨x, i, y, rfl⟩, rfl⟩

theorem pointee_ok {ts : List BtfType} {id t n : Nat} :
    pointee ts id = .ok (t, n) ↔ Points ts id t ∧ typeSize ts t = .ok n := by
  unfold pointee
  simp only [bind_ok, lift_ok, byId_ok]
  constructor
  · rintro ⟨u, hu, h⟩
    split at h
    · rw [bind_ok] at h
      obtain ⟨k, hk, h⟩ := h
      rw [lift_ok] at hk
      cases h
      exact ⟨⟨_, _, hu⟩, hk⟩
    · cases h
  · rintro ⟨⟨a, b, ht⟩, hs⟩
    refine ⟨_, ht, ?_⟩
    simp only [bind_ok, lift_ok]
    exact ⟨n, hs, rfl⟩

theorem innerMembers_ok {ts : List BtfType} {id : Nat} {ms : List Member} :
    innerMembers ts id = .ok ms ↔ ∃ x i e y u v p n j z : Nat, ts[id]? = some (.array x i e y 0) ∧
      Is ts e (.ref .ptr u v p) ∧ Is ts p (.struct n j z ms) := by
  unfold innerMembers
  simp only [bind_ok, lift_ok, byId_ok]
  constructor
  · rintro ⟨t, ht, ⟨e, len⟩, ha, h⟩
    obtain ⟨x, i, y, rfl⟩ := asArray_ok.mp ha
    by_cases hl : len ≠ 0
    · rw [if_pos hl] at h; cases h
    · rw [if_neg hl] at h
      simp only [bind_ok, lift_ok, byId_ok, asPtr_ok, asStruct_ok] at h
      obtain ⟨r, hr, et, het, p, ⟨u, v, rfl⟩, q, hq, rt, hrt, n, j, z, rfl⟩ := h
      have : len = 0 := by omega
      subst this
      exact ⟨x, i, e, y, u, v, p, n, j, z, ht, is_iff.mpr ⟨r, hr, het⟩, is_iff.mpr ⟨q, hq, hrt⟩⟩
  · rintro ⟨x, i, e, y, u, v, p, n, j, z, ht, h1, h2⟩
    obtain ⟨r, hr, het⟩ := is_iff.mp h1
    obtain ⟨q, hq, hrt⟩ := is_iff.mp h2
    refine ⟨_, ht, (e, 0), asArray_ok.mpr ⟨x, i, y, rfl⟩, ?_⟩
    rw [if_neg (by simp)]
    simp only [bind_ok, lift_ok, byId_ok, asPtr_ok, asStruct_ok]
    exact ⟨r, hr, _, het, p, ⟨u, v, rfl⟩, q, hq, _, hrt, n, j, z, rfl⟩

/-! ## Names -/

/-- The keyword of a numeric attribute. -/
def Key.num : Key → Option Num
  | .type => some .type | .keySize => some .keySize | .valueSize => some .valueSize | .maxEntries => some .maxEntries
  | .flags => some .mapFlags | .extra => some .mapExtra | .pinning => some .pinning | _ => none

theorem keyOf_num {s : List UInt8} {f : Num} : (keyOf s).num = some f ↔ s = f.word.toUTF8.toList := by
  constructor
  · intro h
    unfold keyOf at h
    repeat' split at h
    all_goals first
      | (simp only [Key.num, Option.some.injEq, reduceCtorEq] at h; subst h; assumption)
      | (simp only [Key.num, reduceCtorEq] at h)
  · rintro rfl; cases f <;> decide +kernel

theorem keyOf_key {s : List UInt8} : keyOf s = .key ↔ s = "key".toUTF8.toList := by
  constructor
  · intro h
    unfold keyOf at h
    repeat' split at h
    all_goals first | assumption | cases h
  · rintro rfl; decide +kernel

theorem keyOf_value {s : List UInt8} : keyOf s = .value ↔ s = "value".toUTF8.toList := by
  constructor
  · intro h
    unfold keyOf at h
    repeat' split at h
    all_goals first | assumption | cases h
  · rintro rfl; decide +kernel

theorem keyOf_values {s : List UInt8} : keyOf s = .values ↔ s = "values".toUTF8.toList := by
  constructor
  · intro h
    unfold keyOf at h
    repeat' split at h
    all_goals first | assumption | cases h
  · rintro rfl; decide +kernel

theorem keyOf_other {s : List UInt8} : keyOf s = .other ↔ ∀ k ∈ words, s ≠ k.toUTF8.toList := by
  constructor
  · intro h
    unfold keyOf at h
    repeat' split at h
    all_goals first | cases h | skip
    simp only [words, List.mem_cons, List.not_mem_nil, or_false]
    rintro k (rfl | rfl | rfl | rfl | rfl | rfl | rfl | rfl | rfl | rfl) <;> assumption
  · intro h
    simp only [words, List.mem_cons, List.not_mem_nil, or_false, forall_eq_or_imp, forall_eq] at h
    unfold keyOf
    simp only [h, if_false]

/-! ## Lines -/

/-- What a line does to the definition under construction. -/
def applyLine {ι : Type} (toDef : ι → BtfDef) (acc : Acc) : Line ι → Acc
  | .num .type n => { acc with outer := { acc.outer with mapType := n } }
  | .num .keySize n => { acc with outer := { acc.outer with keySize := n } }
  | .num .valueSize n => { acc with outer := { acc.outer with valueSize := n } }
  | .num .maxEntries n => { acc with outer := { acc.outer with maxEntries := n } }
  | .num .mapFlags n => { acc with outer := { acc.outer with mapFlags := n } }
  | .num .mapExtra n => { acc with outer := { acc.outer with mapExtra := n } }
  | .num .pinning n => { acc with outer := { acc.outer with pinByName := n == 1 } }
  | .key t n => { acc with outer := { acc.outer with keySize := n, keyTypeId := t } }
  | .value t n => { acc with outer := { acc.outer with valueSize := n, valueTypeId := t } }
  | .values d => { outer := { acc.outer with valueSize := 4 }, inner := some (toDef d) }
  | .other => acc

theorem pinning_eq (n : Nat) : pinning n = (n == 1) := rfl

/-- The numeric arms. -/
theorem arm_num {ι : Type} {ts : List BtfType} {nested : Option (List Member → Except MFail Acc)} (toDef : ι → BtfDef)
    {acc acc' : Acc} {ty : Nat} {k : Key} {f : Num} (hk : k.num = some f) :
    arm ts nested acc ty k = .ok acc' ↔
      (f = .pinning → nested.isSome) ∧ ∃ n, getMapField ts ty = .ok n ∧ acc' = applyLine toDef acc (.num f n) := by
  cases k <;> simp only [Key.num, Option.some.injEq, reduceCtorEq] at hk
  all_goals subst hk
  case pinning =>
    cases nested with
    | none => simp [arm]
    | some g =>
      simp only [arm, bind_ok, applyLine, pinning_eq, Option.isSome_some, implies_true, true_and, Except.ok.injEq]
      constructor <;> (rintro ⟨n, h1, h2⟩; exact ⟨n, h1, h2.symm⟩)
  all_goals
    simp only [arm, bind_ok, applyLine, reduceCtorEq, false_implies, true_and, Except.ok.injEq]
    constructor <;> (rintro ⟨n, h1, h2⟩; exact ⟨n, h1, h2.symm⟩)

variable {b : Btf}

/-- The loop body at the top level. -/
theorem step_some (hN : ∀ o s, b.stringAt o = .ok s ↔ StringAt b.strings o s) (parse : List Member → Except MFail Acc)
    (acc acc' : Acc) (m : Member) :
    memberStep b (some parse) acc m = .ok acc' ↔ ∃ l : Line BtfDef,
      Writes b (fun t n => typeSize b.types t = .ok n) (fun ms d => ∃ r, parse ms = .ok r ∧ r.outer = d) m l ∧
      acc' = applyLine id acc l := by
  unfold memberStep
  simp only [bind_ok, lift_ok, hN]
  constructor
  · rintro ⟨s, hs, h⟩
    rcases hk : (keyOf s).num with _ | f
    · cases hk' : keyOf s <;> rw [hk'] at hk h <;> simp only [Key.num, reduceCtorEq] at hk
      case key =>
        simp only [arm, bind_ok] at h
        obtain ⟨⟨t, n⟩, hp, h⟩ := h
        obtain ⟨h1, h2⟩ := pointee_ok.mp hp
        cases h
        exact ⟨.key t n, .key (by unfold Named; rw [← keyOf_key.mp hk']; exact hs) h1 h2, rfl⟩
      case value =>
        simp only [arm, bind_ok] at h
        obtain ⟨⟨t, n⟩, hp, h⟩ := h
        obtain ⟨h1, h2⟩ := pointee_ok.mp hp
        cases h
        exact ⟨.value t n, .value (by unfold Named; rw [← keyOf_value.mp hk']; exact hs) h1 h2, rfl⟩
      case values =>
        simp only [arm, bind_ok] at h
        obtain ⟨ms, hm, r, hr, h⟩ := h
        obtain ⟨x, i, e, y, u, v, p, n, j, z, h1, h2, h3⟩ := innerMembers_ok.mp hm
        cases h
        exact ⟨.values r.outer, .values (by unfold Named; rw [← keyOf_values.mp hk']; exact hs) h1 h2 h3 ⟨r, hr, rfl⟩, rfl⟩
      case other =>
        cases h
        exact ⟨.other, .other hs (keyOf_other.mp hk'), rfl⟩
    · obtain ⟨_, n, hn, h⟩ := (arm_num (id : BtfDef → BtfDef) hk).mp h
      obtain ⟨p, x, i, e, y, h1, h2⟩ := getMapField_ok.mp hn
      exact ⟨.num f n, .num (by unfold Named; rw [← keyOf_num.mp hk]; exact hs) h1 h2, h⟩
  · rintro ⟨l, hw, h⟩
    cases hw with
    | num hs h1 h2 =>
      refine ⟨_, hs, (arm_num (id : BtfDef → BtfDef) (keyOf_num.mpr rfl)).mpr ⟨fun _ => rfl, _, getMapField_ok.mpr ⟨_, _, _, _, _, h1, h2⟩, h⟩⟩
    | key hs h1 h2 =>
      refine ⟨_, hs, ?_⟩
      rw [keyOf_key.mpr rfl]
      simp only [arm, bind_ok]
      exact ⟨_, pointee_ok.mpr ⟨h1, h2⟩, by rw [h]; rfl⟩
    | value hs h1 h2 =>
      refine ⟨_, hs, ?_⟩
      rw [keyOf_value.mpr rfl]
      simp only [arm, bind_ok]
      exact ⟨_, pointee_ok.mpr ⟨h1, h2⟩, by rw [h]; rfl⟩
    | values hs h1 h2 h3 h4 =>
      obtain ⟨r, hr, rfl⟩ := h4
      refine ⟨_, hs, ?_⟩
      rw [keyOf_values.mpr rfl]
      simp only [arm, bind_ok]
      exact ⟨_, innerMembers_ok.mpr ⟨_, _, _, _, _, _, _, _, _, _, h1, h2, h3⟩, r, hr, by rw [h]; rfl⟩
    | other hs hw =>
      refine ⟨_, hs, ?_⟩
      rw [keyOf_other.mpr hw, h]; rfl

/-- The loop body inside an inner map. -/
theorem step_none (hN : ∀ o s, b.stringAt o = .ok s ↔ StringAt b.strings o s) (acc acc' : Acc) (m : Member) :
    memberStep b none acc m = .ok acc' ↔ ∃ l : Line Empty,
      Writes b (fun t n => typeSize b.types t = .ok n) (fun _ _ => False) m l ∧ (∀ n, l ≠ .num .pinning n) ∧
      acc' = applyLine (fun x => x.elim) acc l := by
  unfold memberStep
  simp only [bind_ok, lift_ok, hN]
  constructor
  · rintro ⟨s, hs, h⟩
    rcases hk : (keyOf s).num with _ | f
    · cases hk' : keyOf s <;> rw [hk'] at hk h <;> simp only [Key.num, reduceCtorEq] at hk
      case key =>
        simp only [arm, bind_ok] at h
        obtain ⟨⟨t, n⟩, hp, h⟩ := h
        obtain ⟨h1, h2⟩ := pointee_ok.mp hp
        cases h
        exact ⟨.key t n, .key (by unfold Named; rw [← keyOf_key.mp hk']; exact hs) h1 h2, by simp, rfl⟩
      case value =>
        simp only [arm, bind_ok] at h
        obtain ⟨⟨t, n⟩, hp, h⟩ := h
        obtain ⟨h1, h2⟩ := pointee_ok.mp hp
        cases h
        exact ⟨.value t n, .value (by unfold Named; rw [← keyOf_value.mp hk']; exact hs) h1 h2, by simp, rfl⟩
      case values => cases h
      case other =>
        cases h
        exact ⟨.other, .other hs (keyOf_other.mp hk'), by simp, rfl⟩
    · obtain ⟨hp, n, hn, h⟩ := (arm_num (fun x : Empty => x.elim) hk).mp h
      obtain ⟨p, x, i, e, y, h1, h2⟩ := getMapField_ok.mp hn
      refine ⟨.num f n, .num (by unfold Named; rw [← keyOf_num.mp hk]; exact hs) h1 h2, ?_, h⟩
      rintro k hk2
      cases hk2
      exact absurd (hp rfl) (by simp)
  · rintro ⟨l, hw, hnp, h⟩
    cases hw with
    | @num f n p x i e y hs h1 h2 =>
      refine ⟨_, hs, (arm_num (fun x : Empty => x.elim) (keyOf_num.mpr rfl)).mpr ⟨?_, _, getMapField_ok.mpr ⟨_, _, _, _, _, h1, h2⟩, h⟩⟩
      rintro rfl
      exact absurd rfl (hnp n)
    | key hs h1 h2 =>
      refine ⟨_, hs, ?_⟩
      rw [keyOf_key.mpr rfl]
      simp only [arm, bind_ok]
      exact ⟨_, pointee_ok.mpr ⟨h1, h2⟩, by rw [h]; rfl⟩
    | value hs h1 h2 =>
      refine ⟨_, hs, ?_⟩
      rw [keyOf_value.mpr rfl]
      simp only [arm, bind_ok]
      exact ⟨_, pointee_ok.mpr ⟨h1, h2⟩, by rw [h]; rfl⟩
    | values hs h1 h2 h3 h4 => exact h4.elim
    | other hs hw =>
      refine ⟨_, hs, ?_⟩
      rw [keyOf_other.mpr hw, h]; rfl

theorem members_some (hN : ∀ o s, b.stringAt o = .ok s ↔ StringAt b.strings o s) (parse : List Member → Except MFail Acc)
    (ms : List Member) : ∀ acc acc' : Acc, members b (some parse) acc ms = .ok acc' ↔ ∃ ls : List (Line BtfDef),
      Each (Writes b (fun t n => typeSize b.types t = .ok n) (fun ms d => ∃ r, parse ms = .ok r ∧ r.outer = d)) ms ls ∧
      acc' = ls.foldl (applyLine id) acc := by
  induction ms with
  | nil =>
    intro acc acc'
    simp only [members, Except.ok.injEq]
    constructor
    · rintro rfl; exact ⟨[], .nil, rfl⟩
    · rintro ⟨ls, h, rfl⟩; cases h; rfl
  | cons m ms ih =>
    intro acc acc'
    simp only [members, bind_ok, step_some hN, ih]
    constructor
    · rintro ⟨a, ⟨l, hl, rfl⟩, ls, hls, rfl⟩
      exact ⟨l :: ls, .cons hl hls, rfl⟩
    · rintro ⟨ls, h, rfl⟩
      cases h with
      | cons hl hls => exact ⟨_, ⟨_, hl, rfl⟩, _, hls, rfl⟩

theorem members_none (hN : ∀ o s, b.stringAt o = .ok s ↔ StringAt b.strings o s)
    (ms : List Member) : ∀ acc acc' : Acc, members b none acc ms = .ok acc' ↔ ∃ ls : List (Line Empty),
      Each (Writes b (fun t n => typeSize b.types t = .ok n) (fun _ _ => False)) ms ls ∧ (∀ n, Line.num .pinning n ∉ ls) ∧
      acc' = ls.foldl (applyLine (fun x => x.elim)) acc := by
  induction ms with
  | nil =>
    intro acc acc'
    simp only [members, Except.ok.injEq]
    constructor
    · rintro rfl; exact ⟨[], .nil, by simp, rfl⟩
    · rintro ⟨ls, h, _, rfl⟩; cases h; rfl
  | cons m ms ih =>
    intro acc acc'
    simp only [members, bind_ok, step_none hN, ih]
    constructor
    · rintro ⟨a, ⟨l, hl, hp, rfl⟩, ls, hls, hps, rfl⟩
      refine ⟨l :: ls, .cons hl hls, ?_, rfl⟩
      intro n hn
      rcases List.mem_cons.mp hn with h | h
      · exact hp n h.symm
      · exact hps n h
    · rintro ⟨ls, h, hp, rfl⟩
      cases h with
      | cons hl hls =>
        exact ⟨_, ⟨_, hl, fun n hn => hp n (by rw [hn]; exact List.mem_cons_self), rfl⟩, _, hls,
          fun n hn => hp n (List.mem_cons_of_mem _ hn), rfl⟩

/-! ## The last line wins -/

theorem last_nil {α β : Type} (f : α → Option β) (d : β) : last f [] d = d := rfl

theorem last_cons {α β : Type} (f : α → Option β) (x : α) (xs : List α) (d : β) :
    last f (x :: xs) d = last f xs ((f x).getD d) := by
  unfold last
  cases h : f x with
  | none => simp [List.filterMap_cons, h]
  | some y => simp [List.filterMap_cons, h, List.getLast?_cons]

/-- The definition with defaults other than zero. -/
def meaningFrom {ι : Type} (d : BtfDef) (ls : List (Line ι)) : BtfDef :=
  { mapType := last (Line.numIs .type) ls d.mapType
    keySize := last Line.keySize ls d.keySize
    valueSize := last Line.valueSize ls d.valueSize
    maxEntries := last (Line.numIs .maxEntries) ls d.maxEntries
    mapFlags := last (Line.numIs .mapFlags) ls d.mapFlags
    mapExtra := last (Line.numIs .mapExtra) ls d.mapExtra
    pinByName := last (Line.numIs .pinning) ls d.pinByName.toNat == 1
    keyTypeId := last Line.keyType ls d.keyTypeId
    valueTypeId := last Line.valueType ls d.valueTypeId }

theorem last_congr {α : Type} (f : α → Option Nat) (xs : List α) : ∀ {d d' : Nat}, (d = 1 ↔ d' = 1) →
    (last f xs d = 1 ↔ last f xs d' = 1) := by
  induction xs with
  | nil => intro d d' h; simpa [last_nil] using h
  | cons x xs ih =>
    intro d d' h
    rw [last_cons, last_cons]
    apply ih
    cases f x <;> simp [h]

theorem fold_apply {ι : Type} (toDef : ι → BtfDef) (ls : List (Line ι)) : ∀ acc : Acc,
    (ls.foldl (applyLine toDef) acc).outer = meaningFrom acc.outer ls ∧
    (ls.foldl (applyLine toDef) acc).inner = (match (ls.filterMap Line.inner).getLast? with
      | some d => some (toDef d)
      | none => acc.inner) := by
  induction ls with
  | nil =>
    intro acc
    refine ⟨?_, rfl⟩
    obtain ⟨⟨a1, a2, a3, a4, a5, a6, a7, a8, a9⟩, x⟩ := acc
    cases a7 <;> rfl
  | cons l ls ih =>
    intro acc
    rw [List.foldl_cons]
    obtain ⟨h1, h2⟩ := ih (applyLine toDef acc l)
    rw [h1, h2]
    constructor
    · unfold meaningFrom
      simp only [last_cons]
      cases l with
      | num f n =>
        cases f
        case pinning =>
          simp [applyLine, Line.numIs, Line.keySize, Line.valueSize, Line.keyType, Line.valueType]
          rw [Bool.eq_iff_iff, beq_iff_eq, beq_iff_eq]
          apply last_congr
          by_cases h : n = 1 <;> simp [h]
        all_goals simp [applyLine, Line.numIs, Line.keySize, Line.valueSize, Line.keyType, Line.valueType]
      | _ => simp [applyLine, Line.numIs, Line.keySize, Line.valueSize, Line.keyType, Line.valueType]
    · cases l with
      | num f n => cases f <;> simp [applyLine, Line.inner, List.filterMap_cons]
      | values d =>
        simp only [applyLine, Line.inner, List.filterMap_cons, List.getLast?_cons]
        cases (List.filterMap Line.inner ls).getLast? <;> simp
      | _ => simp [applyLine, Line.inner, List.filterMap_cons]

theorem meaningFrom_zero {ι : Type} (ls : List (Line ι)) : meaningFrom {} ls = meaning ls := rfl

/-! ## Definitions -/

theorem parseInner_ok (hN : ∀ o s, b.stringAt o = .ok s ↔ StringAt b.strings o s) (ms : List Member) (d : BtfDef) :
    (∃ r, parseInner b ms = .ok r ∧ r.outer = d) ↔ DefinesInner b (fun t n => typeSize b.types t = .ok n) ms d := by
  unfold parseInner DefinesInner
  simp only [members_none hN]
  constructor
  · rintro ⟨r, ⟨ls, h1, h2, rfl⟩, rfl⟩
    exact ⟨ls, h1, h2, by rw [(fold_apply _ ls _).1, ← meaningFrom_zero]⟩
  · rintro ⟨ls, h1, h2, rfl⟩
    exact ⟨_, ⟨ls, h1, h2, rfl⟩, by rw [(fold_apply _ ls _).1, ← meaningFrom_zero]⟩

theorem parseStruct_ok (hN : ∀ o s, b.stringAt o = .ok s ↔ StringAt b.strings o s) (ms : List Member) (acc : Acc) :
    parseStruct b ms = .ok acc ↔ Defines b (fun t n => typeSize b.types t = .ok n) ms acc.outer acc.inner := by
  unfold parseStruct Defines
  have hI : (fun ms d => ∃ r, parseInner b ms = .ok r ∧ r.outer = d) =
      DefinesInner b (fun t n => typeSize b.types t = .ok n) := by
    funext ms d; exact propext (parseInner_ok hN ms d)
  rw [members_some hN, hI]
  have hi : ∀ ls : List (Line BtfDef), (ls.foldl (applyLine id) {}).inner = (ls.filterMap Line.inner).getLast? := by
    intro ls
    rw [(fold_apply id ls {}).2]
    cases (ls.filterMap Line.inner).getLast? <;> rfl
  constructor
  · rintro ⟨ls, h1, rfl⟩
    exact ⟨ls, h1, by rw [(fold_apply _ ls _).1, ← meaningFrom_zero], hi ls⟩
  · rintro ⟨ls, h1, h2, h3⟩
    refine ⟨ls, h1, ?_⟩
    obtain ⟨o, i⟩ := acc
    simp only at h2 h3
    have ho : (ls.foldl (applyLine id) {}).outer = o := by rw [h2, (fold_apply _ ls _).1, ← meaningFrom_zero]
    have hi' : (ls.foldl (applyLine id) {}).inner = i := by rw [h3, hi]
    rw [← ho, ← hi']

theorem names_ok (hh : b.header.hdrLen + b.header.strOff + b.header.strLen < 2 ^ 32) (hl : b.header.strLen = b.strings.length)
    (o : Nat) (s : List UInt8) : b.stringAt o = .ok s ↔ StringAt b.strings o s :=
  ⟨C17_string b o s, (C17_total_partial b o hh hl).1 s⟩

/-- **C65.** On a BTF in the usual layout, a struct is accepted as map definition exactly if each of its members is a line
of a definition, and the result is what these lines say: the last line about an attribute counts, attributes not
mentioned are zero, the values of a map of maps are descriptors. An inner map must not be pinned nor contain maps. Sizes
of key and value types are those of `Btf::type_size` (see C16). -/
theorem C65_definition (b : Btf) (hh : b.header.hdrLen + b.header.strOff + b.header.strLen < 2 ^ 32)
    (hl : b.header.strLen = b.strings.length) (ms : List Member) (d : BtfDef) (inner : Option BtfDef) :
    parseStruct b ms = .ok ⟨d, inner⟩ ↔ Defines b (fun t n => typeSize b.types t = .ok n) ms d inner :=
  parseStruct_ok (names_ok hh hl) ms ⟨d, inner⟩

theorem Writes.mono {ι : Type} {S S' : Nat → Nat → Prop} {I I' : List Member → ι → Prop} (hS : ∀ t n, S t n → S' t n)
    (hI : ∀ ms d, I ms d → I' ms d) {m : Member} {l : Line ι} (h : Writes b S I m l) : Writes b S' I' m l := by
  cases h with
  | num h1 h2 h3 => exact .num h1 h2 h3
  | key h1 h2 h3 => exact .key h1 h2 (hS _ _ h3)
  | value h1 h2 h3 => exact .value h1 h2 (hS _ _ h3)
  | values h1 h2 h3 h4 h5 => exact .values h1 h2 h3 h4 (hI _ _ h5)
  | other h1 h2 => exact .other h1 h2

theorem Each.mono {α β : Type} {R R' : α → β → Prop} (hR : ∀ x y, R x y → R' x y) {xs : List α} {ys : List β}
    (h : Each R xs ys) : Each R' xs ys := by
  induction h with
  | nil => exact .nil
  | cons h _ ih => exact .cons (hR _ _ h) ih

theorem Defines.mono {S S' : Nat → Nat → Prop} (hS : ∀ t n, S t n → S' t n) {ms : List Member} {d : BtfDef}
    {inner : Option BtfDef} (h : Defines b S ms d inner) : Defines b S' ms d inner := by
  obtain ⟨ls, h1, h2, h3⟩ := h
  refine ⟨ls, Each.mono (fun _ _ hw => Writes.mono hS ?_ hw) h1, h2, h3⟩
  rintro ms d ⟨ls', h1', h2', h3'⟩
  exact ⟨ls', Each.mono (fun _ _ hw => Writes.mono hS (fun _ _ h => h) hw) h1', h2', h3'⟩

/-- **C65** with C sizes: a definition whose key and value types have at most one array dimension, nest no deeper than 32
and are smaller than 4 GiB is read as it is written. What is missing: arrays of arrays. -/
theorem C65_c_sizes_partial (b : Btf) (hh : b.header.hdrLen + b.header.strOff + b.header.strLen < 2 ^ 32)
    (hl : b.header.strLen = b.strings.length) (ms : List Member) (d : BtfDef) (inner : Option BtfDef)
    (h : Defines b (CSize b.types) ms d inner) : parseStruct b ms = .ok ⟨d, inner⟩ := by
  rw [C65_definition b hh hl]
  refine Defines.mono ?_ h
  rintro t n ⟨dd, dims, hs, h1, h2, h3⟩
  exact C16_size_partial b.types t dd dims n hs h1 h2 h3

/-- An entry of the `.maps` section declares a map: a variable of that name whose type, looking through typedefs and
qualifiers, is a struct defining the map. -/
def Declares (b : Btf) (Size : Nat → Nat → Prop) (ty : Nat) (name : List UInt8) (d : BtfDef) (inner : Option BtfDef) : Prop :=
  ∃ (n i t l x j z : Nat) (ms : List Member), b.types[ty]? = some (.var n i t l) ∧ StringAt b.strings n name ∧
    Is b.types t (.struct x j z ms) ∧ Defines b Size ms d inner

/-- **C65** for an entry of the section. -/
theorem C65_variable (b : Btf) (hh : b.header.hdrLen + b.header.strOff + b.header.strLen < 2 ^ 32)
    (hl : b.header.strLen = b.strings.length) (ty : Nat) (name : List UInt8) (d : BtfDef) (inner : Option BtfDef) :
    parseBtfMapDef b ty = .ok (name, ⟨d, inner⟩) ↔ Declares b (fun t n => typeSize b.types t = .ok n) ty name d inner := by
  unfold parseBtfMapDef
  simp only [bind_ok, lift_ok, byId_ok]
  constructor
  · rintro ⟨t, ht, ⟨n, u⟩, hv, name', hn, r, hr, rt, hrt, ms, hms, acc, hacc, h⟩
    obtain ⟨i, l, rfl⟩ := asVar_ok.mp hv
    obtain ⟨x, j, z, rfl⟩ := asStruct_ok.mp hms
    cases h
    exact ⟨n, i, u, l, x, j, z, ms, ht, (names_ok hh hl _ _).mp hn, is_iff.mpr ⟨r, hr, hrt⟩, (C65_definition b hh hl ms d inner).mp hacc⟩
  · rintro ⟨n, i, u, l, x, j, z, ms, ht, hn, his, hd⟩
    obtain ⟨r, hr, hrt⟩ := is_iff.mp his
    exact ⟨_, ht, (n, u), asVar_ok.mpr ⟨i, l, rfl⟩, name, (names_ok hh hl _ _).mpr hn, r, hr, _, hrt, ms,
      asStruct_ok.mpr ⟨x, j, z, rfl⟩, ⟨d, inner⟩, (C65_definition b hh hl ms d inner).mpr hd, rfl⟩

/-! ## Concrete cases -/

/-- BTF of a hash of maps whose inner maps are hashes from `int` to `int[6]`; its `type` is given twice. -/
def exBtf : Btf :=
  ⟨⟨0xeb9f, 1, 0, 24, 0, 0, 0, 52⟩,
   [0, 116, 121, 112, 101, 0, 109, 97, 120, 95, 101, 110, 116, 114, 105, 101, 115, 0, 107, 101, 121, 0, 118, 97, 108, 117, 101, 115, 0, 118, 97, 108, 117, 101, 0, 111, 117, 116, 101, 114, 0, 46, 109, 97, 112, 115, 0, 110, 111, 116, 101, 0],
  [.unknown,
   mkInt 0 4 1 0,
   .array 0 (3 * 2 ^ 24) 1 1 1,
   .ref .ptr 0 (2 * 2 ^ 24) 2,
   .array 0 (3 * 2 ^ 24) 1 1 13,
   .ref .ptr 0 (2 * 2 ^ 24) 4,
   .array 0 (3 * 2 ^ 24) 1 1 8,
   .ref .ptr 0 (2 * 2 ^ 24) 6,
   .ref .ptr 0 (2 * 2 ^ 24) 1,
   .array 0 (3 * 2 ^ 24) 1 1 6,
   .ref .ptr 0 (2 * 2 ^ 24) 9,
   .struct 0 (4 * 2 ^ 24 + 3) 24 [⟨1, 3, 0⟩, ⟨18, 8, 64⟩, ⟨29, 10, 128⟩],
   .ref .typedef 47 (8 * 2 ^ 24) 11,
   .ref .ptr 0 (2 * 2 ^ 24) 12,
   .array 0 (3 * 2 ^ 24) 13 1 0,
   .struct 0 (4 * 2 ^ 24 + 6) 40 [⟨1, 3, 0⟩, ⟨6, 7, 64⟩, ⟨18, 8, 128⟩, ⟨47, 1, 192⟩, ⟨1, 5, 256⟩, ⟨22, 14, 320⟩],
   .var 35 (14 * 2 ^ 24) 15 1,
   .dataSec 41 (15 * 2 ^ 24 + 1) 40 [⟨16, 0, 40⟩],
   .array 0 (3 * 2 ^ 24) 1 1 3,
   .array 0 (3 * 2 ^ 24) 18 1 2,
   .ref .ptr 0 (2 * 2 ^ 24) 19]⟩

/-- The inner map. -/
def exInner : BtfDef := { mapType := 1, keySize := 4, valueSize := 24, keyTypeId := 1, valueTypeId := 9 }

/-- The outer map. -/
def exOuter : BtfDef := { mapType := 13, keySize := 4, valueSize := 4, maxEntries := 8, keyTypeId := 1 }

/-- The hypotheses of `C65_variable` hold and the declaration is read. -/
example : Declares exBtf (fun t n => typeSize exBtf.types t = .ok n) 16 "outer".toUTF8.toList exOuter (some exInner) :=
  (C65_variable exBtf (by decide) (by decide) 16 _ exOuter (some exInner)).mp (by decide +kernel)

/-- The `value` line of an array-of-arrays map and its C size of 24 bytes. -/
def matrixMember : Member := ⟨29, 20, 0⟩

/-- **C65 violated**: a map with values of type `int[2][3]` gets values of 12 bytes instead of 24. -/
theorem C65_matrix_violated :
    Defines exBtf (fun t n => ∃ d dims, SizeOf exBtf.types t d dims n) [matrixMember] { valueSize := 24, valueTypeId := 19 } none ∧
    parseStruct exBtf [matrixMember] = .ok ⟨{ valueSize := 12, valueTypeId := 19 }, none⟩ := by
  refine ⟨⟨[.value 19 24], .cons (.value ?_ ⟨0, _, rfl⟩ ⟨3, 2, ?_⟩) .nil, rfl, rfl⟩, by decide +kernel⟩
  · exact (names_ok (b := exBtf) (by decide) (by decide) _ _).mp (by decide +kernel)
  · have h1 : SizeOf exBtf.types 1 1 0 4 := .int (n := 0) (i := 1 * 2 ^ 24) (s := 4) (x := 1 * 2 ^ 24 + 32) rfl
    have h2 : SizeOf exBtf.types 18 2 1 (3 * 4) := .array (n := 0) (i := 3 * 2 ^ 24) (e := 1) (x := 1) rfl h1
    exact .array (n := 0) (i := 3 * 2 ^ 24) (e := 18) (x := 1) (len := 2) (d := 2) (dims := 1) (s := 12) rfl h2

/-- The hypothesis of `C65_c_sizes_partial` holds for the inner map's `value` line. -/
example : Defines exBtf (CSize exBtf.types) [⟨29, 10, 0⟩] { valueSize := 24, valueTypeId := 9 } none := by
  refine ⟨[.value 9 24], .cons (.value ?_ ⟨0, _, rfl⟩ ⟨2, 1, ?_, by decide, by decide, by decide⟩) .nil, rfl, rfl⟩
  · exact (names_ok (b := exBtf) (by decide) (by decide) _ _).mp (by decide +kernel)
  · have h1 : SizeOf exBtf.types 1 1 0 4 := .int (n := 0) (i := 1 * 2 ^ 24) (s := 4) (x := 1 * 2 ^ 24 + 32) rfl
    exact .array (n := 0) (i := 3 * 2 ^ 24) (e := 1) (x := 1) (len := 6) rfl h1

end Verif.ObjMaps
