import Verif.Btf.Props
/-!
# C61: looking up a type by name and kind
-/
set_option linter.unusedSimpArgs false
set_option linter.unusedVariables false
namespace Verif.Btf
open Verif.Bytes Verif.Btf.Spec

/-- A type of the wanted kind and name. -/
def Spec.Match (b : Btf) (name : List UInt8) (kind : Nat) (t : BtfType) : Prop :=
  t.kind = kind ∧ StringAt b.strings t.name name

theorem stringAt_unique {strings : List UInt8} {o : Nat} {s s' : List UInt8}
    (h : StringAt strings o s) (h' : StringAt strings o s') : s = s' := by
  have h1 := untilNul_some.mpr h
  have h2 := untilNul_some.mpr h'
  rw [h1] at h2
  exact Option.some.inj h2

theorem idLoop_sound (b : Btf) (name : List UInt8) (kind : Nat) : ∀ (ts : List BtfType) (i n : Nat),
    idLoop b name kind i ts = .ok n →
    ∃ (k : Nat) (t : BtfType), n = i + k ∧ ts[k]? = some t ∧ Match b name kind t ∧
      ∀ (j : Nat) (u : BtfType), j < k → ts[j]? = some u → ¬ Match b name kind u
  | [], i, n, h => by cases h
  | t :: ts, i, n, h => by
    rw [idLoop] at h
    have next : ∀ n, idLoop b name kind (i + 1) ts = .ok n → ¬ Match b name kind t →
        ∃ (k : Nat) (u : BtfType), n = i + k ∧ (t :: ts)[k]? = some u ∧ Match b name kind u ∧
        ∀ (j : Nat) (v : BtfType), j < k → (t :: ts)[j]? = some v → ¬ Match b name kind v := by
      intro n hn hm
      obtain ⟨k, u, h1, h2, h3, h4⟩ := idLoop_sound b name kind ts (i + 1) n hn
      refine ⟨k + 1, u, by omega, by simpa using h2, h3, ?_⟩
      intro j v hj hv
      cases j with
      | zero => simp at hv; subst hv; exact hm
      | succ j => exact h4 j v (by omega) (by simpa using hv)
    split at h
    · rename_i hk
      exact next n h (fun hm => hk hm.1)
    · rename_i hk
      have hk : t.kind = kind := Classical.byContradiction hk
      cases hs : b.stringAt t.name with
      | error e => rw [hs] at h; cases h
      | ok s =>
        rw [hs] at h
        simp only at h
        have hsa := C17_string b _ _ hs
        split at h
        · rename_i hname
          cases h
          exact ⟨0, t, rfl, rfl, ⟨hk, hname ▸ hsa⟩, by omega⟩
        · rename_i hname
          exact next n h (fun hm => hname (stringAt_unique hsa hm.2))

theorem idLoop_none (b : Btf) (name : List UInt8) (kind : Nat) : ∀ (ts : List BtfType) (i : Nat) (e : Fail),
    (∀ t ∈ ts, t.kind = kind → ∃ s, b.stringAt t.name = .ok s) →
    idLoop b name kind i ts = .error e →
    e = .unknownBtfTypeName name ∧ ∀ t ∈ ts, ¬ Match b name kind t
  | [], i, e, _, h => by cases h; exact ⟨rfl, by simp⟩
  | t :: ts, i, e, hn, h => by
    rw [idLoop] at h
    have hn' : ∀ t ∈ ts, t.kind = kind → ∃ s, b.stringAt t.name = .ok s :=
      fun u hu => hn u (List.mem_cons_of_mem _ hu)
    split at h
    · rename_i hk
      obtain ⟨h1, h2⟩ := idLoop_none b name kind ts (i + 1) e hn' h
      refine ⟨h1, ?_⟩
      intro u hu
      rcases List.mem_cons.mp hu with rfl | hu
      · exact fun hm => hk hm.1
      · exact h2 u hu
    · rename_i hk
      have hk : t.kind = kind := Classical.byContradiction hk
      obtain ⟨s, hs⟩ := hn t (List.mem_cons_self ..) hk
      rw [hs] at h
      simp only at h
      have hsa := C17_string b _ _ hs
      split at h
      · cases h
      · rename_i hname
        obtain ⟨h1, h2⟩ := idLoop_none b name kind ts (i + 1) e hn' h
        refine ⟨h1, ?_⟩
        intro u hu
        rcases List.mem_cons.mp hu with rfl | hu
        · exact fun hm => hname (stringAt_unique hsa hm.2)
        · exact h2 u hu

/-- **C61** Whatever the types, an id that is returned is the first one whose type has the kind and the
name asked for. -/
theorem C61_found (b : Btf) (name : List UInt8) (kind n : Nat) (h : b.idByTypeNameKind name kind = .ok n) :
    ∃ t : BtfType, b.types[n]? = some t ∧ Match b name kind t ∧
      ∀ (j : Nat) (u : BtfType), j < n → b.types[j]? = some u → ¬ Match b name kind u := by
  obtain ⟨k, t, h1, h2, h3, h4⟩ := idLoop_sound b name kind b.types 0 n h
  simp only [Nat.zero_add] at h1
  subst h1
  exact ⟨t, h2, h3, h4⟩

/-- **C61** When the types of the kind have proper names, a type of the kind and name is found whenever there
is one, and otherwise the error says that the name is unknown. -/
theorem C61_complete (b : Btf) (name : List UInt8) (kind : Nat)
    (hh : b.header.hdrLen + b.header.strOff + b.header.strLen < 2 ^ 32)
    (hl : b.header.strLen = b.strings.length)
    (hn : ∀ t ∈ b.types, t.kind = kind → ∃ s, StringAt b.strings t.name s) :
    ((∃ t ∈ b.types, Match b name kind t) ↔ ∃ n, b.idByTypeNameKind name kind = .ok n) ∧
    ((∀ t ∈ b.types, ¬ Match b name kind t) ↔
      b.idByTypeNameKind name kind = .error (.unknownBtfTypeName name)) := by
  have hn' : ∀ t ∈ b.types, t.kind = kind → ∃ s, b.stringAt t.name = .ok s := by
    intro t ht hk
    obtain ⟨s, hs⟩ := hn t ht hk
    exact ⟨s, (C17_total_partial b t.name hh hl).1 s hs⟩
  cases hr : b.idByTypeNameKind name kind with
  | ok n =>
    obtain ⟨t, h1, h2, _⟩ := C61_found b name kind n hr
    have hmem : t ∈ b.types := List.mem_of_getElem? h1
    exact ⟨⟨fun _ => ⟨n, rfl⟩, fun _ => ⟨t, hmem, h2⟩⟩, ⟨fun h => absurd h2 (h t hmem), fun h => by cases h⟩⟩
  | error e =>
    obtain ⟨h1, h2⟩ := idLoop_none b name kind b.types 0 e hn' hr
    subst h1
    exact ⟨⟨fun ⟨t, ht, hm⟩ => absurd hm (h2 t ht), fun ⟨n, hn⟩ => by cases hn⟩, ⟨fun _ => rfl, fun _ => h2⟩⟩

/-- A table with two types called `int` of different kinds, meeting the hypotheses of `C61_complete`. -/
def exLookup : Btf :=
  build [.str "int".toUTF8.toList, .str "foo".toUTF8.toList, .type (mkTypedef 1 2), .type (mkInt 1 4 1 0),
    .type (mkStruct 5 [] 0), .type (mkInt 5 4 1 0), .type (mkInt 1 8 1 0)]

example : exLookup.header.hdrLen + exLookup.header.strOff + exLookup.header.strLen < 2 ^ 32 ∧
    exLookup.header.strLen = exLookup.strings.length ∧
    (∀ t ∈ exLookup.types, t.kind = 1 → (untilNul (exLookup.strings.drop t.name)).isSome) ∧
    exLookup.idByTypeNameKind "int".toUTF8.toList 1 = .ok 2 ∧
    exLookup.idByTypeNameKind "foo".toUTF8.toList 1 = .ok 4 ∧
    exLookup.idByTypeNameKind "foo".toUTF8.toList 8 = .error (.unknownBtfTypeName "foo".toUTF8.toList) := by
  decide +kernel

end Verif.Btf
