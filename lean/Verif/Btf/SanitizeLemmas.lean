import Verif.Btf.Props
import Verif.Btf.SanitizeSpec
/-!
# Lemmas about one step of sanitising
-/
set_option linter.unusedSimpArgs false
set_option linter.unusedVariables false
namespace Verif.Btf
open Verif.Bytes Verif.Btf.Spec

theorem stringAt_mono {s : List UInt8} {o : Nat} {x : List UInt8} (h : StringAt s o x) (ext : List UInt8) :
    StringAt (s ++ ext) o x := by
  obtain ⟨h1, rest, h2⟩ := h
  refine ⟨h1, rest ++ ext, ?_⟩
  have hlt : o ≤ s.length := by
    have := congrArg List.length h2
    simp at this; omega
  rw [List.drop_append_of_le_length hlt, h2]
  simp

theorem stringAt_end (s x : List UInt8) (hx : 0 ∉ x) : StringAt (s ++ x ++ [0]) s.length x := by
  refine ⟨hx, [], ?_⟩
  rw [List.append_assoc, List.drop_left]

theorem replaced_replaceByte (a c : UInt8) (s : List UInt8) : Replaced a c s (replaceByte a c s) := by
  refine ⟨by simp [replaceByte], ?_⟩
  intro k x hx
  simp [replaceByte, hx]

theorem zero_not_replaced {a c : UInt8} {s : List UInt8} (h : 0 ∉ s) (hc : c ≠ 0) : 0 ∉ replaceByte a c s := by
  intro hm
  obtain ⟨x, hx, he⟩ := List.mem_map.mp hm
  split at he
  · exact hc he
  · exact h (he ▸ hx)

/-- `b'` differs from `b` by added strings only. -/
def StrOnly (b b' : Btf) : Prop := b'.types = b.types ∧ ∃ ext, b'.strings = b.strings ++ ext

theorem addString_strOnly (b : Btf) (s : List UInt8) : StrOnly b (b.addString s).1 :=
  ⟨rfl, s ++ [0], by simp [Btf.addString]⟩

theorem StrOnly.trans {a b c : Btf} (h1 : StrOnly a b) (h2 : StrOnly b c) : StrOnly a c := by
  obtain ⟨t1, e1, s1⟩ := h1
  obtain ⟨t2, e2, s2⟩ := h2
  exact ⟨t2.trans t1, e1 ++ e2, by rw [s2, s1, List.append_assoc]⟩

theorem StrOnly.refl (b : Btf) : StrOnly b b := ⟨rfl, [], by simp⟩

theorem renamed_ok (b : Btf) (a c : UInt8) (hc : c ≠ 0) (name : List UInt8) (n : Nat) (h : StringAt b.strings n name) :
    StrOnly b (renamed b a c name n).1 ∧ RenamedTo a c (renamed b a c name n).1.strings n (renamed b a c name n).2 := by
  unfold renamed
  simp only
  split
  · rename_i hne
    refine ⟨addString_strOnly _ _, name, replaceByte a c name, ?_, replaced_replaceByte a c name,
      fun he => absurd he hne, fun _ => ⟨b.strings.length, ?_, rfl⟩⟩
    · obtain ⟨e, he⟩ := (addString_strOnly b (replaceByte a c name)).2
      rw [he]; exact stringAt_mono h e
    · exact stringAt_end b.strings _ (zero_not_replaced h.1 hc)
  · rename_i he
    exact ⟨StrOnly.refl b, name, replaceByte a c name, h, replaced_replaceByte a c name, fun _ => rfl,
      fun hne => absurd (Classical.not_not.mp he) hne⟩

theorem secMembers_ok {types : List BtfType} {es : List SecEntry} {ms : List Member} (h : secMembers types es = .ok ms) :
    ms.length = es.length ∧ ∀ (k : Nat) (e : SecEntry) (m : Member), es[k]? = some e → ms[k]? = some m →
      m.ty = e.ty ∧ m.offset = e.offset * 8 % 2 ^ 32 ∧ ∃ t, types[e.ty]? = some t ∧ m.name = t.name := by
  induction es generalizing ms with
  | nil => cases h; exact ⟨rfl, by simp⟩
  | cons e es ih =>
    rw [secMembers] at h
    split at h
    · cases h
    · rename_i mt hmt
      split at h
      · cases h
      · rename_i ms' hms
        cases h
        obtain ⟨h1, h2⟩ := ih hms
        refine ⟨by simp [h1], ?_⟩
        intro k e' m he hm
        cases k with
        | zero =>
          simp only [List.getElem?_cons_zero, Option.some.injEq] at he hm
          subst he; subst hm
          exact ⟨rfl, rfl, mt, hmt, rfl⟩
        | succ k =>
          simp only [List.getElem?_cons_succ] at he hm
          exact h2 k e' m he hm

theorem fixEntries_ok {b : Btf} {symOff : List UInt8 → Option Nat} {es es' : List SecEntry}
    (h : fixEntries b symOff es = .ok es') :
    es'.length = es.length ∧ ∀ (k : Nat) (e e' : SecEntry), es[k]? = some e → es'[k]? = some e' →
      EntryFixed b.types b.strings symOff e e' := by
  induction es generalizing es' with
  | nil => cases h; exact ⟨rfl, by simp⟩
  | cons e es ih =>
    rw [fixEntries] at h
    split at h
    · cases h
    · rename_i n i t l hv
      split at h
      · cases h
      · rename_i name hn
        have hs := C17_string b n name hn
        split at h
        · rename_i hl
          split at h
          · cases h
          · rename_i es1 hes
            cases h
            obtain ⟨h1, h2⟩ := ih hes
            refine ⟨by simp [h1], ?_⟩
            intro k a a' ha ha'
            cases k with
            | zero =>
              simp only [List.getElem?_cons_zero, Option.some.injEq] at ha ha'
              subst ha; subst ha'
              exact ⟨rfl, rfl, n, i, t, l, name, hv, hs, fun _ => rfl, fun h => absurd hl h⟩
            | succ k =>
              simp only [List.getElem?_cons_succ] at ha ha'
              exact h2 k a a' ha ha'
        · rename_i hl
          split at h
          · cases h
          · rename_i o ho
            split at h
            · cases h
            · rename_i es1 hes
              cases h
              obtain ⟨h1, h2⟩ := ih hes
              refine ⟨by simp [h1], ?_⟩
              intro k a a' ha ha'
              cases k with
              | zero =>
                simp only [List.getElem?_cons_zero, Option.some.injEq] at ha ha'
                subst ha; subst ha'
                exact ⟨rfl, rfl, n, i, t, l, name, hv, hs, fun h => absurd h hl, fun _ => ⟨o, ho, rfl⟩⟩
              | succ k =>
                simp only [List.getElem?_cons_succ] at ha ha'
                exact h2 k a a' ha ha'
    · cases h

theorem zero_not_paramName (k : Nat) : (0 : UInt8) ∉ paramName k := by
  intro h
  rcases List.mem_append.mp h with h | h
  · revert h; decide +kernel
  · obtain ⟨c, hc, he⟩ := List.mem_map.mp h
    obtain ⟨d, hd, rfl⟩ := Str.mem_render 10 k (by omega) (by omega) c hc
    have key : ∀ d : Fin 10, UInt8.ofNat (Str.digitChar d.1).toNat ≠ 0 := by decide +kernel
    exact key ⟨d, hd⟩ he

theorem nameParams_ok (b : Btf) (k0 : Nat) (ps : List Param) :
    StrOnly b (nameParams b k0 ps).1 ∧ (nameParams b k0 ps).2.length = ps.length ∧
    ∀ (k : Nat) (p p' : Param), ps[k]? = some p → (nameParams b k0 ps).2[k]? = some p' →
      p'.ty = p.ty ∧ (p.name ≠ 0 ∨ p.ty = 0 → p'.name = p.name) ∧
      (p.name = 0 ∧ p.ty ≠ 0 → ∃ o, p'.name = o % 2 ^ 32 ∧ StringAt (nameParams b k0 ps).1.strings o (paramName (k0 + k))) := by
  induction ps generalizing b k0 with
  | nil => exact ⟨StrOnly.refl b, rfl, by simp [nameParams]⟩
  | cons p ps ih =>
    rw [nameParams]
    split
    · rename_i hp
      simp only
      obtain ⟨h1, h2, h3⟩ := ih (b.addString (paramName k0)).1 (k0 + 1)
      refine ⟨(addString_strOnly b _).trans h1, by simp [h2], ?_⟩
      intro k q q' hq hq'
      cases k with
      | zero =>
        simp only [List.getElem?_cons_zero, Option.some.injEq] at hq hq'
        subst hq; subst hq'
        refine ⟨rfl, fun h => ?_, fun _ => ⟨b.strings.length, rfl, ?_⟩⟩
        · rcases h with h | h
          · exact absurd hp.1 h
          · exact absurd h hp.2
        · obtain ⟨e, he⟩ := h1.2
          rw [he]
          exact stringAt_mono (stringAt_end b.strings _ (zero_not_paramName k0)) e
      | succ k =>
        simp only [List.getElem?_cons_succ] at hq hq'
        have := h3 k q q' hq hq'
        rw [Nat.add_assoc, Nat.add_comm 1 k] at this
        exact this
    · rename_i hp
      simp only
      obtain ⟨h1, h2, h3⟩ := ih b (k0 + 1)
      refine ⟨h1, by simp [h2], ?_⟩
      intro k q q' hq hq'
      cases k with
      | zero =>
        simp only [List.getElem?_cons_zero, Option.some.injEq] at hq hq'
        subst hq; subst hq'
        exact ⟨rfl, fun _ => rfl, fun h => absurd h hp⟩
      | succ k =>
        simp only [List.getElem?_cons_succ] at hq hq'
        have := h3 k q q' hq hq'
        rw [Nat.add_assoc, Nat.add_comm 1 k] at this
        exact this

/-- Types sanitising appends. -/
def Extra (f : Feat) (t : BtfType) : Prop := (∃ n, ByteInt n t) ∨ (f.dataSec = true ∧ ∃ n i x, t = .var n i x 0)

/-- `id` is an added INT of one byte. -/
def PlaceholderAt (n : Nat) (types : List BtfType) (id : Nat) : Prop := n ≤ id ∧ ∃ t tn, types[id]? = some t ∧ ByteInt tn t

/-- `id` is an added static variable of an added INT of one byte. -/
def FillerAt (n : Nat) (types : List BtfType) (id : Nat) : Prop :=
  n ≤ id ∧ ∃ vn vi ti t tn, types[id]? = some (.var vn vi ti 0) ∧ n ≤ ti ∧ types[ti]? = some t ∧ ByteInt tn t

theorem byteInt_mkInt (n : Nat) : ByteInt n (mkInt n 1 0 0) := ⟨_, _, rfl, by unfold Announces; decide⟩

theorem getPlaceholder_ok (f : Feat) (n : Nat) (s : San) (hn : n ≤ s.b.types.length) (hph : ∀ p, s.placeholder = some p → PlaceholderAt n s.b.types p)
    (hb : (getPlaceholder s).1.b.types.length < 2 ^ 32) :
    ∃ extra, (getPlaceholder s).1.b.types = s.b.types ++ extra ∧ (∀ t ∈ extra, Extra f t) ∧
      (∃ ext, (getPlaceholder s).1.b.strings = s.b.strings ++ ext) ∧
      PlaceholderAt n (getPlaceholder s).1.b.types (getPlaceholder s).2 ∧
      (getPlaceholder s).1.filler = s.filler ∧ (getPlaceholder s).1.placeholder = some (getPlaceholder s).2 := by
  unfold getPlaceholder at hb ⊢
  cases hp : s.placeholder with
  | some id =>
    simp only
    exact ⟨[], by simp, by simp, ⟨[], by simp⟩, hph id hp, trivial, hp⟩
  | none =>
    simp only [hp] at hb ⊢
    have hb' : (s.b.types ++ [mkInt (s.b.strings.length % 2 ^ 32) 1 0 0]).length < 2 ^ 32 := hb
    rw [List.length_append] at hb'
    have hid : s.b.types.length % 2 ^ 32 = s.b.types.length := Nat.mod_eq_of_lt (by simp at hb'; omega)
    refine ⟨[mkInt (s.b.strings.length % 2 ^ 32) 1 0 0], rfl, ?_, (addString_strOnly s.b _).2, ⟨?_, ?_⟩, trivial, trivial⟩
    · intro t ht; simp only [List.mem_singleton] at ht; subst ht; exact .inl ⟨_, byteInt_mkInt _⟩
    · show n ≤ s.b.types.length % 2 ^ 32; omega
    · refine ⟨mkInt (s.b.strings.length % 2 ^ 32) 1 0 0, _, ?_, byteInt_mkInt _⟩
      show (s.b.types ++ [mkInt (s.b.strings.length % 2 ^ 32) 1 0 0])[s.b.types.length % 2 ^ 32]? = _
      rw [hid]; simp

theorem getFiller_ok (f : Feat) (hf : f.dataSec = true) (n : Nat) (s : San) (hn : n ≤ s.b.types.length)
    (hph : ∀ p, s.filler = some p → FillerAt n s.b.types p) (hb : (getFiller s).1.b.types.length < 2 ^ 32) :
    ∃ extra, (getFiller s).1.b.types = s.b.types ++ extra ∧ (∀ t ∈ extra, Extra f t) ∧
      (∃ ext, (getFiller s).1.b.strings = s.b.strings ++ ext) ∧
      FillerAt n (getFiller s).1.b.types (getFiller s).2 ∧
      (getFiller s).1.placeholder = s.placeholder ∧ (getFiller s).1.filler = some (getFiller s).2 := by
  unfold getFiller at hb ⊢
  cases hp : s.filler with
  | some id =>
    simp only
    exact ⟨[], by simp, by simp, ⟨[], by simp⟩, hph id hp, trivial, hp⟩
  | none =>
    simp only [hp] at hb ⊢
    generalize hs1 : s.b.addString "__aya_datasec_filler_type".toUTF8.toList = r1 at hb ⊢
    obtain ⟨b1, tn⟩ := r1
    have ht1 : b1.types = s.b.types := by have := congrArg (fun x => x.1.types) hs1; exact this.symm
    obtain ⟨e1, he1⟩ := (addString_strOnly s.b "__aya_datasec_filler_type".toUTF8.toList).2
    have hst1 : b1.strings = s.b.strings ++ e1 := by
      have := congrArg (fun x => x.1.strings) hs1
      exact this.symm.trans he1
    simp only at hb ⊢
    generalize hs2 : b1.addType (mkInt tn 1 0 0) = r2 at hb ⊢
    obtain ⟨b2, tid⟩ := r2
    have ht2 : b2.types = s.b.types ++ [mkInt tn 1 0 0] := by
      have := congrArg (fun x => x.1.types) hs2; rw [← ht1]; exact this.symm
    have hst2 : b2.strings = b1.strings := by have := congrArg (fun x => x.1.strings) hs2; exact this.symm
    have hid2 : tid = s.b.types.length % 2 ^ 32 := by
      have := congrArg (fun x => x.2) hs2; rw [← ht1]; exact this.symm
    simp only at hb ⊢
    generalize hs3 : b2.addString "__aya_datasec_filler".toUTF8.toList = r3 at hb ⊢
    obtain ⟨b3, vn⟩ := r3
    have ht3 : b3.types = b2.types := by have := congrArg (fun x => x.1.types) hs3; exact this.symm
    obtain ⟨e3, he3⟩ := (addString_strOnly b2 "__aya_datasec_filler".toUTF8.toList).2
    have hst3 : b3.strings = b2.strings ++ e3 := by
      have := congrArg (fun x => x.1.strings) hs3
      exact this.symm.trans he3
    simp only at hb ⊢
    have hT : (b3.addType (mkVar vn tid 0)).1.types = s.b.types ++ [mkInt tn 1 0 0, mkVar vn tid 0] := by
      show b3.types ++ [mkVar vn tid 0] = _
      rw [ht3, ht2]; simp
    have hS : (b3.addType (mkVar vn tid 0)).1.strings = s.b.strings ++ (e1 ++ e3) := by
      show b3.strings = _
      rw [hst3, hst2, hst1, List.append_assoc]
    have hI : (b3.addType (mkVar vn tid 0)).2 = (s.b.types.length + 1) % 2 ^ 32 := by
      show b3.types.length % 2 ^ 32 = _
      rw [ht3, ht2]; simp
    rw [hT, List.length_append] at hb
    simp only [List.length_cons, List.length_nil] at hb
    have hm1 : s.b.types.length % 2 ^ 32 = s.b.types.length := Nat.mod_eq_of_lt (by omega)
    have hm2 : (s.b.types.length + 1) % 2 ^ 32 = s.b.types.length + 1 := Nat.mod_eq_of_lt (by omega)
    refine ⟨_, hT, ?_, ⟨_, hS⟩, ⟨?_, vn, 14 * 2 ^ 24, tid, mkInt tn 1 0 0, tn, ?_, ?_, ?_, byteInt_mkInt _⟩, trivial, trivial⟩
    · intro t ht
      simp only [List.mem_cons, List.not_mem_nil, or_false] at ht
      rcases ht with rfl | rfl
      · exact .inl ⟨_, byteInt_mkInt _⟩
      · exact .inr ⟨hf, _, _, _, rfl⟩
    · rw [hI, hm2]; omega
    · rw [hI, hm2, hT]; simp [mkVar]
    · rw [hid2, hm1]; omega
    · rw [hT, hid2, hm1]; simp

end Verif.Btf
