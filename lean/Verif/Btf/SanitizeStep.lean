import Verif.Btf.SanitizeLemmas
/-!
# One step of sanitising meets its specification
-/
set_option linter.unusedSimpArgs false
set_option linter.unusedVariables false
namespace Verif.Btf
open Verif.Bytes Verif.Btf.Spec

/-- Later states keep what is needed of earlier ones: added types, and variables while they are supported. -/
def Grows (f : Feat) (n : Nat) (a b : List BtfType) : Prop :=
  (∀ (j : Nat) (t : BtfType), n ≤ j → a[j]? = some t → b[j]? = some t) ∧
  (f.dataSec = true → ∀ (j vn vi x l : Nat), a[j]? = some (.var vn vi x l) → b[j]? = some (.var vn vi x l))

theorem Grows.refl (f : Feat) (n : Nat) (a : List BtfType) : Grows f n a a := ⟨fun _ _ _ h => h, fun _ _ _ _ _ _ h => h⟩

theorem Grows.placeholder {f : Feat} {n id : Nat} {a b : List BtfType} (g : Grows f n a b) (h : PlaceholderAt n a id) :
    PlaceholderAt n b id := by
  obtain ⟨h1, t, tn, h2, h3⟩ := h
  exact ⟨h1, t, tn, g.1 _ _ h1 h2, h3⟩

theorem Grows.filler {f : Feat} {n id : Nat} {a b : List BtfType} (g : Grows f n a b) (h : FillerAt n a id) :
    FillerAt n b id := by
  obtain ⟨h1, vn, vi, ti, t, tn, h2, h3, h4, h5⟩ := h
  exact ⟨h1, vn, vi, ti, t, tn, g.1 _ _ h1 h2, h3, g.1 _ _ h3 h4, h5⟩

theorem renamedTo_mono {a c : UInt8} {s : List UInt8} {n n' : Nat} (h : RenamedTo a c s n n') (ext : List UInt8) :
    RenamedTo a c (s ++ ext) n n' := by
  obtain ⟨x, x', h1, h2, h3, h4⟩ := h
  refine ⟨x, x', stringAt_mono h1 ext, h2, h3, fun hne => ?_⟩
  obtain ⟨o, ho, hn⟩ := h4 hne
  exact ⟨o, stringAt_mono ho ext, hn⟩

theorem becomes_mono {f : Feat} {secSize symOff : List UInt8 → Option Nat} {oldt a b : List BtfType} {news : List UInt8}
    {t t' : BtfType} (g : Grows f oldt.length a b) (ext : List UInt8)
    (h : Becomes f secSize symOff oldt a news t t') : Becomes f secSize symOff oldt b (news ++ ext) t t' := by
  cases t with
  | ref k n i x =>
    cases k <;> simp only [Becomes] at h ⊢ <;> try exact h
    · split at h <;> rename_i hc
      · rw [if_pos hc]
        obtain ⟨i', name, h1, h2, h3⟩ := h
        exact ⟨i', name, h1, stringAt_mono h2 ext, h3⟩
      · rw [if_neg hc]; exact h
  | funcProto n i r ps =>
    simp only [Becomes] at h ⊢
    split at h <;> rename_i hc
    · rw [if_pos hc]
      obtain ⟨ps', h1, h2, h3⟩ := h
      refine ⟨ps', h1, h2, fun k p p' hp hp' => ?_⟩
      obtain ⟨h4, h5, h6⟩ := h3 k p p' hp hp'
      refine ⟨h4, h5, fun hz => ?_⟩
      obtain ⟨o, ho, hs⟩ := h6 hz
      exact ⟨o, ho, stringAt_mono hs ext⟩
    · rw [if_neg hc]; exact h
  | enum64 n i s vs =>
    simp only [Becomes] at h ⊢
    split at h <;> rename_i hc
    · rw [if_pos hc]; exact h
    · rw [if_neg hc]
      obtain ⟨i', p, pt, pn, sg, h1, h2, h3, h4, h5, h6, h7⟩ := h
      exact ⟨i', p, pt, pn, sg, h1, h2, h3, h4, h5, g.1 _ _ h5 h6, h7⟩
  | dataSec n i s es =>
    simp only [Becomes] at h ⊢
    split at h <;> rename_i hf
    · rw [if_pos hf]
      obtain ⟨n', i', s', es', h1, h2, h3, h4⟩ := h
      refine ⟨n', i', s', es', h1, renamedTo_mono h2 ext, h3, fun hz => ?_⟩
      obtain ⟨h5, h6, name, size, h7, h8, h9, h10⟩ := h4 hz
      refine ⟨h5, h6, name, size, stringAt_mono h7 ext, h8, fun hne => ?_, fun he => ?_⟩
      · obtain ⟨h11, h12, h13⟩ := h9 hne
        refine ⟨h11, h12, fun k e e' hk hk' => ?_⟩
        obtain ⟨h14, h15, vn, vi, vt, l, vname, h16, h17, h18⟩ := h13 k e e' hk hk'
        exact ⟨h14, h15, vn, vi, vt, l, vname, g.2 hf _ _ _ _ _ h16, stringAt_mono h17 ext, h18⟩
      · obtain ⟨h11, h12⟩ := h10 he
        refine ⟨h11, fun hc => ?_⟩
        obtain ⟨h13, e, h14, h15, h16, h17, vn, vi, ti, tt, tn, h18, h19, h20, h21⟩ := h12 hc
        exact ⟨h13, e, h14, h15, h16, h17, vn, vi, ti, tt, tn, g.1 _ _ h15 h18, h19, g.1 _ _ h19 h20, h21⟩
    · rw [if_neg hf]
      obtain ⟨n', i', s', ms, h1, h2, h3, h4, h5⟩ := h
      exact ⟨n', i', s', ms, h1, h2, h3, renamedTo_mono h4 ext, h5⟩
  | unknown => exact h
  | fwd _ _ => exact h
  | int _ _ _ _ => exact h
  | float _ _ _ => exact h
  | enum _ _ _ _ => exact h
  | array _ _ _ _ _ => exact h
  | struct _ _ _ _ => exact h
  | union _ _ _ _ _ => exact h
  | var _ _ _ _ => exact h
  | declTag _ _ _ _ => exact h

/-- What one step does to the state. -/
structure StepOk (f : Feat) (secSize symOff : List UInt8 → Option Nat) (oldt : List BtfType) (s s' : San) (i : Nat)
    (t : BtfType) : Prop where
  types : ∃ extra t', s'.b.types = (s.b.types ++ extra).set i t' ∧ (∀ x ∈ extra, Extra f x) ∧
    Becomes f secSize symOff oldt s'.b.types s'.b.strings t t'
  strings : ∃ ext, s'.b.strings = s.b.strings ++ ext
  ph : ∀ p, s'.placeholder = some p → PlaceholderAt oldt.length s'.b.types p
  fl : ∀ p, s'.filler = some p → FillerAt oldt.length s'.b.types p

theorem grows_of {f : Feat} {a extra : List BtfType} {n i : Nat} {t t' : BtfType} (hi : i < n) (hcur : a[i]? = some t)
    (hv : f.dataSec = true → ∀ (vn vi x l : Nat), t = .var vn vi x l → t' = t) : Grows f n a ((a ++ extra).set i t') := by
  have hlt : i < a.length := by
    rw [List.getElem?_eq_some_iff] at hcur; exact hcur.1
  refine ⟨fun j x hj hx => ?_, fun hf j vn vi x l hx => ?_⟩
  · have hjl : j < a.length := by rw [List.getElem?_eq_some_iff] at hx; exact hx.1
    rw [List.getElem?_set_ne (by omega), List.getElem?_append_left hjl, hx]
  · have hjl : j < a.length := by rw [List.getElem?_eq_some_iff] at hx; exact hx.1
    by_cases hij : i = j
    · subst hij
      rw [hcur] at hx
      cases hx
      rw [List.getElem?_set_self (by simp; omega), hv hf _ _ _ _ rfl]
    · rw [List.getElem?_set_ne hij, List.getElem?_append_left hjl, hx]

theorem becomes_var {f : Feat} {secSize symOff : List UInt8 → Option Nat} {oldt newt : List BtfType} {news : List UInt8}
    {t t' : BtfType} (h : Becomes f secSize symOff oldt newt news t t') (hf : f.dataSec = true) :
    ∀ vn vi x l, t = .var vn vi x l → t' = t := by
  rintro vn vi x l rfl
  simp only [Becomes, hf, if_true] at h
  exact h

/-- The shape shared by all branches: new strings, appended types, record `i` replaced. -/
theorem stepOk_mk {f : Feat} {secSize symOff : List UInt8 → Option Nat} {oldt : List BtfType} {s s1 s' : San} {i : Nat}
    {t t' : BtfType} {extra : List BtfType} {ext : List UInt8} (hi : i < oldt.length) (hcur : s.b.types[i]? = some t)
    (h1 : s1.b.types = s.b.types ++ extra) (hex : ∀ x ∈ extra, Extra f x) (h2 : s1.b.strings = s.b.strings ++ ext)
    (hph : ∀ p, s1.placeholder = some p → PlaceholderAt oldt.length s1.b.types p)
    (hfl : ∀ p, s1.filler = some p → FillerAt oldt.length s1.b.types p)
    (hT : s'.b.types = s1.b.types.set i t') (hS : s'.b.strings = s1.b.strings) (hP : s'.placeholder = s1.placeholder)
    (hF : s'.filler = s1.filler)
    (hB : Becomes f secSize symOff oldt s'.b.types s'.b.strings t t') : StepOk f secSize symOff oldt s s' i t := by
  have g : Grows f oldt.length s1.b.types s'.b.types := by
    have : s'.b.types = (s1.b.types ++ []).set i t' := by rw [hT]; simp
    rw [this]
    refine grows_of (t := t) hi ?_ (becomes_var hB)
    rw [h1, List.getElem?_append_left (by rw [List.getElem?_eq_some_iff] at hcur; exact hcur.1)]
    exact hcur
  refine ⟨⟨extra, t', by rw [hT, h1], hex, hB⟩, ⟨ext, by rw [hS, h2]⟩, ?_, ?_⟩
  · intro p hp; exact g.placeholder (hph p (hP ▸ hp))
  · intro p hp; exact g.filler (hfl p (hF ▸ hp))

theorem mem_builtin (name : List UInt8) : isMemBuiltin name = true ↔
    name ∈ ["memset", "memcpy", "memmove", "memcmp"].map (fun x => x.toUTF8.toList) := by
  simp [isMemBuiltin, or_assoc]

theorem static_facts (i : Nat) : staticInfo i / 65536 = i / 65536 ∧ Linkage (staticInfo i) 0 := by
  unfold staticInfo Linkage
  omega

theorem set_self {a : List BtfType} {i : Nat} {t : BtfType} (h : a[i]? = some t) : a = a.set i t := by
  apply List.ext_getElem?
  intro j
  by_cases hij : i = j
  · subst hij
    rw [List.getElem?_set_self (by rw [List.getElem?_eq_some_iff] at h; exact h.1), h]
  · rw [List.getElem?_set_ne hij]

theorem announces_add (k r : Nat) (hk : k < 32) (hr : r < 65536) :
    Announces (k * 2 ^ 24 + r) k ∧ Counts (k * 2 ^ 24 + r) r ∧ (k * 2 ^ 24 + r) / 2 ^ 31 = k / 128 := by
  unfold Announces Counts
  have h1 : (2 : Nat) ^ 24 = 16777216 := by decide
  have h2 : (2 : Nat) ^ 31 = 2147483648 := by decide
  rw [h1, h2]
  omega

theorem resized_types (b : Btf) (o n : Nat) : (resized b o n).types = b.types := by unfold resized; split <;> rfl
theorem resized_strings (b : Btf) (o n : Nat) : (resized b o n).strings = b.strings := by unfold resized; split <;> rfl

theorem fixDataSec_ok {f : Feat} (hf : f.dataSec = true) {secSize symOff : List UInt8 → Option Nat} {oldt : List BtfType}
    {s s1 s' : San} {i n n' info : Nat} {name : List UInt8} {es : List SecEntry} {ext : List UInt8}
    (hn : oldt.length ≤ s.b.types.length) (hi : i < oldt.length) (hcur : s.b.types[i]? = some (.dataSec n info 0 es))
    (h1 : s1.b.types = s.b.types) (h2 : s1.b.strings = s.b.strings ++ ext) (hname : StringAt s1.b.strings n name)
    (hren : RenamedTo 47 46 s1.b.strings n n')
    (hph : ∀ p, s1.placeholder = some p → PlaceholderAt oldt.length s1.b.types p)
    (hfl : ∀ p, s1.filler = some p → FillerAt oldt.length s1.b.types p)
    (h : fixDataSec f secSize symOff s1 i n' name es = .ok s') (hb : s'.b.types.length < 2 ^ 32) :
    StepOk f secSize symOff oldt s s' i (.dataSec n info 0 es) := by
  unfold fixDataSec at h
  split at h
  · cases h
  rename_i size64 hsz
  simp only at h
  -- entries whose variables are known stay fixed
  have hfix : ∀ (s2 : San) (es0 es' : List SecEntry) (t' : BtfType), s2.b.types[i]? = some (.dataSec n info 0 es) →
      fixEntries s2.b symOff es0 = .ok es' → ∀ (k : Nat) (e e' : SecEntry), es0[k]? = some e → es'[k]? = some e' →
      EntryFixed (s2.b.types.set i t') s2.b.strings symOff e e' := by
    intro s2 es0 es' t' hc hfe k e e' hk hk'
    obtain ⟨h3, h4, vn, vi, vt, l, vname, h5, h6⟩ := (fixEntries_ok hfe).2 k e e' hk hk'
    refine ⟨h3, h4, vn, vi, vt, l, vname, ?_, h6⟩
    rw [List.getElem?_set_ne, h5]
    intro hij
    rw [hij, h5] at hc
    cases hc
  have hann := fun r hr => announces_add 15 r (by omega) hr
  by_cases hcond : (es.isEmpty && (size64 % 2 ^ 32 == 0 || !f.dataSecZero)) = true
  · simp only [if_pos hcond] at h
    rw [Bool.and_eq_true, List.isEmpty_iff] at hcond
    obtain ⟨hes, hcond⟩ := hcond
    subst hes
    split at h
    · cases h
    rename_i es' hes'
    cases h
    simp only [San.setType, resized_types] at hb
    have hb' : (getFiller s1).1.b.types.length < 2 ^ 32 := by simpa using hb
    obtain ⟨extra, g1, g2, ⟨e2, g3⟩, g4, g5, g6⟩ := getFiller_ok f hf oldt.length s1 (by rw [h1]; exact hn) hfl hb'
    have hcur2 : (getFiller s1).1.b.types[i]? = some (.dataSec n info 0 []) := by
      rw [g1, h1, List.getElem?_append_left (by rw [List.getElem?_eq_some_iff] at hcur; exact hcur.1)]
      exact hcur
    have hfe := hfix (getFiller s1).1 _ es' (mkDataSec n' es' (if size64 % 2 ^ 32 = 0 then max (size64 % 2 ^ 32) 1 else size64 % 2 ^ 32)) hcur2 hes'
    obtain ⟨hlen, -⟩ := fixEntries_ok hes'
    have g : Grows f oldt.length s1.b.types (getFiller s1).1.b.types := by
      rw [g1]
      refine ⟨fun j x _ hx => ?_, fun _ j _ _ _ _ hx => ?_⟩
      all_goals
        rw [List.getElem?_append_left (by rw [List.getElem?_eq_some_iff] at hx; exact hx.1)]
        exact hx
    refine stepOk_mk (s1 := (getFiller s1).1) (extra := extra) (ext := ext ++ e2)
      (t' := mkDataSec n' es' (if size64 % 2 ^ 32 = 0 then max (size64 % 2 ^ 32) 1 else size64 % 2 ^ 32))
      hi hcur (by rw [g1, h1]) g2 (by rw [g3, h2, List.append_assoc]) ?_ ?_ ?_ ?_ rfl rfl ?_
    · intro p hp; rw [g5] at hp; exact g.placeholder (hph p hp)
    · intro p hp; rw [g6] at hp; cases hp; exact g4
    · simp only [San.setType, resized_types, resized_strings]
    · simp only [San.setType, resized_types, resized_strings]
    · have hT : (San.setType { (getFiller s1).1 with b := resized (getFiller s1).1.b (12 + 12 * ([] : List SecEntry).length) (mkDataSec n' es' (if size64 % 2 ^ 32 = 0 then max (size64 % 2 ^ 32) 1 else size64 % 2 ^ 32)).infoSize } i (mkDataSec n' es' (if size64 % 2 ^ 32 = 0 then max (size64 % 2 ^ 32) 1 else size64 % 2 ^ 32))).b.types = (getFiller s1).1.b.types.set i (mkDataSec n' es' (if size64 % 2 ^ 32 = 0 then max (size64 % 2 ^ 32) 1 else size64 % 2 ^ 32)) := by
        simp only [San.setType, resized_types, resized_strings]
      have hS : (San.setType { (getFiller s1).1 with b := resized (getFiller s1).1.b (12 + 12 * ([] : List SecEntry).length) (mkDataSec n' es' (if size64 % 2 ^ 32 = 0 then max (size64 % 2 ^ 32) 1 else size64 % 2 ^ 32)).infoSize } i (mkDataSec n' es' (if size64 % 2 ^ 32 = 0 then max (size64 % 2 ^ 32) 1 else size64 % 2 ^ 32))).b.strings = (getFiller s1).1.b.strings := by
        simp only [San.setType, resized_types, resized_strings]
      rw [hT, hS, g3]
      simp only [Becomes, hf, if_true]
      rw [← g3]
      obtain ⟨hA, hC, -⟩ := hann (es'.length % 65536) (Nat.mod_lt _ (by omega))
      refine ⟨n', _, _, es', rfl, by rw [g3]; exact renamedTo_mono hren e2, fun h => absurd rfl h, fun _ => ⟨hA, hC, name, size64,
        by rw [g3]; exact stringAt_mono hname e2, hsz, fun h => absurd rfl h, fun _ => ⟨?_, ?_⟩⟩⟩
      · rintro ⟨hne, hz⟩
        rw [hz] at hcond
        simp only [Bool.or_eq_true, beq_iff_eq, Bool.not_true, Bool.false_eq_true, or_false] at hcond
        exact absurd hcond hne
      · intro _
        refine ⟨?_, ?_⟩
        · split <;> omega
        · obtain ⟨e, he⟩ : ∃ e, es' = [e] := by
            simp only [List.length_cons, List.length_nil] at hlen
            match es', hlen with
            | [e], _ => exact ⟨e, rfl⟩
          subst he
          obtain ⟨h3, h4, vn, vi, vt, l, vname, h5, h6, h7, h8⟩ := hfe 0 _ e rfl rfl
          obtain ⟨k1, kvn, kvi, kti, kt, ktn, k2, k3, k4, k5⟩ := g4
          have hne : ∀ j, oldt.length ≤ j → i ≠ j := by intro j hj; omega
          refine ⟨e, rfl, ?_, ?_, h4, kvn, kvi, kti, kt, ktn, ?_, k3, ?_, k5⟩
          · rw [h3]; exact k1
          · rw [List.getElem?_set_ne (hne _ k1), k2] at h5
            cases h5
            exact h7 rfl
          · rw [h3]
            rw [List.getElem?_set_ne (hne _ k1), k2]
          · rw [List.getElem?_set_ne (hne _ k3), k4]
  · simp only [if_neg hcond] at h
    split at h
    · cases h
    rename_i es' hes'
    cases h
    obtain ⟨hlen, -⟩ := fixEntries_ok hes'
    have hfe := hfix s1 _ es' (mkDataSec n' es' (size64 % 2 ^ 32)) (by rw [h1]; exact hcur) hes'
    have hT : (San.setType { s1 with b := resized s1.b (12 + 12 * es.length) (mkDataSec n' es' (size64 % 2 ^ 32)).infoSize } i (mkDataSec n' es' (size64 % 2 ^ 32))).b.types = s1.b.types.set i (mkDataSec n' es' (size64 % 2 ^ 32)) := by
      simp only [San.setType, resized_types, resized_strings]
    have hS : (San.setType { s1 with b := resized s1.b (12 + 12 * es.length) (mkDataSec n' es' (size64 % 2 ^ 32)).infoSize } i (mkDataSec n' es' (size64 % 2 ^ 32))).b.strings = s1.b.strings := by
      simp only [San.setType, resized_types, resized_strings]
    refine stepOk_mk (s1 := s1) (extra := []) (ext := ext) (t' := mkDataSec n' es' (size64 % 2 ^ 32))
      hi hcur (by rw [h1]; simp) (by simp) h2 hph hfl hT hS rfl rfl ?_
    rw [hT, hS]
    simp only [Becomes, hf, if_true]
    obtain ⟨hA, hC, -⟩ := hann (es'.length % 65536) (Nat.mod_lt _ (by omega))
    refine ⟨n', _, _, es', rfl, hren, fun h => absurd rfl h, fun _ => ⟨hA, hC, name, size64, hname, hsz,
      fun _ => ⟨rfl, hlen, hfe⟩, fun he => ⟨fun _ => ⟨rfl, ?_⟩, fun hc => ?_⟩⟩⟩
    · subst he
      exact List.eq_nil_of_length_eq_zero hlen
    · subst he
      exfalso
      apply hcond
      rcases hc with hc | hc <;> simp [hc]

theorem sanitizeOne_ok {f : Feat} {secSize symOff : List UInt8 → Option Nat} {oldt : List BtfType} {s s' : San} {i : Nat}
    {t : BtfType} (hn : oldt.length ≤ s.b.types.length) (hi : i < oldt.length) (hcur : s.b.types[i]? = some t)
    (hvar : ∀ (j vn vi x l : Nat), oldt[j]? = some (.var vn vi x l) → ∃ t', s.b.types[j]? = some t' ∧ t'.name = vn)
    (hph : ∀ p, s.placeholder = some p → PlaceholderAt oldt.length s.b.types p)
    (hfl : ∀ p, s.filler = some p → FillerAt oldt.length s.b.types p)
    (h : sanitizeOne f secSize symOff s i = .ok s') (hb : s'.b.types.length < 2 ^ 32) :
    StepOk f secSize symOff oldt s s' i t := by
  have same : Becomes f secSize symOff oldt s.b.types s.b.strings t t → StepOk f secSize symOff oldt s s i t := by
    intro hB
    exact stepOk_mk (s1 := s) (extra := []) (ext := []) hi hcur (by simp) (by simp) (by simp) hph hfl (set_self hcur) rfl rfl
      rfl hB
  have put : ∀ t', Becomes f secSize symOff oldt (s.b.types.set i t') s.b.strings t t' →
      StepOk f secSize symOff oldt s (s.setType i t') i t := by
    intro t' hB
    exact stepOk_mk (s1 := s) (extra := []) (ext := []) hi hcur (by simp) (by simp) (by simp) hph hfl rfl rfl rfl rfl hB
  have putS : ∀ b' t', StrOnly s.b b' → Becomes f secSize symOff oldt (s.b.types.set i t') b'.strings t t' →
      StepOk f secSize symOff oldt s ({ s with b := b' }.setType i t') i t := by
    intro b' t' hso hB
    obtain ⟨ht, ext, hs⟩ := hso
    refine stepOk_mk (s1 := { s with b := b' }) (extra := []) (ext := ext) hi hcur (by simp [ht]) (by simp) hs ?_ ?_ rfl rfl rfl rfl ?_
    · intro p hp; show PlaceholderAt _ b'.types p; rw [ht]; exact hph p hp
    · intro p hp; show FillerAt _ b'.types p; rw [ht]; exact hfl p hp
    · show Becomes f secSize symOff oldt (b'.types.set i t') b'.strings t t'
      rw [ht]; exact hB
  unfold sanitizeOne at h
  rw [hcur] at h
  cases t with
  | ref k n info x =>
    cases k with
    | ptr => cases h; exact put _ (by simp [Becomes])
    | func =>
      simp only at h
      split at h
      · cases h
      rename_i name hname
      have hs := C17_string _ _ _ hname
      have hst := static_facts info
      split at h
      · rename_i hf
        cases h
        refine put _ ?_
        rw [Bool.not_eq_true'] at hf
        simp only [Becomes, hf, Bool.false_eq_true, if_false, mkTypedef]
        exact ⟨_, rfl, by unfold Announces; decide⟩
      · rename_i hf
        have hf' : f.func = true := by simpa using hf
        split at h
        · rename_i hl
          split at h
          · rename_i hm
            cases h
            refine put _ ?_
            simp only [Becomes, hf', if_true]
            refine ⟨_, name, rfl, hs, hst.1, fun h => absurd hl h, fun _ => ⟨?_, fun _ => hst.2⟩⟩
            rintro ⟨_, hnm⟩
            exact absurd ((mem_builtin name).mp hm) hnm
          · rename_i hm
            split at h
            · rename_i hg
              cases h
              refine put _ ?_
              simp only [Becomes, hf', if_true]
              refine ⟨_, name, rfl, hs, hst.1, fun h => absurd hl h, fun _ => ⟨?_, fun _ => hst.2⟩⟩
              rintro ⟨hg', _⟩
              rw [hg'] at hg; simp at hg
            · rename_i hg
              cases h
              refine same ?_
              simp only [Becomes, hf', if_true]
              refine ⟨_, name, rfl, hs, rfl, fun _ => rfl, fun _ => ⟨fun _ => rfl, ?_⟩⟩
              rintro (hg' | hm')
              · rw [hg'] at hg; simp at hg
              · exact absurd ((mem_builtin name).mpr hm') hm
        · rename_i hl
          cases h
          refine same ?_
          simp only [Becomes, hf', if_true]
          exact ⟨_, name, rfl, hs, rfl, fun _ => rfl, fun hl' => absurd hl' hl⟩
    | typeTag =>
      simp only at h
      split at h <;> rename_i hf <;> cases h
      · refine put _ ?_
        rw [Bool.not_eq_true'] at hf
        simp only [Becomes, hf, Bool.false_eq_true, if_false, mkConst]
        exact ⟨_, rfl, by unfold Announces; decide⟩
      · refine same ?_
        simp only [Becomes]
        (rw [if_pos (by simpa using hf)]; first | done | trivial)
    | const => cases h; exact same (by simp [Becomes])
    | volatile => cases h; exact same (by simp [Becomes])
    | restrict => cases h; exact same (by simp [Becomes])
    | typedef => cases h; exact same (by simp [Becomes])
  | var n info x l =>
    simp only at h
    split at h <;> rename_i hf <;> cases h
    · refine put _ ?_
      rw [Bool.not_eq_true'] at hf
      simp only [Becomes, hf, Bool.false_eq_true, if_false]
      exact byteInt_mkInt n
    · refine same ?_
      simp only [Becomes]
      (rw [if_pos (by simpa using hf)]; first | done | trivial)
  | declTag n info x c =>
    simp only at h
    split at h <;> rename_i hf <;> cases h
    · refine put _ ?_
      rw [Bool.not_eq_true'] at hf
      simp only [Becomes, hf, Bool.false_eq_true, if_false]
      exact byteInt_mkInt n
    · refine same ?_
      simp only [Becomes]
      (rw [if_pos (by simpa using hf)]; first | done | trivial)
  | float n info size =>
    simp only at h
    split at h <;> rename_i hf <;> cases h
    · refine put _ ?_
      rw [Bool.not_eq_true'] at hf
      simp only [Becomes, hf, Bool.false_eq_true, if_false, mkStruct]
      exact ⟨_, rfl, by unfold Announces; decide, by unfold Counts; decide⟩
    · refine same ?_
      simp only [Becomes]
      (rw [if_pos (by simpa using hf)]; first | done | trivial)
  | enum n info size vs =>
    simp only at h
    split at h <;> rename_i hf <;> cases h
    · refine put _ ?_
      rw [Bool.and_eq_true, Bool.not_eq_true', beq_iff_eq] at hf
      simp only [Becomes, hf.1, Bool.false_eq_true, if_false]
      refine ⟨_, rfl, ?_, ?_⟩
      · exact Nat.mod_mod _ _
      · unfold SignBit
        have : info % 2 ^ 31 / 2 ^ 31 = 0 := Nat.div_eq_of_lt (Nat.mod_lt _ (by decide))
        omega
    · refine same ?_
      simp only [Becomes]
      split
      · trivial
      · rename_i hf'
        refine ⟨_, rfl, rfl, ?_⟩
        intro hs
        apply hf
        have : f.enum64 = false := by simpa using hf'
        rw [this]
        unfold SignBit at hs
        simp [hs]
  | enum64 n info size vs =>
    simp only at h
    split at h <;> rename_i hf <;> cases h
    · have hf' : f.enum64 = false := by simpa using hf
      have hb' : (getPlaceholder s).1.b.types.length < 2 ^ 32 := by
        simpa [San.setType] using hb
      obtain ⟨extra, g1, g2, ⟨e2, g3⟩, g4, g5, g6⟩ := getPlaceholder_ok f oldt.length s hn hph hb'
      have g : Grows f oldt.length s.b.types (getPlaceholder s).1.b.types := by
        rw [g1]
        refine ⟨fun j x _ hx => ?_, fun _ j _ _ _ _ hx => ?_⟩
        all_goals
          rw [List.getElem?_append_left (by rw [List.getElem?_eq_some_iff] at hx; exact hx.1)]
          exact hx
      refine stepOk_mk (s1 := (getPlaceholder s).1) (extra := extra) (ext := e2) hi hcur g1 g2 g3 ?_ ?_ rfl rfl rfl rfl ?_
      · intro p hp; rw [g6] at hp; cases hp; exact g4
      · intro p hp; rw [g5] at hp; exact g.filler (hfl p hp)
      · simp only [Becomes, hf', Bool.false_eq_true, if_false]
        obtain ⟨k1, pt, pn, k2, k3⟩ := g4
        obtain ⟨hA, hC, -⟩ := announces_add 5 (vs.length % 65536) (by omega) (Nat.mod_lt _ (by omega))
        refine ⟨_, (getPlaceholder s).2, pt, pn, _, rfl, ?_, ?_, ?_, k1, ?_, k3⟩
        · simpa using hA
        · simpa using hC
        · unfold SignBit; simp
        · show ((getPlaceholder s).1.b.types.set i _)[_]? = some pt
          rw [List.getElem?_set_ne (by omega), k2]
    · refine same ?_
      simp only [Becomes]
      (rw [if_pos (by simpa using hf)]; first | done | trivial)
  | funcProto n info r ps =>
    simp only at h
    split at h
    · rename_i hf
      cases h
      obtain ⟨h1, h2, h3⟩ := nameParams_ok s.b 0 ps
      refine putS _ _ h1 ?_
      simp only [Becomes, hf, if_true]
      refine ⟨_, rfl, h2, fun k p p' hp hp' => ?_⟩
      have := h3 k p p' hp hp'
      rw [Nat.zero_add] at this
      exact this
    · rename_i hf
      cases h
      refine put _ ?_
      have hf' : f.func = false := by simpa using hf
      simp only [Becomes, hf', Bool.false_eq_true, if_false, mkEnum]
      obtain ⟨hA, hC, hD⟩ := announces_add 6 (ps.length % 65536) (by omega) (Nat.mod_lt _ (by omega))
      refine ⟨_, rfl, ?_, ?_, ?_⟩
      · simpa using hA
      · simpa using hC
      · unfold SignBit; simp only [List.length_map, Nat.add_zero]; rw [show (6 * 2 ^ 24 + ps.length % 65536) / 2 ^ 31 = 6 / 128 from hD]; decide
  | dataSec n info size es =>
    simp only at h
    split at h
    · cases h
    rename_i name hname
    have hs := C17_string _ _ _ hname
    split at h
    · rename_i hf
      have hf' : f.dataSec = false := by simpa using hf
      obtain ⟨r1, r2⟩ := renamed_ok s.b 46 95 (by decide) name n hs
      split at h
      · cases h
      rename_i ms hms
      cases h
      obtain ⟨m1, m2⟩ := secMembers_ok hms
      refine putS _ _ r1 ?_
      simp only [Becomes, hf', Bool.false_eq_true, if_false, mkStruct]
      obtain ⟨hA, hC, hD⟩ := announces_add 4 (ms.length % 65536) (by omega) (Nat.mod_lt _ (by omega))
      refine ⟨_, _, _, ms, rfl, hA, hC, r2, m1, fun k e m hk hk' => ?_⟩
      obtain ⟨m3, m4, mt, m5, m6⟩ := m2 k e m hk hk'
      refine ⟨m3, m4, fun vn i x l ho => ?_⟩
      obtain ⟨t', h5, h6⟩ := hvar _ _ _ _ _ ho
      rw [m5] at h5
      cases h5
      rw [m6, h6]
    · rename_i hf
      have hf' : f.dataSec = true := by simpa using hf
      obtain ⟨r1, r2⟩ := renamed_ok s.b 47 46 (by decide) name n hs
      split at h
      · rename_i hsz
        cases h
        refine putS _ _ r1 ?_
        simp only [Becomes, hf', if_true]
        exact ⟨_, _, _, _, rfl, r2, fun _ => ⟨rfl, rfl, rfl⟩, fun hz => absurd hz (by omega)⟩
      · rename_i hsz
        have hz : size = 0 := by omega
        subst hz
        obtain ⟨r1a, ext, r1b⟩ := r1
        refine fixDataSec_ok hf' (s1 := { s with b := (renamed s.b 47 46 name n).1 }) (ext := ext) hn hi hcur r1a r1b ?_ r2 ?_ ?_ h hb
        · rw [r1b]; exact stringAt_mono hs ext
        · intro p hp
          show PlaceholderAt _ (renamed s.b 47 46 name n).1.types p
          rw [r1a]; exact hph p hp
        · intro p hp
          show FillerAt _ (renamed s.b 47 46 name n).1.types p
          rw [r1a]; exact hfl p hp
  | unknown => cases h; exact same rfl
  | fwd _ _ => cases h; exact same rfl
  | int _ _ _ _ => cases h; exact same rfl
  | array _ _ _ _ _ => cases h; exact same rfl
  | struct _ _ _ _ => cases h; exact same rfl
  | union _ _ _ _ _ => cases h; exact same rfl

end Verif.Btf
