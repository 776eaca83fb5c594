import Verif.Externs.Fixup

/-! # C90: what the kernel is given for the externs -/
set_option linter.unusedSimpArgs false
set_option linter.unusedVariables false
namespace Verif.Externs
open Verif.Btf Verif.Btf.Spec Verif.Core.Spec Verif.Externs.Spec

/-- The string section is as long as the header says, and `m` bytes and types can be added before 32 bits overflow. -/
def Spec.Sized (b : Btf) (m : Nat) : Prop :=
  b.header.strLen = b.strings.length ∧ b.header.hdrLen + b.header.strOff + b.strings.length + m < 2 ^ 32 ∧
  b.types.length + m < 2 ^ 32

/-- Type `id` is an integer of four bytes. -/
def Spec.Int4 (b : Btf) (id : Nat) : Prop := ∃ n i d, b.types[id]? = some (.int n i 4 d)

theorem sized_string {b : Btf} {m : Nat} {s : List UInt8} (h : Sized b (m + s.length + 1)) : Sized (b.addString s).1 m := by
  obtain ⟨h1, h2, h3⟩ := h
  have hl : (b.strings ++ s ++ [0]).length = b.strings.length + s.length + 1 := by simp; omega
  refine ⟨?_, ?_, ?_⟩
  · show (b.strings ++ s ++ [0]).length % 2 ^ 32 = (b.strings ++ s ++ [0]).length
    rw [hl]; exact Nat.mod_eq_of_lt (by omega)
  · show b.header.hdrLen + b.header.strOff + (b.strings ++ s ++ [0]).length + m < 2 ^ 32
    rw [hl]; omega
  · show b.types.length + m < 2 ^ 32
    omega

theorem sized_type {b : Btf} {m : Nat} {t : BtfType} (ht : t.infoSize = 16) (h : Sized b (m + 16)) :
    Sized (b.addType t).1 m ∧ (b.addType t).2 = b.types.length ∧ (b.addType t).1.types[(b.addType t).2]? = some t := by
  obtain ⟨h1, h2, h3⟩ := h
  have hid : (b.addType t).2 = b.types.length := by
    show b.types.length % 2 ^ 32 = _
    exact Nat.mod_eq_of_lt (by omega)
  refine ⟨⟨h1, ?_, ?_⟩, hid, ?_⟩
  · show b.header.hdrLen + (b.header.strOff + t.infoSize) % 2 ^ 32 + b.strings.length + m < 2 ^ 32
    have := Nat.mod_le (b.header.strOff + t.infoSize) (2 ^ 32)
    omega
  · show (b.types ++ [t]).length + m < 2 ^ 32
    simp; omega
  · rw [hid]
    show (b.types ++ [t])[b.types.length]? = some t
    simp

theorem sized_mono {b : Btf} {m m' : Nat} (h : Sized b m) (hm : m' ≤ m) : Sized b m' :=
  ⟨h.1, by have := h.2.1; omega, by have := h.2.2; omega⟩

theorem findInt4_sound : ∀ (ts : List BtfType) (i j : Nat), findInt4 i ts = some j →
    ∃ k n f d, j = i + k ∧ ts[k]? = some (.int n f 4 d)
  | [], i, j, h => by cases h
  | t :: ts, i, j, h => by
    have skip : findInt4 (i + 1) ts = some j → ∃ k n f d, j = i + k ∧ (t :: ts)[k]? = some (.int n f 4 d) := by
      intro h
      obtain ⟨k, n, f, d, h1, h2⟩ := findInt4_sound ts (i + 1) j h
      exact ⟨k + 1, n, f, d, by omega, by simpa using h2⟩
    unfold findInt4 at h
    split at h
    · cases h
    · rename_i e; cases e; cases h
      exact ⟨0, _, _, _, rfl, rfl⟩
    · rename_i e; cases e; exact skip h

theorem int4_extends {b b' : Btf} {id : Nat} (h : Extends b b') (hi : Int4 b id) : Int4 b' id := by
  obtain ⟨n, i, d, hi⟩ := hi
  exact ⟨n, i, d, prefix_get h.1 hi⟩

/-- Finding or adding an integer of four bytes, as both functions do it. -/
theorem int_ok {b : Btf} {m : Nat} (h : Sized b (m + 20)) (hf : findInt4 0 b.types = none) :
    let r := (b.addString "int".toUTF8.toList).1.addType (mkInt (b.addString "int".toUTF8.toList).2 4 1 0)
    Sized r.1 m ∧ Int4 r.1 r.2 ∧ Extends b r.1 := by
  have h1 : Sized (b.addString "int".toUTF8.toList).1 (m + 16) := sized_string (by
    have : "int".toUTF8.toList.length = 3 := by decide +kernel
    rw [this]; exact h)
  obtain ⟨g1, g2, g3⟩ := sized_type (t := mkInt (b.addString "int".toUTF8.toList).2 4 1 0) rfl h1
  exact ⟨g1, ⟨_, _, _, g3⟩, extends_trans (addString_extends _ _) (addType_extends _ _)⟩

theorem var_ok {b : Btf} {m int : Nat} (h : Sized b (m + 38)) (hi : Int4 b int) :
    let r := (b.addString "ksym_func_placeholder".toUTF8.toList).1.addType
      (mkVar (b.addString "ksym_func_placeholder".toUTF8.toList).2 int 1)
    Sized r.1 m ∧ (∃ n i, r.1.types[r.2]? = some (.var n i int 1) ∧ (b.strings ≠ [] → n ≠ 0)) ∧ Int4 r.1 int := by
  have h1 : Sized (b.addString "ksym_func_placeholder".toUTF8.toList).1 (m + 16) := sized_string (by
    have : "ksym_func_placeholder".toUTF8.toList.length = 21 := by decide +kernel
    rw [this]; exact h)
  obtain ⟨g1, g2, g3⟩ := sized_type (t := mkVar (b.addString "ksym_func_placeholder".toUTF8.toList).2 int 1) rfl h1
  refine ⟨g1, ⟨_, _, g3, fun hne => ?_⟩, int4_extends (extends_trans (addString_extends _ _) (addType_extends _ _)) hi⟩
  show b.strings.length % 2 ^ 32 ≠ 0
  rw [Nat.mod_eq_of_lt (by have := h.2.1; omega)]
  intro h0; exact hne (List.length_eq_zero_iff.mp h0)

theorem createPlaceholder_ok {b : Btf} {m : Nat} (h : Sized b (m + 58)) :
    Sized (createPlaceholder b).1 m ∧ ∃ n i int, (createPlaceholder b).1.types[(createPlaceholder b).2]? =
      some (.var n i int 1) ∧ Int4 (createPlaceholder b).1 int ∧ (b.strings ≠ [] → n ≠ 0) := by
  unfold createPlaceholder
  rcases e : findInt4 0 b.types with _ | id
  · obtain ⟨h1, h2, h3⟩ := int_ok (m := m + 38) h e
    obtain ⟨g1, ⟨n, i, g2, g4⟩, g3⟩ := var_ok h1 h2
    refine ⟨g1, n, i, _, g2, g3, fun hne => g4 (fun h0 => hne ?_)⟩
    have := h3.2.length_le
    rw [h0] at this
    exact List.length_eq_zero_iff.mp (Nat.le_zero.mp this)
  · obtain ⟨k, n, f, d, h1, h2⟩ := findInt4_sound _ _ _ e
    rw [Nat.zero_add] at h1; subst h1
    obtain ⟨g1, ⟨n', i', g2, g4⟩, g3⟩ := var_ok (m := m) (sized_mono h (by omega)) (⟨n, f, d, h2⟩ : Int4 b id)
    exact ⟨g1, n', i', _, g2, g3, g4⟩

theorem ksymsInt_ok {b : Btf} {ph : Option Nat} (h : Sized b 20)
    (hp : ∀ pid, ph = some pid → ∃ n i int, b.types[pid]? = some (.var n i int 1) ∧ Int4 b int ∧ n ≠ 0) :
    ∃ b' ph' int, ksymsInt b ph = .ok (b', ph', int) ∧ Extends b b' ∧ Sized b' 0 ∧ Int4 b' int ∧
      ph'.map (·.2) = ph ∧ (∀ m pid, ph' = some (m, pid) → m ≠ 0) ∧
      ∀ pid, ph = some pid → ∃ n i, b'.types[pid]? = some (.var n i int 1) := by
  rcases ph with _ | pid
  · unfold ksymsInt
    rcases e : findInt4 0 b.types with _ | id
    · obtain ⟨h1, h2, h3⟩ := int_ok (m := 0) h e
      exact ⟨_, none, _, rfl, h3, h1, h2, rfl, (fun _ _ he => nomatch he), fun _ he => nomatch he⟩
    · obtain ⟨k, n, f, d, h1, h2⟩ := findInt4_sound _ _ _ e
      rw [Nat.zero_add] at h1; subst h1
      exact ⟨b, none, id, rfl, ⟨List.prefix_refl _, List.prefix_refl _⟩, sized_mono h (by omega), ⟨n, f, d, h2⟩, rfl,
        (fun _ _ he => nomatch he), fun _ he => nomatch he⟩
  · obtain ⟨n, i, int, h1, h2, h3⟩ := hp pid rfl
    refine ⟨b, some (n, pid), int, by simp only [ksymsInt, h1], ⟨List.prefix_refl _, List.prefix_refl _⟩,
      sized_mono h (by omega), h2, rfl, ?_, ?_⟩
    · rintro _ _ ⟨⟩; exact h3
    · rintro _ ⟨⟩
      exact ⟨n, i, h1⟩

theorem string_found {b : Btf} {m n : Nat} {s : List UInt8} (h : Sized b m) (hs : StringAt b.strings n s) :
    b.stringAt n = .ok s :=
  (C17_total_partial b n (by rw [h.1]; have := h.2.1; omega) h.1).1 s hs

theorem stringAt_prefix {a c : List UInt8} {n : Nat} {s : List UInt8} (h : a <+: c) (hs : StringAt a n s) :
    StringAt c n s := by
  obtain ⟨r, rfl⟩ := h
  obtain ⟨h1, rest, h2⟩ := hs
  refine ⟨h1, rest ++ r, ?_⟩
  have hlt : n ≤ a.length := by
    have := congrArg List.length h2
    simp at this; omega
  rw [List.drop_append_of_le_length hlt, h2]
  simp

theorem good_extends {b b' : Btf} {ty : Nat} (h : Extends b b') (hs : Sized b' 0) (hg : Good b ty) : Good b' ty := by
  rcases hg with ⟨n, i, p, s, h1, h2, h3⟩ | ⟨n, i, t, l, s, h1, h2⟩
  · exact .inl ⟨n, i, p, s, prefix_get h.1 h1, string_found hs (stringAt_prefix h.2 (C17_string _ _ _ h2)),
      Nat.lt_of_lt_of_le h3 h.1.length_le⟩
  · exact .inr ⟨n, i, t, l, s, prefix_get h.1 h1, string_found hs (stringAt_prefix h.2 (C17_string _ _ _ h2))⟩

theorem describe_good {b : Btf} {syms : List Sym} {e : SecEntry} {p : Name × Ext} (h : describe b syms e = .ok p) :
    Good b e.ty := by
  unfold describe at h
  rcases he : entryType b e with y | ⟨nm, f, ty⟩
  · rw [he] at h; cases h
  · have hlt : ty < b.types.length := by
      rw [he] at h
      simp only at h
      rcases hf : findSymbol syms nm with _ | sym
      · rw [hf] at h; cases h
      · rw [hf] at h
        simp only at h
        rcases hr : resolveType b.types ty with y | r
        · rw [hr] at h; cases h
        · obtain ⟨k, _, hl, t, ht, _⟩ := ((C15_resolve b.types ty).1 r).mp hr
          cases hl with
          | here => exact (List.getElem?_eq_some_iff.mp ht).1
          | step h1 _ _ => exact (List.getElem?_eq_some_iff.mp h1).1
    unfold entryType typeById at he
    rcases ht : b.types[e.ty]? with _ | t
    · rw [ht] at he; cases he
    · rw [ht] at he
      cases t with
      | ref k n i p =>
        cases k with
        | func =>
          simp only at he
          rcases hs : b.stringAt n with x | s
          · rw [hs] at he; cases he
          · rw [hs] at he; cases he
            exact .inl ⟨n, i, _, _, ht, hs, hlt⟩
        | _ => cases he
      | var n i v l =>
        simp only at he
        rcases hs : b.stringAt n with x | s
        · rw [hs] at he; cases he
        · exact .inr ⟨n, i, v, l, s, ht, hs⟩
      | _ => cases he

theorem describeAll_good {b : Btf} {syms : List Sym} : ∀ {es : List SecEntry} {ds : List (Name × Ext)},
    describeAll b syms es = .ok ds → ∀ e ∈ es, Good b e.ty
  | [], ds, h => by simp
  | e :: es, ds, h => by
    simp only [describeAll] at h
    rcases h1 : describe b syms e with y | p
    · rw [h1] at h; cases h
    · rw [h1] at h
      simp only at h
      rcases h2 : describeAll b syms es with y | ds'
      · rw [h2] at h; cases h
      · intro e' he'
        rcases List.mem_cons.mp he' with rfl | hm
        · exact describe_good h1
        · exact describeAll_good h2 e' hm

theorem hasFunctions_false {b : Btf} : ∀ {es : List SecEntry}, hasFunctions b es = .ok false →
    ∀ e ∈ es, ∀ n i p, b.types[e.ty]? ≠ some (.ref .func n i p)
  | [], h => by simp
  | e :: es, h => by
    simp only [hasFunctions, typeById] at h
    intro e' he' n i p hf
    rcases List.mem_cons.mp he' with rfl | hm
    · rw [hf] at h; cases h
    · refine hasFunctions_false (es := es) ?_ e' hm n i p hf
      rcases ht : b.types[e.ty]? with _ | t
      · rw [ht] at h; cases h
      · rw [ht] at h
        cases t with
        | ref k n i p => cases k <;> first | exact h | cases h
        | _ => exact h

/-- **C90.** After the externs of an object are collected, its `.ksyms` section is always brought into the form the kernel
accepts: entries of four bytes one after the other, all of them global variables of an integer type of four bytes, filling
the section. Variables keep their names, functions become global with a name for each parameter and are represented by a variable
of their own. Nothing
else changes except that parameters without names get some; in particular types compare as before. -/
theorem C90_accepted (b b1 : Btf) (syms : List Sym) (xs : Externs) (d : Nat) (hsz : Sized b 100)
    (hc : collect b syms = .ok (b1, xs)) (hd : xs.datasec = some d) :
    ∃ es, IsKsyms b d es ∧ (es.length < 2 ^ 30 →
      ∃ (b2 : Btf) (n i int : Nat) (es' : List SecEntry), fixupKsyms b1 d xs.placeholder = .ok b2 ∧
        b2.types[d]? = some (.dataSec n i (4 * es.length) es') ∧ es'.length = es.length ∧ Int4 b2 int ∧
        (∀ (k : Nat) (e0 : SecEntry), es[k]? = some e0 → ∃ e : SecEntry, es'[k]? = some e ∧ e.offset = 4 * k ∧ e.size = 4 ∧
          (∃ vn vi, b2.types[e.ty]? = some (.var vn vi int 1)) ∧
          ((∃ fn fi fi' p, b1.types[e0.ty]? = some (.ref .func fn fi p) ∧
              b2.types[e0.ty]? = some (.ref .func fn fi' p) ∧ fi' % 65536 = 1 ∧ xs.placeholder = some e.ty ∧
              ParamsNamed b2.types p) ∨
           (∃ vn vi t l, b1.types[e0.ty]? = some (.var vn vi t l) ∧ b2.types[e0.ty]? = some (.var vn vi int 1) ∧
              e.ty = e0.ty))) ∧
        b1.types.length ≤ b2.types.length ∧
        (∀ (k : Nat) (t : BtfType), k ≠ d → b1.types[k]? = some t → ∃ t', b2.types[k]? = some t' ∧ Fixed int t t') ∧
        (∀ kb l t, SameType b1 kb l t → SameType b2 kb l t)) := by
  rcases collect_inv hc with ⟨hk, rfl, rfl⟩ | ⟨d', es, ds, ph, hk, hp, hds, ht, hph, hs⟩
  · cases hd
  obtain ⟨k0, n0, i0, s0, hk1, hk2, hk3, _⟩ := hk
  rw [Nat.zero_add] at hk1; subst hk1
  have hdd : d' = d := by
    rw [hs] at hd
    split at hd
    · cases hd
    · exact Option.some.inj hd
  subst hdd
  refine ⟨es, ⟨n0, i0, s0, hk2, hk3⟩, fun hlen => ?_⟩
  have hext := withPlaceholder_extends hp
  have hpl : Sized b1 20 ∧ (∀ pid, ph = some pid → ∃ n i int, b1.types[pid]? = some (.var n i int 1) ∧ Int4 b1 int ∧ n ≠ 0) ∧
      (ph = none → ∀ e ∈ es, ∀ n i p, b1.types[e.ty]? ≠ some (.ref .func n i p)) := by
    unfold withPlaceholder at hp
    rcases e : hasFunctions b es with x | f
    · rw [e] at hp; cases hp
    · rw [e] at hp
      cases f <;> cases hp
      · exact ⟨sized_mono hsz (by omega), (fun _ he => nomatch he), fun _ => hasFunctions_false e⟩
      · obtain ⟨g1, n, i, int, g2, g3, g4⟩ := createPlaceholder_ok (m := 20) (sized_mono hsz (by omega))
        refine ⟨g1, ?_, fun he => nomatch he⟩
        rintro _ ⟨⟩
        refine ⟨n, i, int, g2, g3, g4 ?_⟩
        obtain ⟨_, rest, hr⟩ := hk3
        intro h0
        rw [h0] at hr
        have := congrArg List.length hr
        simp at this
  obtain ⟨hsz1, hvar, hnof⟩ := hpl
  obtain ⟨b', ph', int, hki, hext', hsz', hint, hphm, hpnz, hpv⟩ := ksymsInt_ok hsz1 hvar
  have hd' : b'.types[d']? = some (.dataSec n0 i0 s0 es) := prefix_get hext'.1 (prefix_get hext.1 hk2)
  have hname : b'.stringAt n0 = .ok ".ksyms".toUTF8.toList :=
    string_found hsz' (stringAt_prefix hext'.2 (stringAt_prefix hext.2 hk3))
  have hgood : ∀ e ∈ es, Good b' e.ty := fun e he => good_extends hext' hsz' (describeAll_good hds e he)
  obtain ⟨b2, es2, hl, hh2, hs2, hf2, hd2, hlen2, _, hent⟩ :=
    loop_ok (int := int) (ph := ph') es 0 b' es hd' (by simp) hgood
  have hsec : FixedBut int d' b'.types (b2.types.set d' (.dataSec n0 i0 (4 * es.length) es2)) :=
    fixedBut_trans hf2 fixedBut_section
  have hd2l := (List.getElem?_eq_some_iff.mp hd2).1
  have hself : (b2.types.set d' (.dataSec n0 i0 (4 * es.length) es2))[d']? = some (.dataSec n0 i0 (4 * es.length) es2) :=
    List.getElem?_set_self hd2l
  refine ⟨{ b2 with types := b2.types.set d' (.dataSec n0 i0 (4 * es.length) es2) }, n0, i0, int, es2, ?_, hself, hlen2,
    ?_, ?_, ?_, ?_, ?_⟩
  · unfold fixupKsyms
    rw [hph, hki]
    simp only [hd', hname, hl, hd2]
    rw [Nat.mod_eq_of_lt (by omega)]
  · obtain ⟨n, i, dd, hi⟩ := hint
    obtain ⟨u, hu, fu⟩ := hsec.2 int _ (by rintro rfl; rw [hd'] at hi; cases hi) hi
    cases fu
    exact ⟨n, i, dd, hu⟩
  · intro k e0 he0
    obtain ⟨e, he, ho, hz, hdone⟩ := hent k e0 (Nat.zero_le _) he0
    have hkl := (List.getElem?_eq_some_iff.mp he0).1
    have hmem : e0 ∈ es := List.mem_of_getElem? he0
    have hne := good_ne hd' (hgood e0 hmem)
    have hdone := done_mono hne (fun n' i' r' ps' he' => by rw [hself] at he'; cases he') hdone
      (fixedBut_section (t := .dataSec n0 i0 (4 * es.length) es2))
    have hgb := describeAll_good hds e0 hmem
    refine ⟨e, he, by rw [ho]; exact Nat.mod_eq_of_lt (by omega), hz, ?_⟩
    rcases hdone with ⟨n, i, p, i', h1, h2, h3, h4, h5⟩ | ⟨n, i, t, l, h1, h2, h3⟩
    · rcases hgb with ⟨n1, i1, p1, _, g1, _⟩ | ⟨_, _, _, _, _, g1, _⟩
      · have := prefix_get hext'.1 g1
        rw [h1] at this; cases this
        rw [hphm] at h4
        rcases hphc : ph with _ | pid
        · exact absurd g1 (hnof hphc e0 hmem _ _ _)
        · rw [hphc] at h4
          have h5' : ParamsNamed (b2.types.set d' (.dataSec n0 i0 (4 * es.length) es2)) p := by
            rcases hpp : ph' with _ | ⟨m, pid'⟩
            · rw [hpp, hphc] at hphm; cases hphm
            · exact h5 m pid' hpp (hpnz m pid' hpp)
          have h4 : e.ty = pid := h4
          obtain ⟨vn, vi, hv⟩ := hpv pid hphc
          obtain ⟨u, hu, fu⟩ := hsec.2 pid _ (by rintro rfl; rw [hd'] at hv; cases hv) hv
          obtain ⟨t', l', rfl, g⟩ := fixed_var fu
          obtain ⟨rfl, rfl⟩ := g rfl rfl
          exact ⟨⟨vn, vi, by rw [h4]; exact hu⟩, .inl ⟨_, _, i', _, g1, h2, h3, by rw [hph, hphc, h4], h5'⟩⟩
      · have := prefix_get hext'.1 g1
        rw [h1] at this; cases this
    · rcases hgb with ⟨_, _, _, _, g1, _⟩ | ⟨_, _, _, _, _, g1, _⟩
      · have := prefix_get hext'.1 g1
        rw [h1] at this; cases this
      · have := prefix_get hext'.1 g1
        rw [h1] at this; cases this
        exact ⟨⟨n, i, by rw [h3]; exact h2⟩, .inr ⟨n, i, t, l, g1, h2, h3⟩⟩
  · have := hext'.1.length_le
    have := hsec.1
    show b1.types.length ≤ (b2.types.set d' _).length
    omega
  · intro k t hne hk
    exact hsec.2 k t hne (prefix_get hext'.1 hk)
  · intro kb l t hst
    refine same_alike (lb := b1) ?_ hst
    intro k u hu
    by_cases hkd : k = d'
    · subst hkd
      have hu' := prefix_get hext'.1 hu
      rw [hd'] at hu'; cases hu'
      exact ⟨_, hself, .sec⟩
    · obtain ⟨t', h1, h2⟩ := hsec.2 k u hkd (prefix_get hext'.1 hu)
      exact ⟨t', h1, fixed_alike h2⟩

example : Sized exObj 100 := ⟨by decide +kernel, by decide +kernel, by decide +kernel⟩

example : (match collect exObj exSyms with
    | .ok (b, xs) => (fixupKsyms b 6 xs.placeholder).toOption.bind (·.types[6]?)
    | .error _ => none) =
    some (.dataSec 1 (15 * 2 ^ 24 + 3) 12 [⟨7, 0, 4⟩, ⟨4, 4, 4⟩, ⟨5, 8, 4⟩]) := by decide +kernel

end Verif.Externs
