import Verif.Externs.Props

/-! # C90: making the `.ksyms` section acceptable to the kernel -/
set_option linter.unusedSimpArgs false
set_option linter.unusedVariables false
namespace Verif.Externs
open Verif.Btf Verif.Btf.Spec Verif.Core.Spec Verif.Externs.Spec

/-- Parameters that differ at most in names given to parameters that had none. -/
def Spec.Renamed (ps ps' : List Param) : Prop :=
  ps'.length = ps.length ∧ ∀ (k : Nat) (p p' : Param), ps[k]? = some p → ps'[k]? = some p' →
    p'.ty = p.ty ∧ (p.name ≠ 0 → p'.name = p.name)

/-- What may become of a type: nothing; a function becomes global (linkage 1 in the lower bits of the info word); a
variable becomes a global one of type `int`; unnamed parameters get names. -/
inductive Spec.Fixed (int : Nat) : BtfType → BtfType → Prop where
  | same (t) : Fixed int t t
  | func {n i i' p} : i' / 65536 = i / 65536 → i' % 65536 = 1 → Fixed int (.ref .func n i p) (.ref .func n i' p)
  | var {n i t l} : Fixed int (.var n i t l) (.var n i int 1)
  | proto {n i r ps ps'} : Renamed ps ps' → Fixed int (.funcProto n i r ps) (.funcProto n i r ps')

theorem renamed_trans {a b c : List Param} (h : Renamed a b) (h' : Renamed b c) : Renamed a c := by
  obtain ⟨h1, h2⟩ := h
  obtain ⟨h3, h4⟩ := h'
  refine ⟨by omega, ?_⟩
  intro k p p'' hp hp''
  have hk : k < b.length := by have := (List.getElem?_eq_some_iff.mp hp).1; omega
  obtain ⟨g1, g2⟩ := h2 k p b[k] hp (List.getElem?_eq_getElem hk)
  obtain ⟨g3, g4⟩ := h4 k b[k] p'' (List.getElem?_eq_getElem hk) hp''
  exact ⟨by rw [g3, g1], fun hne => by rw [g4 (by rw [g2 hne]; exact hne), g2 hne]⟩

theorem fixed_trans {int : Nat} {a b c : BtfType} (h : Fixed int a b) (h' : Fixed int b c) : Fixed int a c := by
  cases h with
  | same => exact h'
  | func h1 h2 =>
    cases h' with
    | same => exact .func h1 h2
    | func h3 h4 => exact .func (by omega) h4
  | var =>
    cases h' with
    | same => exact .var
    | var => exact .var
  | proto h1 =>
    cases h' with
    | same => exact .proto h1
    | proto h2 => exact .proto (renamed_trans h1 h2)

theorem renamed_placeholder (n : Nat) (ps : List Param) : Renamed ps (placeholderParams n ps) := by
  unfold placeholderParams
  refine ⟨by simp, ?_⟩
  intro k p p' hp hp'
  rw [List.getElem?_map, hp] at hp'
  simp only [Option.map_some, Option.some.injEq] at hp'
  subst hp'
  split
  · rename_i h; exact ⟨rfl, fun hne => absurd h.2 hne⟩
  · exact ⟨rfl, fun _ => rfl⟩

/-- All types but `d` are fixed versions of what they were. -/
def FixedBut (int d : Nat) (ts ts' : List BtfType) : Prop :=
  ts'.length = ts.length ∧ ∀ (k : Nat) (t : BtfType), k ≠ d → ts[k]? = some t → ∃ t', ts'[k]? = some t' ∧ Fixed int t t'

theorem fixedBut_refl (int d : Nat) (ts : List BtfType) : FixedBut int d ts ts :=
  ⟨rfl, fun k t _ h => ⟨t, h, .same t⟩⟩

theorem fixedBut_trans {int d : Nat} {a b c : List BtfType} (h : FixedBut int d a b) (h' : FixedBut int d b c) :
    FixedBut int d a c := by
  refine ⟨by rw [h'.1, h.1], ?_⟩
  intro k t hk ht
  obtain ⟨t1, h1, f1⟩ := h.2 k t hk ht
  obtain ⟨t2, h2, f2⟩ := h'.2 k t1 hk h1
  exact ⟨t2, h2, fixed_trans f1 f2⟩

theorem fixedBut_set {int d j : Nat} {ts : List BtfType} {t t' : BtfType} (ht : ts[j]? = some t) (hf : Fixed int t t') :
    FixedBut int d ts (ts.set j t') := by
  refine ⟨by simp, ?_⟩
  intro k u hk hu
  by_cases hj : j = k
  · subst hj
    rw [ht] at hu; cases hu
    exact ⟨t', by rw [List.getElem?_set_self (List.getElem?_eq_some_iff.mp ht).1], hf⟩
  · exact ⟨u, by rw [List.getElem?_set_ne hj]; exact hu, .same u⟩

theorem fixedBut_section {int d : Nat} {ts : List BtfType} {t : BtfType} : FixedBut int d ts (ts.set d t) := by
  refine ⟨by simp, ?_⟩
  intro k u hk hu
  exact ⟨u, by rw [List.getElem?_set_ne (fun h => hk h.symm)]; exact hu, .same u⟩

theorem setEntry_ok {ts : List BtfType} {d k n i s o z : Nat} {ty : Option Nat} {es : List SecEntry} {e : SecEntry}
    (hd : ts[d]? = some (.dataSec n i s es)) (he : es[k]? = some e) :
    setEntry ts d k ty o z = .ok (ts.set d (.dataSec n i s (es.set k ⟨ty.getD e.ty, o, z⟩))) := by
  simp only [setEntry, hd, he]

/-- What entry `e` must look like for the loop to get past it: a named function with a type, or a named variable. -/
def Good (b : Btf) (ty : Nat) : Prop :=
  (∃ n i p s, b.types[ty]? = some (.ref .func n i p) ∧ b.stringAt n = .ok s ∧ p < b.types.length) ∨
  (∃ n i t l s, b.types[ty]? = some (.var n i t l) ∧ b.stringAt n = .ok s)

/-- If type `p` is the type of a function, all its parameters have names, except for the one of type 0 for further ones. -/
def Spec.ParamsNamed (ts : List BtfType) (p : Nat) : Prop :=
  ∀ n i r ps, ts[p]? = some (.funcProto n i r ps) → ∀ q ∈ ps, q.ty ≠ 0 → q.name ≠ 0

/-- What has become of entry `e0` when it is `e`. -/
def Done (ts ts' : List BtfType) (int : Nat) (ph : Option (Nat × Nat)) (e0 e : SecEntry) : Prop :=
  (∃ n i p i', ts[e0.ty]? = some (.ref .func n i p) ∧ ts'[e0.ty]? = some (.ref .func n i' p) ∧ i' % 65536 = 1 ∧
    e.ty = (ph.map (·.2)).getD e0.ty ∧ ∀ m pid, ph = some (m, pid) → m ≠ 0 → ParamsNamed ts' p) ∨
  (∃ n i t l, ts[e0.ty]? = some (.var n i t l) ∧ ts'[e0.ty]? = some (.var n i int 1) ∧ e.ty = e0.ty)

theorem fixed_func {int n i p : Nat} {t : BtfType} (h : Fixed int (.ref .func n i p) t) :
    ∃ i', t = .ref .func n i' p ∧ (i % 65536 = 1 → i' % 65536 = 1) := by
  cases h with
  | same => exact ⟨i, rfl, id⟩
  | func _ h2 => exact ⟨_, rfl, fun _ => h2⟩

theorem fixed_var {int n i t l : Nat} {u : BtfType} (h : Fixed int (.var n i t l) u) :
    ∃ t' l', u = .var n i t' l' ∧ (t = int → l = 1 → t' = int ∧ l' = 1) := by
  cases h with
  | same => exact ⟨t, l, rfl, fun a b => ⟨a, b⟩⟩
  | var => exact ⟨int, 1, rfl, fun _ _ => ⟨rfl, rfl⟩⟩

theorem named_renamed {ps ps' : List Param} (h : Renamed ps ps') (hn : ∀ q ∈ ps, q.ty ≠ 0 → q.name ≠ 0) :
    ∀ q ∈ ps', q.ty ≠ 0 → q.name ≠ 0 := by
  intro q hq ht
  obtain ⟨k, hk⟩ := List.getElem?_of_mem hq
  have hkl : k < ps.length := by have := (List.getElem?_eq_some_iff.mp hk).1; have := h.1; omega
  obtain ⟨g1, g2⟩ := h.2 k _ q (List.getElem?_eq_getElem hkl) hk
  have hne := hn _ (List.getElem_mem hkl) (by rw [← g1]; exact ht)
  rw [g2 hne]; exact hne

theorem named_mono {ts1 ts2 : List BtfType} {int d p : Nat} (hs : ∀ n i r ps, ts2[d]? ≠ some (.funcProto n i r ps))
    (hf : FixedBut int d ts1 ts2) (h : ParamsNamed ts1 p) : ParamsNamed ts2 p := by
  intro n i r ps hp
  have hpd : p ≠ d := by rintro rfl; exact hs _ _ _ _ hp
  have hpl : p < ts1.length := by rw [← hf.1]; exact (List.getElem?_eq_some_iff.mp hp).1
  obtain ⟨t, ht, fu⟩ := hf.2 p _ hpd (List.getElem?_eq_getElem hpl)
  rw [hp] at ht; cases ht
  generalize ht1 : ts1[p] = t1 at fu
  have ht1' : ts1[p]? = some t1 := by rw [List.getElem?_eq_getElem hpl, ht1]
  cases fu with
  | same => exact h _ _ _ _ ht1'
  | proto hr => exact named_renamed hr (h _ _ _ _ ht1')

theorem named_placeholder (n : Nat) (hn : n ≠ 0) (ps : List Param) : ∀ q ∈ placeholderParams n ps, q.ty ≠ 0 → q.name ≠ 0 := by
  intro q hq ht
  unfold placeholderParams at hq
  obtain ⟨p, hp, rfl⟩ := List.mem_map.mp hq
  by_cases h : p.ty ≠ 0 ∧ p.name = 0
  · rw [if_pos h]; exact hn
  · rw [if_neg h] at ht ⊢
    exact fun h3 => h ⟨ht, h3⟩

theorem done_mono {ts ts1 ts2 : List BtfType} {int d : Nat} {ph : Option (Nat × Nat)} {e0 e : SecEntry} (hd : e0.ty ≠ d)
    (hs : ∀ n i r ps, ts2[d]? ≠ some (.funcProto n i r ps))
    (h : Done ts ts1 int ph e0 e) (hf : FixedBut int d ts1 ts2) : Done ts ts2 int ph e0 e := by
  rcases h with ⟨n, i, p, i', h1, h2, h3, h4, h5⟩ | ⟨n, i, t, l, h1, h2, h3⟩
  · obtain ⟨u, hu, fu⟩ := hf.2 _ _ hd h2
    obtain ⟨i2, rfl, g⟩ := fixed_func fu
    exact .inl ⟨n, i, p, i2, h1, hu, g h3, h4, fun m pid e hm => named_mono hs hf (h5 m pid e hm)⟩
  · obtain ⟨u, hu, fu⟩ := hf.2 _ _ hd h2
    obtain ⟨t', l', rfl, g⟩ := fixed_var fu
    obtain ⟨rfl, rfl⟩ := g rfl rfl
    exact .inr ⟨n, i, t, l, h1, hu, h3⟩

/-- One round of the loop. -/
theorem fixKsym_ok {b : Btf} {d int n0 i0 s0 k : Nat} {ph : Option (Nat × Nat)} {es : List SecEntry} {e : SecEntry} {o : Nat}
    (hd : b.types[d]? = some (.dataSec n0 i0 s0 es)) (he : es[k]? = some e) (hg : Good b e.ty) :
    ∃ (b' : Btf) (e' : SecEntry), fixKsym b d int ph k e.ty o = .ok b' ∧ b'.header = b.header ∧ b'.strings = b.strings ∧
      FixedBut int d b.types b'.types ∧ b'.types[d]? = some (.dataSec n0 i0 s0 (es.set k e')) ∧
      e'.offset = o ∧ e'.size = 4 ∧ Done b.types b'.types int ph e e' := by
  have hdl := (List.getElem?_eq_some_iff.mp hd).1
  rcases hg with ⟨n, i, p, s, ht, hs, hp⟩ | ⟨n, i, t, l, s, ht, hs⟩
  · have hne : e.ty ≠ d := by intro h; rw [h, hd] at ht; cases ht
    have htl := (List.getElem?_eq_some_iff.mp ht).1
    have hF : Fixed int (.ref .func n i p) (.ref .func n (staticInfo i + 1) p) :=
      .func (by unfold staticInfo; omega) (by unfold staticInfo; omega)
    have h1 := fixedBut_set (d := d) ht hF
    have hd1 : (b.types.set e.ty (.ref .func n (staticInfo i + 1) p))[d]? = some (.dataSec n0 i0 s0 es) := by
      rw [List.getElem?_set_ne hne]; exact hd
    have ht1 : (b.types.set e.ty (.ref .func n (staticInfo i + 1) p))[e.ty]? =
        some (.ref .func n (staticInfo i + 1) p) := List.getElem?_set_self htl
    have hmod : (staticInfo i + 1) % 65536 = 1 := by unfold staticInfo; omega
    rcases ph with _ | ⟨pn, pid⟩
    · simp only [fixKsym, ht, hs, setEntry_ok hd1 he]
      refine ⟨_, ⟨e.ty, o, 4⟩, rfl, rfl, rfl, fixedBut_trans h1 fixedBut_section, ?_, rfl, rfl, ?_⟩
      · simp only [Option.getD_none]
        exact List.getElem?_set_self (by simpa using hdl)
      · refine .inl ⟨n, i, p, _, ht, ?_, hmod, rfl, fun _ _ he => nomatch he⟩
        simp only
        rw [List.getElem?_set_ne (fun h => hne h.symm)]; exact ht1
    · generalize hts : b.types.set e.ty (.ref .func n (staticInfo i + 1) p) = ts1 at *
      have hpl : p < ts1.length := by rw [h1.1]; exact hp
      have hq : ts1[p]? = some ts1[p] := List.getElem?_eq_getElem hpl
      generalize hpt : ts1[p] = pt at hq
      have fin : ∀ ts2 : List BtfType, FixedBut int d ts1 ts2 → ts2[d]? = some (.dataSec n0 i0 s0 es) →
          ts2[e.ty]? = some (.ref .func n (staticInfo i + 1) p) → (pn ≠ 0 → ParamsNamed ts2 p) →
          ∃ (b' : Btf) (e' : SecEntry),
            (match setEntry ts2 d k (some pid) o 4 with
              | .error e => .error e
              | .ok types => .ok { b with types := types } : Except Fail Btf) = .ok b' ∧
            b'.header = b.header ∧ b'.strings = b.strings ∧
            FixedBut int d b.types b'.types ∧ b'.types[d]? = some (.dataSec n0 i0 s0 (es.set k e')) ∧
            e'.offset = o ∧ e'.size = 4 ∧ Done b.types b'.types int (some (pn, pid)) e e' := by
        intro ts2 h2 hd2 ht2 hpn
        rw [setEntry_ok hd2 he]
        refine ⟨_, ⟨pid, o, 4⟩, rfl, rfl, rfl, fixedBut_trans h1 (fixedBut_trans h2 fixedBut_section), ?_, rfl, rfl, ?_⟩
        · simp only [Option.getD_some]
          exact List.getElem?_set_self (List.getElem?_eq_some_iff.mp hd2).1
        · refine .inl ⟨n, i, p, _, ht, ?_, hmod, rfl, ?_⟩
          · simp only
            rw [List.getElem?_set_ne (fun h => hne h.symm)]; exact ht2
          · rintro m pid' ⟨⟩ hm
            refine named_mono (int := int) (d := d) ?_ fixedBut_section (hpn hm)
            intro n' i' r' ps' he'
            simp only at he'
            rw [List.getElem?_set_self (List.getElem?_eq_some_iff.mp hd2).1] at he'
            cases he'
      simp only [fixKsym, ht, hs, hts, hq]
      clear hpt
      cases pt with
      | funcProto pn' pi r ps =>
        refine fin _ (fixedBut_set hq (.proto (renamed_placeholder pn ps))) ?_ ?_ ?_
        · rw [List.getElem?_set_ne (by intro h; rw [h, hd1] at hq; cases hq)]; exact hd1
        · rw [List.getElem?_set_ne (by intro h; rw [h, ht1] at hq; cases hq)]; exact ht1
        · intro hm n' i' r' ps' he'
          rw [List.getElem?_set_self hpl] at he'
          cases he'
          exact named_placeholder pn hm ps
      | _ => exact fin _ (fixedBut_refl _ _ _) hd1 ht1 (fun _ n' i' r' ps' he' => by rw [hq] at he'; cases he')
  · have hne : e.ty ≠ d := by intro h; rw [h, hd] at ht; cases ht
    have htl := (List.getElem?_eq_some_iff.mp ht).1
    have hd1 : (b.types.set e.ty (.var n i int 1))[d]? = some (.dataSec n0 i0 s0 es) := by
      rw [List.getElem?_set_ne hne]; exact hd
    simp only [fixKsym, ht, hs, setEntry_ok hd1 he]
    refine ⟨_, ⟨e.ty, o, 4⟩, rfl, rfl, rfl, fixedBut_trans (fixedBut_set ht .var) fixedBut_section, ?_, rfl, rfl, ?_⟩
    · simp only [Option.getD_none]
      exact List.getElem?_set_self (by simpa using hdl)
    · refine .inr ⟨n, i, t, l, ht, ?_, rfl⟩
      simp only
      rw [List.getElem?_set_ne (fun h => hne h.symm)]
      exact List.getElem?_set_self htl

theorem stringAt_congr {b b' : Btf} (h1 : b'.header = b.header) (h2 : b'.strings = b.strings) (n : Nat) :
    b'.stringAt n = b.stringAt n := by
  unfold Btf.stringAt; rw [h1, h2]

theorem good_ne {b : Btf} {d n i s ty : Nat} {es : List SecEntry} (hd : b.types[d]? = some (.dataSec n i s es))
    (hg : Good b ty) : ty ≠ d := by
  rintro rfl
  rcases hg with ⟨_, _, _, _, h, _⟩ | ⟨_, _, _, _, _, h, _⟩ <;> rw [hd] at h <;> cases h

theorem good_mono {b b' : Btf} {int d ty : Nat} (h1 : b'.header = b.header) (h2 : b'.strings = b.strings)
    (hf : FixedBut int d b.types b'.types) (hne : ty ≠ d) (hg : Good b ty) : Good b' ty := by
  rcases hg with ⟨n, i, p, s, ht, hs, hp⟩ | ⟨n, i, t, l, s, ht, hs⟩
  · obtain ⟨u, hu, fu⟩ := hf.2 _ _ hne ht
    obtain ⟨i', rfl, _⟩ := fixed_func fu
    exact .inl ⟨n, i', p, s, hu, by rw [stringAt_congr h1 h2]; exact hs, by rw [hf.1]; exact hp⟩
  · obtain ⟨u, hu, fu⟩ := hf.2 _ _ hne ht
    obtain ⟨t', l', rfl, _⟩ := fixed_var fu
    exact .inr ⟨n, i, t', l', s, hu, by rw [stringAt_congr h1 h2]; exact hs⟩

theorem done_pre {b : Btf} {ts1 ts2 : List BtfType} {int d : Nat} {ph : Option (Nat × Nat)} {e0 e : SecEntry} (hd : e0.ty ≠ d)
    (hg : Good b e0.ty) (hf : FixedBut int d b.types ts1) (h : Done ts1 ts2 int ph e0 e) : Done b.types ts2 int ph e0 e := by
  rcases hg with ⟨n, i, p, s, ht, hs, hp⟩ | ⟨n, i, t, l, s, ht, hs⟩
  · obtain ⟨u, hu, fu⟩ := hf.2 _ _ hd ht
    obtain ⟨i', rfl, _⟩ := fixed_func fu
    rcases h with ⟨n', i2, p', i3, h1, h2, h3, h4, h5⟩ | ⟨n', i2, t', l', h1, h2, h3⟩
    · rw [hu] at h1; cases h1
      exact .inl ⟨_, i, _, i3, ht, h2, h3, h4, h5⟩
    · rw [hu] at h1; cases h1
  · obtain ⟨u, hu, fu⟩ := hf.2 _ _ hd ht
    obtain ⟨t', l', rfl, _⟩ := fixed_var fu
    rcases h with ⟨n', i2, p', i3, h1, h2, h3, h4⟩ | ⟨n', i2, t2, l2, h1, h2, h3⟩
    · rw [hu] at h1; cases h1
    · rw [hu] at h1; cases h1
      exact .inr ⟨_, _, t, l, ht, h2, h3⟩

theorem loop_ok {d int n0 i0 s0 : Nat} {ph : Option (Nat × Nat)} : ∀ (rest : List SecEntry) (k : Nat) (b : Btf)
    (es : List SecEntry), b.types[d]? = some (.dataSec n0 i0 s0 es) → es.drop k = rest → (∀ e ∈ rest, Good b e.ty) →
    ∃ (b' : Btf) (es' : List SecEntry), fixKsymsLoop d int ph (rest.map (·.ty)) k b = .ok b' ∧
      b'.header = b.header ∧ b'.strings = b.strings ∧ FixedBut int d b.types b'.types ∧
      b'.types[d]? = some (.dataSec n0 i0 s0 es') ∧ es'.length = es.length ∧
      (∀ j : Nat, j < k → es'[j]? = es[j]?) ∧
      ∀ (j : Nat) (e0 : SecEntry), k ≤ j → es[j]? = some e0 → ∃ e' : SecEntry, es'[j]? = some e' ∧
        e'.offset = 4 * j % 2 ^ 32 ∧ e'.size = 4 ∧ Done b.types b'.types int ph e0 e'
  | [], k, b, es, hd, hr, hg => by
    refine ⟨b, es, rfl, rfl, rfl, fixedBut_refl _ _ _, hd, rfl, fun _ _ => rfl, ?_⟩
    intro j e0 hj he
    have := (List.getElem?_eq_some_iff.mp he).1
    have := List.drop_eq_nil_iff.mp hr
    omega
  | e :: rest, k, b, es, hd, hr, hg => by
    have hkl : k < es.length := by
      have h := congrArg List.length hr
      simp at h; omega
    have hek : es[k]? = some e := by
      have : (es.drop k)[0]? = some e := by rw [hr]; rfl
      simpa using this
    obtain ⟨b1, e1, hb1, hh1, hs1, hf1, hd1, ho1, hz1, hdone1⟩ :=
      fixKsym_ok (int := int) (ph := ph) (o := 4 * k % 2 ^ 32) hd hek (hg e (by simp))
    have hr1 : (es.set k e1).drop (k + 1) = rest := by
      rw [List.drop_set_of_lt (by omega)]
      have : es.drop (k + 1) = (es.drop k).drop 1 := by rw [List.drop_drop]
      rw [this, hr]; rfl
    have hne : ∀ e' ∈ e :: rest, e'.ty ≠ d := fun e' he' => good_ne hd (hg e' he')
    obtain ⟨b2, es2, hb2, hh2, hs2, hf2, hd2, hl2, hlow, hhigh⟩ := loop_ok rest (k + 1) b1 (es.set k e1) hd1 hr1
      (fun e' he' => good_mono hh1 hs1 hf1 (hne e' (by simp [he'])) (hg e' (by simp [he'])))
    refine ⟨b2, es2, ?_, by rw [hh2, hh1], by rw [hs2, hs1], fixedBut_trans hf1 hf2, hd2, by simpa using hl2, ?_, ?_⟩
    · simp only [List.map_cons, fixKsymsLoop, hb1]; exact hb2
    · intro j hj
      rw [hlow j (by omega), List.getElem?_set_ne (by omega)]
    · intro j e0 hj he0
      rcases Nat.eq_or_lt_of_le hj with rfl | hlt
      · rw [hek] at he0; cases he0
        refine ⟨e1, ?_, ho1, hz1, done_mono (hne _ (by simp)) (fun n' i' r' ps' he' => by rw [hd2] at he'; cases he') hdone1 hf2⟩
        rw [hlow k (by omega), List.getElem?_set_self hkl]
      · obtain ⟨e', a1, a2, a3, a4⟩ := hhigh j e0 hlt (by rw [List.getElem?_set_ne (by omega)]; exact he0)
        have hmem : e0 ∈ e :: rest := by
          rw [← hr]
          apply List.mem_of_getElem? (i := j - k)
          rw [List.getElem?_drop, show k + (j - k) = j by omega]; exact he0
        exact ⟨e', a1, a2, a3, done_pre (hne e0 hmem) (hg e0 hmem) hf1 a4⟩

/-! ## Types compare as before -/

/-- A type and what it became: alike for every comparison of types. -/
inductive Alike : BtfType → BtfType → Prop where
  | same (t) : Alike t t
  | func {n i i' p} : Alike (.ref .func n i p) (.ref .func n i' p)
  | var {n i t l t' l'} : Alike (.var n i t l) (.var n i t' l')
  | proto {n i r ps ps'} : ps.map (·.ty) = ps'.map (·.ty) → Alike (.funcProto n i r ps) (.funcProto n i r ps')
  | sec {n i s es n' i' s' es'} : Alike (.dataSec n i s es) (.dataSec n' i' s' es')

def AllAlike (ts ts' : List BtfType) : Prop :=
  ∀ (k : Nat) (t : BtfType), ts[k]? = some t → ∃ t', ts'[k]? = some t' ∧ Alike t t'

theorem alike_symm {t t' : BtfType} (h : Alike t t') : Alike t' t := by
  cases h with
  | same => exact .same _
  | func => exact .func
  | var => exact .var
  | proto h => exact .proto h.symm
  | sec => exact .sec

theorem alike_kind {t t' : BtfType} (h : Alike t t') : t'.kind = t.kind := by cases h <;> rfl

theorem alike_through {t t' : BtfType} (h : Alike t t') : through t' = through t := by cases h <;> rfl

theorem allAlike_symm {ts ts' : List BtfType} (hl : ts'.length = ts.length) (h : AllAlike ts ts') : AllAlike ts' ts := by
  intro k t' ht'
  have hk : k < ts.length := by rw [← hl]; exact (List.getElem?_eq_some_iff.mp ht').1
  obtain ⟨u, hu, a⟩ := h k _ (List.getElem?_eq_getElem hk)
  rw [ht'] at hu; cases hu
  exact ⟨_, List.getElem?_eq_getElem hk, alike_symm a⟩

theorem looks_alike {ts ts' : List BtfType} (h : AllAlike ts ts') {k a r : Nat} (hl : Looks ts k a r) : Looks ts' k a r := by
  induction hl with
  | here a => exact .here a
  | step h1 h2 _ ih =>
    obtain ⟨t', ht', ha⟩ := h _ _ h1
    exact .step ht' (by rw [alike_through ha]; exact h2) ih

theorem resolves_alike {ts ts' : List BtfType} (h : AllAlike ts ts') {a r : Nat} {t : BtfType} (hr : Resolves ts a r t) :
    ∃ t', Resolves ts' a r t' ∧ Alike t t' := by
  obtain ⟨k, hk, hl, ht, hn⟩ := hr
  obtain ⟨t', ht', ha⟩ := h _ _ ht
  exact ⟨t', ⟨k, hk, looks_alike h hl, ht', by rw [alike_through ha]; exact hn⟩, ha⟩

theorem same_alike {lb lb' kb : Btf} (h : AllAlike lb.types lb'.types) {l t : Nat} (hs : SameType lb kb l t) :
    SameType lb' kb l t := by
  induction hs with
  | shape h1 h2 h3 h4 =>
    obtain ⟨u, hu, ha⟩ := resolves_alike h h1
    exact .shape hu h2 (by rw [alike_kind ha]; exact h3) (by rw [alike_kind ha]; exact h4)
  | int h1 h2 h3 h4 =>
    obtain ⟨u, hu, ha⟩ := resolves_alike h h1
    cases ha
    exact .int hu h2 h3 h4
  | ptr h1 h2 _ ih =>
    obtain ⟨u, hu, ha⟩ := resolves_alike h h1
    cases ha
    exact .ptr hu h2 ih
  | array h1 h2 _ ih =>
    obtain ⟨u, hu, ha⟩ := resolves_alike h h1
    cases ha
    exact .array hu h2 ih
  | func h1 h2 h3 _ _ ih1 ih2 =>
    obtain ⟨u, hu, ha⟩ := resolves_alike h h1
    cases ha with
    | same => exact .func hu h2 h3 ih1 ih2
    | proto he =>
      rename_i ps _ _ ps'
      have hlen := congrArg List.length he
      simp only [List.length_map] at hlen
      refine .func hu h2 (by omega) ?_ ih2
      intro k p p' hp hp'
      have hq := congrArg (fun m : List Nat => m[k]?) he
      simp only [List.getElem?_map, hp, Option.map_some] at hq
      obtain ⟨q, hq1, hq2⟩ := Option.map_eq_some_iff.mp hq
      rw [← hq2]
      exact ih1 k q p' hq1 hp'

theorem fixed_alike {int : Nat} {t t' : BtfType} (h : Fixed int t t') : Alike t t' := by
  cases h with
  | same => exact .same _
  | func => exact .func
  | var => exact .var
  | proto h =>
    refine .proto (List.ext_getElem? fun k => ?_)
    simp only [List.getElem?_map]
    rename_i ps ps'
    rcases e : ps[k]? with _ | p
    · rw [List.getElem?_eq_none_iff.mpr (by rw [h.1]; exact List.getElem?_eq_none_iff.mp e)]
    · have hk : k < ps'.length := by rw [h.1]; exact (List.getElem?_eq_some_iff.mp e).1
      rw [List.getElem?_eq_getElem hk]
      simp [(h.2 k p _ e (List.getElem?_eq_getElem hk)).1]

end Verif.Externs
