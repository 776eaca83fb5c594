import Verif.Btf.SanitizeStep
/-!
# Sanitising keeps BTF well formed
-/
set_option linter.unusedSimpArgs false
set_option linter.unusedVariables false
namespace Verif.Btf
open Verif.Bytes Verif.Btf.Spec

theorem zero_U32 : U32 0 := by unfold U32; decide

theorem good_coherent {b : Btf} (h : Good b) {j : Nat} {t : BtfType} (ht : b.types[j]? = some t) : t = .unknown ∨ Coherent t := by
  obtain ⟨ts, h1, h2, -⟩ := h
  rw [h1] at ht
  cases j with
  | zero => simp only [List.getElem?_cons_zero, Option.some.injEq] at ht; exact .inl ht.symm
  | succ j => exact .inr (h2 t (List.mem_of_getElem? (by simpa using ht)))

theorem good_canonical {b : Btf} (h : Good b) (h1 : ((b.types.drop 1).map recordSize).sum < 2 ^ 32)
    (h2 : b.strings.length < 2 ^ 32) : Canonical b := by
  obtain ⟨ts, e, -, a1, a2, a3, a4, a5, a6, a7, a8⟩ := h
  rw [e] at h1
  simp only [List.drop_one, List.tail_cons] at h1
  rw [Nat.mod_eq_of_lt h1] at a1
  rw [Nat.mod_eq_of_lt h2] at a3
  refine ⟨by unfold U32; omega, by unfold U32; omega, by unfold U32; omega, a6, a7, a8, a4, a5, ?_, a2, a3⟩
  rw [e]; simpa using a1

theorem sum_set {l : List BtfType} {i : Nat} {t t' : BtfType} (h : l[i]? = some t) :
    ((l.set i t').map recordSize).sum + recordSize t = (l.map recordSize).sum + recordSize t' := by
  induction l generalizing i with
  | nil => simp at h
  | cons x l ih =>
    cases i with
    | zero =>
      simp only [List.getElem?_cons_zero, Option.some.injEq] at h
      subst h
      simp; omega
    | succ i =>
      simp only [List.getElem?_cons_succ] at h
      have := ih h
      simp only [List.set_cons_succ, List.map_cons, List.sum_cons]
      omega

theorem sum_ge {l : List BtfType} {i : Nat} {t : BtfType} (h : l[i]? = some t) : recordSize t ≤ (l.map recordSize).sum := by
  induction l generalizing i with
  | nil => simp at h
  | cons x l ih =>
    cases i with
    | zero =>
      simp only [List.getElem?_cons_zero, Option.some.injEq] at h
      subst h
      simp
    | succ i =>
      simp only [List.getElem?_cons_succ] at h
      have := ih h
      simp only [List.map_cons, List.sum_cons]
      omega

theorem wrap_arith (M S S' o n : Nat) (hM : 0 < M) (h : S' + o = S + n) : (S % M + M - o % M + n) % M = S' % M := by
  have h1 : o % M < M := Nat.mod_lt _ hM
  have h2 : S % M + M - o % M = S % M + (M - o % M) := by omega
  have e1 : (S % M + (M - o % M) + n + o) % M = (S' + o) % M := by
    have : S % M + (M - o % M) + n + o = S % M + n + M + M * (o / M) := by
      have := Nat.div_add_mod o M; omega
    rw [this, Nat.add_mul_mod_self_left, Nat.add_mod_right, h, Nat.mod_add_mod]
  rw [h2]
  have e2 : ∀ a : Nat, (a + o + (M - o % M)) % M = a % M := by
    intro a
    have : a + o + (M - o % M) = a + M + M * (o / M) := by
      have := Nat.div_add_mod o M; omega
    rw [this, Nat.add_mul_mod_self_left, Nat.add_mod_right]
  rw [← e2 (S % M + (M - o % M) + n), ← e2 S', Nat.add_mod, e1, ← Nat.add_mod]

/-- `resized` with the new length as a parameter. -/
def resizedTo (b : Btf) (o n x : Nat) : Btf :=
  if n ≠ o then { b with header := { b.header with typeLen := x, strOff := x } } else b

theorem resized_to (b : Btf) (o n : Nat) : resized b o n = resizedTo b o n (resizedLen b.header.typeLen o n) := by
  unfold resized resizedTo
  generalize resizedLen b.header.typeLen o n = x
  rfl

theorem resizedTo_header (b : Btf) (o n x : Nat) : (resizedTo b o n x).header.strLen = b.header.strLen ∧
    (resizedTo b o n x).header.hdrLen = b.header.hdrLen ∧ (resizedTo b o n x).header.typeOff = b.header.typeOff ∧
    (resizedTo b o n x).header.magic = b.header.magic ∧ (resizedTo b o n x).header.version = b.header.version ∧
    (resizedTo b o n x).header.flags = b.header.flags := by
  unfold resizedTo
  split <;> exact ⟨rfl, rfl, rfl, rfl, rfl, rfl⟩

theorem resized_header (b : Btf) (o n : Nat) : (resized b o n).header.strLen = b.header.strLen ∧
    (resized b o n).header.hdrLen = b.header.hdrLen ∧ (resized b o n).header.typeOff = b.header.typeOff ∧
    (resized b o n).header.magic = b.header.magic ∧ (resized b o n).header.version = b.header.version ∧
    (resized b o n).header.flags = b.header.flags := by
  rw [resized_to]
  exact resizedTo_header b o n _

theorem resizedTo_len {b : Btf} {o n x y : Nat} (hx : n ≠ o → x = y) (h1 : n = o → b.header.typeLen = y)
    (h2 : b.header.strOff = b.header.typeLen) : (resizedTo b o n x).header.typeLen = y ∧
    (resizedTo b o n x).header.strOff = (resizedTo b o n x).header.typeLen := by
  unfold resizedTo
  by_cases hne : n ≠ o
  · rw [if_pos hne]; exact ⟨hx hne, rfl⟩
  · rw [if_neg hne]; exact ⟨h1 (Classical.not_not.mp hne), h2⟩

theorem resized_len {b : Btf} {o n S S' : Nat} (h1 : b.header.typeLen = S % 2 ^ 32) (h2 : b.header.strOff = b.header.typeLen)
    (h : S' + o = S + n) : (resized b o n).header.typeLen = S' % 2 ^ 32 ∧
    (resized b o n).header.strOff = (resized b o n).header.typeLen := by
  have hw : resizedLen b.header.typeLen o n = S' % 2 ^ 32 := by
    unfold resizedLen
    rw [h1]
    exact wrap_arith (2 ^ 32) S S' o n (by decide) h
  rw [resized_to]
  refine resizedTo_len (fun _ => hw) (fun he => ?_) h2
  subst he
  rw [h1, Nat.add_right_cancel h]

theorem good_setResized {b : Btf} (h : Good b) {i : Nat} {t t' : BtfType} (ht : b.types[i]? = some t) (hne : t ≠ .unknown)
    (hc : Coherent t') : Good { resized b (recordSize t) (recordSize t') with types := b.types.set i t' } := by
  obtain ⟨ts, e, a0, a1, a2, a3, a4, a5, a6, a7, a8⟩ := h
  cases i with
  | zero => rw [e] at ht; cases ht; exact absurd rfl hne
  | succ i =>
    have ht' : ts[i]? = some t := by rw [e] at ht; simpa using ht
    obtain ⟨r1, r2, r3, r4, r5, r6⟩ := resized_header b (recordSize t) (recordSize t')
    obtain ⟨q1, q2⟩ := resized_len a1 a2 (sum_set (t' := t') ht')
    refine ⟨ts.set i t', by simp [e], ?_, q1, q2, ?_, r2.trans a4, r3.trans a5, ?_, ?_, ?_⟩
    · intro x hx
      rcases List.mem_or_eq_of_mem_set hx with hx | rfl
      · exact a0 x hx
      · exact hc
    · show (resized b (recordSize t) (recordSize t')).header.strLen = (resized b (recordSize t) (recordSize t')).strings.length % 2 ^ 32
      rw [resized_strings, r1, a3]
    · show (resized b (recordSize t) (recordSize t')).header.magic < _
      rw [r4]; exact a6
    · show (resized b (recordSize t) (recordSize t')).header.version < _
      rw [r5]; exact a7
    · show (resized b (recordSize t) (recordSize t')).header.flags < _
      rw [r6]; exact a8

theorem good_set {b : Btf} (h : Good b) {i : Nat} {t t' : BtfType} (ht : b.types[i]? = some t) (hne : t ≠ .unknown)
    (hc : Coherent t') (hs : recordSize t' = recordSize t) : Good { b with types := b.types.set i t' } := by
  have := good_setResized h ht hne hc
  unfold resized at this
  rw [if_neg (by simp [hs])] at this
  exact this

theorem good_addString {b : Btf} (h : Good b) (s : List UInt8) : Good (b.addString s).1 ∧ U32 (b.addString s).2 := by
  obtain ⟨ts, e, a0, a1, a2, a3, a4⟩ := h
  refine ⟨⟨ts, e, a0, a1, a2, ?_, a4⟩, Nat.mod_lt _ (by decide)⟩
  simp only [Btf.addString, List.length_append]

theorem good_addType {b : Btf} (h : Good b) {t : BtfType} (hc : Coherent t) : Good (b.addType t).1 ∧ U32 (b.addType t).2 := by
  obtain ⟨ts, e, a0, a1, a2, a3, a4⟩ := h
  refine ⟨⟨ts ++ [t], ?_, ?_, ?_, ?_, a3, a4⟩, Nat.mod_lt _ (by decide)⟩
  · simp [Btf.addType, e]
  · intro x hx
    rcases List.mem_append.mp hx with hx | hx
    · exact a0 x hx
    · rw [List.mem_singleton] at hx; subst hx; exact hc
  · simp only [Btf.addType, infoSize_eq, List.map_append, List.sum_append, List.map_cons, List.map_nil, List.sum_cons,
      List.sum_nil, Nat.add_zero]
    rw [a1, Nat.mod_add_mod]
  · simp only [Btf.addType]
    rw [a2]

theorem good_renamed {b : Btf} (h : Good b) (a c : UInt8) (name : List UInt8) {n : Nat} (hn : U32 n) :
    Good (renamed b a c name n).1 ∧ U32 (renamed b a c name n).2 := by
  unfold renamed
  simp only
  split
  · exact good_addString h _
  · exact ⟨h, hn⟩

theorem coherent_int {n : Nat} (hn : U32 n) (s e o : Nat) (hs : U32 s) (hd : e * 2 ^ 24 + o * 2 ^ 16 + s * 8 < 2 ^ 32) :
    Coherent (mkInt n s e o) ∨ True := .inr trivial

theorem coherent_byteInt {n : Nat} (hn : U32 n) : Coherent (mkInt n 1 0 0) :=
  ⟨hn, by unfold U32; decide, by unfold U32; decide, by unfold U32; decide, by unfold Announces; decide⟩

theorem good_getPlaceholder {s : San} (h : Good s.b) (hp : ∀ p, s.placeholder = some p → U32 p) :
    Good (getPlaceholder s).1.b ∧ U32 (getPlaceholder s).2 ∧ (∀ p, (getPlaceholder s).1.placeholder = some p → U32 p) ∧
      (getPlaceholder s).1.filler = s.filler := by
  unfold getPlaceholder
  cases hpl : s.placeholder with
  | some id => exact ⟨h, hp id hpl, fun p h => by rw [hpl] at h; cases h; exact hp _ hpl, rfl⟩
  | none =>
    simp only
    have h1 := good_addString h "enum64_placeholder".toUTF8.toList
    have h2 := good_addType h1.1 (coherent_byteInt h1.2)
    exact ⟨h2.1, h2.2, fun p h => by cases h; exact h2.2, trivial⟩

theorem good_getFiller {s : San} (h : Good s.b) (hp : ∀ p, s.filler = some p → U32 p) :
    Good (getFiller s).1.b ∧ U32 (getFiller s).2 ∧ (∀ p, (getFiller s).1.filler = some p → U32 p) ∧
      (getFiller s).1.placeholder = s.placeholder := by
  unfold getFiller
  cases hpl : s.filler with
  | some id => exact ⟨h, hp id hpl, fun p h => by rw [hpl] at h; cases h; exact hp _ hpl, rfl⟩
  | none =>
    simp only
    have h1 := good_addString h "__aya_datasec_filler_type".toUTF8.toList
    have h2 := good_addType h1.1 (coherent_byteInt h1.2)
    have h3 := good_addString h2.1 "__aya_datasec_filler".toUTF8.toList
    have h4 := good_addType (t := mkVar (((s.b.addString "__aya_datasec_filler_type".toUTF8.toList).1.addType (mkInt (s.b.addString "__aya_datasec_filler_type".toUTF8.toList).2 1 0 0)).1.addString "__aya_datasec_filler".toUTF8.toList).2 ((s.b.addString "__aya_datasec_filler_type".toUTF8.toList).1.addType (mkInt (s.b.addString "__aya_datasec_filler_type".toUTF8.toList).2 1 0 0)).2 0) h3.1
      ⟨h3.2, by unfold U32; decide, h2.2, by omega, by unfold Announces; decide⟩
    exact ⟨h4.1, h4.2, fun p h => by cases h; exact h4.2, trivial⟩

theorem good_name {b : Btf} (h : Good b) {j : Nat} {t : BtfType} (ht : b.types[j]? = some t) : U32 t.name := by
  rcases good_coherent h ht with rfl | hc
  · unfold U32; decide
  · cases t <;> simp only [Coherent] at hc <;> try exact hc.1
    all_goals (first | exact hc.1 | (simp only [BtfType.name]; exact hc.1) | exact absurd hc (by simp))

theorem nameParams_good {b : Btf} (h : Good b) (k : Nat) (ps : List Param) (hps : ∀ p ∈ ps, U32 p.name ∧ U32 p.ty) :
    Good (nameParams b k ps).1 ∧ ∀ p ∈ (nameParams b k ps).2, U32 p.name ∧ U32 p.ty := by
  induction ps generalizing b k with
  | nil => exact ⟨h, by simp [nameParams]⟩
  | cons p ps ih =>
    rw [nameParams]
    have hp := hps p (by simp)
    have hps' := fun q hq => hps q (List.mem_cons_of_mem _ hq)
    split
    · have h1 := good_addString h (paramName k)
      obtain ⟨h2, h3⟩ := ih h1.1 (k + 1) hps'
      refine ⟨h2, fun q hq => ?_⟩
      rcases List.mem_cons.mp hq with rfl | hq
      · exact ⟨h1.2, hp.2⟩
      · exact h3 q hq
    · obtain ⟨h2, h3⟩ := ih h (k + 1) hps'
      refine ⟨h2, fun q hq => ?_⟩
      rcases List.mem_cons.mp hq with rfl | hq
      · exact hp
      · exact h3 q hq

theorem secMembers_good {b : Btf} (h : Good b) {es : List SecEntry} {ms : List Member} (hm : secMembers b.types es = .ok ms)
    (hes : ∀ e ∈ es, U32 e.ty) : ∀ m ∈ ms, U32 m.name ∧ U32 m.ty ∧ U32 m.offset := by
  obtain ⟨hl, hk⟩ := secMembers_ok hm
  intro m hmm
  obtain ⟨k, hk1, hk2⟩ := List.getElem_of_mem hmm
  have hlt : k < es.length := by omega
  obtain ⟨a1, a2, t, a3, a4⟩ := hk k es[k] m (List.getElem?_eq_getElem hlt) (by rw [List.getElem?_eq_getElem hk1, hk2])
  refine ⟨?_, ?_, ?_⟩
  · rw [a4]; exact good_name h a3
  · rw [a1]; exact hes _ (List.getElem_mem hlt)
  · rw [a2]; exact Nat.mod_lt _ (by decide)

theorem fixEntries_good {b : Btf} {symOff : List UInt8 → Option Nat} {es es' : List SecEntry}
    (hm : fixEntries b symOff es = .ok es') (hes : ∀ e ∈ es, U32 e.ty ∧ U32 e.offset ∧ U32 e.size) :
    ∀ e ∈ es', U32 e.ty ∧ U32 e.offset ∧ U32 e.size := by
  obtain ⟨hl, hk⟩ := fixEntries_ok hm
  intro m hmm
  obtain ⟨k, hk1, hk2⟩ := List.getElem_of_mem hmm
  have hlt : k < es.length := by omega
  obtain ⟨a1, a2, n, i, t, l, name, a3, a4, a5, a6⟩ :=
    hk k es[k] m (List.getElem?_eq_getElem hlt) (by rw [List.getElem?_eq_getElem hk1, hk2])
  have hb := hes _ (List.getElem_mem hlt)
  refine ⟨by rw [a1]; exact hb.1, ?_, by rw [a2]; exact hb.2.2⟩
  by_cases hz : l = 0
  · rw [a5 hz]; exact hb.2.1
  · obtain ⟨o, _, ho⟩ := a6 hz
    rw [ho]; exact Nat.mod_lt _ (by decide)

/-- What is kept besides: ids of the two helper types are words. -/
structure GoodSan (s : San) : Prop where
  good : Good s.b
  ph : ∀ p, s.placeholder = some p → U32 p
  fl : ∀ p, s.filler = some p → U32 p

theorem info_lt {k n : Nat} (hk : k < 32) (hn : n < 65536) : U32 (k * 2 ^ 24 + n) := by
  unfold U32
  have h1 : (2 : Nat) ^ 24 = 16777216 := by decide
  have h2 : (2 : Nat) ^ 32 = 4294967296 := by decide
  rw [h1, h2]; omega

theorem counts_lt {i n : Nat} (h : Counts i n) : n % 65536 = n := by
  unfold Counts at h; omega

theorem fixDataSec_good {f : Feat} {secSize symOff : List UInt8 → Option Nat} {s s' : San} {i n n' info : Nat}
    {name : List UInt8} {es : List SecEntry} (hg : GoodSan s) (hcur : s.b.types[i]? = some (.dataSec n info 0 es)) (hn : U32 n')
    (h : fixDataSec f secSize symOff s i n' name es = .ok s') : GoodSan s' := by
  have hco : Coherent (.dataSec n info 0 es) := by
    rcases good_coherent hg.good hcur with h | h
    · cases h
    · exact h
  obtain ⟨-, -, -, -, hcnt, hes⟩ := hco
  unfold fixDataSec at h
  split at h
  · cases h
  rename_i size64 hsz
  simp only at h
  by_cases hcond : (es.isEmpty && (size64 % 2 ^ 32 == 0 || !f.dataSecZero)) = true
  · simp only [if_pos hcond] at h
    rw [Bool.and_eq_true, List.isEmpty_iff] at hcond
    obtain ⟨rfl, -⟩ := hcond
    split at h
    · cases h
    rename_i es' hes'
    cases h
    obtain ⟨g1, g2, g3, g4⟩ := good_getFiller hg.good hg.fl
    have hz : U32 (max (size64 % 2 ^ 32) 1) := by
      unfold U32; have := Nat.mod_lt size64 (show 0 < 2 ^ 32 by decide); omega
    have hen := fixEntries_good hes' (by
      intro e he
      rw [List.mem_singleton] at he; subst he
      exact ⟨g2, zero_U32, hz⟩)
    have hlen := (fixEntries_ok hes').1
    simp only [List.length_cons, List.length_nil] at hlen
    have hcur2 : (getFiller s).1.b.types[i]? = some (.dataSec n info 0 []) := by
      have : ∃ ex, (getFiller s).1.b.types = s.b.types ++ ex := by
        unfold getFiller
        cases s.filler with
        | some _ => exact ⟨[], by simp⟩
        | none => exact ⟨[_] ++ [_], (List.append_assoc _ _ _)⟩
      obtain ⟨ex, hex⟩ := this
      rw [hex, List.getElem?_append_left (by rw [List.getElem?_eq_some_iff] at hcur; exact hcur.1)]
      exact hcur
    have hc : Coherent (mkDataSec n' es' (if size64 % 2 ^ 32 = 0 then max (size64 % 2 ^ 32) 1 else size64 % 2 ^ 32)) := by
      obtain ⟨hA, hC, -⟩ := announces_add 15 (es'.length % 65536) (by omega) (Nat.mod_lt _ (by omega))
      refine ⟨hn, info_lt (by omega) (Nat.mod_lt _ (by omega)), ?_, hA, ?_, hen⟩
      · split
        · exact hz
        · exact Nat.mod_lt _ (by decide)
      · rw [hlen] at hC ⊢; exact hC
    have := good_setResized g1 hcur2 (by simp) hc
    refine ⟨?_, ?_, g3⟩
    · simp only [San.setType, resized_types, infoSize_eq]
      have e1 : recordSize (.dataSec n info 0 []) = 12 + 12 * ([] : List SecEntry).length := rfl
      rw [e1] at this
      exact this
    · intro p hp
      exact hg.ph p (by rw [← g4]; exact hp)
  · simp only [if_neg hcond] at h
    split at h
    · cases h
    rename_i es' hes'
    cases h
    have hen := fixEntries_good hes' hes
    have hlen := (fixEntries_ok hes').1
    have hc : Coherent (mkDataSec n' es' (size64 % 2 ^ 32)) := by
      obtain ⟨hA, hC, -⟩ := announces_add 15 (es'.length % 65536) (by omega) (Nat.mod_lt _ (by omega))
      refine ⟨hn, info_lt (by omega) (Nat.mod_lt _ (by omega)), Nat.mod_lt _ (by decide), hA, ?_, hen⟩
      rw [hlen, counts_lt hcnt] at hC ⊢; exact hC
    have := good_setResized hg.good hcur (by simp) hc
    refine ⟨?_, hg.ph, hg.fl⟩
    simp only [San.setType, resized_types, infoSize_eq]
    have e1 : recordSize (.dataSec n info 0 es) = 12 + 12 * es.length := by simp only [recordSize]; omega
    rw [e1] at this
    exact this

theorem sanitizeOne_good {f : Feat} {secSize symOff : List UInt8 → Option Nat} {s s' : San} {i : Nat} (hg : GoodSan s)
    (h : sanitizeOne f secSize symOff s i = .ok s') : GoodSan s' := by
  unfold sanitizeOne at h
  split at h
  · cases h
  rename_i t hcur
  have put : ∀ t', t ≠ .unknown → (Coherent t → Coherent t') → recordSize t' = recordSize t → GoodSan (s.setType i t') := by
    intro t' hne hc hs
    rcases good_coherent hg.good hcur with h | h
    · exact absurd h hne
    · exact ⟨good_set hg.good hcur hne (hc h) hs, hg.ph, hg.fl⟩
  have putS : ∀ b' t', t ≠ .unknown → Good b' → b'.types = s.b.types → Coherent t' → recordSize t' = recordSize t →
      GoodSan ({ s with b := b' }.setType i t') := by
    intro b' t' hne hb ht hc hs
    exact ⟨good_set hb (by rw [ht]; exact hcur) hne hc hs, hg.ph, hg.fl⟩
  have coh : t ≠ .unknown → Coherent t := by
    intro hne
    rcases good_coherent hg.good hcur with h | h
    · exact absurd h hne
    · exact h
  cases t with
  | ref k n info x =>
    cases k with
    | ptr =>
      cases h
      exact put _ (by simp) (fun ⟨a, b, c, d⟩ => ⟨by unfold U32; decide, b, c, d⟩) rfl
    | func =>
      simp only at h
      have hst : (Coherent (.ref .func n info x) → Coherent (.ref .func n (staticInfo info) x)) := by
        rintro ⟨a, b, c, d⟩
        refine ⟨a, ?_, c, ?_⟩
        · unfold U32 staticInfo at *; omega
        · unfold Announces staticInfo at *
          have h1 : (2 : Nat) ^ 24 = 16777216 := by decide
          rw [h1] at *
          omega
      split at h
      · cases h
      split at h
      · cases h
        exact put _ (by simp) (fun ⟨a, b, c, d⟩ => ⟨a, by unfold U32; decide, c, by unfold Announces; decide⟩) rfl
      split at h
      · split at h
        · cases h; exact put _ (by simp) hst rfl
        · split at h
          · cases h; exact put _ (by simp) hst rfl
          · cases h; exact hg
      · cases h; exact hg
    | typeTag =>
      simp only at h
      split at h <;> cases h
      · exact put _ (by simp) (fun ⟨a, b, c, d⟩ => ⟨by unfold U32; decide, by unfold U32; decide, c, by unfold Announces; decide⟩) rfl
      · exact hg
    | const => cases h; exact hg
    | volatile => cases h; exact hg
    | restrict => cases h; exact hg
    | typedef => cases h; exact hg
  | var n info x l =>
    simp only at h
    split at h <;> cases h
    · exact put _ (by simp) (fun hc => coherent_byteInt hc.1) rfl
    · exact hg
  | declTag n info x c =>
    simp only at h
    split at h <;> cases h
    · exact put _ (by simp) (fun hc => coherent_byteInt hc.1) rfl
    · exact hg
  | float n info size =>
    simp only at h
    split at h <;> cases h
    · refine put _ (by simp) (fun ⟨a, b, c, d⟩ => ⟨by unfold U32; decide, by unfold U32; decide, c, by unfold Announces; decide,
        by unfold Counts; decide, by simp⟩) rfl
    · exact hg
  | enum n info size vs =>
    simp only at h
    split at h <;> cases h
    · refine put _ (by simp) (fun ⟨a, b, c, d, e, g⟩ => ⟨a, ?_, c, ?_, ?_, g⟩) rfl
      · unfold U32; have := Nat.mod_lt info (show 0 < 2 ^ 31 by decide); omega
      · unfold Announces at *
        have h1 : (2 : Nat) ^ 24 = 16777216 := by decide
        have h2 : (2 : Nat) ^ 31 = 2147483648 := by decide
        rw [h1] at *; rw [h2]
        omega
      · unfold Counts at *
        have h2 : (2 : Nat) ^ 31 = 2147483648 := by decide
        rw [h2]; omega
    · exact hg
  | enum64 n info size vs =>
    simp only at h
    split at h <;> cases h
    · obtain ⟨g1, g2, g3, g4⟩ := good_getPlaceholder hg.good hg.ph
      obtain ⟨c1, c2, c3, c4, c5, c6⟩ := coh (by simp)
      have hcur2 : (getPlaceholder s).1.b.types[i]? = some (.enum64 n info size vs) := by
        have : ∃ ex, (getPlaceholder s).1.b.types = s.b.types ++ ex := by
          unfold getPlaceholder
          cases s.placeholder with
          | some _ => exact ⟨[], by simp⟩
          | none => exact ⟨[_], rfl⟩
        obtain ⟨ex, hex⟩ := this
        rw [hex, List.getElem?_append_left (by rw [List.getElem?_eq_some_iff] at hcur; exact hcur.1)]
        exact hcur
      obtain ⟨hA, hC, -⟩ := announces_add 5 (vs.length % 65536) (by omega) (Nat.mod_lt _ (by omega))
      refine ⟨good_set g1 hcur2 (by simp) ?_ ?_, g3, ?_⟩
      · refine ⟨c1, ?_, c3, ?_, ?_, ?_⟩
        · simpa using info_lt (k := 5) (by omega) (Nat.mod_lt vs.length (show 0 < 65536 by omega))
        · simpa using hA
        · rw [counts_lt c5] at hC; simpa [counts_lt c5] using hC
        · intro m hm
          obtain ⟨v, hv, rfl⟩ := List.mem_map.mp hm
          exact ⟨(c6 v hv).1, g2, zero_U32⟩
      · simp [mkUnion, recordSize]
      · intro p hp
        exact hg.fl p (by rw [← g4]; exact hp)
    · exact hg
  | funcProto n info r ps =>
    obtain ⟨c1, c2, c3, c4, c5, c6⟩ := coh (by simp)
    simp only at h
    split at h <;> cases h
    · obtain ⟨h1, h2, h3⟩ := nameParams_ok s.b 0 ps
      obtain ⟨k1, k2⟩ := nameParams_good hg.good 0 ps c6
      refine putS _ _ (by simp) k1 h1.1 ⟨c1, c2, c3, c4, ?_, k2⟩ ?_
      · rw [h2]; exact c5
      · simp only [recordSize, h2]
    · obtain ⟨hA, hC, -⟩ := announces_add 6 (ps.length % 65536) (by omega) (Nat.mod_lt _ (by omega))
      refine put _ (by simp) (fun _ => ⟨c1, ?_, by unfold U32; decide, ?_, ?_, ?_⟩) ?_
      · simpa using info_lt (k := 6) (by omega) (Nat.mod_lt ps.length (show 0 < 65536 by omega))
      · simpa using hA
      · rw [counts_lt c5] at hC; simpa [counts_lt c5] using hC
      · intro v hv
        obtain ⟨p, hp, rfl⟩ := List.mem_map.mp hv
        exact c6 p hp
      · simp [mkEnum, recordSize]
  | dataSec n info size es =>
    obtain ⟨c1, c2, c3, c4, c5, c6⟩ := coh (by simp)
    simp only at h
    split at h
    · cases h
    rename_i name hname
    have hs := C17_string _ _ _ hname
    split at h
    · obtain ⟨r1, r2⟩ := renamed_ok s.b 46 95 (by decide) name n hs
      obtain ⟨q1, q2⟩ := good_renamed hg.good 46 95 name c1
      split at h
      · cases h
      rename_i ms hms
      cases h
      have hl := (secMembers_ok hms).1
      obtain ⟨hA, hC, -⟩ := announces_add 4 (ms.length % 65536) (by omega) (Nat.mod_lt _ (by omega))
      refine putS _ _ (by simp) q1 r1.1 ⟨q2, info_lt (by omega) (Nat.mod_lt _ (by omega)), Nat.mod_lt _ (by decide), hA, ?_,
        secMembers_good hg.good hms (fun e he => (c6 e he).1)⟩ ?_
      · rw [hl, counts_lt c5] at hC ⊢; exact hC
      · simp only [mkStruct, recordSize, hl]
    · obtain ⟨r1, r2⟩ := renamed_ok s.b 47 46 (by decide) name n hs
      obtain ⟨q1, q2⟩ := good_renamed hg.good 47 46 name c1
      split at h
      · cases h
        exact putS _ _ (by simp) q1 r1.1 ⟨q2, c2, c3, c4, c5, c6⟩ rfl
      · rename_i hsz
        have hz : size = 0 := by omega
        subst hz
        exact fixDataSec_good (s := { s with b := (renamed s.b 47 46 name n).1 }) ⟨q1, hg.ph, hg.fl⟩
          (by show (renamed s.b 47 46 name n).1.types[i]? = _; rw [r1.1]; exact hcur) q2 h
  | unknown => cases h; exact hg
  | fwd _ _ => cases h; exact hg
  | int _ _ _ _ => cases h; exact hg
  | array _ _ _ _ _ => cases h; exact hg
  | struct _ _ _ _ => cases h; exact hg
  | union _ _ _ _ _ => cases h; exact hg

end Verif.Btf
