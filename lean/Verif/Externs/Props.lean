import Verif.Externs.Collect
import Verif.Common.Except

/-! # C90: kernel symbols an object asks for -/
set_option linter.unusedSimpArgs false
set_option linter.unusedVariables false
namespace Verif.Externs
open Verif.Btf Verif.Btf.Spec Verif.Core.Spec Verif.Externs.Spec

theorem withPlaceholder_extends {b b' : Btf} {es : List SecEntry} {ph : Option Nat}
    (h : withPlaceholder b es = .ok (b', ph)) : Extends b b' := by
  unfold withPlaceholder at h
  rcases e : hasFunctions b es with x | f
  · rw [e] at h; cases h
  · rw [e] at h
    cases f <;> cases h
    · exact ⟨List.prefix_refl _, List.prefix_refl _⟩
    · exact createPlaceholder_extends b

/-- What a successful collection did. -/
theorem collect_inv {b b' : Btf} {syms : List Sym} {xs : Externs} (h : collect b syms = .ok (b', xs)) :
    (KsymsAt b 0 b.types none ∧ b' = b ∧ xs = ⟨[], none, none⟩) ∨
    ∃ d es ds ph, KsymsAt b 0 b.types (some (d, es)) ∧ withPlaceholder b es = .ok (b', ph) ∧
      describeAll b' syms es = .ok ds ∧ xs.table = ds.foldl (fun t p => insert t p.1 p.2) [] ∧
      xs.placeholder = ph ∧ xs.datasec = if xs.table.isEmpty then none else some d := by
  unfold collect at h
  rcases e : findKsyms b 0 b.types with x | r
  · rw [e] at h; cases h
  · rw [e] at h
    have hk := findKsyms_sound b b.types 0 r e
    rcases r with _ | ⟨d, es⟩
    · cases h; exact .inl ⟨hk, rfl, rfl⟩
    · simp only at h
      rcases e2 : withPlaceholder b es with x | ⟨b2, ph⟩
      · rw [e2] at h; cases h
      · rw [e2] at h
        simp only at h
        rcases e3 : describeAll b2 syms es with x | ds
        · rw [e3] at h; cases h
        · rw [e3] at h
          cases h
          exact .inr ⟨d, es, ds, ph, hk, e2, e3, rfl, rfl, rfl⟩

/-- **C90.** The externs of an object are the entries of its first section called `.ksyms`: each extern describes an
entry, each entry has an extern of its name, no name occurs twice. Types and strings the object had stay where they
were. -/
theorem C90_collected_partial (b b' : Btf) (syms : List Sym) (xs : Externs) (h : collect b syms = .ok (b', xs)) :
    Extends b b' ∧ (xs.table.map Prod.fst).Nodup ∧
    ((∀ d es, ¬ IsKsyms b d es) ∧ b' = b ∧ xs.table = [] ∧ xs.datasec = none ∨
     ∃ d es, IsKsyms b d es ∧ (∀ (j : Nat) es', j < d → ¬ IsKsyms b j es') ∧
      (∀ p ∈ xs.table, ∃ e ∈ es, Describes b' syms e p.1 p.2) ∧
      (∀ e ∈ es, ∃ name isFunc ty x, Declares b' e name isFunc ty ∧ (name, x) ∈ xs.table) ∧
      (es ≠ [] → xs.datasec = some d)) := by
  rcases collect_inv h with ⟨hk, rfl, rfl⟩ | ⟨d, es, ds, ph, hk, hp, hd, ht, -, hs⟩
  · refine ⟨⟨List.prefix_refl _, List.prefix_refl _⟩, by simp, .inl ⟨?_, rfl, rfl, rfl⟩⟩
    rintro d es ⟨n, f, s, h1, h2⟩
    exact hk d n f s es h1 h2
  · obtain ⟨k, n, f, s, h1, h2, h3, h4⟩ := hk
    rw [Nat.zero_add] at h1; subst h1
    obtain ⟨g1, g2, g3⟩ := fold_insert ds [] (by simp)
    obtain ⟨d1, d2⟩ := describeAll_sound hd
    have hall : ∀ e ∈ es, ∃ name isFunc ty x, Declares b' e name isFunc ty ∧ (name, x) ∈ xs.table := by
      intro e he
      obtain ⟨p, hp', f, ty, _, _, hdec, _⟩ := d2 e he
      obtain ⟨y, hy⟩ := g3 p (.inr hp')
      exact ⟨p.1, f, ty, y, hdec, by rw [ht]; exact hy⟩
    refine ⟨withPlaceholder_extends hp, by rw [ht]; exact g1, .inr ⟨d, es, ⟨n, f, s, h2, h3⟩, ?_, ?_, hall, ?_⟩⟩
    · rintro j es' hj ⟨n', f', s', a1, a2⟩
      exact h4 j n' f' s' es' hj a1 a2
    · intro p hp'
      rw [ht] at hp'
      rcases g2 p hp' with hm | hm
      · simp at hm
      · obtain ⟨e, he, hde, _⟩ := d1 p hm
        exact ⟨e, he, hde⟩
    · intro hne
      rcases es with _ | ⟨e, es⟩
      · exact absurd rfl hne
      · obtain ⟨name, _, _, x, _, hx⟩ := hall e (by simp)
        rw [hs, if_neg]
        intro hemp
        rw [List.isEmpty_iff.mp hemp] at hx
        simp at hx

theorem collect_essential {b b' : Btf} {syms : List Sym} {xs : Externs} (h : collect b syms = .ok (b', xs)) :
    ∀ p ∈ xs.table, p.2.essential = beforeFlavor p.1 ∧ p.2.isResolved = false ∧ p.2.kernelId = none := by
  rcases collect_inv h with ⟨hk, rfl, rfl⟩ | ⟨d, es, ds, ph, hk, hp, hd, ht, -, hs⟩
  · simp
  · intro p hp'
    rw [ht] at hp'
    rcases (fold_insert ds [] (by simp)).2.1 p hp' with hm | hm
    · simp at hm
    · obtain ⟨e, he, ⟨_, _, _, _, _, _, _, _, _, h1, h2⟩, h3⟩ := (describeAll_sound hd).1 p hm
      exact ⟨h3, h1, h2⟩

theorem kind_func {t : BtfType} (h : t.kind = 12) : ∃ n i p, t = .ref .func n i p := by
  cases t with
  | ref k n i p => cases k <;> simp [BtfType.kind, RefKind.num] at h; exact ⟨n, i, p, rfl⟩
  | _ => simp [BtfType.kind] at h

theorem kind_var {t : BtfType} (h : t.kind = 14) : ∃ n i p l, t = .var n i p l := by
  cases t with
  | ref k n i p => cases k <;> simp [BtfType.kind, RefKind.num] at h
  | var n i p l => exact ⟨n, i, p, l, rfl⟩
  | _ => simp [BtfType.kind] at h

/-- What is done for one extern looked up as `w` of kind `kind`. -/
def Outcome (lb kb : Btf) (x : Ext) (l kind : Nat) (w : Name) : Option Nat → Prop
  | some id => ∃ ty t, First kb kind w id ty ∧ TypeOf ty t ∧ Fits lb kb l t
  | none => x.isWeak = true ∧ ((∀ t ∈ kb.types, ¬ Match kb w kind t) ∨
      ∃ id ty t, First kb kind w id ty ∧ TypeOf ty t ∧ ¬ Fits lb kb l t)

theorem compare_sound {lb kb : Btf} {x : Ext} {l id t kind : Nat} {w : Name} {ty : BtfType} {inc : KErr} {r : Option Nat}
    (hf : First kb kind w id ty) (ht : TypeOf ty t) (h : compare lb kb x l id t inc = .ok r) :
    Outcome lb kb x l kind w r := by
  unfold compare at h
  rcases e : Core.typesCompatible lb l kb t with y | c
  · rw [e] at h; cases h
  · rw [e] at h
    obtain ⟨lt, tt, h1, h2, h3⟩ := Core.C64_same_type lb kb l t c e
    cases c
    · simp only at h
      split at h
      · rename_i hw
        cases h
        refine ⟨hw, .inr ⟨id, ty, t, hf, ht, ?_⟩⟩
        rintro ⟨lt', tt', a1, a2, a3⟩
        rw [h1] at a1; cases a1
        rw [h2] at a2; cases a2
        exact absurd (h3.mpr a3) (by simp)
      · cases h
    · cases h
      exact ⟨ty, t, hf, ht, lt, tt, h1, h2, h3.mp rfl⟩

theorem missing {kb : Btf} {w : Name} {kind : Nat} {e : Fail} (hk : kind = 12 ∨ kind = 14) (hn : Named kb)
    (h : kb.idByTypeNameKind w kind = .error e) : ∀ t ∈ kb.types, ¬ Match kb w kind t := by
  obtain ⟨h1, h2, h3⟩ := hn
  have hc := C61_complete kb w kind h1 h2
    (fun t ht hkt => h3 t ht (by rcases hk with rfl | rfl <;> simp [hkt]))
  intro t ht hm
  obtain ⟨n, hn'⟩ := hc.1.mp ⟨t, ht, hm⟩
  rw [hn'] at h; cases h

theorem resolveFunction_sound {lb kb : Btf} (hn : Named kb) {name : Name} {x : Ext} {l : Nat} {r : Option Nat}
    (h : resolveFunction lb kb name x l = .ok r) : Outcome lb kb x l 12 (x.essential.getD name) r := by
  unfold resolveFunction at h
  rcases e : kb.idByTypeNameKind (x.essential.getD name) 12 with y | id
  · have hm := missing (.inl rfl) hn e
    rw [e] at h
    have : (if x.isWeak then Except.ok none else Except.error KErr.functionNotFound) = Except.ok r := by
      cases y <;> first | exact h | cases h
    split at this
    · rename_i hw; cases this; exact ⟨hw, .inl hm⟩
    · cases this
  · rw [e] at h
    obtain ⟨ty, h1, h2, h3⟩ := C61_found kb _ 12 id e
    obtain ⟨n, i, p, rfl⟩ := kind_func h2.1
    simp only [typeById, h1] at h
    exact compare_sound ⟨h1, h2, h3⟩ (.inl ⟨n, i, rfl⟩) h

theorem resolveVariable_sound {lb kb : Btf} (hn : Named kb) {name : Name} {x : Ext} {l : Nat} {r : Option Nat}
    (h : resolveVariable lb kb name x l = .ok r) : Outcome lb kb x l 14 name r := by
  unfold resolveVariable at h
  rcases e : kb.idByTypeNameKind name 14 with y | id
  · have hm := missing (.inr rfl) hn e
    rw [e] at h
    have : (if x.isWeak then Except.ok none else Except.error KErr.variableNotFound) = Except.ok r := by
      cases y <;> first | exact h | cases h
    split at this
    · rename_i hw; cases this; exact ⟨hw, .inl hm⟩
    · cases this
  · rw [e] at h
    obtain ⟨ty, h1, h2, h3⟩ := C61_found kb _ 14 id e
    obtain ⟨n, i, p, lk, rfl⟩ := kind_var h2.1
    simp only [typeById, h1] at h
    exact compare_sound ⟨h1, h2, h3⟩ (.inr ⟨n, i, lk, rfl⟩) h

theorem resolveOne_sound {lb kb : Btf} (hn : Named kb) {name : Name} {x : Ext} (hx : x.essential = beforeFlavor name)
    {r : Option Nat} (h : resolveOne lb kb name x = .ok r) :
    (x.typeId = none → r = none) ∧
    ∀ l, x.typeId = some l → ∃ kind w, Wanted lb name x kind w ∧ Outcome lb kb x l kind w r := by
  unfold resolveOne at h
  rcases e : x.typeId with _ | l
  · rw [e] at h; cases h; exact ⟨fun _ => rfl, fun _ he => nomatch he⟩
  · refine ⟨(fun he => nomatch he), ?_⟩
    rintro _ ⟨⟩
    rw [e] at h
    simp only [typeById] at h
    rcases ht : lb.types[x.btfId]? with _ | ty
    · rw [ht] at h; cases h
    · rw [ht] at h
      cases ty with
      | ref k n i p =>
        cases k with
        | func =>
          refine ⟨12, _, .inl ⟨⟨n, i, p, ht⟩, rfl, ?_⟩, resolveFunction_sound hn h⟩
          rw [hx]; exact beforeFlavor_base name
        | _ => cases h
      | var n i p lk => exact ⟨14, name, .inr ⟨⟨n, i, p, lk, ht⟩, rfl, rfl⟩, resolveVariable_sound hn h⟩
      | _ => cases h

theorem resolveTyped_get {lb kb : Btf} : ∀ {t t' : List (Name × Ext)}, resolveTyped lb kb t = .ok t' →
    t'.length = t.length ∧ ∀ (k : Nat) (p : Name × Ext), t[k]? = some p →
      ∃ r, resolveOne lb kb p.1 p.2 = .ok r ∧ t'[k]? = some (p.1, p.2.resolve r)
  | [], t', h => by cases h; exact ⟨rfl, fun k p hk => by simp at hk⟩
  | (name, x) :: t, t', h => by
    simp only [resolveTyped] at h
    rcases e : resolveOne lb kb name x with y | r
    · rw [e] at h; cases h
    · rw [e] at h
      simp only at h
      rcases e2 : resolveTyped lb kb t with y | t2
      · rw [e2] at h; cases h
      · rw [e2] at h; cases h
        obtain ⟨h1, h2⟩ := resolveTyped_get e2
        refine ⟨by simp [h1], ?_⟩
        intro k p hk
        cases k with
        | zero => simp at hk; subst hk; exact ⟨r, e, rfl⟩
        | succ k => simpa using h2 k p (by simpa using hk)

/-- **C90.** When resolving the externs of an object succeeds, every extern with a type either is resolved to the first
function or variable of its name in the kernel, whose type is the extern's, or it is weak, stays as it was, and the
kernel has nothing of its name or something of another type. Externs without types stay as they were. -/
theorem C90_resolved_partial (b b' lb kb : Btf) (syms : List Sym) (xs : Externs) (t' : List (Name × Ext))
    (hc : collect b syms = .ok (b', xs)) (hn : Named kb) (h : resolveTyped lb kb xs.table = .ok t') :
    t'.length = xs.table.length ∧
    ∀ (k : Nat) (name : Name) (x : Ext), xs.table[k]? = some (name, x) →
      ∃ x' : Ext, t'[k]? = some (name, x') ∧ (x.typeId = none → x' = x) ∧
        ∀ l, x.typeId = some l → ∃ kind w, Wanted lb name x kind w ∧
          ((∃ id ty t, First kb kind w id ty ∧ TypeOf ty t ∧ Fits lb kb l t ∧
              x' = { x with isResolved := true, kernelId := some id }) ∨
           (x.isWeak = true ∧ x' = x ∧ ((∀ t ∈ kb.types, ¬ Match kb w kind t) ∨
              ∃ id ty t, First kb kind w id ty ∧ TypeOf ty t ∧ ¬ Fits lb kb l t))) := by
  obtain ⟨h1, h2⟩ := resolveTyped_get h
  refine ⟨h1, ?_⟩
  intro k name x hk
  obtain ⟨r, hr, hk'⟩ := h2 k (name, x) hk
  have hs := resolveOne_sound hn (collect_essential hc (name, x) (List.mem_of_getElem? hk)).1 hr
  refine ⟨x.resolve r, hk', ?_, ?_⟩
  · intro hx
    have := hs.1 hx
    subst this; rfl
  · intro l hx
    obtain ⟨kind, w, hw, ho⟩ := hs.2 l hx
    refine ⟨kind, w, hw, ?_⟩
    rcases r with _ | id
    · exact .inr ⟨ho.1, rfl, ho.2⟩
    · obtain ⟨ty, t, a1, a2, a3⟩ := ho
      exact .inl ⟨id, ty, t, a1, a2, a3, rfl⟩

theorem resolveTyped_error {lb kb : Btf} {e : KErr} : ∀ {t : List (Name × Ext)}, resolveTyped lb kb t = .error e →
    ∃ p ∈ t, resolveOne lb kb p.1 p.2 = .error e
  | [], h => by cases h
  | (name, x) :: t, h => by
    simp only [resolveTyped] at h
    rcases e1 : resolveOne lb kb name x with y | r
    · rw [e1] at h; cases h; exact ⟨(name, x), by simp, e1⟩
    · rw [e1] at h
      simp only at h
      rcases e2 : resolveTyped lb kb t with y | t2
      · rw [e2] at h; cases h
        obtain ⟨p, hp, he⟩ := resolveTyped_error e2
        exact ⟨p, by simp [hp], he⟩
      · rw [e2] at h; cases h

theorem missing_error {kb : Btf} {w : Name} {kind : Nat} {e : Fail} (hk : kind = 12 ∨ kind = 14) (hn : Named kb)
    (h : kb.idByTypeNameKind w kind = .error e) : e = .unknownBtfTypeName w := by
  have hm := missing hk hn h
  obtain ⟨h1, h2, h3⟩ := hn
  have hc := C61_complete kb w kind h1 h2
    (fun t ht hkt => h3 t ht (by rcases hk with rfl | rfl <;> simp [hkt]))
  rw [hc.2.mp hm] at h; cases h; rfl

theorem compare_error {lb kb : Btf} {x : Ext} {l id t kind : Nat} {w : Name} {ty : BtfType} {inc e : KErr}
    (hf : First kb kind w id ty) (ht : TypeOf ty t) (h : compare lb kb x l id t inc = .error e) :
    x.isWeak = false ∧ ¬ Fits lb kb l t ∧ e = inc ∨ ∃ e', Core.typesCompatible lb l kb t = .error e' ∧ e = .btf e' := by
  unfold compare at h
  rcases e1 : Core.typesCompatible lb l kb t with y | c
  · rw [e1] at h; cases h; exact .inr ⟨y, rfl, rfl⟩
  · rw [e1] at h
    obtain ⟨lt, tt, h1, h2, h3⟩ := Core.C64_same_type lb kb l t c e1
    cases c
    · simp only at h
      split at h
      · cases h
      · rename_i hw
        cases h
        refine .inl ⟨by simpa using hw, ?_, rfl⟩
        rintro ⟨lt', tt', a1, a2, a3⟩
        rw [h1] at a1; cases a1
        rw [h2] at a2; cases a2
        exact absurd (h3.mpr a3) (by simp)
    · cases h

/-- **C90.** Resolving fails only for an extern that is not weak and which the kernel does not have, or has with another type, and
says which of these it is; or else types cannot be compared (see C64), or the extern is neither a function nor a variable of
the object. -/
theorem C90_refused (b b' lb kb : Btf) (syms : List Sym) (xs : Externs) (e : KErr)
    (hc : collect b syms = .ok (b', xs)) (hn : Named kb) (h : resolveTyped lb kb xs.table = .error e) :
    ∃ (name : Name) (x : Ext) (l : Nat), (name, x) ∈ xs.table ∧ x.typeId = some l ∧
      ((∀ kind w, ¬ Wanted lb name x kind w) ∨
       ∃ kind w, Wanted lb name x kind w ∧
        (x.isWeak = false ∧ (∀ t ∈ kb.types, ¬ Match kb w kind t) ∧
            e = (if kind = 12 then .functionNotFound else .variableNotFound) ∨
         ∃ id ty t, First kb kind w id ty ∧ TypeOf ty t ∧
          (x.isWeak = false ∧ ¬ Fits lb kb l t ∧ e = (if kind = 12 then .incompatibleFunction else .incompatibleVariable) ∨
           ∃ e', Core.typesCompatible lb l kb t = .error e' ∧ e = .btf e'))) := by
  obtain ⟨⟨name, x⟩, hmem, he⟩ := resolveTyped_error h
  have hx := (collect_essential hc (name, x) hmem).1
  unfold resolveOne at he
  rcases e1 : x.typeId with _ | l
  · simp only [e1] at he; cases he
  · simp only [e1, typeById] at he
    refine ⟨name, x, l, hmem, e1, ?_⟩
    have notWanted : (∀ n i t, lb.types[x.btfId]? ≠ some (.ref .func n i t)) →
        (∀ n i t k, lb.types[x.btfId]? ≠ some (.var n i t k)) → ∀ kind w, ¬ Wanted lb name x kind w := by
      intro h1 h2 kind w hw
      rcases hw with ⟨⟨n, i, t, hw⟩, _⟩ | ⟨⟨n, i, t, k, hw⟩, _⟩
      · exact h1 _ _ _ hw
      · exact h2 _ _ _ _ hw
    rcases ht : lb.types[x.btfId]? with _ | ty
    · exact .inl (notWanted (by simp [ht]) (by simp [ht]))
    · cases ty with
      | ref k n i p =>
        cases k with
        | func =>
          rw [ht] at he
          simp only at he
          refine .inr ⟨12, _, .inl ⟨⟨n, i, p, ht⟩, rfl, beforeFlavor_base name⟩, ?_⟩
          unfold resolveFunction at he
          rw [show x.essential = _ from hx] at he
          rcases ei : kb.idByTypeNameKind ((beforeFlavor name).getD name) 12 with y | id
          · have hm := missing (.inl rfl) hn ei
            have := missing_error (.inl rfl) hn ei
            subst this
            rw [ei] at he
            simp only at he
            split at he
            · cases he
            · rename_i hw
              cases he
              exact .inl ⟨by simpa using hw, hm, rfl⟩
          · rw [ei] at he
            obtain ⟨ty, h1, h2, h3⟩ := C61_found kb _ 12 id ei
            obtain ⟨n', i', p', rfl⟩ := kind_func h2.1
            simp only [typeById, h1] at he
            exact .inr ⟨id, _, p', ⟨h1, h2, h3⟩, .inl ⟨n', i', rfl⟩, compare_error ⟨h1, h2, h3⟩ (.inl ⟨n', i', rfl⟩) he⟩
        | _ => exact .inl (notWanted (by simp [ht]) (by simp [ht]))
      | var n i p lk =>
        rw [ht] at he
        simp only at he
        refine .inr ⟨14, name, .inr ⟨⟨n, i, p, lk, ht⟩, rfl, rfl⟩, ?_⟩
        unfold resolveVariable at he
        rcases ei : kb.idByTypeNameKind name 14 with y | id
        · have hm := missing (.inr rfl) hn ei
          have := missing_error (.inr rfl) hn ei
          subst this
          rw [ei] at he
          simp only at he
          split at he
          · cases he
          · rename_i hw
            cases he
            exact .inl ⟨by simpa using hw, hm, rfl⟩
        · rw [ei] at he
          obtain ⟨ty, h1, h2, h3⟩ := C61_found kb _ 14 id ei
          obtain ⟨n', i', p', lk', rfl⟩ := kind_var h2.1
          simp only [typeById, h1] at he
          exact .inr ⟨id, _, p', ⟨h1, h2, h3⟩, .inr ⟨n', i', lk', rfl⟩, compare_error ⟨h1, h2, h3⟩ (.inr ⟨n', i', lk', rfl⟩) he⟩
      | _ => exact .inl (notWanted (by simp [ht]) (by simp [ht]))

/-! ## A concrete object, and counterexamples -/

/-- `extern int bpf_f___v1(void)`, `extern weak int gone` and `extern void sym`, all in `.ksyms`. -/
def exObj : Btf :=
  build [.str ".ksyms".toUTF8.toList, .str "bpf_f___v1".toUTF8.toList, .str "gone".toUTF8.toList,
    .str "sym".toUTF8.toList, .type (mkInt 0 4 1 0), .type (mkFuncProto [] 1), .type (mkFunc 8 2 2),
    .type (mkVar 19 1 2), .type (mkVar 24 0 2), .type (mkDataSec 1 [⟨3, 0, 0⟩, ⟨4, 0, 4⟩, ⟨5, 0, 0⟩] 0)]

def exSyms : List Sym :=
  [⟨none, false⟩, ⟨some "bpf_f___v1".toUTF8.toList, false⟩, ⟨some "gone".toUTF8.toList, true⟩,
   ⟨some "sym".toUTF8.toList, false⟩]

/-- A kernel with a variable and a function both called `bpf_f`. -/
def exKernel : Btf :=
  build [.str "bpf_f".toUTF8.toList, .type (mkInt 0 4 1 0), .type (mkVar 1 1 1), .type (mkFuncProto [] 1),
    .type (mkFunc 1 3 1)]

def exTable : List (Name × Ext) :=
  [("bpf_f___v1".toUTF8.toList, ⟨3, false, some 2, some "bpf_f".toUTF8.toList, false, none⟩),
   ("gone".toUTF8.toList, ⟨4, true, some 1, none, false, none⟩),
   ("sym".toUTF8.toList, ⟨5, false, none, none, false, none⟩)]

example : (collect exObj exSyms).map (·.2) = .ok ⟨exTable, some 7, some 6⟩ := by decide +kernel

example : (resolveTyped exObj exKernel exTable).map (·.map (·.2.kernelId)) = .ok [some 4, none, none] := by
  decide +kernel

example : resolveTyped exObj exKernel [("gone".toUTF8.toList, ⟨4, false, some 1, none, false, none⟩)] = .error .variableNotFound := by
  decide +kernel

theorem exKernel_named : Named exKernel := by
  refine ⟨by decide +kernel, by decide +kernel, ?_⟩
  have h : ∀ t ∈ exKernel.types, t.kind = 12 ∨ t.kind = 14 → (untilNul (exKernel.strings.drop t.name)).isSome := by
    decide +kernel
  intro t ht hk
  obtain ⟨s, hs⟩ := Option.isSome_iff_exists.mp (h t ht hk)
  exact ⟨s, untilNul_some.mp hs⟩

/-- `typedef unsigned long u64; extern u64 ticks;` in `.ksyms`: object and kernel alike. -/
def typedefObj : Btf :=
  build [.str ".ksyms".toUTF8.toList, .str "ticks".toUTF8.toList, .str "u64".toUTF8.toList, .type (mkInt 0 8 0 0),
    .type (mkTypedef 14 1), .type (mkVar 8 2 1), .type (mkDataSec 1 [⟨3, 0, 8⟩] 8)]

/-- **C90 violated**: a variable whose type is a typedef is refused although object and kernel declare it with the very
same types; if it is weak it is left unresolved. -/
theorem C90_typedef_violated :
    (∀ w : Bool, ∃ xs, collect typedefObj [⟨some "ticks".toUTF8.toList, w⟩] = .ok (typedefObj, xs) ∧
      resolveTyped typedefObj typedefObj xs.table =
        if w then .ok xs.table else .error .incompatibleVariable) ∧
    SameType typedefObj typedefObj 1 2 := by
  constructor
  · intro w
    cases w
    · exact ⟨⟨[("ticks".toUTF8.toList, ⟨3, false, some 1, none, false, none⟩)], none, some 4⟩,
        by decide +kernel, by decide +kernel⟩
    · exact ⟨⟨[("ticks".toUTF8.toList, ⟨3, true, some 1, none, false, none⟩)], none, some 4⟩,
        by decide +kernel, by decide +kernel⟩
  · have h1 : typedefObj.types[1]? = some (mkInt 0 8 0 0) := by decide +kernel
    have h2 : typedefObj.types[2]? = some (mkTypedef 14 1) := by decide +kernel
    exact .int ⟨0, by omega, .here 1, h1, rfl⟩ ⟨1, by omega, .step h2 rfl (.here 1), h1, rfl⟩ (by decide) (by decide)

/-- **C90 violated**: with two symbols of one name (say a local one and the extern), the order in which the hash map is
iterated decides whether the extern is weak, so whether its absence is an error. -/
theorem C90_order_violated :
    let weak : Sym := ⟨some "ticks".toUTF8.toList, true⟩
    let strong : Sym := ⟨some "ticks".toUTF8.toList, false⟩
    (collect typedefObj [weak, strong]).map (·.2.table.map (·.2.isWeak)) = .ok [true] ∧
    (collect typedefObj [strong, weak]).map (·.2.table.map (·.2.isWeak)) = .ok [false] := by
  decide +kernel

end Verif.Externs
