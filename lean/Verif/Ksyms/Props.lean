import Verif.Ksyms.Spec
import Verif.Reloc.Props
set_option linter.unusedSimpArgs false
set_option linter.unusedVariables false
/-!
# C50: resolution of kernel symbols
-/
namespace Verif.Ksyms
open Verif.Str Verif.Ksyms.Spec
open Verif.Reloc (Name Extern)

theorem update_fst (t : Table) (name : Name) (f : Desc → Desc) : (update t name f).map Prod.fst = t.map Prod.fst := by
  simp only [update, List.map_map]
  apply List.map_congr_left
  intro p _
  simp only [Function.comp]
  split <;> rfl

theorem get_eq_some {t : Table} (hnd : (t.map Prod.fst).Nodup) {name : Name} {d : Desc} :
    get t name = some d ↔ (name, d) ∈ t := by
  induction t with
  | nil => simp [get]
  | cons p t ih =>
    simp only [List.map_cons, List.nodup_cons] at hnd
    have ih := ih hnd.2
    simp only [get, List.find?_cons] at ih ⊢
    by_cases hp : p.1 = name
    · have : (p.1 == name) = true := by simpa using hp
      simp only [this, Option.map_some, Option.some.injEq, List.mem_cons]
      constructor
      · intro h; left; rw [← hp, ← h]
      · rintro (h | h)
        · rw [← h]
        · exfalso; apply hnd.1; rw [hp]; exact List.mem_map_of_mem (f := Prod.fst) h
    · have hb : (p.1 == name) = false := by simpa using hp
      simp only [hb, List.mem_cons]
      rw [ih]
      constructor
      · exact Or.inr
      · rintro (h | h)
        · rw [← h] at hp; exact absurd rfl hp
        · exact h

theorem mem_update {t : Table} (name n : Name) (f : Desc → Desc) (d : Desc) :
    (n, d) ∈ update t name f ↔ (n ≠ name ∧ (n, d) ∈ t) ∨ (n = name ∧ ∃ d0, (n, d0) ∈ t ∧ d = f d0) := by
  simp only [update, List.mem_map]
  constructor
  · rintro ⟨⟨m, e⟩, hm, h⟩
    by_cases hmn : m = name
    · simp only [hmn, if_true, Prod.mk.injEq] at h
      obtain ⟨rfl, rfl⟩ := h
      subst hmn
      exact Or.inr ⟨rfl, e, hm, rfl⟩
    · simp only [hmn, if_false, Prod.mk.injEq] at h
      obtain ⟨rfl, rfl⟩ := h
      exact Or.inl ⟨hmn, hm⟩
  · rintro (⟨hn, hm⟩ | ⟨rfl, d0, hm, rfl⟩)
    · exact ⟨(n, d), hm, by simp [hn]⟩
    · exact ⟨(n, d0), hm, by simp⟩

/-- What has been learnt about an extern from the lines read so far. -/
def After (unresolved : List Name) (done : List (List Char)) (name : Name) (d0 d : Desc) : Prop :=
  (name ∈ unresolved ∧ ∃ a, Listed done name a ∧ d = { d0 with ksymAddr := some a, isResolved := true }) ∨
  ((name ∈ unresolved → ∀ a, ¬ Listed done name a) ∧ d = d0)

structure Run (unresolved : List Name) (done : List (List Char)) (t0 t : Table) : Prop where
  names : t.map Prod.fst = t0.map Prod.fst
  fwd : ∀ name d, (name, d) ∈ t → ∃ d0, (name, d0) ∈ t0 ∧ After unresolved done name d0 d
  bwd : ∀ name d0, (name, d0) ∈ t0 → ∃ d, (name, d) ∈ t ∧ After unresolved done name d0 d
  uniq : ∀ name ∈ unresolved, (∃ d, (name, d) ∈ t0) → ∀ a b, Listed done name a → Listed done name b → a = b
  wf : ∀ name ∈ unresolved, WellFormed done name

theorem Listed.snoc {done : List (List Char)} {line : List Char} {name : Name} {a : Nat} :
    Listed (done ++ [line]) name a ↔ Listed done name a ∨
      (a ≠ 0 ∧ ∃ s ty rest, splitWhitespace line = s :: ty :: name :: rest ∧ parseUInt 16 64 s = some a) := by
  unfold Listed
  constructor
  · rintro ⟨h0, l, hl, s, ty, rest, h1, h2⟩
    rcases List.mem_append.mp hl with hl | hl
    · exact Or.inl ⟨h0, l, hl, s, ty, rest, h1, h2⟩
    · have : l = line := by simpa using hl
      subst this
      exact Or.inr ⟨h0, s, ty, rest, h1, h2⟩
  · rintro (⟨h0, l, hl, h⟩ | ⟨h0, s, ty, rest, h1, h2⟩)
    · exact ⟨h0, l, by simp [hl], h⟩
    · exact ⟨h0, line, by simp, s, ty, rest, h1, h2⟩

theorem kallsymsLine_run {unresolved : List Name} {done : List (List Char)} {t0 t t' : Table}
    (hnd : (t0.map Prod.fst).Nodup)
    (hfresh : ∀ name d0, name ∈ unresolved → (name, d0) ∈ t0 → d0.isResolved = false)
    {line : List Char} (h : Run unresolved done t0 t) (hl : kallsymsLine unresolved t line = .ok t') :
    Run unresolved (done ++ [line]) t0 t' := by
  have hndt : (t.map Prod.fst).Nodup := by rw [h.names]; exact hnd
  -- nothing new is listed
  have hskip : (∀ name ∈ unresolved, (∃ d, (name, d) ∈ t0) →
        ∀ a, Listed (done ++ [line]) name a → Listed done name a) →
      (∀ name ∈ unresolved, ∀ a ty rest, splitWhitespace line = a :: ty :: name :: rest → ∃ v, parseUInt 16 64 a = some v) →
      Run unresolved (done ++ [line]) t0 t := by
    intro hn hw
    have hafter : ∀ name d0 d, (name, d0) ∈ t0 → After unresolved done name d0 d → After unresolved (done ++ [line]) name d0 d := by
      intro name d0 d hm ha
      rcases ha with ⟨hu, a, hla, hd⟩ | ⟨hno, hd⟩
      · exact Or.inl ⟨hu, a, Listed.snoc.mpr (Or.inl hla), hd⟩
      · exact Or.inr ⟨fun hu a hla => hno hu a (hn name hu ⟨d0, hm⟩ a hla), hd⟩
    refine ⟨h.names, ?_, ?_, ?_, ?_⟩
    · intro name d hm
      obtain ⟨d0, h0, ha⟩ := h.fwd name d hm
      exact ⟨d0, h0, hafter name d0 d h0 ha⟩
    · intro name d0 hm
      obtain ⟨d, hd, ha⟩ := h.bwd name d0 hm
      exact ⟨d, hd, hafter name d0 d hm ha⟩
    · intro name hu hex a b ha hb
      exact h.uniq name hu hex a b (hn name hu hex a ha) (hn name hu hex b hb)
    · intro name hu l hl a ty rest hs
      rcases List.mem_append.mp hl with hl | hl
      · exact h.wf name hu l hl a ty rest hs
      · have : l = line := by simpa using hl
        subst this
        exact hw name hu a ty rest hs
  unfold kallsymsLine at hl
  split at hl
  · rename_i addrStr ty symName rest hsplit
    split at hl
    · rename_i hmem
      cases hp : parseUInt 16 64 addrStr with
      | none => rw [hp] at hl; cases hl
      | some addr =>
        rw [hp] at hl
        simp only at hl
        have hw : ∀ name ∈ unresolved, ∀ a ty rest, splitWhitespace line = a :: ty :: name :: rest → ∃ v, parseUInt 16 64 a = some v := by
          intro name _ a ty' rest' hs
          rw [hsplit] at hs
          simp only [List.cons.injEq] at hs
          exact ⟨addr, by rw [← hs.1]; exact hp⟩
        have honly : ∀ name a, Listed (done ++ [line]) name a → Listed done name a ∨ (name = symName ∧ a = addr ∧ addr ≠ 0) := by
          intro name a hla
          rcases Listed.snoc.mp hla with hla | ⟨h0, s, ty', rest', hs, hpa⟩
          · exact Or.inl hla
          · rw [hsplit] at hs
            simp only [List.cons.injEq] at hs
            obtain ⟨rfl, _, rfl, _⟩ := hs
            rw [hp] at hpa
            cases hpa
            exact Or.inr ⟨rfl, rfl, h0⟩
        split at hl
        · rename_i h0
          cases hl
          refine hskip ?_ hw
          intro name hu hex a hla
          rcases honly name a hla with h | ⟨_, _, hne⟩
          · exact h
          · exact absurd h0 hne
        · rename_i h0
          cases hg : get t symName with
          | none =>
            rw [hg] at hl
            cases hl
            refine hskip ?_ hw
            intro name hu hex a hla
            rcases honly name a hla with h' | ⟨rfl, _, _⟩
            · exact h'
            · exfalso
              obtain ⟨d0, hd0⟩ := hex
              obtain ⟨d, hd, _⟩ := h.bwd name d0 hd0
              rw [(get_eq_some hndt).mpr hd] at hg
              cases hg
          | some ext =>
            rw [hg] at hl
            simp only at hl
            have hext := (get_eq_some hndt).mp hg
            obtain ⟨d0, hd0, ha⟩ := h.fwd symName ext hext
            have hf0 := hfresh symName d0 hmem hd0
            split at hl
            · rename_i hres
              -- already resolved: by an earlier line
              rcases ha with ⟨_, a, hla, hd⟩ | ⟨_, hd⟩
              · have hka : ext.ksymAddr = some a := by rw [hd]
                rw [hka] at hl
                simp only at hl
                split at hl
                · cases hl
                · rename_i heq
                  have heq : a = addr := by simpa using heq
                  subst heq
                  cases hl
                  refine hskip ?_ hw
                  intro name hu hex b hlb
                  rcases honly name b hlb with h' | ⟨rfl, rfl, _⟩
                  · exact h'
                  · exact hla
              · rw [hd, hf0] at hres; cases hres
            · rename_i hres
              cases hl
              -- newly resolved
              have hnone : ∀ a, ¬ Listed done symName a := by
                rcases ha with ⟨_, a, hla, hd⟩ | ⟨hno, _⟩
                · rw [hd] at hres; simp at hres
                · exact hno hmem
              have hde : ext = d0 := by
                rcases ha with ⟨_, a, hla, hd⟩ | ⟨hno, hd⟩
                · exact absurd hla (hnone a)
                · exact hd
              have hnew : Listed (done ++ [line]) symName addr :=
                Listed.snoc.mpr (Or.inr ⟨h0, addrStr, ty, rest, hsplit, hp⟩)
              have hafter : ∀ name d0 d, name ≠ symName → After unresolved done name d0 d → After unresolved (done ++ [line]) name d0 d := by
                intro name d0 d hne ha
                rcases ha with ⟨hu, a, hla, hd⟩ | ⟨hno, hd⟩
                · exact Or.inl ⟨hu, a, Listed.snoc.mpr (Or.inl hla), hd⟩
                · refine Or.inr ⟨fun hu a hla => ?_, hd⟩
                  rcases honly name a hla with h' | ⟨h', _⟩
                  · exact hno hu a h'
                  · exact hne h'
              refine ⟨by rw [update_fst]; exact h.names, ?_, ?_, ?_, ?_⟩
              · intro name d hm
                rcases (mem_update _ _ _ _).mp hm with ⟨hne, hm⟩ | ⟨rfl, d1, hm1, rfl⟩
                · obtain ⟨d0, h0, ha⟩ := h.fwd name d hm
                  exact ⟨d0, h0, hafter name d0 d hne ha⟩
                · have : d1 = ext := by
                    have := (get_eq_some hndt).mpr hm1
                    rw [hg] at this; cases this; rfl
                  subst this
                  exact ⟨d0, hd0, Or.inl ⟨hmem, addr, hnew, by rw [hde]⟩⟩
              · intro name e0 hm
                by_cases hne : name = symName
                · subst hne
                  have he : e0 = d0 := by
                    have h1 := (get_eq_some hnd).mpr hm
                    have h2 := (get_eq_some hnd).mpr hd0
                    rw [h1] at h2; cases h2; rfl
                  subst he
                  exact ⟨_, (mem_update _ _ _ _).mpr (Or.inr ⟨rfl, ext, hext, rfl⟩), Or.inl ⟨hmem, addr, hnew, by rw [hde]⟩⟩
                · obtain ⟨d, hd, ha⟩ := h.bwd name e0 hm
                  exact ⟨d, (mem_update _ _ _ _).mpr (Or.inl ⟨hne, hd⟩), hafter name e0 d hne ha⟩
              · intro name hu hex a b hla hlb
                rcases honly name a hla with h1 | ⟨rfl, rfl, _⟩
                · rcases honly name b hlb with h2 | ⟨rfl, rfl, _⟩
                  · exact h.uniq name hu hex a b h1 h2
                  · exact absurd h1 (hnone a)
                · rcases honly name b hlb with h2 | ⟨_, rfl, _⟩
                  · exact absurd h2 (hnone b)
                  · rfl
              · intro name hu l hl a ty' rest' hs
                rcases List.mem_append.mp hl with hl | hl
                · exact h.wf name hu l hl a ty' rest' hs
                · have : l = line := by simpa using hl
                  subst this
                  exact hw name hu a ty' rest' hs
    · rename_i hmem
      cases hl
      refine hskip ?_ ?_
      · intro name hu _ a hla
        rcases Listed.snoc.mp hla with hla | ⟨h0, s, ty', rest', hs, hpa⟩
        · exact hla
        · rw [hsplit] at hs
          simp only [List.cons.injEq] at hs
          obtain ⟨_, _, rfl, _⟩ := hs
          exact absurd hu hmem
      · intro name hu a ty' rest' hs
        rw [hsplit] at hs
        simp only [List.cons.injEq] at hs
        obtain ⟨_, _, rfl, _⟩ := hs
        exact absurd hu hmem
  · rename_i hsplit
    cases hl
    refine hskip ?_ ?_
    · intro name hu _ a hla
      rcases Listed.snoc.mp hla with hla | ⟨h0, s, ty', rest', hs, hpa⟩
      · exact hla
      · exact absurd hs (hsplit s ty' name rest')
    · intro name hu a ty' rest' hs
      exact absurd hs (hsplit a ty' name rest')

theorem kallsymsLines_run {unresolved : List Name} {t0 : Table} (hnd : (t0.map Prod.fst).Nodup)
    (hfresh : ∀ name d0, name ∈ unresolved → (name, d0) ∈ t0 → d0.isResolved = false)
    (lines : List (List Char)) : ∀ (done : List (List Char)) (t t' : Table), Run unresolved done t0 t →
      kallsymsLines unresolved lines t = .ok t' → Run unresolved (done ++ lines) t0 t' := by
  induction lines with
  | nil => intro done t t' h hl; simp [kallsymsLines] at hl; subst hl; simpa using h
  | cons l ls ih =>
    intro done t t' h hl
    simp only [kallsymsLines] at hl
    cases h1 : kallsymsLine unresolved t l with
    | error e => rw [h1] at hl; cases hl
    | ok t1 =>
      rw [h1] at hl
      have := ih (done ++ [l]) t1 t' (kallsymsLine_run hnd hfresh h h1) hl
      simpa using this

theorem Run.init (unresolved : List Name) (t : Table) : Run unresolved [] t t := by
  refine ⟨rfl, ?_, ?_, ?_, ?_⟩
  · intro name d hm; exact ⟨d, hm, Or.inr ⟨fun _ a h => (by obtain ⟨_, l, hl, _⟩ := h; cases hl), rfl⟩⟩
  · intro name d hm; exact ⟨d, hm, Or.inr ⟨fun _ a h => (by obtain ⟨_, l, hl, _⟩ := h; cases hl), rfl⟩⟩
  · intro name _ _ a b h; obtain ⟨_, l, hl, _⟩ := h; cases hl
  · intro name _ l hl; cases hl

theorem Run.none (lines : List (List Char)) (t : Table) : Run [] lines t t := by
  refine ⟨rfl, ?_, ?_, ?_, ?_⟩
  · intro name d hm; exact ⟨d, hm, Or.inr ⟨fun h => (by cases h), rfl⟩⟩
  · intro name d hm; exact ⟨d, hm, Or.inr ⟨fun h => (by cases h), rfl⟩⟩
  · intro name h; cases h
  · intro name h; cases h

theorem mem_unresolvedTypeless {t : Table} {name : Name} :
    name ∈ unresolvedTypeless t ↔ ∃ d, (name, d) ∈ t ∧ d.isResolved = false ∧ d.typed = false := by
  unfold unresolvedTypeless
  simp only [List.mem_map, List.mem_filter]
  constructor
  · rintro ⟨⟨n, d⟩, ⟨hm, hb⟩, rfl⟩
    exact ⟨d, hm, by simpa using hb⟩
  · rintro ⟨d, hm, h1, h2⟩
    exact ⟨(name, d), ⟨hm, by simp [h1, h2]⟩, rfl⟩

/-- C50: what a successful resolution of the untyped externs gives, for every listing. An extern that is
untyped and not yet resolved gets the address it is listed with (and it is listed with one address
only); if it is not listed it must be weak, and reads as 0. All other externs keep what they had, except
that an unresolved weak one gets address 0. -/
theorem C50_resolved_to_listed {lines : List (List Char)} {t t' : Table} (hnd : (t.map Prod.fst).Nodup)
    (h : resolveTypeless lines t = .ok t') {name : Name} {d : Desc} (hm : (name, d) ∈ t) :
    ∃ d', (name, d') ∈ t' ∧
      (d.typed = false → d.isResolved = false →
        (∀ a, Listed lines name a → d' = { d with ksymAddr := some a, isResolved := true }) ∧
        ((∀ a, ¬ Listed lines name a) → d.isWeak = true ∧ d' = { d with ksymAddr := some 0 })) ∧
      (d.typed = true ∨ d.isResolved = true →
        d' = if d.isResolved = false ∧ d.isWeak = true then { d with ksymAddr := some 0 } else d) := by
  have hfresh : ∀ name d0, name ∈ unresolvedTypeless t → (name, d0) ∈ t → d0.isResolved = false := by
    intro n d0 hu h0
    obtain ⟨d1, h1, h2, _⟩ := mem_unresolvedTypeless.mp hu
    have e1 := (get_eq_some hnd).mpr h1
    have e2 := (get_eq_some hnd).mpr h0
    rw [e1] at e2; cases e2; exact h2
  obtain ⟨t1, hrun, hstrong, ht'⟩ : ∃ t1, Run (unresolvedTypeless t) lines t t1 ∧
      (unresolvedTypeless t ≠ [] → ∀ p ∈ t1, p.2.isResolved = true ∨ p.2.isWeak = true) ∧
      t' = t1.map (fun p => if !p.2.isResolved && p.2.isWeak then (p.1, { p.2 with ksymAddr := some 0 }) else p) := by
    unfold resolveTypeless at h
    by_cases hu : unresolvedTypeless t = []
    · rw [if_pos hu] at h
      cases h
      exact ⟨t, by rw [hu]; exact Run.none lines t, fun h => absurd hu h, rfl⟩
    · rw [if_neg hu] at h
      unfold resolveKallsyms at h
      cases hk : kallsymsLines (unresolvedTypeless t) lines t with
      | error e => rw [hk] at h; cases h
      | ok t1 =>
        rw [hk] at h
        simp only at h
        by_cases hany : t1.any (fun p => !p.2.isResolved && !p.2.isWeak) = true
        · rw [if_pos hany] at h; cases h
        · rw [if_neg hany] at h
          cases h
          refine ⟨t1, by simpa using kallsymsLines_run hnd hfresh lines [] t t1 (Run.init _ _) hk, ?_, rfl⟩
          intro _ p hp
          simp only [List.any_eq_true, not_exists, not_and] at hany
          have := hany p hp
          cases hr : p.2.isResolved <;> cases hw : p.2.isWeak <;> simp_all
  obtain ⟨d1, hd1, ha⟩ := hrun.bwd name d hm
  have hmem' : ((if !d1.isResolved && d1.isWeak then (name, { d1 with ksymAddr := some 0 }) else (name, d1)) : Name × Desc) ∈ t' := by
    rw [ht']
    exact List.mem_map.mpr ⟨(name, d1), hd1, rfl⟩
  refine ⟨if !d1.isResolved && d1.isWeak then { d1 with ksymAddr := some 0 } else d1, ?_, ?_, ?_⟩
  · split
    · rename_i hc; rw [if_pos hc] at hmem'; exact hmem'
    · rename_i hc; rw [if_neg hc] at hmem'; exact hmem'
  · intro hty hres
    have hu : name ∈ unresolvedTypeless t := mem_unresolvedTypeless.mpr ⟨d, hm, hres, hty⟩
    constructor
    · intro a hla
      rcases ha with ⟨_, b, hlb, hd⟩ | ⟨hno, _⟩
      · have := hrun.uniq name hu ⟨d, hm⟩ a b hla hlb
        subst this
        rw [hd]; simp
      · exact absurd hla (hno hu a)
    · intro hno
      rcases ha with ⟨_, b, hlb, hd⟩ | ⟨_, hd⟩
      · exact absurd hlb (hno b)
      · subst hd
        have := hstrong (by intro h; rw [h] at hu; cases hu) (name, d1) hd1
        rcases this with h1 | h1
        · rw [hres] at h1; cases h1
        · have h1 : d1.isWeak = true := h1
          exact ⟨h1, by simp [hres, h1]⟩
  · intro hor
    have hnu : name ∉ unresolvedTypeless t := by
      intro hu
      obtain ⟨d2, h2, h3, h4⟩ := mem_unresolvedTypeless.mp hu
      have e1 := (get_eq_some hnd).mpr h2
      have e2 := (get_eq_some hnd).mpr hm
      rw [e1] at e2; cases e2
      rcases hor with h | h
      · rw [h4] at h; cases h
      · rw [h3] at h; cases h
    rcases ha with ⟨hu, _⟩ | ⟨_, hd⟩
    · exact absurd hu hnu
    · subst hd
      clear hmem' ht' hor
      rcases d1 with ⟨ty, w, r, b, k⟩
      cases r <;> cases w <;> simp

/-- C50: a symbol listed with two different addresses, or with an address that is no 64-bit hex number, is
an error; so is a strong untyped symbol that is not listed. -/
theorem C50_errors {lines : List (List Char)} {t : Table} (hnd : (t.map Prod.fst).Nodup)
    {name : Name} {d : Desc} (hm : (name, d) ∈ t) (hty : d.typed = false) (hres : d.isResolved = false)
    (hbad : (∃ a b, Listed lines name a ∧ Listed lines name b ∧ a ≠ b) ∨
      ((∀ a, ¬ Listed lines name a) ∧ d.isWeak = false) ∨ ¬ WellFormed lines name) :
    ∃ e, resolveTypeless lines t = .error e := by
  cases h : resolveTypeless lines t with
  | error e => exact ⟨e, rfl⟩
  | ok t' =>
    exfalso
    obtain ⟨d', _, h1, _⟩ := C50_resolved_to_listed hnd h hm
    obtain ⟨h1, h2⟩ := h1 hty hres
    rcases hbad with ⟨a, b, ha, hb, hab⟩ | ⟨hno, hw⟩ | hwf
    · have e1 := h1 a ha
      have e2 := h1 b hb
      rw [e1] at e2
      simp at e2
      exact hab e2
    · rw [(h2 hno).1] at hw; cases hw
    · apply hwf
      have hfresh : ∀ name d0, name ∈ unresolvedTypeless t → (name, d0) ∈ t → d0.isResolved = false := by
        intro n d0 hu h0
        obtain ⟨d1, h1, h2, _⟩ := mem_unresolvedTypeless.mp hu
        have e1 := (get_eq_some hnd).mpr h1
        have e2 := (get_eq_some hnd).mpr h0
        rw [e1] at e2; cases e2; exact h2
      have hu : name ∈ unresolvedTypeless t := mem_unresolvedTypeless.mpr ⟨d, hm, hres, hty⟩
      unfold resolveTypeless at h
      rw [if_neg (by intro h; rw [h] at hu; cases hu)] at h
      unfold resolveKallsyms at h
      cases hk : kallsymsLines (unresolvedTypeless t) lines t with
      | error e => rw [hk] at h; cases h
      | ok t1 =>
        have := kallsymsLines_run hnd hfresh lines [] t t1 (Run.init _ _) hk
        simpa using this.wf name hu

theorem kallsymsLines_ok {unresolved : List Name} {t0 : Table} (hnd : (t0.map Prod.fst).Nodup)
    (hfresh : ∀ name d0, name ∈ unresolved → (name, d0) ∈ t0 → d0.isResolved = false)
    (all : List (List Char)) (hwf : ∀ name ∈ unresolved, WellFormed all name)
    (huniq : ∀ name ∈ unresolved, ∀ a b, Listed all name a → Listed all name b → a = b)
    (lines : List (List Char)) : ∀ (done : List (List Char)) (t : Table), all = done ++ lines →
      Run unresolved done t0 t → ∃ t', kallsymsLines unresolved lines t = .ok t' := by
  induction lines with
  | nil => intro done t _ _; exact ⟨t, rfl⟩
  | cons l ls ih =>
    intro done t hall h
    simp only [kallsymsLines]
    have hndt : (t.map Prod.fst).Nodup := by rw [h.names]; exact hnd
    have hlmem : l ∈ all := by rw [hall]; simp
    cases h1 : kallsymsLine unresolved t l with
    | ok t1 =>
      exact ih (done ++ [l]) t1 (by rw [hall]; simp) (kallsymsLine_run hnd hfresh h h1)
    | error e =>
      exfalso
      unfold kallsymsLine at h1
      split at h1
      · rename_i s ty nm rest hsplit
        split at h1
        · rename_i hmem
          obtain ⟨v, hv⟩ := hwf nm hmem l hlmem s ty rest hsplit
          rw [hv] at h1
          simp only at h1
          split at h1
          · cases h1
          · rename_i h0
            cases hg : get t nm with
            | none => rw [hg] at h1; cases h1
            | some ext =>
              rw [hg] at h1
              simp only at h1
              split at h1
              · rename_i hr
                have hext := (get_eq_some hndt).mp hg
                obtain ⟨d0, hd0, ha⟩ := h.fwd nm ext hext
                rcases ha with ⟨_, a, hla, hd⟩ | ⟨_, hd⟩
                · have : ext.ksymAddr = some a := by rw [hd]
                  rw [this] at h1
                  simp only at h1
                  split at h1
                  · rename_i hne
                    apply hne
                    refine huniq nm hmem a v ?_ ⟨h0, l, hlmem, s, ty, rest, hsplit, hv⟩
                    obtain ⟨z, l', hl', x⟩ := hla
                    exact ⟨z, l', by rw [hall]; simp [hl'], x⟩
                  · cases h1
                · rw [hd, hfresh nm d0 hmem hd0] at hr; cases hr
              · cases h1
        · cases h1
      · cases h1

/-- C50: conversely, a listing that gives every untyped extern one valid address, or none if it is weak,
resolves (provided no strong typed extern was left unresolved before). -/
theorem C50_succeeds {lines : List (List Char)} {t : Table} (hnd : (t.map Prod.fst).Nodup)
    (hgood : ∀ name d, (name, d) ∈ t → d.isResolved = false → d.typed = false →
      WellFormed lines name ∧ (∀ a b, Listed lines name a → Listed lines name b → a = b) ∧
      (d.isWeak = true ∨ ∃ a, Listed lines name a))
    (htyped : ∀ name d, (name, d) ∈ t → d.typed = true → d.isResolved = true ∨ d.isWeak = true) :
    ∃ t', resolveTypeless lines t = .ok t' := by
  unfold resolveTypeless
  by_cases hu : unresolvedTypeless t = []
  · rw [if_pos hu]; exact ⟨_, rfl⟩
  · rw [if_neg hu]
    have hfresh : ∀ name d0, name ∈ unresolvedTypeless t → (name, d0) ∈ t → d0.isResolved = false := by
      intro n d0 hu h0
      obtain ⟨d1, h1, h2, _⟩ := mem_unresolvedTypeless.mp hu
      have e1 := (get_eq_some hnd).mpr h1
      have e2 := (get_eq_some hnd).mpr h0
      rw [e1] at e2; cases e2; exact h2
    obtain ⟨t1, hk⟩ := kallsymsLines_ok hnd hfresh lines
      (by
        intro name hn
        obtain ⟨d, h1, h2, h3⟩ := mem_unresolvedTypeless.mp hn
        exact (hgood name d h1 h2 h3).1)
      (by
        intro name hn
        obtain ⟨d, h1, h2, h3⟩ := mem_unresolvedTypeless.mp hn
        exact (hgood name d h1 h2 h3).2.1)
      lines [] t rfl (Run.init _ _)
    have hrun := kallsymsLines_run hnd hfresh lines [] t t1 (Run.init _ _) hk
    simp only [resolveKallsyms, hk]
    have hany : ¬ (t1.any (fun p => !p.2.isResolved && !p.2.isWeak) = true) := by
      simp only [List.any_eq_true, not_exists, not_and]
      rintro ⟨name, d⟩ hp
      obtain ⟨d0, hd0, ha⟩ := hrun.fwd name d hp
      rcases ha with ⟨_, a, _, hd⟩ | ⟨hno, hd⟩
      · rw [hd]; simp
      · subst hd
        simp only [List.nil_append] at hno
        cases hr : d.isResolved
        · cases hty : d.typed
          · obtain ⟨_, _, hw⟩ := hgood name d hd0 hr hty
            rcases hw with hw | ⟨a, ha⟩
            · simp [hw]
            · exact absurd ha (hno (mem_unresolvedTypeless.mpr ⟨d, hd0, hr, hty⟩) a)
          · rcases htyped name d hd0 hty with h | h
            · rw [hr] at h; cases h
            · simp [h]
        · simp
    rw [if_neg hany]
    exact ⟨_, rfl⟩

/-! ### The kernel's format -/

theorem splitWhitespace_cons {w t : List Char} {sep : Char} (hw : ∀ c ∈ w, isWhitespace c = false) (hne : w ≠ [])
    (hsep : isWhitespace sep = true) : splitWhitespace (w ++ sep :: t) = w :: splitWhitespace t := by
  unfold splitWhitespace
  rw [splitBy_append_sep _ _ _ _ hw hsep]
  simp [List.filter_cons]
  intro h; exact absurd h hne

theorem splitWhitespace_word {w : List Char} (hw : ∀ c ∈ w, isWhitespace c = false) (hne : w ≠ []) :
    splitWhitespace w = [w] := by
  unfold splitWhitespace
  rw [splitBy_none _ _ hw]
  simp [List.filter_cons]
  intro h; exact absurd h hne

theorem digitChar_not_ws (d : Nat) (h : d < 16) : isWhitespace (digitChar d) = false := by
  have : ∀ d : Fin 16, isWhitespace (digitChar d.val) = false := by decide
  exact this ⟨d, h⟩

theorem parseDigits_zeros (z : Nat) (s : List Char) : parseDigits 16 0 (List.replicate z '0' ++ s) = parseDigits 16 0 s := by
  induction z with
  | zero => rfl
  | succ z ih =>
    have : digitVal 16 '0' = some 0 := by decide
    simp only [List.replicate_succ, List.cons_append, parseDigits, this]
    simpa using ih

theorem parse_padded (z addr : Nat) (h : addr < 2 ^ 64) :
    parseUInt 16 64 (List.replicate z '0' ++ render 16 addr) = some addr := by
  cases z with
  | zero => simpa using parseUInt_render 16 64 addr (by omega) (by omega) h
  | succ z =>
    unfold parseUInt
    simp only [List.replicate_succ, List.cons_append, List.head?_cons]
    have : ¬ (some '0' = some '+') := by decide
    simp only [this, if_false]
    have e : parseDigits 16 0 ('0' :: (List.replicate z '0' ++ render 16 addr)) = some addr := by
      have := parseDigits_zeros (z + 1) (render 16 addr)
      rw [List.replicate_succ, List.cons_append] at this
      rw [this]
      have h2 := parseDigits_render 16 addr (by omega) (by omega)
      exact h2
    rw [e]
    simp [h]

/-- C50: `Listed` is what one expects of the kernel's own output: a line printed for `name` at a non-zero
`addr`, with or without module suffix, lists `name` at `addr`. -/
theorem C50_kernel_line_listed {zeros addr : Nat} {ty : Char} {name tail : List Char}
    (ha : 0 < addr) (ha' : addr < 2 ^ 64) (hty : isWhitespace ty = false)
    (hname : ∀ c ∈ name, isWhitespace c = false) (hne : name ≠ [])
    (htail : tail = [] ∨ ∃ m, tail = '\t' :: m) (lines : List (List Char))
    (hl : kernelLine zeros addr ty name tail ∈ lines) : Listed lines name addr := by
  have hdig : ∀ c ∈ List.replicate zeros '0' ++ render 16 addr, isWhitespace c = false := by
    intro c hc
    rcases List.mem_append.mp hc with hc | hc
    · have := List.eq_of_mem_replicate hc
      subst this; decide
    · obtain ⟨d, hd, rfl⟩ := mem_render 16 addr (by omega) (by omega) c hc
      exact digitChar_not_ws d hd
  have hn0 : List.replicate zeros '0' ++ render 16 addr ≠ [] := by
    have := render_ne_nil 16 addr
    simp [this]
  have hname' : ∃ rest, splitWhitespace (name ++ tail) = name :: rest := by
    rcases htail with rfl | ⟨m, rfl⟩
    · exact ⟨[], by rw [List.append_nil]; exact splitWhitespace_word hname hne⟩
    · exact ⟨_, splitWhitespace_cons hname hne (by decide)⟩
  obtain ⟨rest, hrest⟩ := hname'
  refine ⟨by omega, _, hl, List.replicate zeros '0' ++ render 16 addr, [ty], rest, ?_, parse_padded zeros addr ha'⟩
  unfold kernelLine
  rw [splitWhitespace_cons hdig hn0 (by decide)]
  congr 1
  have : ty :: ' ' :: (name ++ tail) = [ty] ++ ' ' :: (name ++ tail) := rfl
  rw [this, splitWhitespace_cons (by intro c hc; have : c = ty := by simpa using hc
                                     subst this; exact hty) (by simp) (by decide), hrest]

/-! ### Together with relocation -/

theorem resolveTyped_spec {lookup : Name → Desc → Except Err (Option Nat)} {t : Table} :
    ∀ {t' : Table}, resolveTyped lookup t = .ok t' → t'.map Prod.fst = t.map Prod.fst ∧
      ∀ name d, (name, d) ∈ t' → ∃ d0, (name, d0) ∈ t ∧
        ((d0.typed = false ∧ d = d0) ∨ (d0.typed = true ∧ lookup name d0 = .ok none ∧ d = d0) ∨
         (d0.typed = true ∧ ∃ id, lookup name d0 = .ok (some id) ∧ d = { d0 with btfId := some id, isResolved := true })) := by
  induction t with
  | nil => intro t' h; simp [resolveTyped] at h; subst h; simp
  | cons p rest ih =>
    obtain ⟨name, d⟩ := p
    intro t' h
    simp only [resolveTyped] at h
    cases hr : resolveTyped lookup rest with
    | error e =>
      rw [hr] at h
      split at h
      · split at h <;> cases h
      · cases h
    | ok rest' =>
      rw [hr] at h
      obtain ⟨i1, i2⟩ := ih hr
      have lift : ∀ n x, (n, x) ∈ rest' → ∃ d0, (n, d0) ∈ (name, d) :: rest ∧
          ((d0.typed = false ∧ x = d0) ∨ (d0.typed = true ∧ lookup n d0 = .ok none ∧ x = d0) ∨
          (d0.typed = true ∧ ∃ id, lookup n d0 = .ok (some id) ∧ x = { d0 with btfId := some id, isResolved := true })) := by
        intro n x hx
        obtain ⟨d0, h1, h2⟩ := i2 n x hx
        exact ⟨d0, List.mem_cons_of_mem _ h1, h2⟩
      split at h
      · rename_i hty
        cases hl : lookup name d with
        | error e => rw [hl] at h; cases h
        | ok r =>
          rw [hl] at h
          cases r with
          | none =>
            simp at h; subst h
            refine ⟨by simp [i1], ?_⟩
            intro n x hx
            rcases List.mem_cons.mp hx with hx | hx
            · cases hx
              exact ⟨_, List.mem_cons_self, Or.inr (Or.inl ⟨hty, hl, rfl⟩)⟩
            · exact lift n x hx
          | some id =>
            simp at h; subst h
            refine ⟨by simp [i1], ?_⟩
            intro n x hx
            rcases List.mem_cons.mp hx with hx | hx
            · cases hx
              exact ⟨_, List.mem_cons_self, Or.inr (Or.inr ⟨hty, id, hl, rfl⟩)⟩
            · exact lift n x hx
      · rename_i hty
        simp at h; subst h
        refine ⟨by simp [i1], ?_⟩
        intro n x hx
        rcases List.mem_cons.mp hx with hx | hx
        · cases hx
          exact ⟨_, List.mem_cons_self, Or.inl ⟨by simpa using hty, rfl⟩⟩
        · exact lift n x hx

/-- C50/C11: once resolution of a freshly collected extern table has succeeded, with or without kernel
BTF, no strong extern is missing: each is resolved and has a BTF id (typed) or an address (untyped). So
relocation of loads cannot then fail with an unresolvable symbol. -/
theorem C50_no_strong_missing {find : Name → Option Nat} {compatible : Name → Nat → Except Err Bool}
    {haveBtf : Bool} {lines : List (List Char)} {t t' : Table} (hf : Fresh t)
    (h : resolveExterns (if haveBtf then some (lookupTyped find compatible) else none) lines t = .ok t')
    {name : Name} {d' : Desc} (hm : (name, d') ∈ t') (hs : d'.isWeak = false) :
    d'.isResolved = true ∧ (d'.btfId ≠ none ∨ d'.ksymAddr ≠ none) ∧
      ∀ ins, ¬ Reloc.Spec.Missing d'.toExtern ins := by
  have key : d'.isResolved = true ∧ (d'.btfId ≠ none ∨ d'.ksymAddr ≠ none) := by
    -- table after the typed step
    have step2 : ∀ t1 : Table, (t1.map Prod.fst).Nodup →
        (∀ n d, (n, d) ∈ t1 → d.isWeak = false → d.typed = true → d.isResolved = true ∧ d.btfId ≠ none) →
        (∀ n d, (n, d) ∈ t1 → d.typed = false → d.isResolved = false) →
        resolveTypeless lines t1 = .ok t' → d'.isResolved = true ∧ (d'.btfId ≠ none ∨ d'.ksymAddr ≠ none) := by
      intro t1 hnd1 hty huty hok
      have hnames : t'.map Prod.fst = t1.map Prod.fst := by
        unfold resolveTypeless at hok
        have hmap : ∀ l : Table, (l.map (fun p => if !p.2.isResolved && p.2.isWeak then (p.1, { p.2 with ksymAddr := some 0 }) else p)).map Prod.fst = l.map Prod.fst := by
          intro l
          rw [List.map_map]
          apply List.map_congr_left
          intro p _
          simp only [Function.comp]
          split <;> rfl
        split at hok
        · cases hok
        · rename_i t2 ht2
          cases hok
          rw [hmap]
          split at ht2
          · cases ht2; rfl
          · unfold resolveKallsyms at ht2
            cases hk : kallsymsLines (unresolvedTypeless t1) lines t1 with
            | error e => rw [hk] at ht2; cases ht2
            | ok t3 =>
              rw [hk] at ht2
              simp only at ht2
              split at ht2
              · cases ht2
              · cases ht2
                have hfresh : ∀ name d0, name ∈ unresolvedTypeless t1 → (name, d0) ∈ t1 → d0.isResolved = false := by
                  intro n d0 hu h0
                  obtain ⟨d1, h1, h2, _⟩ := mem_unresolvedTypeless.mp hu
                  have e1 := (get_eq_some hnd1).mpr h1
                  have e2 := (get_eq_some hnd1).mpr h0
                  rw [e1] at e2; cases e2; exact h2
                exact (kallsymsLines_run hnd1 hfresh lines [] t1 t2 (Run.init _ _) hk).names
      have hn1 : name ∈ t1.map Prod.fst := by
        rw [← hnames]; exact List.mem_map_of_mem (f := Prod.fst) hm
      obtain ⟨⟨n1, d1⟩, hd1, he⟩ := List.mem_map.mp hn1
      have he : n1 = name := he
      subst he
      obtain ⟨d2, hd2, h1, h2⟩ := C50_resolved_to_listed hnd1 hok hd1
      have hsame : d2 = d' := by
        have hnd' : (t'.map Prod.fst).Nodup := by rw [hnames]; exact hnd1
        have e1 := (get_eq_some hnd').mpr hd2
        have e2 := (get_eq_some hnd').mpr hm
        rw [e1] at e2; cases e2; rfl
      subst hsame
      cases hty1 : d1.typed
      · obtain ⟨h3, h4⟩ := h1 hty1 (huty _ _ hd1 hty1)
        by_cases hl : ∃ a, Listed lines n1 a
        · obtain ⟨a, ha⟩ := hl
          rw [h3 a ha]; simp
        · obtain ⟨hw, heq⟩ := h4 (fun a ha => hl ⟨a, ha⟩)
          rw [heq] at hs
          simp [hw] at hs
      · have := h2 (Or.inl hty1)
        have hw1 : d1.isWeak = false := by
          rw [this] at hs
          split at hs <;> exact hs
        obtain ⟨h5, h6⟩ := hty _ _ hd1 hw1 hty1
        rw [this]
        simp [h5, h6]
    unfold resolveExterns at h
    cases haveBtf
    · simp only [Bool.false_eq_true, if_false] at h
      split at h
      · cases h
      · rename_i hany
        refine step2 t hf.1 ?_ (fun n d hd _ => (hf.2 _ hd).1) h
        intro n d hd hw hty
        exfalso
        apply hany
        simp only [List.any_eq_true]
        exact ⟨(n, d), hd, by simp [hw, hty]⟩
    · simp only [if_true] at h
      cases ht : resolveTyped (lookupTyped find compatible) t with
      | error e => rw [ht] at h; cases h
      | ok t1 =>
        rw [ht] at h
        obtain ⟨s1, s2⟩ := resolveTyped_spec ht
        refine step2 t1 (by rw [s1]; exact hf.1) ?_ ?_ h
        · intro n d hd hw hty
          obtain ⟨d0, hd0, hc⟩ := s2 n d hd
          rcases hc with ⟨h1, rfl⟩ | ⟨h1, h2, rfl⟩ | ⟨h1, id, h2, rfl⟩
          · rw [h1] at hty; cases hty
          · exfalso
            unfold lookupTyped at h2
            cases hfi : find n with
            | none => rw [hfi] at h2; simp [hw] at h2
            | some id =>
              rw [hfi] at h2
              simp only at h2
              cases hc : compatible n id with
              | error e => rw [hc] at h2; cases h2
              | ok b => rw [hc] at h2; cases b <;> simp [hw] at h2
          · simp
        · intro n d hd hty
          obtain ⟨d0, hd0, hc⟩ := s2 n d hd
          have := (hf.2 _ hd0).1
          rcases hc with ⟨h1, rfl⟩ | ⟨h1, h2, rfl⟩ | ⟨h1, id, h2, rfl⟩
          · exact this
          · rw [h1] at hty; cases hty
          · rw [h1] at hty; cases hty
  refine ⟨key.1, key.2, ?_⟩
  rintro ins ⟨_, hmiss⟩
  rcases hmiss with ⟨_, h1⟩ | ⟨_, h1, h2⟩
  · rw [show d'.toExtern.isResolved = d'.isResolved from rfl, key.1] at h1; cases h1
  · rcases key.2 with h3 | h3
    · exact h3 h1
    · exact h3 h2

/-! A concrete listing. -/
private def exLines : List (List Char) :=
  ["ffffffff81000000 T _text".toList, "ffffffffc0000010 t helper\t[nf_tables]".toList,
   "ffffffff82000040 D jiffies".toList, "ffffffff82000040 D jiffies".toList, "garbage".toList]
private def exTable : Table :=
  [("jiffies".toList, ⟨false, false, false, none, none⟩), ("helper".toList, ⟨false, false, false, none, none⟩),
   ("gone".toList, ⟨false, true, false, none, none⟩), ("bpf_kfunc".toList, ⟨true, false, false, none, none⟩),
   ("old".toList, ⟨true, true, false, none, none⟩)]

example : Fresh exTable ∧
    resolveExterns (some (lookupTyped (fun n => if n = "bpf_kfunc".toList then some 12 else none) (fun _ _ => .ok true)))
      exLines exTable = .ok
      [("jiffies".toList, ⟨false, false, true, none, some 0xffffffff82000040⟩),
       ("helper".toList, ⟨false, false, true, none, some 0xffffffffc0000010⟩),
       ("gone".toList, ⟨false, true, false, none, some 0⟩), ("bpf_kfunc".toList, ⟨true, false, true, some 12, none⟩),
       ("old".toList, ⟨true, true, false, none, some 0⟩)] := by
  refine ⟨⟨by decide, by decide⟩, by decide +kernel⟩

/-- The hypotheses of `C50_errors`: two addresses for a symbol. -/
example : resolveTypeless (exLines ++ ["ffffffff82000048 D jiffies".toList])
    [("jiffies".toList, ⟨false, false, false, none, none⟩)] = .error .ambiguous := by decide +kernel

end Verif.Ksyms
