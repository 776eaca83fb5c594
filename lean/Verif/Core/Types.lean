import Verif.Core.Compat
/-! # Compatible types -/
set_option linter.unusedSimpArgs false
set_option linter.unusedVariables false
namespace Verif.Core
open Verif.Btf Verif.Btf.Spec Verif.Core.Spec

/-- The kinds agree, as `is_compatible` requires. -/
def Kinds (lt tt : BtfType) : Prop :=
  lt.kind = tt.kind ∨ lt.kind = 6 ∧ tt.kind = 19 ∨ lt.kind = 19 ∧ tt.kind = 6

theorem isCompatible_kinds {lt tt : BtfType} : isCompatible lt tt = true ↔ Kinds lt tt := by
  simp only [isCompatible, Kinds, Bool.or_eq_true, Bool.and_eq_true, beq_iff_eq, or_assoc]

theorem sameType_kinds {lb tb : Btf} {l t l' t' : Nat} {lt tt : BtfType} (h : SameType lb tb l t)
    (hl : Resolves lb.types l l' lt) (ht : Resolves tb.types t t' tt) : Kinds lt tt := by
  cases h with
  | shape h1 h2 h3 h4 =>
    obtain ⟨_, rfl⟩ := resolves_unique hl h1
    obtain ⟨_, rfl⟩ := resolves_unique ht h2
    exact h4
  | int h1 h2 | ptr h1 h2 | array h1 h2 | func h1 h2 =>
    obtain ⟨_, rfl⟩ := resolves_unique hl h1
    obtain ⟨_, rfl⟩ := resolves_unique ht h2
    exact .inl rfl

/-- The step over the parameters. -/
def paramStep (lb tb : Btf) (rec : Nat → Nat → Except RFail Bool) (ok : Bool) (p : Param × Param) : Except RFail Bool :=
  if !ok then .ok false
  else do
    let l ← lift (resolveType lb.types p.1.ty)
    let t ← lift (resolveType tb.types p.2.ty)
    rec l t

theorem params_false {lb tb : Btf} {rec : Nat → Nat → Except RFail Bool} : ∀ (ps : List (Param × Param)),
    ps.foldlM (paramStep lb tb rec) false = .ok false
  | [] => rfl
  | p :: ps => by
    rw [List.foldlM_cons]
    show (Except.ok false >>= _) = _
    exact params_false ps

theorem params_ok {lb tb : Btf} {rec : Nat → Nat → Except RFail Bool}
    (hrec : ∀ l t b lt tt, Resolves lb.types l l lt → Resolves tb.types t t tt → rec l t = .ok b →
      (b = true ↔ SameType lb tb l t)) :
    ∀ (ps : List (Param × Param)) (b : Bool), ps.foldlM (paramStep lb tb rec) true = .ok b →
      (b = true ↔ ∀ p ∈ ps, ∃ l t lt tt, Resolves lb.types p.1.ty l lt ∧ Resolves tb.types p.2.ty t tt ∧ SameType lb tb l t)
  | [], b, h => by cases h; simp
  | p :: ps, b, h => by
    rw [List.foldlM_cons] at h
    obtain ⟨b', h1, h⟩ := bind_ok.mp h
    unfold paramStep at h1
    simp only [Bool.not_true, Bool.false_eq_true, if_false] at h1
    obtain ⟨l, hl, h1⟩ := bind_ok.mp h1
    obtain ⟨t, ht, h1⟩ := bind_ok.mp h1
    have hl := lift_ok.mp hl
    have ht := lift_ok.mp ht
    obtain ⟨_, _, _, lt, hlt, hln⟩ := ((C15_resolve _ _).1 _).mp hl
    obtain ⟨_, _, _, tt, htt, htn⟩ := ((C15_resolve _ _).1 _).mp ht
    have hl := resolve_ok hl hlt
    have ht := resolve_ok ht htt
    have key := hrec l t b' lt tt ⟨0, by omega, .here _, hlt, hln⟩ ⟨0, by omega, .here _, htt, htn⟩ h1
    cases b' with
    | false =>
      rw [params_false] at h
      cases h
      simp only [Bool.false_eq_true, false_iff] at key ⊢
      intro g
      obtain ⟨l2, t2, lt2, tt2, g1, g2, g3⟩ := g p (by simp)
      obtain ⟨rfl, _⟩ := resolves_unique hl g1
      obtain ⟨rfl, _⟩ := resolves_unique ht g2
      exact key g3
    | true =>
      rw [params_ok hrec ps b h]
      constructor
      · intro g q hq
        rcases List.mem_cons.mp hq with rfl | hq
        · exact ⟨l, t, lt, tt, hl, ht, key.mp rfl⟩
        · exact g q hq
      · exact fun g q hq => g q (by simp [hq])

theorem sameType_resolved {lb tb : Btf} {l t l' t' : Nat} {lt tt : BtfType} (hl : Resolves lb.types l l' lt)
    (ht : Resolves tb.types t t' tt) : SameType lb tb l t ↔ SameType lb tb l' t' := by
  have hl' : Resolves lb.types l' l' lt := by
    obtain ⟨_, _, _, a, b⟩ := hl; exact ⟨0, by omega, .here _, a, b⟩
  have ht' : Resolves tb.types t' t' tt := by
    obtain ⟨_, _, _, a, b⟩ := ht; exact ⟨0, by omega, .here _, a, b⟩
  have go : ∀ {a b a' b' c d : Nat}, Resolves lb.types a c lt → Resolves tb.types b d tt → Resolves lb.types a' c lt →
      Resolves tb.types b' d tt → SameType lb tb a b → SameType lb tb a' b' := by
    intro a b a' b' c d ha hb ha' hb' h
    cases h with
    | shape h1 h2 h3 h4 =>
      obtain ⟨rfl, rfl⟩ := resolves_unique ha h1
      obtain ⟨rfl, rfl⟩ := resolves_unique hb h2
      exact .shape ha' hb' h3 h4
    | int h1 h2 h3 h4 =>
      obtain ⟨rfl, rfl⟩ := resolves_unique ha h1
      obtain ⟨rfl, rfl⟩ := resolves_unique hb h2
      exact .int ha' hb' h3 h4
    | ptr h1 h2 h3 =>
      obtain ⟨rfl, rfl⟩ := resolves_unique ha h1
      obtain ⟨rfl, rfl⟩ := resolves_unique hb h2
      exact .ptr ha' hb' h3
    | array h1 h2 h3 =>
      obtain ⟨rfl, rfl⟩ := resolves_unique ha h1
      obtain ⟨rfl, rfl⟩ := resolves_unique hb h2
      exact .array ha' hb' h3
    | func h1 h2 h3 h4 h5 =>
      obtain ⟨rfl, rfl⟩ := resolves_unique ha h1
      obtain ⟨rfl, rfl⟩ := resolves_unique hb h2
      exact .func ha' hb' h3 h4 h5
  exact ⟨go hl ht hl' ht', go hl' ht' hl ht⟩

theorem zip_params {lb tb : Btf} {ps ps' : List Param} (hlen : ps.length = ps'.length) {P : Param → Param → Prop} :
    (∀ p ∈ ps.zip ps', P p.1 p.2) ↔ ∀ (k : Nat) (p p' : Param), ps[k]? = some p → ps'[k]? = some p' → P p p' := by
  constructor
  · intro h k p p' h1 h2
    have : (ps.zip ps')[k]? = some (p, p') := by
      rw [List.getElem?_zip_eq_some]; exact ⟨h1, h2⟩
    exact h (p, p') (List.mem_of_getElem? this)
  · intro h p hp
    obtain ⟨k, hk, e⟩ := List.getElem_of_mem hp
    have : (ps.zip ps')[k]? = some p := by rw [List.getElem?_eq_getElem hk, e]
    rw [List.getElem?_zip_eq_some] at this
    exact h k _ _ this.1 this.2

theorem typesLoop_ok {lb tb : Btf} {rec : Nat → Nat → Except RFail Bool}
    (hrec : ∀ l t b lt tt, Resolves lb.types l l lt → Resolves tb.types t t tt → rec l t = .ok b →
      (b = true ↔ SameType lb tb l t)) :
    ∀ (n l t : Nat) (b : Bool), typesLoop lb tb rec n l t = .ok b → (b = true ↔ SameType lb tb l t) := by
  intro n
  induction n with
  | zero => intro l t b h; cases h
  | succ n ih =>
    intro l t b h
    rw [typesLoop] at h
    obtain ⟨l', hl, h⟩ := bind_ok.mp h
    obtain ⟨t', ht, h⟩ := bind_ok.mp h
    obtain ⟨lt, hlt, h⟩ := bind_ok.mp h
    obtain ⟨tt, htt, h⟩ := bind_ok.mp h
    have hl := resolve_ok (lift_ok.mp hl) (typeById_ok.mp (lift_ok.mp hlt))
    have ht := resolve_ok (lift_ok.mp ht) (typeById_ok.mp (lift_ok.mp htt))
    split at h
    · rename_i hk
      cases h
      simp only [Bool.not_eq_true'] at hk
      refine ⟨fun g => by simp at g, fun g => ?_⟩
      have := isCompatible_kinds.mpr (sameType_kinds g hl ht)
      rw [hk] at this; cases this
    · rename_i hk
      have hk : Kinds lt tt := isCompatible_kinds.mp (by simpa using hk)
      have shape : lt.kind ∈ [0, 4, 5, 6, 7, 16, 19] → (.ok true : Except RFail Bool) = .ok b →
          (b = true ↔ SameType lb tb l t) := by
        intro hm h
        cases h
        exact ⟨fun _ => .shape hl ht hm hk, fun _ => rfl⟩
      split at h
      · exact shape (by simp [BtfType.kind]) h
      · exact shape (by simp [BtfType.kind]) h
      · exact shape (by simp [BtfType.kind]) h
      · exact shape (by simp [BtfType.kind]) h
      · exact shape (by simp [BtfType.kind]) h
      · exact shape (by simp [BtfType.kind]) h
      · exact shape (by simp [BtfType.kind]) h
      · split at h
        · cases h
          simp only [intOffset, Bool.and_eq_true, beq_iff_eq]
          constructor
          · rintro ⟨g1, g2⟩; exact .int hl ht g1 g2
          · intro h
            cases h with
            | shape h1 h2 h3 h4 =>
              obtain ⟨_, rfl⟩ := resolves_unique hl h1; simp [BtfType.kind] at h3
            | int h1 h2 h3 h4 =>
              obtain ⟨_, e⟩ := resolves_unique hl h1; cases e
              obtain ⟨_, e⟩ := resolves_unique ht h2; cases e
              exact ⟨h3, h4⟩
            | ptr h1 | array h1 | func h1 => obtain ⟨_, e⟩ := resolves_unique hl h1; cases e
        · rw [ih _ _ _ h]; exact (sameType_resolved hl ht).symm
      · split at h
        · rw [ih _ _ _ h]
          constructor
          · intro g; exact .ptr hl ht g
          · intro h
            cases h with
            | shape h1 h2 h3 h4 =>
              obtain ⟨_, rfl⟩ := resolves_unique hl h1; simp [BtfType.kind, RefKind.num] at h3
            | ptr h1 h2 h3 =>
              obtain ⟨_, e⟩ := resolves_unique hl h1; cases e
              obtain ⟨_, e⟩ := resolves_unique ht h2; cases e
              exact h3
            | int h1 | array h1 | func h1 => obtain ⟨_, e⟩ := resolves_unique hl h1; cases e
        · rw [ih _ _ _ h]; exact (sameType_resolved hl ht).symm
      · split at h
        · rw [ih _ _ _ h]
          constructor
          · intro g; exact .array hl ht g
          · intro h
            cases h with
            | shape h1 h2 h3 h4 =>
              obtain ⟨_, rfl⟩ := resolves_unique hl h1; simp [BtfType.kind] at h3
            | array h1 h2 h3 =>
              obtain ⟨_, e⟩ := resolves_unique hl h1; cases e
              obtain ⟨_, e⟩ := resolves_unique ht h2; cases e
              exact h3
            | int h1 | ptr h1 | func h1 => obtain ⟨_, e⟩ := resolves_unique hl h1; cases e
        · rw [ih _ _ _ h]; exact (sameType_resolved hl ht).symm
      · split at h
        · have inv : ∀ {n i ret ps n' i' ret' ps'}, Resolves lb.types l l' (.funcProto n i ret ps) →
              Resolves tb.types t t' (.funcProto n' i' ret' ps') → SameType lb tb l t →
              ps.length = ps'.length ∧ (∀ (k : Nat) (p p' : Param), ps[k]? = some p → ps'[k]? = some p' → SameType lb tb p.ty p'.ty) ∧
              SameType lb tb ret ret' := by
            intro n i ret ps n' i' ret' ps' hl ht h
            cases h with
            | shape h1 h2 h3 h4 =>
              obtain ⟨_, rfl⟩ := resolves_unique hl h1; simp [BtfType.kind] at h3
            | func h1 h2 h3 h4 h5 =>
              obtain ⟨_, e⟩ := resolves_unique hl h1; cases e
              obtain ⟨_, e⟩ := resolves_unique ht h2; cases e
              exact ⟨h3, h4, h5⟩
            | int h1 | ptr h1 | array h1 => obtain ⟨_, e⟩ := resolves_unique hl h1; cases e
          split at h
          · rename_i hlen
            cases h
            exact ⟨fun g => by simp at g, fun g => absurd (inv hl ht g).1 hlen⟩
          · rename_i hlen
            have hlen := Decidable.not_not.mp hlen
            obtain ⟨b', h1, h⟩ := bind_ok.mp h
            have key := params_ok hrec _ _ h1
            rw [zip_params (lb := lb) (tb := tb) hlen (P := fun p q => ∃ l t lt tt, Resolves lb.types p.ty l lt ∧ Resolves tb.types q.ty t tt ∧ SameType lb tb l t)] at key
            cases b' with
            | false =>
              simp only [Bool.false_eq_true, if_false] at h
              cases h
              simp only [Bool.false_eq_true, false_iff] at key ⊢
              intro g
              obtain ⟨g1, g2, g3⟩ := inv hl ht g
              refine key (fun k p p' e1 e2 => ?_)
              have s := g2 k p p' e1 e2
              have ⟨a, b, at', bt, r1, r2⟩ : ∃ a b at' bt, Resolves lb.types p.ty a at' ∧ Resolves tb.types p'.ty b bt := by
                cases s with
                | shape h1 h2 | int h1 h2 | ptr h1 h2 | array h1 h2 | func h1 h2 => exact ⟨_, _, _, _, h1, h2⟩
              exact ⟨a, b, at', bt, r1, r2, (sameType_resolved r1 r2).mp s⟩
            | true =>
              simp only [if_true] at h
              rw [ih _ _ _ h]
              have key := key.mp rfl
              constructor
              · intro g
                refine .func hl ht hlen (fun k p p' e1 e2 => ?_) g
                obtain ⟨a, b, at', bt, r1, r2, s⟩ := key k p p' e1 e2
                exact (sameType_resolved r1 r2).mpr s
              · intro g; exact (inv hl ht g).2.2
        · rw [ih _ _ _ h]; exact (sameType_resolved hl ht).symm
      · cases h

theorem typesFuel_ok {lb tb : Btf} : ∀ (fuel l t : Nat) (b : Bool), typesFuel lb tb fuel l t = .ok b →
    ∃ lt tt, lb.types[l]? = some lt ∧ tb.types[t]? = some tt ∧ (b = true ↔ Kinds lt tt ∧ SameType lb tb l t)
  | 0, l, t, b, h => by cases h
  | fuel + 1, l, t, b, h => by
    rw [typesFuel] at h
    obtain ⟨lt, hlt, h⟩ := bind_ok.mp h
    obtain ⟨tt, htt, h⟩ := bind_ok.mp h
    have hlt := typeById_ok.mp (lift_ok.mp hlt)
    have htt := typeById_ok.mp (lift_ok.mp htt)
    refine ⟨lt, tt, hlt, htt, ?_⟩
    split at h
    · rename_i hk
      cases h
      simp only [Bool.not_eq_true'] at hk
      refine ⟨fun g => by simp at g, fun g => ?_⟩
      have := isCompatible_kinds.mpr g.1
      rw [hk] at this; cases this
    · rename_i hk
      have hk : Kinds lt tt := isCompatible_kinds.mp (by simpa using hk)
      rw [typesLoop_ok _ 32 l t b h]
      · exact ⟨fun g => ⟨hk, g⟩, fun g => g.2⟩
      · intro l t b lt tt hl ht h
        obtain ⟨lt', tt', h1, h2, h3⟩ := typesFuel_ok fuel l t b h
        rw [h3]
        obtain ⟨_, _, _, a1, _⟩ := id hl
        obtain ⟨_, _, _, a2, _⟩ := id ht
        rw [a1] at h1; cases h1
        rw [a2] at h2; cases h2
        exact ⟨fun g => g.2, fun g => ⟨sameType_kinds g hl ht, g⟩⟩

/-- **C64.** When the loader can tell whether a type of the program and one of the kernel are the same, its answer is
right. -/
theorem C64_same_type (lb tb : Btf) (l t : Nat) (b : Bool) (h : typesCompatible lb l tb t = .ok b) :
    ∃ lt tt : BtfType, lb.types[l]? = some lt ∧ tb.types[t]? = some tt ∧
      (b = true ↔ (lt.kind = tt.kind ∨ lt.kind = 6 ∧ tt.kind = 19 ∨ lt.kind = 19 ∧ tt.kind = 6) ∧ SameType lb tb l t) :=
  typesFuel_ok _ l t b h

end Verif.Core
