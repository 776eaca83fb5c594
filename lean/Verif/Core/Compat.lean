import Verif.Core.Basic
/-! # Names up to flavour, compatible member types, candidates -/
set_option linter.unusedSimpArgs false
set_option linter.unusedVariables false
namespace Verif.Core
open Verif.Btf Verif.Btf.Spec Verif.Core.Spec

theorem base_cons {c : UInt8} {n b : List UInt8} (h : Base n b) (hne : ∀ r, c :: n ≠ 95 :: 95 :: 95 :: r) :
    Base (c :: n) (c :: b) := by
  obtain ⟨h1, h2⟩ := h
  constructor
  · rcases h1 with rfl | ⟨r, rfl⟩
    · exact .inl rfl
    · exact .inr ⟨r, rfl⟩
  · intro a r e
    cases a with
    | nil => exact absurd e (hne r)
    | cons x a =>
      simp only [List.cons_append, List.cons.injEq] at e
      have := h2 a r e.2
      simp; omega

theorem flavorless_base : ∀ n : List UInt8, Base n (flavorless n)
  | [] => ⟨.inl rfl, fun a r _ => by simp [flavorless]⟩
  | c :: cs => by
    unfold flavorless
    split
    · rename_i r e
      exact ⟨.inr ⟨r, e⟩, fun a r _ => by simp⟩
    · rename_i c' cs' hne e
      cases e
      exact base_cons (flavorless_base cs) (fun r h => by cases h; exact hne _ rfl rfl)
    · rename_i e; cases e

theorem base_unique {n b b' : List UInt8} (h : Base n b) (h' : Base n b') : b = b' := by
  obtain ⟨h1, h2⟩ := h
  obtain ⟨h1', h2'⟩ := h'
  rcases h1 with rfl | ⟨r, e⟩
  · rcases h1' with rfl | ⟨r', e'⟩
    · rfl
    · have := h2 b' r' e'
      have hl := congrArg List.length e'
      simp at hl; omega
  · rcases h1' with rfl | ⟨r', e'⟩
    · have := h2' b r e
      have hl := congrArg List.length e
      simp at hl; omega
    · have a1 := h2 b' r' e'
      have a2 := h2' b r e
      rw [e] at e'
      exact (List.append_inj e' (by omega)).1

theorem flavorless_eq {n n' : List UInt8} : flavorless n = flavorless n' ↔ ∃ b, Base n b ∧ Base n' b :=
  ⟨fun h => ⟨flavorless n, flavorless_base n, h ▸ flavorless_base n'⟩,
   fun ⟨b, h1, h2⟩ => (base_unique (flavorless_base n) h1).trans (base_unique (flavorless_base n') h2).symm⟩

/-! ## Compatible member types -/

theorem compat_inv {lb tb : Btf} {l t l' t' : Nat} {lt tt : BtfType} (h : Compat lb tb l t)
    (hl : Resolves lb.types l l' lt) (ht : Resolves tb.types t t' tt) :
    ((lt.kind = 4 ∨ lt.kind = 5) ∧ (tt.kind = 4 ∨ tt.kind = 5)) ∨
    ((lt.kind = 7 ∧ tt.kind = 7 ∨ (lt.kind = 6 ∨ lt.kind = 19) ∧ (tt.kind = 6 ∨ tt.kind = 19)) ∧
      ∃ ln tn b, StringAt lb.strings lt.name ln ∧ StringAt tb.strings tt.name tn ∧ Base ln b ∧ Base tn b) ∨
    (∃ n i s d n' i' s' d', lt = .int n i s d ∧ tt = .int n' i' s' d' ∧ d / 2 ^ 16 % 256 = 0 ∧ d' / 2 ^ 16 % 256 = 0) ∨
    (lt.kind = 16 ∧ tt.kind = 16) ∨ (lt.kind = 2 ∧ tt.kind = 2) ∨
    (∃ n i e x len n' i' e' x' len', lt = .array n i e x len ∧ tt = .array n' i' e' x' len' ∧ Compat lb tb e e') := by
  cases h with
  | composite h1 h2 h3 h4 =>
    obtain ⟨_, rfl⟩ := resolves_unique hl h1
    obtain ⟨_, rfl⟩ := resolves_unique ht h2
    exact .inl ⟨h3, h4⟩
  | named h1 h2 h3 h4 h5 h6 h7 =>
    obtain ⟨_, rfl⟩ := resolves_unique hl h1
    obtain ⟨_, rfl⟩ := resolves_unique ht h2
    exact .inr (.inl ⟨h3, _, _, _, h4, h5, h6, h7⟩)
  | int h1 h2 h3 h4 =>
    obtain ⟨_, rfl⟩ := resolves_unique hl h1
    obtain ⟨_, rfl⟩ := resolves_unique ht h2
    exact .inr (.inr (.inl ⟨_, _, _, _, _, _, _, _, rfl, rfl, h3, h4⟩))
  | float h1 h2 h3 h4 =>
    obtain ⟨_, rfl⟩ := resolves_unique hl h1
    obtain ⟨_, rfl⟩ := resolves_unique ht h2
    exact .inr (.inr (.inr (.inl ⟨h3, h4⟩)))
  | ptr h1 h2 h3 h4 =>
    obtain ⟨_, rfl⟩ := resolves_unique hl h1
    obtain ⟨_, rfl⟩ := resolves_unique ht h2
    exact .inr (.inr (.inr (.inr (.inl ⟨h3, h4⟩))))
  | array h1 h2 h3 =>
    obtain ⟨_, rfl⟩ := resolves_unique hl h1
    obtain ⟨_, rfl⟩ := resolves_unique ht h2
    exact .inr (.inr (.inr (.inr (.inr ⟨_, _, _, _, _, _, _, _, _, _, rfl, rfl, h3⟩))))

theorem kind_num (k : RefKind) : k.num = 2 ∨ k.num = 8 ∨ k.num = 9 ∨ k.num = 10 ∨ k.num = 11 ∨ k.num = 12 ∨ k.num = 18 := by
  cases k <;> decide

theorem fieldsLoop_ok {lb tb : Btf} : ∀ (n l t : Nat) (b : Bool), fieldsLoop lb tb n l t = .ok b →
    (b = true ↔ Compat lb tb l t) := by
  intro n
  induction n with
  | zero => intro l t b h; cases h
  | succ n ih =>
    intro l t b h
    rw [fieldsLoop] at h
    obtain ⟨l', hl, h⟩ := bind_ok.mp h
    obtain ⟨t', ht, h⟩ := bind_ok.mp h
    obtain ⟨lt, hlt, h⟩ := bind_ok.mp h
    obtain ⟨tt, htt, h⟩ := bind_ok.mp h
    have hl := resolve_ok (lift_ok.mp hl) (typeById_ok.mp (lift_ok.mp hlt))
    have ht := resolve_ok (lift_ok.mp ht) (typeById_ok.mp (lift_ok.mp htt))
    split at h
    · rename_i hc
      cases h
      simp only [isComposite, Bool.and_eq_true, Bool.or_eq_true, beq_iff_eq] at hc
      exact ⟨fun _ => .composite hl ht hc.1 hc.2, fun _ => rfl⟩
    · rename_i hcomp
      have hcomp : ¬ ((lt.kind = 4 ∨ lt.kind = 5) ∧ (tt.kind = 4 ∨ tt.kind = 5)) := by
        simpa [isComposite, Bool.and_eq_true, Bool.or_eq_true, beq_iff_eq] using hcomp
      split at h
      · rename_i hk
        cases h
        have hk : ¬ (lt.kind = tt.kind ∨ (lt.kind = 6 ∧ tt.kind = 19) ∨ (lt.kind = 19 ∧ tt.kind = 6)) := by
          simp only [isCompatible, Bool.not_eq_true', Bool.or_eq_false_iff, Bool.and_eq_false_iff, beq_eq_false_iff_ne] at hk
          omega
        refine ⟨fun h => by simp at h, fun h => ?_⟩
        exfalso
        rcases compat_inv h hl ht with g | ⟨g, _⟩ | ⟨_, _, _, _, _, _, _, _, rfl, rfl, _, _⟩ | g | g |
          ⟨_, _, _, _, _, _, _, _, _, _, rfl, rfl, _⟩
        · exact hcomp g
        · omega
        · exact hk (.inl rfl)
        · omega
        · omega
        · exact hk (.inl rfl)
      · rename_i hk
        have hk : lt.kind = tt.kind ∨ (lt.kind = 6 ∧ tt.kind = 19) ∨ (lt.kind = 19 ∧ tt.kind = 6) := by
          simp only [isCompatible, Bool.not_eq_true, Bool.not_eq_false', Bool.or_eq_true, Bool.and_eq_true, beq_iff_eq] at hk
          omega
        have names : (lt.kind = 7 ∧ tt.kind = 7 ∨ (lt.kind = 6 ∨ lt.kind = 19) ∧ (tt.kind = 6 ∨ tt.kind = 19)) →
            (do
              let ln ← lift (lb.stringAt lt.name)
              let tn ← lift (tb.stringAt tt.name)
              .ok (flavorless ln == flavorless tn)) = (.ok b : Except RFail Bool) → (b = true ↔ Compat lb tb l t) := by
          intro hkk h
          obtain ⟨ln, h1, h⟩ := bind_ok.mp h
          obtain ⟨tn, h2, h⟩ := bind_ok.mp h
          have h1 := C17_string _ _ _ (lift_ok.mp h1)
          have h2 := C17_string _ _ _ (lift_ok.mp h2)
          cases h
          simp only [beq_iff_eq, flavorless_eq]
          constructor
          · rintro ⟨b, g1, g2⟩
            exact .named hl ht hkk h1 h2 g1 g2
          · intro h
            rcases compat_inv h hl ht with g | ⟨g, _, _, _, g1, g2, g3, g4⟩ | ⟨_, _, _, _, _, _, _, _, rfl, rfl, _, _⟩ | g | g |
              ⟨_, _, _, _, _, _, _, _, _, _, rfl, rfl, _⟩
            · exact absurd g hcomp
            · cases stringAt_unique h1 g1
              cases stringAt_unique h2 g2
              exact ⟨_, g3, g4⟩
            · simp [BtfType.kind] at hkk
            · omega
            · omega
            · simp [BtfType.kind] at hkk
        split at h
        · rename_i n i
          refine names ?_ h
          clear names
          generalize tt.kind = x at hk ⊢; simp [BtfType.kind] at hk ⊢; omega
        · refine names ?_ h
          clear names
          generalize tt.kind = x at hk ⊢; simp [BtfType.kind] at hk ⊢; omega
        · refine names ?_ h
          clear names
          generalize tt.kind = x at hk ⊢; simp [BtfType.kind] at hk ⊢; omega
        · rename_i a1 a2 a3 d
          split at h
          · rename_i a1' a2' a3' d'
            cases h
            simp only [intOffset, Bool.and_eq_true, beq_iff_eq]
            constructor
            · rintro ⟨g1, g2⟩; exact .int hl ht g1 g2
            · intro h
              rcases compat_inv h hl ht with g | ⟨g, _⟩ | ⟨_, _, _, _, _, _, _, _, e1, e2, g1, g2⟩ | g | g |
                ⟨_, _, _, _, _, _, _, _, _, _, e1, e2, _⟩
              · exact absurd g hcomp
              · simp [BtfType.kind] at g
              · cases e1; cases e2; exact ⟨g1, g2⟩
              · simp [BtfType.kind] at g
              · simp [BtfType.kind] at g
              · cases e1
          · rename_i hno
            exfalso
            simp only [BtfType.kind] at hk
            cases tt <;> first | exact hno _ _ _ _ rfl | (simp only [BtfType.kind] at hk; have := kind_num; omega) | skip
            rename_i k _ _ _
            have := kind_num k
            simp only [BtfType.kind] at hk
            omega
        · cases h
          refine ⟨fun _ => .float hl ht rfl ?_, fun _ => rfl⟩
          generalize tt.kind = x at hk ⊢; simp only [BtfType.kind] at hk ⊢; omega
        · cases h
          refine ⟨fun _ => .ptr hl ht rfl ?_, fun _ => rfl⟩
          generalize tt.kind = x at hk ⊢; simp only [BtfType.kind, RefKind.num] at hk ⊢; omega
        · rename_i a1 a2 e a3 a4 hx
          split at h
          · rename_i a1' a2' e' a3' a4'
            have := ih _ _ b h
            rw [this]
            constructor
            · intro g; exact .array hl ht g
            · intro h
              rcases compat_inv h hl ht with g | ⟨g, _⟩ | ⟨_, _, _, _, _, _, _, _, e1, e2, g1, g2⟩ | g | g |
                ⟨_, _, _, _, _, _, _, _, _, _, e1, e2, g⟩
              · exact absurd g hcomp
              · simp [BtfType.kind] at g
              · cases e1
              · simp [BtfType.kind] at g
              · simp [BtfType.kind] at g
              · cases e1; cases e2; exact g
          · rename_i hno
            exfalso
            cases tt with
            | array a b c d e => exact hno _ _ _ _ _ rfl
            | ref k a b c => have := kind_num k; simp only [BtfType.kind] at hk; omega
            | _ => simp only [BtfType.kind] at hk; omega
        · cases h

/-- **C20.** When the loader can tell whether the types of two members are compatible, its answer is right. -/
theorem C20_compatible (lb tb : Btf) (l t : Nat) (b : Bool) (h : fieldsCompatible lb l tb t = .ok b) :
    b = true ↔ Compat lb tb l t := fieldsLoop_ok 32 l t b h

end Verif.Core
