import Verif.Exit.Spec
/-!
# Rules for what holds whenever the process may end
-/
namespace Verif.Exit

/-- If `P` holds before, `I` holds whenever the process may end, and `Q` when it returns. -/
def Triple {α : Type} (I P : World → Prop) (m : M Run α) (Q : α → World → Prop) : Prop :=
  ∀ r : Run, P r.w → I (m r).2.w ∧ ∀ a, (m r).1 = some a → Q a (m r).2.w

variable {α β : Type} {I P : World → Prop}

theorem triple_ret {a : α} {Q : α → World → Prop} (h : ∀ w, P w → I w ∧ Q a w) : Triple I P (ret a) Q := by
  intro r hp
  refine ⟨(h _ hp).1, fun b hb => ?_⟩
  simp only [ret, Option.some.injEq] at hb
  subst hb
  exact (h _ hp).2

theorem triple_andThen {m : M Run α} {f : α → M Run β} {R : α → World → Prop} {Q : β → World → Prop} (h : Triple I P m R)
    (hf : ∀ a, Triple I (R a) (f a) Q) : Triple I P (andThen m f) Q := by
  intro r hp
  obtain ⟨h1, h2⟩ := h r hp
  simp only [andThen]
  rcases e : m r with ⟨o, r'⟩
  rw [e] at h1 h2
  cases o with
  | none => exact ⟨h1, fun a ha => by cases ha⟩
  | some a => exact hf a r' (h2 a rfl)

theorem triple_onOk {m : M Run (Except Nat α)} {f : α → M Run (Except Nat β)} {R : Except Nat α → World → Prop}
    {Q : Except Nat β → World → Prop} (h : Triple I P m R) (he : ∀ e w, R (.error e) w → I w ∧ Q (.error e) w)
    (hf : ∀ a, Triple I (R (.ok a)) (f a) Q) : Triple I P (onOk m f) Q := by
  refine triple_andThen h fun a => ?_
  cases a with
  | error e => exact triple_ret (he e)
  | ok a => exact hf a

theorem triple_weaken {m : M Run α} {P' : World → Prop} {Q Q' : α → World → Prop} (h : Triple I P m Q) (hp : ∀ w, P' w → P w)
    (hq : ∀ a w, Q a w → Q' a w) : Triple I P' m Q' :=
  fun r hr => ⟨(h r (hp _ hr)).1, fun a ha => hq a _ ((h r (hp _ hr)).2 a ha)⟩

theorem triple_sys {φ : Fate} {c : Call} {Q : Except Nat Nat → World → Prop} (hi : ∀ w, P w → I w)
    (hf : ∀ w e, P w → (∃ t, φ.fail t = some e) → c.sure = false → Q (.error e) w)
    (hs : ∀ w e, P w → c.sure = true → Q (.error e) (w.act c).2)
    (ha : ∀ w, P w → I (w.act c).2 ∧ Q (w.act c).1 (w.act c).2) : Triple I P (sys φ.sys c) Q := by
  intro r hp
  simp only [sys, Fate.sys]
  split
  · exact ⟨hi _ hp, fun a ha => by cases ha⟩
  · split
    · rename_i e he
      cases hc : c.sure with
      | true =>
        simp only [if_pos]
        refine ⟨(ha _ hp).1, fun a h => ?_⟩
        simp only [Option.some.injEq] at h
        subst h
        exact hs _ _ hp hc
      | false =>
        simp only [Bool.false_eq_true, if_false]
        refine ⟨hi _ hp, fun a h => ?_⟩
        simp only [Option.some.injEq] at h
        subst h
        exact hf _ _ hp ⟨_, he⟩ hc
    · refine ⟨(ha _ hp).1, fun a h => ?_⟩
      simp only [Option.some.injEq] at h
      subst h
      exact (ha _ hp).2

/-- A call keeps what holds. -/
theorem keeps_sys {φ : Fate} {c : Call} (ha : ∀ w, I w → I (w.act c).2) : Triple I I (sys φ.sys c) (fun _ => I) :=
  triple_sys (fun _ h => h) (fun _ _ h _ _ => h) (fun _ _ h _ => ha _ h) (fun w h => ⟨ha w h, ha w h⟩)

theorem keeps_sysUnit {φ : Fate} {c : Call} (ha : ∀ w, I w → I (w.act c).2) : Triple I I (sysUnit φ.sys c) (fun _ => I) :=
  triple_andThen (keeps_sys ha) fun _ => triple_ret fun _ h => ⟨h, h⟩

/-- Keeping through a sequence. -/
theorem keeps_andThen {m : M Run α} {f : α → M Run β} (h : Triple I I m (fun _ => I)) (hf : ∀ a, Triple I I (f a) (fun _ => I)) :
    Triple I I (andThen m f) (fun _ => I) := triple_andThen h hf

theorem keeps_ret {a : α} : Triple I I (ret a) (fun _ => I) := triple_ret fun _ h => ⟨h, h⟩

theorem keeps_onOk {m : M Run (Except Nat α)} {f : α → M Run (Except Nat β)} (h : Triple I I m (fun _ => I))
    (hf : ∀ a, Triple I I (f a) (fun _ => I)) : Triple I I (onOk m f) (fun _ => I) :=
  triple_onOk h (fun _ _ h => ⟨h, h⟩) hf

/-- Whether a call of one of the families, by a rule that each of its calls keeps what holds. -/
def CallsKeep (I : World → Prop) (ok : Call → Prop) : Prop := ∀ c, ok c → ∀ w, I w → I (w.act c).2

end Verif.Exit
