import Verif.Fetch.Props
/-!
# C118: cases, and how a file can stay old
-/
namespace Verif.Fetch

open Verif.Verdict (Text)

def one : Version := ⟨1, [1], some ['"', '1', '"']⟩
def two : Version := ⟨2, [2, 2], some ['"', '2', '"']⟩

/-- The first version is downloaded; the second is, too, but a crash leaves half of its tag; the network breaks; and then all works. -/
def crashes : List Event := [⟨one, .works, none⟩, ⟨two, .works, some 3⟩, ⟨two, .breaks, none⟩]

example : after crashes = ⟨some [2, 2], some ['"']⟩ := by decide +kernel

theorem crashes_tagged : Tagged ((crashes ++ [(⟨two, .works, none⟩ : Event)]).map Event.now) := by
  have hm : ∀ v ∈ (crashes ++ [(⟨two, .works, none⟩ : Event)]).map Event.now, v = one ∨ v = two := by
    intro v hv
    simp [crashes] at hv
    exact hv
  refine ⟨?_, ?_, ?_⟩
  · intro v hv t h
    rcases hm v hv with rfl | rfl
    · cases h; exact ⟨by decide, fun c hc => by cases hc; decide, fun c hc => by cases hc; decide⟩
    · cases h; exact ⟨by decide, fun c hc => by cases hc; decide, fun c hc => by cases hc; decide⟩
  · intro v hv w hw h
    rcases hm v hv with rfl | rfl <;> rcases hm w hw with rfl | rfl
    · rfl
    · exact absurd h (by decide)
    · exact absurd h (by decide)
    · rfl
  · intro v hv w hw t u h1 h2 hp
    rcases hm v hv with rfl | rfl <;> rcases hm w hw with rfl | rfl
    · cases h1; cases h2; exact ⟨rfl, rfl⟩
    · cases h1; cases h2; exact absurd hp (by decide)
    · cases h1; cases h2; exact absurd hp (by decide)
    · cases h1; cases h2; exact ⟨rfl, rfl⟩

example : (after (crashes ++ [⟨two, .works, none⟩])).dest = some [2, 2] :=
  (C118_current_partial rfl rfl crashes_tagged (by unfold Forward; decide)).2

example : reply (step ⟨none, none⟩ ⟨one, .works, none⟩) ⟨one, .works, none⟩ = .notModified :=
  (C118_kept (t := ['"', '1', '"']) rfl ⟨by decide, fun c hc => by cases hc; decide, fun c hc => by cases hc; decide⟩ (by decide)).2.1

/-- A server that goes back, without crashes. -/
example : (after [⟨one, .works, none⟩, ⟨two, .works, none⟩, ⟨one, .works, none⟩]).dest = some [1] := by
  refine (C118_calm_partial (es := [⟨one, .works, none⟩, ⟨two, .works, none⟩]) (e := ⟨one, .works, none⟩) rfl ?_ ?_ ?_).2
  · intro x hx
    simp only [List.cons_append, List.nil_append, List.mem_cons, List.not_mem_nil, or_false] at hx
    rcases hx with rfl | rfl | rfl <;> rfl
  · intro x hx t h
    simp only [List.cons_append, List.nil_append, List.mem_cons, List.not_mem_nil, or_false] at hx
    rcases hx with rfl | rfl | rfl <;> cases h <;> exact ⟨by decide, fun c hc => by cases hc; decide, fun c hc => by cases hc; decide⟩
  · intro x hx y hy t h1 h2
    simp only [List.cons_append, List.nil_append, List.mem_cons, List.not_mem_nil, or_false] at hx hy
    rcases hx with rfl | rfl | rfl <;> rcases hy with rfl | rfl | rfl <;> first | rfl | (cases h1; cases h2)

/-- A crash after the file was renamed and before its tag was written, and a server that goes back: from then on, every run succeeds with a file that the server does not have. -/
theorem C118_back_violated : let es : List Event := [⟨one, .works, none⟩, ⟨two, .works, some 1⟩]
    ∀ n : Nat, (after (es ++ List.replicate n ⟨one, .works, none⟩)).dest = some two.body ∧
      (download (after (es ++ List.replicate n ⟨one, .works, none⟩)) (reply (after (es ++ List.replicate n ⟨one, .works, none⟩)) ⟨one, .works, none⟩)).2 = true := by
  intro es n
  have h : after (es ++ List.replicate n ⟨one, .works, none⟩) = after es := by
    have hs : step (after es) ⟨one, .works, none⟩ = after es := by decide +kernel
    unfold after at hs ⊢
    rw [List.foldl_append]
    induction n with
    | zero => rfl
    | succ n ih => rw [List.replicate_succ, List.foldl_cons, hs, ih]
  rw [h]
  exact ⟨by decide +kernel, by decide +kernel⟩

/-- Two runs at a time, one of which got the older version: their changes can come in an order after which the older file has the newer tag. From then on, every run succeeds with the older
    file, although the server never went back and nothing crashed. -/
theorem C118_together_violated : ∃ (a b c : List Op), a = (download ⟨none, none⟩ (serve one none)).1 ∧ b = (download ⟨none, none⟩ (serve two none)).1 ∧ Merge a b c ∧
    ∀ n : Nat, ((List.replicate n (⟨two, .works, none⟩ : Event)).foldl step (exec ⟨none, none⟩ c)).dest = some one.body := by
  refine ⟨_, _, [.rename [2, 2], .rename [1]] ++ writeTag ['"', '1', '"'] ++ writeTag ['"', '2', '"'], rfl, rfl, ?_, ?_⟩
  · exact .right (.left (.left (.left (.left (.left (.right (.right (.right (.right .nil)))))))))
  · intro n
    have hs : step (exec ⟨none, none⟩ ([.rename [2, 2], .rename [1]] ++ writeTag ['"', '1', '"'] ++ writeTag ['"', '2', '"'])) ⟨two, .works, none⟩ =
        exec ⟨none, none⟩ ([.rename [2, 2], .rename [1]] ++ writeTag ['"', '1', '"'] ++ writeTag ['"', '2', '"']) := by decide +kernel
    have h : (List.replicate n (⟨two, .works, none⟩ : Event)).foldl step (exec ⟨none, none⟩ ([.rename [2, 2], .rename [1]] ++ writeTag ['"', '1', '"'] ++ writeTag ['"', '2', '"'])) =
        exec ⟨none, none⟩ ([.rename [2, 2], .rename [1]] ++ writeTag ['"', '1', '"'] ++ writeTag ['"', '2', '"']) := by
      induction n with
      | zero => rfl
      | succ n ih => rw [List.replicate_succ, List.foldl_cons, hs, ih]
    rw [h]
    decide +kernel

end Verif.Fetch
