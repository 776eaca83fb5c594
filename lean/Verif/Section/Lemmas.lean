import Verif.Section.Spec
/-!
# Lemmas for C22 and C54
-/
set_option linter.unusedSimpArgs false
set_option linter.unusedVariables false
namespace Verif.Section
open Verif.Str Spec

theorem pieces_cons (s : List Char) : ∃ k rest, splitBy (· == '/') s = k :: rest := by
  cases h : splitBy (· == '/') s with
  | nil => exact absurd h (splitBy_ne_nil _ _)
  | cons k rest => exact ⟨k, rest, rfl⟩

/-- A name whose first piece is the text of an open row matches it. -/
theorem matches_open (r : Row) (ho : r.open_ = true) (s : List Char) (rest : List (List Char))
    (h : s = joinWith '/' (r.text.toList :: rest)) : r.Matches s := by
  cases rest with
  | nil => exact .inl h
  | cons y ys => exact .inr ⟨ho, joinWith '/' (y :: ys), h⟩

/-- The same for rows with two pieces. -/
theorem matches_open2 (r : Row) (ho : r.open_ = true) (a b : String) (s : List Char)
    (ht : r.text.toList = a.toList ++ '/' :: b.toList)
    (rest : List (List Char)) (h : s = joinWith '/' (a.toList :: b.toList :: rest)) : r.Matches s := by
  cases rest with
  | nil => exact .inl (by rw [h, ht]; rfl)
  | cons y ys => exact .inr ⟨ho, joinWith '/' (y :: ys), by rw [h, ht]; simp [joinWith]⟩

theorem found (s : List Char) (l : Load) (a : String) (rest : List (List Char))
    (h : s = joinWith '/' (a.toList :: rest)) (hm : (⟨a, true, l⟩ : Row) ∈ table) :
    ∃ r ∈ table, r.Matches s ∧ r.load = l :=
  ⟨_, hm, matches_open _ rfl s rest h, rfl⟩

theorem found2 (s : List Char) (l : Load) (a b : String) (rest : List (List Char))
    (h : s = joinWith '/' (a.toList :: b.toList :: rest))
    (hm : (⟨a ++ "/" ++ b, true, l⟩ : Row) ∈ table) :
    ∃ r ∈ table, r.Matches s ∧ r.load = l :=
  ⟨_, hm, matches_open2 _ rfl a b s (by simp) rest h, rfl⟩

theorem found0 (s : List Char) (l : Load) (a : String)
    (h : s = joinWith '/' [a.toList]) (hm : (⟨a, false, l⟩ : Row) ∈ table) :
    ∃ r ∈ table, r.Matches s ∧ r.load = l :=
  ⟨_, hm, .inl h, rfl⟩

theorem forward (s : List Char) (ps : List String) (k : ProgramSection)
    (hs : s = joinWith '/' (ps.map String.toList)) (h : parsePieces ps = some k) :
    ∃ r ∈ table, r.Matches s ∧ r.load = k.load := by
  unfold parsePieces at h
  split at h
  · simp at h
  · split at h
    all_goals try unfold parsePieces.xdp at h
    all_goals try unfold parsePieces.cgroup at h
    all_goals try split at h
    all_goals simp only [Option.some.injEq, reduceCtorEq] at h
    all_goals subst h
    all_goals first
      | exact found _ _ _ _ hs (by decide +kernel)
      | exact found0 _ _ _ hs (by decide +kernel)
      | exact found2 _ _ _ _ _ hs (by decide +kernel)

theorem toList_ofList_map (l : List (List Char)) : (l.map String.ofList).map String.toList = l := by
  induction l with
  | nil => rfl
  | cons x xs ih => simp [ih]

/-- Splitting a name that starts with a row's text. -/
theorem split_row (a : List Char) (ha : ∀ c ∈ a, (c == '/') = false) (t : List Char) :
    splitBy (· == '/') (a ++ '/' :: t) = a :: splitBy (· == '/') t :=
  splitBy_append_sep _ a '/' t ha (by decide)

/-- The pieces of the text of a row followed by further pieces. -/
theorem split_append (t rest : List Char) :
    splitBy (· == '/') (t ++ '/' :: rest) = splitBy (· == '/') t ++ splitBy (· == '/') rest := by
  induction t with
  | nil => simp [splitBy]
  | cons c cs ih =>
    simp only [List.cons_append, splitBy]
    by_cases hc : (c == '/') = true
    · simp only [hc, if_true, ih, List.cons_append]
    · simp only [hc, if_false, ih]
      cases h : splitBy (· == '/') cs with
      | nil => exact absurd h (splitBy_ne_nil _ _)
      | cons x xs => simp

theorem backward (r : Row) (hr : r ∈ table) :
    ((parsePieces ((splitBy (· == '/') r.text.toList).map String.ofList)).map ProgramSection.load = some r.load) ∧
    (r.open_ = true → ∀ rest, (parsePieces ((splitBy (· == '/') r.text.toList).map String.ofList ++ rest)).map
      ProgramSection.load = some r.load) := by
  revert r
  simp only [table, List.forall_mem_cons, List.not_mem_nil, false_implies, implies_true, and_true]
  repeat' apply And.intro
  all_goals first
    | decide +kernel
    | (intro ho rest; exact absurd ho (by decide +kernel))
    | (intro _ rest; rfl)

/-- A name matching a row is parsed to that row's parameters. -/
theorem accept (r : Row) (hr : r ∈ table) (s : List Char) (h : r.Matches s) :
    (fromStr s).map ProgramSection.load = some r.load := by
  obtain ⟨h1, h2⟩ := backward r hr
  rcases h with rfl | ⟨ho, rest, rfl⟩
  · exact h1
  · unfold fromStr
    rw [split_append, List.map_append]
    exact h2 ho _

theorem kind_lemma (r : Row) (hr : r ∈ table) :
    ∀ rest : List Char, kindFromName (r.text.toList ++ rest) = .undefined := by
  revert r
  simp only [table, List.forall_mem_cons, List.not_mem_nil, false_implies, implies_true, and_true]
  repeat' apply And.intro
  all_goals (intro rest; rfl)

end Verif.Section
