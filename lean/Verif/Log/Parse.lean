import Verif.Log.Spec
/-!
# C44: format strings parse to their meaning
-/
set_option linter.unusedSimpArgs false
set_option linter.unusedVariables false
namespace Verif.Log
open Spec

/-! ## A machine that keeps the literal instead of positions -/

/-- `parseLoop` with the pending literal kept as a list. -/
def mach (lit : List Char) : List Char → Except ParseError (List Fragment)
  | [] => if lit = [] then .ok [] else pushLiteral [] lit
  | c :: rest =>
    if c ≠ '{' then mach (lit ++ [c]) rest
    else match rest with
      | '{' :: rest' => mach (lit ++ ['{', '{']) rest'
      | rest =>
        match (if lit = [] then .ok [] else pushLiteral [] lit : Except ParseError (List Fragment)) with
        | .error e => .error e
        | .ok frags =>
          match rest.findIdx? (· = '}') with
          | none => .error .missingClose
          | some len =>
            match parseParam (rest.take len) with
            | .error e => .error e
            | .ok h =>
              match mach [] (rest.drop (len + 1)) with
              | .error e => .error e
              | .ok r => .ok (frags ++ (.param h :: r))
termination_by chars => chars.length
decreasing_by all_goals simp_wf <;> omega

theorem parseLoop_ne (s : List Char) {c : Char} (rest pos e f) (hc : c ≠ '{') :
    parseLoop s (c :: rest) pos e f = parseLoop s rest (pos + 1) e f := by
  conv => lhs; rw [parseLoop.eq_def]
  simp only [ne_eq, hc, not_false_eq_true, if_true]

theorem mach_ne (lit : List Char) {c : Char} (rest) (hc : c ≠ '{') :
    mach lit (c :: rest) = mach (lit ++ [c]) rest := by
  conv => lhs; rw [mach.eq_def]
  simp only [ne_eq, hc, not_false_eq_true, if_true]

theorem parseLoop_esc (s : List Char) (rest pos e f) :
    parseLoop s ('{' :: '{' :: rest) pos e f = parseLoop s rest (pos + 2) e f := by
  conv => lhs; rw [parseLoop.eq_def]
  simp only [ne_eq, not_true_eq_false, if_false]

theorem mach_esc (lit : List Char) (rest) :
    mach lit ('{' :: '{' :: rest) = mach (lit ++ ['{', '{']) rest := by
  conv => lhs; rw [mach.eq_def]
  simp only [ne_eq, not_true_eq_false, if_false]

theorem parseLoop_param (s : List Char) (rest pos endPos frags) (hr : ¬ ∃ r', rest = '{' :: r') :
    parseLoop s ('{' :: rest) pos endPos frags =
      (match literalBefore s pos endPos frags with
        | .error e => .error e
        | .ok frags =>
          match rest.findIdx? (· = '}') with
          | none => .error .missingClose
          | some len =>
            match parseParam (((s.drop (pos + 1)).take len)) with
            | .error e => .error e
            | .ok h => parseLoop s rest (pos + 1) (pos + 1 + len + 1) (frags ++ [.param h])) := by
  conv => lhs; rw [parseLoop.eq_def]
  simp only [ne_eq, not_true_eq_false, if_false]
  split
  · exact absurd ⟨_, rfl⟩ hr
  · rfl

theorem mach_param (lit : List Char) (rest) (hr : ¬ ∃ r', rest = '{' :: r') :
    mach lit ('{' :: rest) =
      (match (if lit = [] then .ok [] else pushLiteral [] lit : Except ParseError (List Fragment)) with
        | .error e => .error e
        | .ok frags =>
          match rest.findIdx? (· = '}') with
          | none => .error .missingClose
          | some len =>
            match parseParam (rest.take len) with
            | .error e => .error e
            | .ok h =>
              match mach [] (rest.drop (len + 1)) with
              | .error e => .error e
              | .ok r => .ok (frags ++ (.param h :: r))) := by
  conv => lhs; rw [mach.eq_def]
  simp only [ne_eq, not_true_eq_false, if_false]
  split
  · exact absurd ⟨_, rfl⟩ hr
  · rfl

theorem pushLiteral_frags (frags lit) :
    pushLiteral frags lit = (match pushLiteral [] lit with
      | .error e => .error e
      | .ok r => .ok (frags ++ r)) := by
  unfold pushLiteral
  cases scanBraces lit false false <;> simp

/-- Prefix some fragments to a result. -/
def pre (frags : List Fragment) : Except ParseError (List Fragment) → Except ParseError (List Fragment)
  | .error e => .error e
  | .ok r => .ok (frags ++ r)

theorem pre_pre (a b x) : pre a (pre b x) = pre (a ++ b) x := by cases x <;> simp [pre]

/-- Contents that are accepted between braces contain no opening brace. -/
theorem parseParam_content {l h} (hp : parseParam l = .ok h) : l = hintText h := by
  unfold parseParam at hp
  split at hp
  · repeat' (split at hp)
    all_goals first | (simp_all [hintText]; done) | (cases hp; simp_all [hintText])
  · cases hp; rfl
  · cases hp

theorem hintText_parse (h : Hint) : parseParam (hintText h) = .ok h := by cases h <;> rfl

theorem hintText_noOpen (h : Hint) : '{' ∉ hintText h := by cases h <;> decide
theorem hintText_noClose (h : Hint) : '}' ∉ hintText h := by cases h <;> decide

/-- Inside a parameter that has been read, the loop only moves forward. -/
theorem parseLoop_skip (s : List Char) (skip rest : List Char) (pos : Nat) (frags) (e : Nat)
    (hno : '{' ∉ skip) :
    parseLoop s (skip ++ rest) pos e frags = parseLoop s rest (pos + skip.length) e frags := by
  induction skip generalizing pos with
  | nil => simp
  | cons c cs ih =>
    have hc : c ≠ '{' := fun h => hno (by simp [h])
    have hcs : '{' ∉ cs := fun h => hno (by simp [h])
    rw [List.cons_append, parseLoop_ne _ _ _ _ _ hc, ih _ hcs]
    simp only [List.length_cons]
    congr 1; omega

theorem findIdx_split {l : List Char} {len} (h : l.findIdx? (· = '}') = some len) :
    len < l.length ∧ l = l.take len ++ '}' :: l.drop (len + 1) := by
  rw [List.findIdx?_eq_some_iff_getElem] at h
  obtain ⟨hl, h1, _⟩ := h
  refine ⟨hl, ?_⟩
  have : l[len] = '}' := by simpa using h1
  rw [← this, List.getElem_cons_drop, List.take_append_drop]

theorem parseLoop_mach (s : List Char) : ∀ (n : Nat) (chars before : List Char) (endPos : Nat) (frags),
    chars.length ≤ n → s = before ++ chars → endPos ≤ before.length →
    parseLoop s chars before.length endPos frags = pre frags (mach (before.drop endPos) chars) := by
  intro n
  induction n with
  | zero =>
    intro chars before endPos frags hn hs he
    have : chars = [] := List.length_eq_zero_iff.mp (by omega)
    subst this
    simp only [List.append_nil] at hs; subst hs
    rw [parseLoop, mach]
    by_cases h : endPos = s.length
    · simp [h, pre]
    · have : s.drop endPos ≠ [] := by
        intro hd; have := congrArg List.length hd; simp at this; omega
      rw [if_pos h, if_neg this, pushLiteral_frags]
      cases pushLiteral [] (s.drop endPos) <;> rfl
  | succ n ih =>
    intro chars before endPos frags hn hs he
    cases chars with
    | nil =>
      simp only [List.append_nil] at hs; subst hs
      rw [parseLoop, mach]
      by_cases h : endPos = s.length
      · simp [h, pre]
      · have : s.drop endPos ≠ [] := by
          intro hd; have := congrArg List.length hd; simp at this; omega
        rw [if_pos h, if_neg this, pushLiteral_frags]
        cases pushLiteral [] (s.drop endPos) <;> rfl
    | cons c rest =>
      have hdrop : ∀ (x : List Char), (before ++ x).drop endPos = before.drop endPos ++ x :=
        fun x => List.drop_append_of_le_length he
      by_cases hc : c = '{'
      · subst hc
        -- what happens after the parameter
        have key : (¬ ∃ r', rest = '{' :: r') →
            parseLoop s ('{' :: rest) before.length endPos frags =
              pre frags (mach (before.drop endPos) ('{' :: rest)) := by
          intro hnot
          rw [parseLoop_param _ _ _ _ _ hnot, mach_param _ _ hnot]
          · have hlit : literalBefore s before.length endPos frags =
                pre frags (if before.drop endPos = [] then .ok [] else pushLiteral [] (before.drop endPos)) := by
              unfold literalBefore
              by_cases hb : before.length > endPos
              · have hne : before.drop endPos ≠ [] := by
                  intro hd; have := congrArg List.length hd; simp at this; omega
                have hsl : (s.drop endPos).take (before.length - endPos) = before.drop endPos := by
                  rw [hs, hdrop, List.take_append_of_le_length (by simp)]
                  rw [List.take_of_length_le (by simp)]
                rw [if_pos hb, if_neg hne, hsl, pushLiteral_frags]
                cases pushLiteral [] (before.drop endPos) <;> rfl
              · have hne : before.drop endPos = [] := List.drop_eq_nil_of_le (by omega)
                rw [if_neg hb, if_pos hne]; simp [pre]
            rw [hlit]
            cases hpl : (if before.drop endPos = [] then .ok [] else pushLiteral [] (before.drop endPos) : Except ParseError (List Fragment)) with
            | error e => simp [pre]
            | ok lf =>
              simp only [pre]
              cases hf : rest.findIdx? (· = '}') with
              | none => simp [pre]
              | some len =>
                simp only
                obtain ⟨hlen, hsplit⟩ := findIdx_split hf
                have hs' : (s.drop (before.length + 1)).take len = rest.take len := by
                  rw [hs]
                  rw [show before ++ '{' :: rest = (before ++ ['{']) ++ rest by simp]
                  rw [List.drop_left' (by simp)]
                rw [hs']
                cases hp : parseParam (rest.take len) with
                | error e => simp [pre]
                | ok h =>
                  simp only
                  have hcont := parseParam_content hp
                  have hno : '{' ∉ rest.take len ++ ['}'] := by
                    rw [hcont]; simp [hintText_noOpen]
                  have hb' : s = (before ++ '{' :: (rest.take len ++ ['}'])) ++ rest.drop (len + 1) := by
                    rw [hs]; conv => lhs; rw [hsplit]
                    simp
                  have hl' : (before ++ '{' :: (rest.take len ++ ['}'])).length = before.length + 1 + len + 1 := by
                    simp [List.length_take]; omega
                  have hrest : rest = (rest.take len ++ ['}']) ++ rest.drop (len + 1) := by
                    conv => lhs; rw [hsplit]
                    simp
                  conv => lhs; rw [hrest]
                  rw [parseLoop_skip s _ _ _ _ _ hno]
                  have := ih (rest.drop (len + 1)) (before ++ '{' :: (rest.take len ++ ['}']))
                    (before.length + 1 + len + 1) (frags ++ lf ++ [.param h])
                    (by simp at hn ⊢; omega) hb' (by omega)
                  rw [hl'] at this
                  rw [show before.length + 1 + (List.take len rest ++ ['}']).length = before.length + 1 + len + 1 by
                    simp [List.length_take]; omega]
                  rw [this]
                  rw [List.drop_eq_nil_of_le (by omega)]
                  cases mach [] (rest.drop (len + 1)) <;> simp [pre]
        by_cases hr : ∃ r', rest = '{' :: r'
        · obtain ⟨r', rfl⟩ := hr
          rw [parseLoop_esc, mach_esc]
          have := ih r' (before ++ ['{', '{']) endPos frags (by simp at hn ⊢; omega)
            (by rw [hs]; simp) (by simp; omega)
          simp only [List.length_append, List.length_cons, List.length_nil] at this
          rw [this, hdrop]
        · exact key hr
      · rw [parseLoop_ne _ _ _ _ _ hc, mach_ne _ _ hc]
        have := ih rest (before ++ [c]) endPos frags (by simp at hn ⊢; omega)
          (by rw [hs]; simp) (by simp; omega)
        simp only [List.length_append, List.length_cons, List.length_nil] at this
        rw [this, hdrop]

theorem parse_eq_mach (s : List Char) : parse s = mach [] s := by
  have := parseLoop_mach s s.length s [] 0 [] (Nat.le_refl _) rfl (by simp)
  simp only [List.length_nil, List.drop_nil] at this
  unfold parse
  rw [this]
  cases mach [] s <;> simp [pre]

end Verif.Log
