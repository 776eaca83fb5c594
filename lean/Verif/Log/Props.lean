import Verif.Log.Parse
/-!
# C44: format strings parse to their meaning
-/
set_option linter.unusedSimpArgs false
set_option linter.unusedVariables false
namespace Verif.Log
open Spec

/-! ## Literals -/

theorem undouble_ne {b x : Char} (h : x ≠ b) (r : List Char) : undouble b (x :: r) = x :: undouble b r := by
  cases r with
  | nil => rfl
  | cons y r => rw [undouble, if_neg (fun hh => h hh.1)]

theorem undouble_pair (b : Char) (r : List Char) : undouble b (b :: b :: r) = b :: undouble b r := by
  rw [undouble, if_pos ⟨rfl, rfl⟩]

/-- A piece that is not a parameter. -/
def IsLit : Piece → Prop
  | .param _ => False
  | _ => True

/-- The text of literal pieces. -/
def plain : List Piece → List Char
  | [] => []
  | .chr c :: r => c :: plain r
  | .openBrace :: r => '{' :: plain r
  | .closeBrace :: r => '}' :: plain r
  | .param _ :: r => plain r

/-- Literal pieces after the first replacement. -/
def half : List Piece → List Char
  | [] => []
  | .chr c :: r => c :: half r
  | .openBrace :: r => '{' :: half r
  | .closeBrace :: r => '}' :: '}' :: half r
  | .param _ :: r => half r

theorem undouble_open : ∀ (ps : List Piece), (∀ p ∈ ps, IsLit p ∧ p.Ordinary) →
    undouble '{' (written ps) = half ps
  | [], _ => rfl
  | .chr c :: r, h => by
    have hc : c ≠ '{' := (h _ (List.mem_cons_self ..)).2.1
    have := undouble_open r (fun p hp => h p (List.mem_cons_of_mem _ hp))
    rw [show written (.chr c :: r) = c :: written r from rfl, undouble_ne hc, this]; rfl
  | .openBrace :: r, h => by
    have := undouble_open r (fun p hp => h p (List.mem_cons_of_mem _ hp))
    rw [show written (.openBrace :: r) = '{' :: '{' :: written r from rfl, undouble_pair, this]; rfl
  | .closeBrace :: r, h => by
    have := undouble_open r (fun p hp => h p (List.mem_cons_of_mem _ hp))
    rw [show written (.closeBrace :: r) = '}' :: '}' :: written r from rfl, undouble_ne (by decide),
      undouble_ne (by decide), this]; rfl
  | .param x :: r, h => absurd (h _ (List.mem_cons_self ..)).1 (by simp [IsLit])

theorem undouble_close : ∀ (ps : List Piece), (∀ p ∈ ps, IsLit p ∧ p.Ordinary) →
    undouble '}' (half ps) = plain ps
  | [], _ => rfl
  | .chr c :: r, h => by
    have hc : c ≠ '}' := (h _ (List.mem_cons_self ..)).2.2
    have := undouble_close r (fun p hp => h p (List.mem_cons_of_mem _ hp))
    rw [half, undouble_ne hc, this]; rfl
  | .openBrace :: r, h => by
    have := undouble_close r (fun p hp => h p (List.mem_cons_of_mem _ hp))
    rw [half, undouble_ne (by decide), this]; rfl
  | .closeBrace :: r, h => by
    have := undouble_close r (fun p hp => h p (List.mem_cons_of_mem _ hp))
    rw [half, undouble_pair, this]; rfl
  | .param x :: r, h => absurd (h _ (List.mem_cons_self ..)).1 (by simp [IsLit])

theorem scanBraces_written : ∀ (ps : List Piece), (∀ p ∈ ps, IsLit p ∧ p.Ordinary) →
    scanBraces (written ps) false false = .ok ()
  | [], _ => rfl
  | .chr c :: r, h => by
    have hc := (h _ (List.mem_cons_self ..)).2
    have := scanBraces_written r (fun p hp => h p (List.mem_cons_of_mem _ hp))
    rw [show written (.chr c :: r) = c :: written r from rfl, scanBraces, if_neg hc.1, if_neg hc.2]
    simpa using this
  | .openBrace :: r, h => by
    have := scanBraces_written r (fun p hp => h p (List.mem_cons_of_mem _ hp))
    rw [show written (.openBrace :: r) = '{' :: '{' :: written r from rfl]
    simpa [scanBraces] using this
  | .closeBrace :: r, h => by
    have := scanBraces_written r (fun p hp => h p (List.mem_cons_of_mem _ hp))
    rw [show written (.closeBrace :: r) = '}' :: '}' :: written r from rfl]
    simpa [scanBraces] using this
  | .param x :: r, h => absurd (h _ (List.mem_cons_self ..)).1 (by simp [IsLit])

theorem pushLiteral_written (ps : List Piece) (h : ∀ p ∈ ps, IsLit p ∧ p.Ordinary) :
    pushLiteral [] (written ps) = .ok [.literal (plain ps)] := by
  unfold pushLiteral
  rw [scanBraces_written ps h, undouble_open ps h, undouble_close ps h]; rfl

/-- The meaning of literal pieces before a parameter or the end. -/
theorem meaning_lit : ∀ (lps r : List Piece), (∀ p ∈ lps, IsLit p ∧ p.Ordinary) →
    (∀ s r', meaning r ≠ .literal s :: r') →
    meaning (lps ++ r) = (if lps = [] then [] else [.literal (plain lps)]) ++ meaning r
  | [], r, _, _ => by simp
  | p :: ps, r, h, hr => by
    have ih := meaning_lit ps r (fun q hq => h q (List.mem_cons_of_mem _ hq)) hr
    have hadd : ∀ c, addChar c (meaning (ps ++ r)) = .literal (c :: plain ps) :: meaning r := by
      intro c
      rw [ih]
      cases ps with
      | nil =>
        simp only [if_true, List.nil_append, plain]
        cases hm : meaning r with
        | nil => rfl
        | cons f fs =>
          cases f with
          | literal s => exact absurd hm (hr s fs)
          | param x => rfl
      | cons q qs => simp [addChar]
    cases p with
    | chr c => simp [meaning, plain, hadd]
    | openBrace => simp [meaning, plain, hadd]
    | closeBrace => simp [meaning, plain, hadd]
    | param x => exact absurd (h _ (List.mem_cons_self ..)).1 (by simp [IsLit])

theorem written_append (a b : List Piece) : written (a ++ b) = written a ++ written b := by
  simp [written]

theorem written_eq_nil (ps : List Piece) : written ps = [] ↔ ps = [] := by
  constructor
  · intro h
    cases ps with
    | nil => rfl
    | cons p r => cases p <;> simp [written, Piece.written] at h
  · rintro rfl; rfl

theorem findIdx_param (h : Hint) (r : List Char) :
    (hintText h ++ '}' :: r).findIdx? (· = '}') = some (hintText h).length := by
  cases h <;> simp [hintText, List.findIdx?_cons]

theorem hintText_head (h : Hint) (r : List Char) : ¬ ∃ r', hintText h ++ '}' :: r = '{' :: r' := by
  rintro ⟨r', hr⟩
  cases h <;> simp [hintText] at hr

theorem mach_written : ∀ (ps lps : List Piece), (∀ p ∈ ps, p.Ordinary) →
    (∀ p ∈ lps, IsLit p ∧ p.Ordinary) → mach (written lps) (written ps) = .ok (meaning (lps ++ ps))
  | [], lps, _, hl => by
    rw [show written ([] : List Piece) = [] from rfl, mach]
    have hm := meaning_lit lps [] hl (by simp [meaning])
    rw [hm]
    by_cases h : lps = []
    · simp [h, written, meaning]
    · rw [if_neg (fun hh => h ((written_eq_nil lps).mp hh)), pushLiteral_written lps hl, if_neg h]
      simp [meaning]
  | .chr c :: r, lps, ho, hl => by
    have hc : c ≠ '{' ∧ c ≠ '}' := ho _ (List.mem_cons_self ..)
    have ih := mach_written r (lps ++ [.chr c]) (fun p hp => ho p (List.mem_cons_of_mem _ hp)) (by
      intro p hp
      rcases List.mem_append.mp hp with h | h
      · exact hl p h
      · simp at h; subst h; exact ⟨trivial, hc⟩)
    rw [show written (.chr c :: r) = c :: written r from rfl, mach_ne _ _ hc.1]
    rw [written_append] at ih
    rw [show written [.chr c] = [c] from rfl] at ih
    rw [ih]; simp
  | .openBrace :: r, lps, ho, hl => by
    have ih := mach_written r (lps ++ [.openBrace]) (fun p hp => ho p (List.mem_cons_of_mem _ hp)) (by
      intro p hp
      rcases List.mem_append.mp hp with h | h
      · exact hl p h
      · simp at h; subst h; exact ⟨trivial, trivial⟩)
    rw [show written (.openBrace :: r) = '{' :: '{' :: written r from rfl, mach_esc]
    rw [written_append] at ih
    rw [show written [.openBrace] = ['{', '{'] from rfl] at ih
    rw [ih]; simp
  | .closeBrace :: r, lps, ho, hl => by
    have ih := mach_written r (lps ++ [.closeBrace]) (fun p hp => ho p (List.mem_cons_of_mem _ hp)) (by
      intro p hp
      rcases List.mem_append.mp hp with h | h
      · exact hl p h
      · simp at h; subst h; exact ⟨trivial, trivial⟩)
    rw [show written (.closeBrace :: r) = '}' :: '}' :: written r from rfl, mach_ne _ _ (by decide),
      mach_ne _ _ (by decide)]
    rw [written_append] at ih
    rw [show written [.closeBrace] = ['}', '}'] from rfl] at ih
    rw [List.append_assoc]
    rw [show ['}'] ++ ['}'] = ['}', '}'] from rfl, ih]; simp
  | .param h :: r, lps, ho, hl => by
    have ih := mach_written r [] (fun p hp => ho p (List.mem_cons_of_mem _ hp)) (by simp)
    rw [show written ([] : List Piece) = [] from rfl] at ih
    have hw : written (.param h :: r) = '{' :: (hintText h ++ '}' :: written r) := by
      simp [written, Piece.written]
    have hm := meaning_lit lps (.param h :: r) hl (by simp [meaning])
    rw [hw, mach_param _ _ (hintText_head h _), findIdx_param]
    simp only
    rw [List.take_left' rfl, hintText_parse]
    simp only
    rw [show List.drop ((hintText h).length + 1) (hintText h ++ '}' :: written r) = written r by
      rw [List.drop_append]; simp]
    rw [ih, hm]
    by_cases hz : lps = []
    · simp [hz, written, meaning]
    · rw [if_neg (fun hh => hz ((written_eq_nil lps).mp hh)), pushLiteral_written lps hl, if_neg hz]
      simp [meaning]

/-- **C44** Every format string made of ordinary characters, `{{`, `}}` and parameters with one of the
seven hints is accepted, and parses to its meaning: the literal texts, with `{{` and `}}` standing for
one brace, and the parameters with their hints, in order. -/
theorem C44_parses (ps : List Piece) (h : ∀ p ∈ ps, p.Ordinary) :
    parse (written ps) = .ok (meaning ps) := by
  rw [parse_eq_mach]
  have := mach_written ps [] h (by simp)
  simpa [written] using this

/-- `a{{{:x}}}b{}` -/
def exPieces : List Piece :=
  [.chr 'a', .openBrace, .param .lowerHex, .closeBrace, .chr 'b', .param .dflt]

example : (∀ p ∈ exPieces, p.Ordinary) ∧ written exPieces = "a{{{:x}}}b{}".toList ∧
    parse (written exPieces) =
      .ok [.literal ['a', '{'], .param .lowerHex, .literal ['}', 'b'], .param .dflt] := by
  refine ⟨by decide, by decide, ?_⟩
  rw [C44_parses _ (by decide)]; decide

/-! ## Only such strings, but for closing braces around `{{` -/

/-- What the scanner sees of a literal: a character that is not `{`, or `{{`. -/
inductive Tok where
  | ch (c : Char)
  | esc
deriving DecidableEq, Repr

/-- The characters of tokens. -/
def tokText (ts : List Tok) : List Char :=
  ts.flatMap fun t => match t with
    | .ch c => [c]
    | .esc => ['{', '{']

/-- A token after the first replacement. -/
def tokChar : Tok → Char
  | .ch c => c
  | .esc => '{'

/-- Tokens after the first replacement. -/
def tokHalf (ts : List Tok) : List Char := ts.map tokChar

/-- No token is an opening brace. -/
def TokOk (ts : List Tok) : Prop := ∀ t ∈ ts, t ≠ .ch '{'

/-- Tokens as pieces: closing braces are paired from the left. -/
def toLoose : List Tok → List Loose
  | .ch '}' :: .ch '}' :: r => some .closeBrace :: toLoose r
  | .ch '}' :: r => none :: toLoose r
  | .ch c :: r => some (.chr c) :: toLoose r
  | .esc :: r => some .openBrace :: toLoose r
  | [] => []

theorem tokOk_cons {t ts} (h : TokOk (t :: ts)) : TokOk ts := fun x hx => h x (List.mem_cons_of_mem _ hx)

theorem undouble_tok : ∀ (ts : List Tok), TokOk ts → undouble '{' (tokText ts) = tokHalf ts
  | [], _ => rfl
  | .ch c :: r, h => by
    have hc : c ≠ '{' := fun hc => h _ (List.mem_cons_self ..) (by rw [hc])
    have ih := undouble_tok r (tokOk_cons h)
    rw [show tokText (.ch c :: r) = c :: tokText r from rfl, undouble_ne hc, ih]; rfl
  | .esc :: r, h => by
    have ih := undouble_tok r (tokOk_cons h)
    rw [show tokText (.esc :: r) = '{' :: '{' :: tokText r from rfl, undouble_pair, ih]; rfl

/-- The scan of tokens only counts closing braces. -/
def scanTok : List Tok → Bool → Bool
  | [], w => !w
  | .esc :: r, w => scanTok r w
  | .ch c :: r, w => if c = '}' then scanTok r (!w) else !w && scanTok r false

theorem scanBraces_tok : ∀ (ts : List Tok) (w : Bool), TokOk ts →
    (scanBraces (tokText ts) false w = .ok () ↔ scanTok ts w = true)
  | [], w, _ => by cases w <;> simp [tokText, scanBraces, scanTok]
  | .ch c :: r, w, h => by
    have hc : c ≠ '{' := fun hc => h _ (List.mem_cons_self ..) (by rw [hc])
    rw [show tokText (.ch c :: r) = c :: tokText r from rfl, scanBraces, if_neg hc, scanTok]
    by_cases hd : c = '}'
    · rw [if_pos hd, if_pos hd]; exact scanBraces_tok r _ (tokOk_cons h)
    · rw [if_neg hd, if_neg hd]
      cases w
      · simpa using scanBraces_tok r false (tokOk_cons h)
      · simp
  | .esc :: r, w, h => by
    rw [show tokText (.esc :: r) = '{' :: '{' :: tokText r from rfl]
    simp only [scanBraces, if_true, Bool.not_false, Bool.not_true, scanTok]
    exact scanBraces_tok r w (tokOk_cons h)

theorem toLoose_ne {c : Char} (h : c ≠ '}') (r) : toLoose (.ch c :: r) = some (.chr c) :: toLoose r := by
  rw [toLoose.eq_def]
  split <;> simp_all

theorem toLoose_one {r : List Tok} (h : ∀ r', r ≠ .ch '}' :: r') :
    toLoose (.ch '}' :: r) = none :: toLoose r := by
  cases r with
  | nil => rfl
  | cons t ts =>
    rw [toLoose.eq_def]
    split
    · rename_i heq; injection heq with _ h2; exact absurd h2 (h _)
    · rename_i heq; injection heq with _ h2; subst h2; rfl
    · rename_i hne heq; injection heq with h1 h2; injection h1 with h1; exact absurd h1.symm (by simpa using hne)
    all_goals (rename_i heq; cases heq)

/-- The text of loose literal pieces. -/
def loosePlain (qs : List Loose) : List Char :=
  qs.map fun q => match q with
    | some (.chr c) => c
    | some .openBrace => '{'
    | some .closeBrace => '}'
    | _ => '}'

theorem toLoose_head (ts : List Tok) (h : ∀ r', ts ≠ .ch '}' :: r') :
    (toLoose ts).head? ≠ some none ∧ (toLoose ts).head? ≠ some (some .closeBrace) := by
  cases ts with
  | nil => simp [toLoose]
  | cons t r =>
    cases t with
    | esc => simp [toLoose]
    | ch c =>
      have hc : c ≠ '}' := fun hc => h r (by rw [hc])
      rw [toLoose_ne hc]; simp

theorem toLoose_spec : ∀ (n : Nat) (ts : List Tok) (w : Bool), ts.length ≤ n → TokOk ts →
    looseWritten (toLoose ts) = tokText ts ∧ undouble '}' (tokHalf ts) = loosePlain (toLoose ts) ∧
    (∀ q ∈ toLoose ts, ∀ h, q ≠ some (.param h)) ∧
    (scanTok ts w = true → Paired w (toLoose ts)) := by
  intro n
  induction n with
  | zero =>
    intro ts w hn _
    have : ts = [] := List.length_eq_zero_iff.mp (by omega)
    subst this
    cases w <;> simp [toLoose, looseWritten, tokText, tokHalf, undouble, loosePlain, scanTok, Paired]
  | succ n ih =>
    intro ts w hn hok
    match ts with
    | [] => cases w <;> simp [toLoose, looseWritten, tokText, tokHalf, undouble, loosePlain, scanTok, Paired]
    | .esc :: r =>
      obtain ⟨h1, h2, h3, h4⟩ := ih r w (by simp at hn; omega) (tokOk_cons hok)
      refine ⟨?_, ?_, ?_, ?_⟩
      · show '{' :: '{' :: looseWritten (toLoose r) = _
        rw [h1]; rfl
      · show undouble '}' ('{' :: tokHalf r) = '{' :: loosePlain (toLoose r)
        rw [undouble_ne (by decide), h2]
      · intro q hq h
        simp only [toLoose, List.mem_cons] at hq
        rcases hq with rfl | hq
        · simp
        · exact h3 q hq h
      · intro hs; exact h4 hs
    | .ch c :: r =>
      by_cases hc : c = '}'
      · subst hc
        by_cases hr : ∃ r', r = .ch '}' :: r'
        · obtain ⟨r', rfl⟩ := hr
          obtain ⟨h1, h2, h3, h4⟩ := ih r' w (by simp at hn; omega) (tokOk_cons (tokOk_cons hok))
          refine ⟨?_, ?_, ?_, ?_⟩
          · show '}' :: '}' :: looseWritten (toLoose r') = _
            rw [h1]; rfl
          · show undouble '}' ('}' :: '}' :: tokHalf r') = '}' :: loosePlain (toLoose r')
            rw [undouble_pair, h2]
          · intro q hq h
            simp only [toLoose, List.mem_cons] at hq
            rcases hq with rfl | hq
            · simp
            · exact h3 q hq h
          · intro hs
            simp only [scanTok, if_true, Bool.not_not] at hs
            exact h4 hs
        · have hr' : ∀ r', r ≠ .ch '}' :: r' := fun r' h => hr ⟨r', h⟩
          obtain ⟨h1, h2, h3, h4⟩ := ih r (!w) (by simp at hn; omega) (tokOk_cons hok)
          rw [toLoose_one hr']
          refine ⟨?_, ?_, ?_, ?_⟩
          · show '}' :: looseWritten (toLoose r) = _
            rw [h1]; rfl
          · show undouble '}' ('}' :: tokHalf r) = '}' :: loosePlain (toLoose r)
            rw [← h2]
            cases r with
            | nil => rfl
            | cons t ts =>
              have : tokChar t ≠ '}' := by
                cases t with
                | esc => decide
                | ch d => exact fun h => hr' ts (by rw [show d = '}' from h])
              show undouble '}' ('}' :: tokChar t :: tokHalf ts) = '}' :: undouble '}' (tokChar t :: tokHalf ts)
              rw [undouble, if_neg (fun hh => this hh.2)]
          · intro q hq h
            simp only [List.mem_cons] at hq
            rcases hq with rfl | hq
            · simp
            · exact h3 q hq h
          · intro hs
            simp only [scanTok, if_true] at hs
            exact ⟨(toLoose_head r hr').1, (toLoose_head r hr').2, h4 hs⟩
      · obtain ⟨h1, h2, h3, h4⟩ := ih r false (by simp at hn; omega) (tokOk_cons hok)
        have hc' : c ≠ '{' := fun h => hok _ (List.mem_cons_self ..) (by rw [h])
        rw [toLoose_ne hc]
        refine ⟨?_, ?_, ?_, ?_⟩
        · show c :: looseWritten (toLoose r) = _
          rw [h1]; rfl
        · show undouble '}' (c :: tokHalf r) = c :: loosePlain (toLoose r)
          rw [undouble_ne hc, h2]
        · intro q hq h
          simp only [List.mem_cons] at hq
          rcases hq with rfl | hq
          · simp
          · exact h3 q hq h
        · intro hs
          simp only [scanTok, if_neg hc, Bool.and_eq_true, Bool.not_eq_true'] at hs
          exact ⟨hs.1, hc', hc, h4 hs.2⟩

/-- A literal that is accepted. -/
theorem pushLiteral_tok {ts : List Tok} {fs} (hok : TokOk ts)
    (h : pushLiteral [] (tokText ts) = .ok fs) :
    fs = [.literal (loosePlain (toLoose ts))] ∧ Paired false (toLoose ts) := by
  unfold pushLiteral at h
  cases hs : scanBraces (tokText ts) false false with
  | error e => rw [hs] at h; cases h
  | ok u =>
    rw [hs] at h
    have hsc := (scanBraces_tok ts false hok).mp (by rw [hs])
    obtain ⟨_, h2, _, h4⟩ := toLoose_spec ts.length ts false (Nat.le_refl _) hok
    rw [undouble_tok ts hok, h2] at h
    simp only [List.nil_append, Except.ok.injEq] at h
    exact ⟨h.symm, h4 hsc⟩

theorem looseMeaning_lit : ∀ (lq r : List Loose), (∀ q ∈ lq, ∀ h, q ≠ some (.param h)) →
    (∀ s r', looseMeaning r ≠ .literal s :: r') →
    looseMeaning (lq ++ r) = (if lq = [] then [] else [.literal (loosePlain lq)]) ++ looseMeaning r
  | [], r, _, _ => by simp
  | p :: ps, r, h, hr => by
    have ih := looseMeaning_lit ps r (fun q hq => h q (List.mem_cons_of_mem _ hq)) hr
    have hadd : ∀ c, addChar c (looseMeaning (ps ++ r)) = .literal (c :: loosePlain ps) :: looseMeaning r := by
      intro c
      rw [ih]
      cases ps with
      | nil =>
        simp only [if_true, List.nil_append, loosePlain, List.map_nil]
        cases hm : looseMeaning r with
        | nil => rfl
        | cons f fs =>
          cases f with
          | literal s => exact absurd hm (hr s fs)
          | param x => rfl
      | cons q qs => simp [addChar]
    match p, h with
    | none, _ => simp only [List.cons_append, looseMeaning, hadd]; simp [loosePlain]
    | some (.chr c), _ => simp only [List.cons_append, looseMeaning, hadd]; simp [loosePlain]
    | some .openBrace, _ => simp only [List.cons_append, looseMeaning, hadd]; simp [loosePlain]
    | some .closeBrace, _ => simp only [List.cons_append, looseMeaning, hadd]; simp [loosePlain]
    | some (.param x), h => exact absurd rfl (h _ (List.mem_cons_self ..) x)

theorem paired_append : ∀ (lq r : List Loose) (w : Bool), (∀ q ∈ lq, ∀ h, q ≠ some (.param h)) →
    Paired w lq → Paired false r → r.head? ≠ some none → r.head? ≠ some (some .closeBrace) →
    Paired w (lq ++ r)
  | [], r, w, _, h1, h2, _, _ => by simp only [Paired] at h1; subst h1; exact h2
  | p :: ps, r, w, h, h1, h2, h3, h4 => by
    have hps : ∀ q ∈ ps, ∀ h, q ≠ some (.param h) := fun q hq => h q (List.mem_cons_of_mem _ hq)
    match p, h, h1 with
    | none, _, h1 =>
      obtain ⟨a, b, c⟩ := h1
      refine ⟨?_, ?_, paired_append ps r _ hps c h2 h3 h4⟩
      · cases ps with
        | nil => exact h3
        | cons q qs => simpa using a
      · cases ps with
        | nil => exact h4
        | cons q qs => simpa using b
    | some (.chr c), _, h1 =>
      exact ⟨h1.1, h1.2.1, h1.2.2.1, paired_append ps r _ hps h1.2.2.2 h2 h3 h4⟩
    | some .openBrace, _, h1 => exact paired_append ps r w hps h1 h2 h3 h4
    | some .closeBrace, _, h1 => exact paired_append ps r w hps h1 h2 h3 h4
    | some (.param x), h, _ => exact absurd rfl (h _ (List.mem_cons_self ..) x)

theorem tokText_append (a b : List Tok) : tokText (a ++ b) = tokText a ++ tokText b := by simp [tokText]
theorem looseWritten_append (a b : List Loose) : looseWritten (a ++ b) = looseWritten a ++ looseWritten b := by
  simp [looseWritten]

theorem tokText_nil (ts : List Tok) : tokText ts = [] ↔ ts = [] := by
  constructor
  · intro h
    cases ts with
    | nil => rfl
    | cons t r => cases t <;> simp [tokText] at h
  · rintro rfl; rfl

theorem toLoose_nil (ts : List Tok) (hok : TokOk ts) : toLoose ts = [] ↔ ts = [] := by
  constructor
  · intro h
    have := (toLoose_spec ts.length ts false (Nat.le_refl _) hok).1
    rw [h] at this
    exact (tokText_nil ts).mp this.symm
  · rintro rfl; rfl

/-- The pending literal at the end or before a parameter. -/
theorem pending {ts : List Tok} {lf} (hok : TokOk ts)
    (h : (if tokText ts = [] then .ok [] else pushLiteral [] (tokText ts) : Except ParseError _) = .ok lf) :
    lf = (if toLoose ts = [] then [] else [.literal (loosePlain (toLoose ts))]) ∧
      Paired false (toLoose ts) := by
  by_cases hz : ts = []
  · subst hz
    simp [tokText] at h
    subst h
    exact ⟨by simp [toLoose], rfl⟩
  · rw [if_neg (fun hh => hz ((tokText_nil ts).mp hh))] at h
    obtain ⟨a, b⟩ := pushLiteral_tok hok h
    rw [if_neg (fun hh => hz ((toLoose_nil ts hok).mp hh))]
    exact ⟨a, b⟩

theorem mach_sound : ∀ (n : Nat) (chars : List Char) (ts : List Tok) (fs), chars.length ≤ n → TokOk ts →
    mach (tokText ts) chars = .ok fs →
    ∃ qs, looseWritten qs = tokText ts ++ chars ∧ Paired false qs ∧ looseMeaning qs = fs := by
  intro n
  induction n with
  | zero =>
    intro chars ts fs hn hok h
    have : chars = [] := List.length_eq_zero_iff.mp (by omega)
    subst this
    rw [mach] at h
    obtain ⟨a, b⟩ := pending hok h
    obtain ⟨h1, _, h3, _⟩ := toLoose_spec ts.length ts false (Nat.le_refl _) hok
    refine ⟨toLoose ts, by rw [h1]; simp, b, ?_⟩
    have := looseMeaning_lit (toLoose ts) [] h3 (by simp [looseMeaning])
    simp only [List.append_nil, looseMeaning] at this
    rw [this, a]
  | succ n ih =>
    intro chars ts fs hn hok h
    cases chars with
    | nil =>
      rw [mach] at h
      obtain ⟨a, b⟩ := pending hok h
      obtain ⟨h1, _, h3, _⟩ := toLoose_spec ts.length ts false (Nat.le_refl _) hok
      refine ⟨toLoose ts, by rw [h1]; simp, b, ?_⟩
      have := looseMeaning_lit (toLoose ts) [] h3 (by simp [looseMeaning])
      simp only [List.append_nil, looseMeaning] at this
      rw [this, a]
    | cons c rest =>
      by_cases hc : c = '{'
      · subst hc
        by_cases hr : ∃ r', rest = '{' :: r'
        · obtain ⟨r', rfl⟩ := hr
          rw [mach_esc] at h
          have := ih r' (ts ++ [.esc]) fs (by simp at hn; omega) (by
            intro t ht
            rcases List.mem_append.mp ht with h | h
            · exact hok t h
            · simp at h; subst h; simp) (by rw [tokText_append]; exact h)
          obtain ⟨qs, h1, h2, h3⟩ := this
          exact ⟨qs, by rw [h1, tokText_append]; simp [tokText], h2, h3⟩
        · rw [mach_param _ _ hr] at h
          cases hl : (if tokText ts = [] then .ok [] else pushLiteral [] (tokText ts) : Except ParseError (List Fragment)) with
          | error e => rw [hl] at h; cases h
          | ok lf =>
            rw [hl] at h
            simp only at h
            cases hf : rest.findIdx? (· = '}') with
            | none => rw [hf] at h; cases h
            | some len =>
              rw [hf] at h
              simp only at h
              cases hp : parseParam (rest.take len) with
              | error e => rw [hp] at h; cases h
              | ok hh =>
                rw [hp] at h
                simp only at h
                cases hm : mach [] (rest.drop (len + 1)) with
                | error e => rw [hm] at h; cases h
                | ok r =>
                  rw [hm] at h
                  simp only [Except.ok.injEq] at h
                  obtain ⟨hlen, hsplit⟩ := findIdx_split hf
                  obtain ⟨qs, h1, h2, h3⟩ := ih (rest.drop (len + 1)) [] r (by simp at hn ⊢; omega)
                    (by intro t ht; cases ht) (by simpa [tokText] using hm)
                  obtain ⟨a, b⟩ := pending hok hl
                  obtain ⟨g1, _, g3, _⟩ := toLoose_spec ts.length ts false (Nat.le_refl _) hok
                  refine ⟨toLoose ts ++ some (.param hh) :: qs, ?_, ?_, ?_⟩
                  · rw [looseWritten_append, g1]
                    show tokText ts ++ ('{' :: (hintText hh ++ ['}']) ++ looseWritten qs) = _
                    rw [h1, ← parseParam_content hp]
                    conv => rhs; rw [hsplit]
                    simp [tokText]
                  · exact paired_append _ _ _ g3 b ⟨rfl, h2⟩ (by simp) (by simp)
                  · rw [looseMeaning_lit _ _ g3 (by simp [looseMeaning]), looseMeaning, h3, ← h, a]
      · rw [mach_ne _ _ hc] at h
        have := ih rest (ts ++ [.ch c]) fs (by simp at hn; omega) (by
          intro t ht
          rcases List.mem_append.mp ht with h | h
          · exact hok t h
          · simp at h; subst h; simpa using hc) (by rw [tokText_append]; exact h)
        obtain ⟨qs, h1, h2, h3⟩ := this
        exact ⟨qs, by rw [h1, tokText_append]; simp [tokText], h2, h3⟩

/-- **C44 (partial)** Only such strings are accepted, except that single closing braces are let
through when they come two by two with escaped braces (and at least one `{{`) between them: an accepted
string is a sequence of ordinary characters, `{{`, `}}`, parameters with one of the seven hints, and such
pairs of closing braces, and parses to its meaning.  Missing: the pairs should be rejected as well
(`C44_stray_closers_violated`). -/
theorem C44_rejects_partial (s : List Char) (fs : List Fragment) (h : parse s = .ok fs) :
    ∃ qs : List Loose, looseWritten qs = s ∧ Paired false qs ∧ looseMeaning qs = fs := by
  rw [parse_eq_mach] at h
  obtain ⟨qs, h1, h2, h3⟩ := mach_sound s.length s [] fs (Nat.le_refl _) (by intro t ht; cases ht)
    (by simpa [tokText] using h)
  exact ⟨qs, by simpa [tokText] using h1, h2, h3⟩

/-- Without single closing braces such a sequence is a list of pieces. -/
theorem paired_pieces : ∀ (qs : List Loose) (w : Bool), Paired w qs → none ∉ qs →
    ∃ ps : List Piece, (∀ p ∈ ps, p.Ordinary) ∧ looseWritten qs = written ps ∧ looseMeaning qs = meaning ps
  | [], _, _, _ => ⟨[], by simp, rfl, rfl⟩
  | none :: r, _, _, h => absurd (List.mem_cons_self ..) h
  | some p :: r, w, h, hn => by
    have hn' : none ∉ r := fun hh => hn (List.mem_cons_of_mem _ hh)
    have key : ∀ w', Paired w' r → p.Ordinary → ∃ ps : List Piece, (∀ p ∈ ps, p.Ordinary) ∧
        looseWritten (some p :: r) = written ps ∧ looseMeaning (some p :: r) = meaning ps := by
      intro w' hw ho
      obtain ⟨ps, a, b, c⟩ := paired_pieces r w' hw hn'
      refine ⟨p :: ps, ?_, ?_, ?_⟩
      · intro q hq
        rcases List.mem_cons.mp hq with rfl | hq
        · exact ho
        · exact a q hq
      · show p.written ++ looseWritten r = p.written ++ written ps
        rw [b]
      · cases p <;> simp [looseMeaning, meaning, c]
    cases p with
    | chr c => exact key false h.2.2.2 ⟨h.2.1, h.2.2.1⟩
    | openBrace => exact key w h trivial
    | closeBrace => exact key w h trivial
    | param x => exact key false h.2 trivial

/-- The first single closing brace that is accepted is followed by `{{`. -/
theorem stray_context : ∀ (qs : List Loose), Paired false qs → none ∈ qs →
    ∃ a b : List Char, looseWritten qs = a ++ '}' :: '{' :: '{' :: b
  | [], _, h => by cases h
  | none :: r, h, _ => by
    obtain ⟨h1, h2, h3⟩ := h
    match r, h1, h2, h3 with
    | [], _, _, h3 => simp [Paired] at h3
    | none :: _, h1, _, _ => simp at h1
    | some .closeBrace :: _, _, h2, _ => simp at h2
    | some (.chr c) :: _, _, _, h3 => exact absurd h3.1 (by simp)
    | some (.param x) :: _, _, _, h3 => exact absurd h3.1 (by simp)
    | some .openBrace :: t, _, _, _ => exact ⟨[], looseWritten t, rfl⟩
  | some p :: r, h, hm => by
    have hm' : none ∈ r := by simpa using hm
    have hr : Paired false r := by
      cases p with
      | chr c => exact h.2.2.2
      | openBrace => exact h
      | closeBrace => exact h
      | param x => exact h.2
    obtain ⟨a, b, hab⟩ := stray_context r hr hm'
    refine ⟨p.written ++ a, b, ?_⟩
    show p.written ++ looseWritten r = _
    rw [hab]; simp

/-- **C44 (partial)** On strings in which no `}` is directly followed by `{{`, the parser accepts exactly
the strings made of ordinary characters, `{{`, `}}` and parameters with one of the seven hints. -/
theorem C44_exact_partial (s : List Char) (hs : ∀ a b, s ≠ a ++ '}' :: '{' :: '{' :: b)
    (fs : List Fragment) :
    parse s = .ok fs ↔ ∃ ps : List Piece, (∀ p ∈ ps, p.Ordinary) ∧ written ps = s ∧ meaning ps = fs := by
  constructor
  · intro h
    obtain ⟨qs, h1, h2, h3⟩ := C44_rejects_partial s fs h
    have hn : none ∉ qs := by
      intro hn
      obtain ⟨a, b, hab⟩ := stray_context qs h2 hn
      exact hs a b (by rw [← h1, hab])
    obtain ⟨ps, a, b, c⟩ := paired_pieces qs false h2 hn
    exact ⟨ps, a, by rw [← b, h1], by rw [← c, h3]⟩
  · rintro ⟨ps, h, rfl, rfl⟩
    exact C44_parses ps h

example : parse "{:x} is }".toList = .error .unmatchedClose ∧ parse "{:y}".toList = .error .unknownHint ∧
    parse "{x".toList = .error .missingClose ∧ parse "{a}".toList = .error .unexpectedContent ∧
    parse "{:}".toList = .error .missingHint ∧ parse "{{}".toList = .error .unmatchedClose ∧
    parse "{:x}, {{{:MAC}}}".toList = .ok [.param .lowerHex, .literal ", {".toList, .param .upperMac,
      .literal "}".toList] := by decide +kernel

/-- **C44 (violated)** The format string `}{{}` has two closing braces that are not doubled.  It is
accepted, as the text `}{}`. -/
theorem C44_stray_closers_violated :
    parse "}{{}".toList = .ok [.literal "}{}".toList] ∧
    ¬ ∃ ps : List Piece, (∀ p ∈ ps, p.Ordinary) ∧ written ps = "}{{}".toList := by
  refine ⟨by decide +kernel, ?_⟩
  rintro ⟨ps, ho, hw⟩
  match ps, ho, hw with
  | [], _, hw => simp [written] at hw
  | .chr c :: r, ho, hw =>
    have := ho _ (List.mem_cons_self ..)
    simp [written, Piece.written] at hw
    exact this.2 hw.1
  | .openBrace :: r, _, hw => simp [written, Piece.written] at hw
  | .closeBrace :: r, _, hw => simp [written, Piece.written] at hw
  | .param h :: r, _, hw => simp [written, Piece.written] at hw

end Verif.Log
