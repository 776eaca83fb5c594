/-!
# Strings as lists of characters, and Rust's string primitives

Models of the Rust standard library functions used by the modelled code: `str::split`,
`str::parse::<uN>()`, `uN::from_str_radix`, decimal/hex formatting. These are library semantics, not
aya code; they belong to the trusted reading of Rust.
-/
namespace Verif.Str

/-- `str::split(p)`: always at least one piece. -/
def splitBy (p : Char → Bool) : List Char → List (List Char)
  | [] => [[]]
  | c :: cs =>
    if p c then [] :: splitBy p cs
    else match splitBy p cs with
      | h :: t => (c :: h) :: t
      | [] => [[c]]

/-- Inverse of splitting: pieces joined with a separator. -/
def joinWith (sep : Char) : List (List Char) → List Char
  | [] => []
  | [x] => x
  | x :: y :: rest => x ++ sep :: joinWith sep (y :: rest)

/-- `char::to_digit(radix)` for radix at most 16. -/
def digitVal (radix : Nat) (c : Char) : Option Nat :=
  let v :=
    if '0' ≤ c ∧ c ≤ '9' then some (c.toNat - '0'.toNat)
    else if 'a' ≤ c ∧ c ≤ 'f' then some (c.toNat - 'a'.toNat + 10)
    else if 'A' ≤ c ∧ c ≤ 'F' then some (c.toNat - 'A'.toNat + 10)
    else none
  match v with
  | some d => if d < radix then some d else none
  | none => none

/-- Digit accumulation loop of `from_str_radix`. -/
def parseDigits (radix : Nat) : Nat → List Char → Option Nat
  | acc, [] => some acc
  | acc, c :: cs =>
    match digitVal radix c with
    | some d => parseDigits radix (acc * radix + d) cs
    | none => none

/-- `uN::from_str_radix(s, radix)`: an optional leading `+`, at least one digit, no overflow.
The overflow check is done once at the end, which accepts the same strings as checking after each
digit because the accumulator never decreases. -/
def parseUInt (radix bits : Nat) (s : List Char) : Option Nat :=
  match (if s.head? = some '+' then s.tail else s) with
  | [] => none
  | d :: ds =>
    match parseDigits radix 0 (d :: ds) with
    | some n => if n < 2 ^ bits then some n else none
    | none => none

/-- The character of a digit below 16 in lower case. -/
def digitChar (d : Nat) : Char :=
  if d < 10 then Char.ofNat (48 + d) else Char.ofNat (87 + d)

/-- `format!("{}", n)` / `format!("{:x}", n)`: digits of `n` in `radix`, most significant first. -/
def render (radix : Nat) (n : Nat) : List Char :=
  if h : 2 ≤ radix ∧ radix ≤ n then
    render radix (n / radix) ++ [digitChar (n % radix)]
  else [digitChar n]
termination_by n
decreasing_by exact Nat.div_lt_self (by omega) (by omega)

/-! ## Lemmas -/

theorem splitBy_ne_nil (p : Char → Bool) (s : List Char) : splitBy p s ≠ [] := by
  cases s with
  | nil => simp [splitBy]
  | cons c cs =>
    simp only [splitBy]
    split
    · simp
    · split <;> simp

theorem splitBy_none (p : Char → Bool) (s : List Char) (h : ∀ c ∈ s, p c = false) :
    splitBy p s = [s] := by
  induction s with
  | nil => rfl
  | cons c cs ih =>
    have hc : p c = false := h c (by simp)
    have := ih (fun d hd => h d (by simp [hd]))
    simp [splitBy, hc, this]

theorem splitBy_append_sep (p : Char → Bool) (s : List Char) (sep : Char) (t : List Char)
    (h : ∀ c ∈ s, p c = false) (hs : p sep = true) :
    splitBy p (s ++ sep :: t) = s :: splitBy p t := by
  induction s with
  | nil => simp [splitBy, hs]
  | cons c cs ih =>
    have hc : p c = false := h c (by simp)
    have := ih (fun d hd => h d (by simp [hd]))
    simp [splitBy, hc, this]

/-- Splitting undoes joining when the pieces do not contain separators. -/
theorem splitBy_joinWith (p : Char → Bool) (sep : Char) (hs : p sep = true) :
    ∀ (parts : List (List Char)), parts ≠ [] → (∀ x ∈ parts, ∀ c ∈ x, p c = false) →
      splitBy p (joinWith sep parts) = parts
  | [], h, _ => absurd rfl h
  | [x], _, hx => by
    simpa [joinWith] using splitBy_none p x (hx x (by simp))
  | x :: y :: rest, _, hx => by
    have ih := splitBy_joinWith p sep hs (y :: rest) (by simp) (fun z hz => hx z (by simp [hz]))
    simp only [joinWith]
    rw [splitBy_append_sep p x sep _ (hx x (by simp)) hs, ih]

/-- Joining undoes splitting at a single separator. -/
theorem joinWith_splitBy (sep : Char) (s : List Char) :
    joinWith sep (splitBy (· == sep) s) = s := by
  induction s with
  | nil => rfl
  | cons c cs ih =>
    simp only [splitBy]
    split
    · rename_i h
      have hc : c = sep := by simpa using h
      cases hs : splitBy (· == sep) cs with
      | nil => exact absurd hs (splitBy_ne_nil _ _)
      | cons a b => rw [hs] at ih; simp [joinWith, ih, hc]
    · cases hs : splitBy (· == sep) cs with
      | nil => exact absurd hs (splitBy_ne_nil _ _)
      | cons a b =>
        rw [hs] at ih
        cases b with
        | nil => simp [joinWith] at ih ⊢; exact ih
        | cons b bs => simp [joinWith] at ih ⊢; exact ih

theorem digitVal_digitChar (radix d : Nat) (hr : radix ≤ 16) (h : d < radix) :
    digitVal radix (digitChar d) = some d := by
  have h16 : d < 16 := by omega
  have key : ∀ d : Fin 16, digitVal 16 (digitChar d.1) = some d.1 := by decide +kernel
  have k := key ⟨d, h16⟩
  simp only [digitVal] at k ⊢
  generalize (if '0' ≤ digitChar d ∧ digitChar d ≤ '9' then some ((digitChar d).toNat - '0'.toNat)
    else if 'a' ≤ digitChar d ∧ digitChar d ≤ 'f' then some ((digitChar d).toNat - 'a'.toNat + 10)
    else if 'A' ≤ digitChar d ∧ digitChar d ≤ 'F' then some ((digitChar d).toNat - 'A'.toNat + 10)
    else none) = v at k
  cases v with
  | none => simp at k
  | some e =>
    simp at k
    simp [k, h]

theorem parseDigits_append (radix : Nat) (acc : Nat) (s t : List Char) :
    parseDigits radix acc (s ++ t) = (parseDigits radix acc s).bind (fun a => parseDigits radix a t) := by
  induction s generalizing acc with
  | nil => simp [parseDigits]
  | cons c cs ih =>
    simp only [List.cons_append, parseDigits]
    cases digitVal radix c with
    | none => simp
    | some d => simp [ih]

theorem parseDigits_render (radix n : Nat) (h2 : 2 ≤ radix) (hr : radix ≤ 16) :
    parseDigits radix 0 (render radix n) = some n := by
  induction n using Nat.strongRecOn with
  | _ n ih =>
    rw [render]
    split
    · rename_i h
      rw [parseDigits_append, ih (n / radix) (Nat.div_lt_self (by omega) (by omega))]
      simp only [Option.bind_some, parseDigits]
      rw [digitVal_digitChar radix _ hr (Nat.mod_lt _ (by omega))]
      simp only [Option.some.injEq]
      have := Nat.div_add_mod n radix
      rw [Nat.mul_comm]; exact this
    · rename_i h
      have : n < radix := by omega
      simp [parseDigits, digitVal_digitChar radix n hr this]

theorem render_ne_nil (radix n : Nat) : render radix n ≠ [] := by
  rw [render]; split <;> simp

/-- Every character of a rendered number is one of the sixteen digit characters. -/
theorem mem_render (radix n : Nat) (h2 : 2 ≤ radix) (hr : radix ≤ 16) :
    ∀ c ∈ render radix n, ∃ d, d < radix ∧ c = digitChar d := by
  induction n using Nat.strongRecOn with
  | _ n ih =>
    rw [render]
    split
    · intro c hc
      rcases List.mem_append.mp hc with hc | hc
      · exact ih (n / radix) (Nat.div_lt_self (by omega) (by omega)) c hc
      · exact ⟨n % radix, Nat.mod_lt _ (by omega), by simpa using hc⟩
    · intro c hc
      exact ⟨n, by omega, by simpa using hc⟩

theorem digitChar_facts (d : Nat) (h : d < 16) :
    digitChar d ≠ '+' ∧ digitChar d ≠ '-' ∧ digitChar d ≠ ',' ∧ digitChar d ≠ '.' ∧
      digitChar d ≠ ' ' ∧ digitChar d ≠ ':' ∧ digitChar d ≠ '\n' ∧ digitChar d ≠ '\t' := by
  have key : ∀ d : Fin 16, digitChar d.1 ≠ '+' ∧ digitChar d.1 ≠ '-' ∧ digitChar d.1 ≠ ',' ∧
      digitChar d.1 ≠ '.' ∧ digitChar d.1 ≠ ' ' ∧ digitChar d.1 ≠ ':' ∧ digitChar d.1 ≠ '\n' ∧
      digitChar d.1 ≠ '\t' := by
    decide +kernel
  exact key ⟨d, h⟩

/-- Formatting then parsing a number gives it back. -/
theorem parseUInt_render (radix bits n : Nat) (h2 : 2 ≤ radix) (hr : radix ≤ 16)
    (hn : n < 2 ^ bits) : parseUInt radix bits (render radix n) = some n := by
  have hne := render_ne_nil radix n
  have hm := mem_render radix n h2 hr
  have hp := parseDigits_render radix n h2 hr
  cases hs : render radix n with
  | nil => exact absurd hs hne
  | cons c cs =>
    rw [hs] at hp hm
    have hc : c ≠ '+' := by
      obtain ⟨d, hd, rfl⟩ := hm c (by simp)
      exact (digitChar_facts d (by omega)).1
    simp [parseUInt, hc, hp, hn]

end Verif.Str
