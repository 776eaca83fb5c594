import Verif.Log.Model
/-!
# The fragment of Rust in which log statements are written

The language, not the library: names and scopes, expressions with calls, `?` and `return`. It is what C108 takes as given.

Values are typed by their form; an expression that does not compile is `stuck`. Functions that are called are arbitrary: they may
change the memory of the program and may log themselves. Assignments are such calls. Moves and borrows are left out: every type
that can be logged is `Copy`.
-/
namespace Verif.Hygiene
open Verif.Log (Bytes Val Level Hint)

abbrev Text := List Char

/-- An identifier. Those a macro makes with `Span::mixed_site` are, as local variables, different from all the user writes; those
    made with `Span::call_site` are not. -/
structure Name where
  text : Text
  mixed : Bool := false
deriving DecidableEq, Repr

/-- Values of a program: what can be logged, log levels, `()` and `Option`s. -/
inductive V where
  | data (v : Val)
  | level (l : Level)
  | unit
  | nothing
  | just (v : V)
deriving DecidableEq, Repr

/-- What a name can stand for: a value of the program, or a value of a type of the logging library. -/
inductive R where
  | user (v : V)
  | hint (h : Hint)
  | header (b : Bytes)
  | kind (k : UInt8)
  | bytes (b : Bytes)
  | field (b : Bytes)
  | item
deriving DecidableEq, Repr

/-- Expressions: literals, names of variables and constants, `size_of::<T>()`, calls, `{ a; b }`, `{ let n = a; b }`, `a?` and
    `return a`. -/
inductive Expr where
  | lit (v : V)
  | name (n : Text)
  | sizeOf (ty : Text)
  | call (f : Nat) (a : Expr)
  | seq (a b : Expr)
  | letIn (n : Text) (a b : Expr)
  | question (a : Expr)
  | ret (a : Expr)
deriving DecidableEq, Repr

/-- What the names in scope stand for, and the sizes of the types in scope. -/
structure Scope where
  vals : Name → Option R
  types : Name → Option Nat

/-- A declaration in an inner scope hides the one outside. -/
def Scope.setVal (sc : Scope) (n : Name) (r : R) : Scope := { sc with vals := fun m => if m = n then some r else sc.vals m }
def Scope.setType (sc : Scope) (n : Name) (size : Nat) : Scope :=
  { sc with types := fun m => if m = n then some size else sc.types m }

/-- The memory of the program and what has been sent to the log. -/
structure St (σ : Type) where
  mem : σ
  sent : List Bytes
deriving DecidableEq, Repr

/-- The functions of the program, and the ring buffer: what a reservation of so many bytes gives. -/
structure World (σ : Type) where
  call : Nat → V → St σ → V × St σ
  reserve : St σ → Nat → Option Bytes

/-- How an expression ends: with a value, by leaving the function or closure it is in, or it does not compile. -/
inductive Out where
  | val (v : V)
  | left (v : V)
  | stuck
deriving DecidableEq, Repr

/-- Go on with the value, if there is one. -/
def andThen {σ : Type} (r : Out × St σ) (k : V → St σ → Out × St σ) : Out × St σ :=
  match r with
  | (.val v, st) => k v st
  | (o, st) => (o, st)

/-- `?` on an `Option`. -/
def questionMark {σ : Type} (v : V) (st : St σ) : Out × St σ :=
  match v with
  | .just w => (.val w, st)
  | .nothing => (.left .nothing, st)
  | _ => (.stuck, st)

/-- Evaluation. -/
def eval {σ : Type} (W : World σ) : Expr → Scope → St σ → Out × St σ
  | .lit v, _, st => (.val v, st)
  | .name n, sc, st =>
    match sc.vals ⟨n, false⟩ with
    | some (.user v) => (.val v, st)
    | _ => (.stuck, st)
  | .sizeOf ty, sc, st =>
    match sc.types ⟨ty, false⟩ with
    | some size => (.val (.data (.int .usize size)), st)
    | none => (.stuck, st)
  | .call f a, sc, st => andThen (eval W a sc st) fun v st => let (r, st) := W.call f v st; (.val r, st)
  | .seq a b, sc, st => andThen (eval W a sc st) fun _ st => eval W b sc st
  | .letIn n a b, sc, st => andThen (eval W a sc st) fun v st => eval W b (sc.setVal ⟨n, false⟩ (.user v)) st
  | .question a, sc, st => andThen (eval W a sc st) questionMark
  | .ret a, sc, st => andThen (eval W a sc st) fun v st => (.left v, st)

/-- What is written in a log statement: `LogArgs` (`/repo/aya-log-ebpf-macros/src/expand.rs:11-17`). `args` is `none` if nothing follows the format string. -/
structure LogArgs where
  ctx : Expr
  target : Option Expr := none
  level : Option Expr := none
  format : List Char
  args : Option (List Expr) := none
deriving Repr

/-- Where a statement stands. -/
structure Place where
  module : Bytes
  file : Bytes
  line : Nat
deriving DecidableEq, Repr

end Verif.Hygiene
