import Verif.Hygiene.Lang
import Verif.Log.Spec
/-!
# What a log statement does to the program it stands in

Written with the language of `Verif.Hygiene.Lang` and the vocabulary of C42; none of the definitions of the macro are used.
-/
namespace Verif.Hygiene.Spec
open Verif.Hygiene
open Verif.Log (Bytes Val Level Hint)

/-- Evaluating expressions where the statement stands, one after the other, each once: they have the values `vs`. -/
inductive InOrder {σ : Type} (W : World σ) (sc : Scope) : St σ → List Expr → List V → St σ → Prop where
  | nil (st) : InOrder W sc st [] [] st
  | cons {st st1 st2 e v es vs} : eval W e sc st = (.val v, st1) → InOrder W sc st1 es vs st2 →
      InOrder W sc st (e :: es) (v :: vs) st2

/-- The names that occur in an expression, as values and as types. -/
def names : Expr → List Text
  | .lit _ | .sizeOf _ => []
  | .name n => [n]
  | .call _ a | .question a | .ret a => names a
  | .seq a b | .letIn _ a b => names a ++ names b

def typeNames : Expr → List Text
  | .lit _ | .name _ => []
  | .sizeOf t => [t]
  | .call _ a | .question a | .ret a => typeNames a
  | .seq a b | .letIn _ a b => typeNames a ++ typeNames b

/-- `AYA_LOGS`, `Header`, `Field` and `Argument`. -/
def ayaLogs : Text := ['A', 'Y', 'A', '_', 'L', 'O', 'G', 'S']
def libraryTypes : List Text :=
  [['H', 'e', 'a', 'd', 'e', 'r'], ['F', 'i', 'e', 'l', 'd'], ['A', 'r', 'g', 'u', 'm', 'e', 'n', 't']]

/-- An expression without the names the macro uses for itself: nothing beginning with two underscores, no `AYA_LOGS`, and none of
    the types `Header`, `Field` and `Argument`. -/
def Free (e : Expr) : Prop :=
  (∀ n ∈ names e, ['_', '_'].isPrefixOf n = false ∧ n ≠ ayaLogs) ∧ ∀ t ∈ typeNames e, t ∉ libraryTypes

/-- The level of a statement, for `error!` to `trace!` (`some`) and `log!` (`none`). -/
def LevelIs (kind : Option Level) (a : LogArgs) (e : Expr) : Prop :=
  match kind with
  | some l => a.level = none ∧ e = .lit (.level l)
  | none => a.level = some e

/-- The target: what is given, or else the module. -/
def targetOf (pl : Place) (a : LogArgs) : Expr := a.target.getD (.lit (.data (.str pl.module)))

/-- The arguments. -/
def argsOf (a : LogArgs) : List Expr := a.args.getD []

/-- Header, literals and arguments each fit a field of the record. -/
def Fits (utf8 : Char → Bytes) (pl : Place) (ps : List Log.Spec.Piece) (target : Bytes) (args : List Val) : Prop :=
  target.length < 65536 ∧ pl.module.length < 65536 ∧ pl.file.length < 65536 ∧
  (∀ s, Log.Fragment.literal s ∈ Log.Spec.meaning ps → (s.flatMap utf8).length < 65536) ∧
  ∀ v ∈ args, Log.Spec.argSize v < 65536

end Verif.Hygiene.Spec
