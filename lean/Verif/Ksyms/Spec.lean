import Verif.Ksyms.Model
/-! # Vocabulary for C50 -/
namespace Verif.Ksyms.Spec
open Verif.Str Verif.Ksyms
open Verif.Reloc (Name)

/-- A line of `/proc/kallsyms` as the kernel prints it: zero-padded hex address, space, type letter, space,
name, and for module symbols a tab and the module in brackets. -/
def kernelLine (zeros addr : Nat) (ty : Char) (name : Name) (tail : List Char) : List Char :=
  List.replicate zeros '0' ++ render 16 addr ++ ' ' :: ty :: ' ' :: (name ++ tail)

/-- The listing has the symbol `name` at `addr` (in 64 bits, not hidden: hidden addresses are 0). -/
def Listed (lines : List (List Char)) (name : Name) (addr : Nat) : Prop :=
  addr ≠ 0 ∧ ∃ line ∈ lines, ∃ a ty rest, splitWhitespace line = a :: ty :: name :: rest ∧
    parseUInt 16 64 a = some addr

/-- Every line about `name` has a valid address. -/
def WellFormed (lines : List (List Char)) (name : Name) : Prop :=
  ∀ line ∈ lines, ∀ a ty rest, splitWhitespace line = a :: ty :: name :: rest → ∃ addr, parseUInt 16 64 a = some addr

end Verif.Ksyms.Spec
