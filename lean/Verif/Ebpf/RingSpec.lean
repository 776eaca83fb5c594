import Verif.Ebpf.RingModel
/-!
# What the programs have output, told from their calls alone

A record as its writer knows it: the bytes it has written (none for those it has not) and whether it was submitted or discarded.
Nothing of the ring, its positions or pointers occurs here.
-/
namespace Verif.Ebpf.Ring.Spec
open Verif.Ebpf.Ring

inductive Fate where
  | open
  | submitted
  | discarded
  deriving DecidableEq, Repr

structure Output where
  bytes : List (Option UInt8)
  fate : Fate
  /-- The kernel has decided whether to notify the reader of it. -/
  announced : Bool
  deriving DecidableEq, Repr

/-- The outputs after a call. -/
def after (os : List Output) : Op × Res → List Output
  | (.reserve n _ _, .reserved) => os ++ [⟨List.replicate n none, .open, false⟩]
  | (.reserveT _ n _ _, .reserved) => os ++ [⟨List.replicate n none, .open, false⟩]
  | (.write i off b, .done) => os.modify i (fun o => { o with bytes := o.bytes.set off (some b) })
  | (.submit i _, .done) => os.modify i (fun o => { o with fate := .submitted })
  | (.discard i _, .done) => os.modify i (fun o => { o with fate := .discarded })
  | (.output _ data _ _, .begun) => os ++ [⟨data.map some, .open, false⟩]
  | (.finish i, .done) => os.modify i (fun o => { o with fate := .submitted })
  | (.check i, .done) => os.modify i (fun o => { o with announced := true })
  | _ => os

/-- The outputs of a run, in the order of their reservation. -/
def outputs (log : List (Op × Res)) : List Output := log.foldl after []

/-- What the reader gets is what was written: as many bytes, and those written are the same. -/
def Shows (o : Output) (bs : List UInt8) : Prop :=
  bs.length = o.bytes.length ∧ ∀ (j : Nat) (b : UInt8), o.bytes[j]? = some (some b) → bs[j]? = some b

/-- Two lists related element by element. -/
inductive Each {α β : Type} (R : α → β → Prop) : List α → List β → Prop where
  | nil : Each R [] []
  | cons {a : α} {b : β} {as : List α} {bs : List β} : R a b → Each R as bs → Each R (a :: as) (b :: bs)

/-- The submitted ones. -/
def submitted (os : List Output) : List Output := os.filter (fun o => o.fate == .submitted)

/-- An empty ring at any position divisible by 8, no reader yet, no program running. -/
def start (mem : Nat → UInt8) (pos : Nat) : World := ⟨RingBuf.init mem pos, []⟩

end Verif.Ebpf.Ring.Spec
