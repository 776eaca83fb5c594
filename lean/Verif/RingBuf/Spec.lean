import Verif.RingBuf.Model
/-!
# Vocabulary for C01-C03

Stated over the kernel's reservation history and what `next` returned.
-/
namespace Verif.RingBuf.Spec
open Verif.RingBuf

/-- The reservation has been submitted or discarded. -/
def Committed (r : Rec) : Prop := r.status ≠ .busy

/-- What the consumer must see of a reservation: its content if it was submitted, nothing if it was
discarded. -/
def sample (r : Rec) : Option (List UInt8) :=
  match r.status with
  | .pending false | .done false => some r.content
  | _ => none

/-- The samples to be delivered once the first `n` reservations have been passed. -/
def samples (recs : List Rec) (n : Nat) : List (List UInt8) := (recs.take n).filterMap sample

/-- The system can get from an empty ring to `s` by some schedule. -/
def Reachable (size : Nat) (s : Sys) : Prop :=
  ∃ mem base sched, base % 8 = 0 ∧ run size (init mem base) sched = some s

/-- Ring sizes: powers of two; the kernel's minimum is a page. -/
def ValidSize (size : Nat) : Prop := ∃ m, 3 ≤ m ∧ size = 2 ^ m

end Verif.RingBuf.Spec
