import Verif.Links.Model

/-!
# Specification vocabulary for links and programs

Everything is read off the trace of kernel requests, the results the user saw, and who holds which link.
-/
namespace Verif.Links.Spec
open Verif.Links

/-- How often the kernel was asked to detach attachment `u`. -/
def detaches (u : Nat) : List Ev → Nat
  | [] => 0
  | .detach v _ :: t => (if v = u then 1 else 0) + detaches u t
  | _ :: t => detaches u t

/-- Attachment `u` was made. -/
def Attached (u : Nat) (t : List Ev) : Prop := Ev.attach u ∈ t

/-- The kernel carried out a request to detach `u`. -/
def Gone (u : Nat) (t : List Ev) : Prop := Ev.detach u true ∈ t

instance (u : Nat) (t : List Ev) : Decidable (Attached u t) := inferInstanceAs (Decidable (_ ∈ t))
instance (u : Nat) (t : List Ev) : Decidable (Gone u t) := inferInstanceAs (Decidable (_ ∈ t))

/-- Some program that is still alive tracks attachment `u`. -/
def Tracked (s : St) (u : Nat) : Prop :=
  ∃ q ∈ s.progs, q.dropped = false ∧ ∃ l ∈ q.links, l.uid = u

/-- The user holds a link for attachment `u`. -/
def Owned (s : St) (u : Nat) : Prop := ∃ x ∈ s.owned, x.1.uid = u

/-- Attachment `u` is pinned. -/
def Pinned (s : St) (u : Nat) : Prop := ∃ l ∈ s.pinned, l.uid = u

/-- The environment is a kernel with some iteration order for hash sets. -/
def Env.Fair (env : Env) : Prop := ∀ ls, (env.order ls).Perm ls

/-- Operations that neither forget a link on purpose nor see the replacement of a link's program fail. -/
def Careful : Op → Bool
  | .forgetLink _ => false
  | .attachTo _ _ ok _ => ok
  | _ => true

/-- Operations on programs only; links the user holds are not touched. -/
def ProgramOnly : Op → Bool
  | .load .. | .attach .. | .detach .. | .take .. | .unload _ | .dropProgram _ => true
  | _ => false

/-- Whether program `p` is loaded, judged from the results of the operations so far: a successful load
    loads it, a successful unload or the end of its life unloads it. -/
def loadedAfter (p : Nat) (start : Bool) : List (Op × Res) → Bool
  | [] => start
  | (.load q _, .ok) :: t => loadedAfter p (if q = p then true else start) t
  | (.unload q, .ok) :: t => loadedAfter p (if q = p then false else start) t
  | (.dropProgram q, .ok) :: t => loadedAfter p (if q = p then false else start) t
  | _ :: t => loadedAfter p start t

/-- Whether program `p` was dropped. -/
def droppedAfter (p : Nat) (ops : List Op) : Bool := ops.contains (.dropProgram p)

/-- The attachments asked to detach in a piece of the trace, in order. -/
def detachedIn : List Ev → List Nat
  | [] => []
  | .detach u _ :: t => u :: detachedIn t
  | _ :: t => detachedIn t

/-- Every event of a piece of the trace is a detach request. -/
def OnlyDetaches (t : List Ev) : Prop := ∀ e ∈ t, ∃ u d, e = .detach u d

end Verif.Links.Spec
