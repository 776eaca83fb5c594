import Verif.Attach.QueryModel
import Verif.Attach.FdSpec
import Verif.Attach.TcxSpec
/-!
# What the kernel answers when asked what is attached

From `kernel/bpf/cgroup.c` (`__cgroup_bpf_query`), `kernel/bpf/mprog.c` (`bpf_mprog_query`) and
`drivers/media/rc/bpf-lirc.c` (`lirc_prog_query`): as many ids as fit, the number there are, and error 28 when they do not
all fit. Attached programs exist. The number of a program is its id.
-/
namespace Verif.Attach.Query.Spec
open Verif.Attach.Query
open Verif.Attach.Fd (Inner)

/-- The answer for these programs, with a buffer for `cap` ids. -/
def answer (ids : List Nat) (revision cap : Nat) : Answer :=
  ⟨if cap < ids.length then some 28 else none, ids.take cap, ids.length, revision⟩

/-- Lists that change with time: at the `k`-th call the programs are `L k` and the revision is `R k`. -/
def changing (L : Nat → List Nat) (R : Nat → Nat) : Nat → Nat → Answer × Nat :=
  fun k cap => (answer (L k) (R k) cap, k + 1)

/-- A refused request leaves what was passed. -/
def refused (e cap : Nat) : Answer := ⟨some e, [], cap, 0⟩

/-- The kernel for objects given by descriptors. It may refuse to answer or to give a descriptor for an id. -/
def fdKernel (K : Fd.Spec.Kernel) (refuseAsk refuseId : Fd.Spec.World → Nat → Option Nat) : FdSys Fd.Spec.World where
  ask w f ty cap :=
    match refuseAsk w f with
    | some e => (refused e cap, w)
    | none =>
      match w.fd f with
      | some (.target t) => (answer ((w.att t ty).map (·.prog)) 0 cap, w)
      | _ => (refused 9 cap, w)
  fdById w id :=
    match refuseId w id with
    | some e => (.error e, w)
    | none => (.ok (K.newFd w.fd), { w with fd := Fd.Spec.put w.fd (K.newFd w.fd) (some (.prog id)) })
  sys := Fd.Spec.sys K

/-- Finitely many descriptors are open. -/
def Finite (t : Fd.Spec.Table) : Prop := ∃ n, ∀ f, n ≤ f → t f = none

/-- New descriptors are not in use. -/
def Alloc (K : Fd.Spec.Kernel) : Prop := ∀ t, Finite t → t (K.newFd t) = none

/-- The program and the object a link names. -/
def names (w : Fd.Spec.World) : Inner → Option (Nat × Nat × Nat)
  | .fd _ => none
  | .prog p t ty =>
    match w.fd p, w.fd t with
    | some (.prog P), some (.target T) => some (P, T, ty)
    | _, _ => none

/-- The kernel for interfaces: the lists of C69, a revision for each, and programs with their information. -/
def ifKernel {ι : Type} (K : Tcx.Spec.Kernel) (about : Nat → ι) (revision : Tcx.Spec.World → Nat → Nat → Nat)
    (refuseAsk : Tcx.Spec.World → Nat → Option Nat) (refuseId : Tcx.Spec.World → Nat → Option Nat) :
    IfSys Tcx.Spec.World ι where
  ask w i ty cap :=
    if !K.tcx then (refused 22 cap, w)
    else
      match refuseAsk w i with
      | some e => (refused e cap, w)
      | none => (answer ((w.list i ty).map (·.prog)) (revision w i ty) cap, w)
  fdById w id :=
    match refuseId w id with
    | some e => (.error e, w)
    | none => (.ok (K.newFd w), Tcx.Spec.setFd w (K.newFd w) (some (.prog id)))
  info w f :=
    match w.fd f with
    | some (.prog p) => .ok (about p)
    | _ => .error 9
  sys := Tcx.Spec.sys K

end Verif.Attach.Query.Spec
