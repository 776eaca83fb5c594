import Verif.Attach.TcxModel
/-!
# The kernel's side of classifiers added over netlink

Filters of an interface have a parent, a priority and a handle. What the kernel does with the requests, from
`net/sched/cls_api.c` (`tc_new_tfilter`, `tc_del_tfilter`) and `net/sched/cls_bpf.c` of Linux. The kernel may refuse any
request for further reasons.
-/
namespace Verif.Attach.Tcx.Filter
open Verif.Attach.Tcx

/-- What names a filter. -/
structure Key where
  ifIndex : Nat
  parent : Nat
  priority : Nat
  handle : Nat
deriving DecidableEq, Repr

/-- A filter: the program, its name, the class packets are given. -/
structure Rule where
  prog : Nat
  name : List Char
  classid : Option Nat
deriving DecidableEq, Repr

/-- Descriptors of programs, and the filters of all interfaces. -/
structure World where
  prog : Nat → Option Nat
  filter : Key → Option Rule

/-- Which requests are refused for other reasons; the priority and handle of a new filter. -/
structure Kernel where
  refuse : World → Call → Option Nat
  pick : World → Key → Nat × Nat

/-- A priority or handle that was asked for is used; 0 leaves the choice to the kernel, which chooses a free handle. -/
structure Kernel.Picks (K : Kernel) : Prop where
  priority : ∀ w k, k.priority ≠ 0 → (K.pick w k).1 = k.priority
  handle : ∀ w k, k.handle ≠ 0 → (K.pick w k).2 = k.handle
  nonzero : ∀ w k, (K.pick w k).1 ≠ 0 ∧ (K.pick w k).2 ≠ 0

def World.set (w : World) (k : Key) (r : Option Rule) : World :=
  { w with filter := fun k' => if k' = k then r else w.filter k' }

/-- Removing: priority 0 empties the parent, handle 0 the priority. -/
def World.del (w : World) (k : Key) : World :=
  { w with filter := fun k' =>
      if k'.ifIndex = k.ifIndex ∧ k'.parent = k.parent ∧ (k.priority = 0 ∨ k'.priority = k.priority ∧
        (k.handle = 0 ∨ k'.handle = k.handle)) then none else w.filter k' }

/-- The kernel. Errors: 2 no such filter, 9 bad descriptor, 17 exists. -/
def sys (K : Kernel) : Sys World := fun w c =>
  match K.refuse w c with
  | some e => (.error e, w)
  | none =>
    match c with
    | .filterAdd i parent f name p h classid create =>
      match w.prog f with
      | none => (.error 9, w)
      | some P =>
        if create then
          if w.filter ⟨i, parent, (K.pick w ⟨i, parent, p, h⟩).1, (K.pick w ⟨i, parent, p, h⟩).2⟩ = none then
            (.ok (K.pick w ⟨i, parent, p, h⟩),
              w.set ⟨i, parent, (K.pick w ⟨i, parent, p, h⟩).1, (K.pick w ⟨i, parent, p, h⟩).2⟩
                (some ⟨P, name, classid⟩))
          else (.error 17, w)
        else if w.filter ⟨i, parent, p, h⟩ = none then (.error 2, w)
        else (.ok (p, h), w.set ⟨i, parent, p, h⟩ (some ⟨P, name, classid⟩))
    | .filterDel i parent p h =>
      if p ≠ 0 ∧ h ≠ 0 ∧ w.filter ⟨i, parent, p, h⟩ = none then (.error 2, w)
      else (.ok (0, 0), w.del ⟨i, parent, p, h⟩)
    | .linkCreate .. => (.error 22, w)
    | .linkUpdate .. => (.error 22, w)
    | .close f => (.ok (0, 0), { w with prog := fun g => if g = f then none else w.prog g })

end Verif.Attach.Tcx.Filter
