import Verif.TcLink.Model
/-!
# Filters in the kernel

Requests to make or delete filters, as in `net/sched/cls_api.c` and `cls_bpf.c` of the kernel, for filters of `bpf` kind for all protocols. Interfaces may be renamed, and filters of others
come and go.
-/
namespace Verif.TcLink

structure Filter where
  ifx : Nat
  parent : Nat
  prio : Nat
  handle : Nat
  prog : Nat
  classid : Option Nat
deriving DecidableEq, Repr

structure Kernel where
  /-- names of the interfaces and their indices -/
  names : List (Name × Nat)
  /-- where there are qdiscs that take filters -/
  hooks : List (Nat × Nat)
  filters : List Filter
deriving DecidableEq, Repr

/-- The filters of a hook, of a priority. -/
def Kernel.at (k : Kernel) (ifx parent prio : Nat) : List Filter :=
  k.filters.filter fun f => f.ifx = ifx && f.parent = parent && f.prio = prio

/-- It is this filter. -/
def Filter.is (f : Filter) (ifx parent prio handle : Nat) : Bool := f.ifx = ifx && f.parent = parent && f.prio = prio && f.handle = handle

/-- The priority that the kernel allocates: below those it has allocated, from `0xC000`. -/
def Kernel.autoPrio (k : Kernel) (ifx parent : Nat) : Nat :=
  (k.filters.filter fun f => f.ifx = ifx && f.parent = parent && 0x8000 ≤ f.prio).foldl (fun m f => min m (f.prio - 1)) 0xC000

/-- The handle that the kernel allocates: the first that is free, from 1. -/
def firstFree (used : List Nat) : Nat → Nat → Nat
  | 0, n => n
  | fuel + 1, n => if n ∈ used then firstFree used fuel (n + 1) else n

def Kernel.autoHandle (k : Kernel) (ifx parent prio : Nat) : Nat :=
  firstFree ((k.at ifx parent prio).map (·.handle)) (k.at ifx parent prio).length 1

/-- A filter is added, with a priority and a handle that are not 0. -/
def Kernel.add (k : Kernel) (ifx parent prog prio handle : Nat) (classid : Option Nat) : Except Nat (Nat × Nat) × Kernel :=
  if k.filters.any (·.is ifx parent prio handle) then (.error 17, k)
  else (.ok (prio, handle), { k with filters := k.filters ++ [⟨ifx, parent, prio, handle, prog, classid⟩] })

/-- `RTM_NEWTFILTER`, with `NLM_F_CREATE | NLM_F_EXCL` or without both. -/
def Kernel.newFilter (ifx parent prog prio handle : Nat) (classid : Option Nat) (create : Bool) (k : Kernel) : Except Nat (Nat × Nat) × Kernel :=
  if ¬ (ifx, parent) ∈ k.hooks then (.error 22, k)
  else if create then
    let p := if prio = 0 then k.autoPrio ifx parent else prio
    let h := if handle = 0 then k.autoHandle ifx parent p else handle
    k.add ifx parent prog p h classid
  else if prio = 0 then (.error 2, k)
  else if handle ≠ 0 && k.filters.any (·.is ifx parent prio handle) then
    (.ok (prio, handle), { k with filters := k.filters.map fun f => if f.is ifx parent prio handle then { f with prog := prog, classid := classid } else f })
  else (.error 2, k)

/-- `RTM_DELTFILTER`: with no handle, all filters of the priority go. -/
def Kernel.delFilter (ifx parent prio handle : Nat) (k : Kernel) : Except Nat Unit × Kernel :=
  if ¬ (ifx, parent) ∈ k.hooks then (.error 22, k)
  else if prio = 0 then (.error 22, k)
  else if (k.at ifx parent prio).isEmpty then (.error 2, k)
  else if handle = 0 then (.ok (), { k with filters := k.filters.filter fun f => !(f.ifx = ifx && f.parent = parent && f.prio = prio) })
  else if k.filters.any (·.is ifx parent prio handle) then (.ok (), { k with filters := k.filters.filter fun f => !f.is ifx parent prio handle })
  else (.error 2, k)

def Kernel.index (name : Name) (k : Kernel) : Except Nat Nat :=
  match k.names.find? (fun x => x.1 == name) with
  | some x => .ok x.2
  | none => .error 19

def kernel : Sys Kernel := ⟨Kernel.index, Kernel.newFilter, Kernel.delFilter⟩

/-- Filters differ in where they are, their priority or their handle, which are not 0, and are at hooks. -/
structure Kernel.WF (k : Kernel) : Prop where
  one : ∀ f ∈ k.filters, ∀ g ∈ k.filters, f.ifx = g.ifx → f.parent = g.parent → f.prio = g.prio → f.handle = g.handle → f = g
  prio : ∀ f ∈ k.filters, f.prio ≠ 0
  handle : ∀ f ∈ k.filters, f.handle ≠ 0
  hook : ∀ f ∈ k.filters, (f.ifx, f.parent) ∈ k.hooks

/-- The parent of the filters at a hook: `TC_H_MAKE(TC_H_CLSACT, TC_H_MIN_INGRESS)`, the same with `TC_H_MIN_EGRESS`, or the parent that was given. -/
def Hook.place : Hook → Nat
  | .ingress => 0xFFFF0000 + 0xFFF2
  | .egress => 0xFFFF0000 + 0xFFF3
  | .custom p => p

/-- The link stands for the filter. -/
def NlLink.stands (l : NlLink) (f : Filter) : Prop := f.ifx = l.ifx ∧ f.parent = l.hook.place ∧ f.prio = l.prio ∧ f.handle = l.handle

end Verif.TcLink
