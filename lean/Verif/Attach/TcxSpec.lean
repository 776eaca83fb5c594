import Verif.Attach.TcxModel
/-!
# The kernel's list of classifiers

Each interface and direction has a list of classifiers, run from the front. What the kernel does with the calls, from
`kernel/bpf/mprog.c` (`bpf_mprog_attach`, `bpf_mprog_tuple_relative`, `bpf_mprog_pos_before`, `bpf_mprog_pos_after`) and
`kernel/bpf/tcx.c` of Linux 6.6. A link is open through one descriptor. The kernel may refuse any call for further reasons.
Filters added over netlink are not part of the lists.
-/
namespace Verif.Attach.Tcx.Spec
open Verif.Attach.Tcx
open Verif.Util (TcAttachType)

/-- A classifier of the list: the link it came with, if any, and the program. -/
structure Entry where
  link : Option Nat
  prog : Nat
deriving DecidableEq, Repr

/-- What a file descriptor of the process stands for. -/
inductive Obj where
  | prog (p : Nat)
  | link (l : Nat)
deriving DecidableEq, Repr

/-- The descriptors of the process, the programs that exist, the program of each link, and the lists by interface and
attach type. -/
structure World where
  fd : Nat → Option Obj
  exists_ : Nat → Bool
  linkProg : Nat → Option Nat
  list : Nat → Nat → List Entry

/-- The kernel: whether it has these lists (6.6), what it refuses for other reasons, what it answers to netlink requests,
and the numbers it gives to new descriptors and links. -/
structure Kernel where
  tcx : Bool
  refuse : World → Call → Option Nat
  filter : World → Call → Except Nat (Nat × Nat)
  newFd : World → Nat
  newLink : World → Nat

/-- The next descriptor and link are not in use. -/
structure Kernel.Fresh (K : Kernel) (w : World) : Prop where
  fd : w.fd (K.newFd w) = none
  link : ∀ i t e, e ∈ w.list i t → e.link ≠ some (K.newLink w)

/-- The program or link another one is to be placed next to. -/
inductive Anchor where
  | link (l : Nat)
  | prog (p : Nat)
deriving DecidableEq, Repr

/-- Where to put a classifier. -/
inductive Where where
  | first
  | last
  | before (a : Anchor)
  | after (a : Anchor)
deriving DecidableEq, Repr

def Anchor.is : Anchor → Entry → Prop
  | .link l, e => e.link = some l
  | .prog p, e => e.prog = p

/-- `e` has been put into `old` at the place asked for, giving `new`. -/
def Placed (old : List Entry) (e : Entry) (new : List Entry) : Where → Prop
  | .first => new = e :: old
  | .last => new = old ++ [e]
  | .before a => ∃ front x back, old = front ++ x :: back ∧ a.is x ∧ (∀ y ∈ front, ¬ a.is y) ∧
      new = front ++ e :: x :: back
  | .after a => ∃ front x back, old = front ++ x :: back ∧ a.is x ∧ (∀ y ∈ front, ¬ a.is y) ∧
      new = front ++ x :: e :: back

/-- What the request is relative to (`bpf_mprog_tuple_relative`): flag 8192 for links, 32 for ids; neither flag and 0
stand for nothing. A link counts with its program. Errors: 2 not found, 9 bad descriptor. -/
def relative (w : World) (flags v : Nat) : Except Nat (Option (Option Nat × Nat)) :=
  if flags &&& 8192 != 0 then
    match (if flags &&& 32 != 0 then some (.link v) else w.fd v) with
    | some (.link l) => match w.linkProg l with
      | some p => .ok (some (some l, p))
      | none => .error 2
    | _ => .error 9
  else if flags &&& 32 != 0 then (if w.exists_ v then .ok (some (none, v)) else .error 2)
  else if v = 0 then .ok none
  else match w.fd v with
    | some (.prog p) => .ok (some (none, p))
    | _ => .error 9

/-- An entry matches: the same program, and the same link if one was named. -/
def isRel (r : Option Nat × Nat) (e : Entry) : Bool := e.prog == r.2 && (r.1.isNone || e.link == r.1)

/-- The index for the new entry. Flag 8 is before, 16 is after; a request with neither goes last. -/
def position (es : List Entry) (flags : Nat) (r : Option (Option Nat × Nat)) : Except Nat Nat :=
  match r with
  | none =>
    if flags &&& 8 != 0 then (if flags &&& 16 != 0 && !es.isEmpty then .error 34 else .ok 0)
    else if flags &&& 16 != 0 || flags = 0 then .ok es.length
    else .error 22
  | some r =>
    match es.findIdx? (isRel r) with
    | none => if flags &&& 8 != 0 || flags &&& 16 != 0 then .error 2 else .error 22
    | some k =>
      if flags &&& 8 != 0 then (if flags &&& 16 != 0 then .error 34 else .ok k)
      else if flags &&& 16 != 0 then .ok (k + 1)
      else .error 22

def setList (w : World) (i t : Nat) (es : List Entry) : World :=
  { w with list := fun i' t' => if i' = i ∧ t' = t then es else w.list i' t' }

def setFd (w : World) (f : Nat) (o : Option Obj) : World :=
  { w with fd := fun f' => if f' = f then o else w.fd f' }

/-- `BPF_LINK_CREATE` for classifiers. Errors: 22 invalid, 17 exists, 34 out of range. -/
def linkCreate (K : Kernel) (w : World) (p i t flags v : Nat) : Except Nat (Nat × Nat) × World :=
  if !K.tcx then (.error 22, w)
  else
    match relative w flags v with
    | .error e => (.error e, w)
    | .ok r =>
      if (w.list i t).any (fun e => e.prog == p) then (.error 17, w)
      else if (w.list i t).length ≥ 64 then (.error 34, w)
      else
        match position (w.list i t) flags r with
        | .error e => (.error e, w)
        | .ok k =>
          let w' := setList w i t ((w.list i t).insertIdx k ⟨some (K.newLink w), p⟩)
          let w' := setFd w' (K.newFd w) (some (.link (K.newLink w)))
          (.ok (K.newFd w, 0), { w' with linkProg := fun l => if l = K.newLink w then some p else w'.linkProg l })

/-- The link is gone from every list. -/
def unlink (w : World) (l : Nat) : World :=
  { w with list := fun i t => (w.list i t).filter (fun e => e.link != some l) }

/-- The link runs another program, at the same position. -/
def relink (w : World) (l p : Nat) : World :=
  { w with
    list := fun i t => (w.list i t).map (fun e => if e.link = some l then { e with prog := p } else e)
    linkProg := fun l' => if l' = l then some p else w.linkProg l' }

/-- The kernel. -/
def sys (K : Kernel) : Sys World := fun w c =>
  match c with
  | .close f =>
    match w.fd f with
    | none => (.error 9, w)
    | some (.prog _) => (.ok (0, 0), setFd w f none)
    | some (.link l) => (.ok (0, 0), unlink (setFd w f none) l)
  | .filterAdd .. => (K.filter w c, w)
  | .filterDel .. => (K.filter w c, w)
  | .linkCreate f i t flags v =>
    match K.refuse w c with
    | some e => (.error e, w)
    | none =>
      match w.fd f with
      | some (.prog p) => linkCreate K w p i t flags v
      | _ => (.error 9, w)
  | .linkUpdate f g =>
    match K.refuse w c with
    | some e => (.error e, w)
    | none =>
      match w.fd f, w.fd g with
      | some (.link l), some (.prog p) => (.ok (0, 0), relink w l p)
      | _, _ => (.error 9, w)

/-- What the user says: an order made from a link or program they hold, or from an id. -/
inductive Say where
  | default
  | first
  | last
  | beforeLink (l : Inner)
  | afterLink (l : Inner)
  | beforeProgram (p : Prog)
  | afterProgram (p : Prog)
  | beforeProgramId (id : Nat)
  | afterProgramId (id : Nat)

/-- The order built for it. -/
def Say.order : Say → Except Err LinkOrder
  | .default => .ok .default
  | .first => .ok .first
  | .last => .ok .last
  | .beforeLink l => LinkOrder.beforeLink l
  | .afterLink l => LinkOrder.afterLink l
  | .beforeProgram p => LinkOrder.beforeProgram p
  | .afterProgram p => LinkOrder.afterProgram p
  | .beforeProgramId id => .ok (.beforeProgramId id)
  | .afterProgramId id => .ok (.afterProgramId id)

/-- What it means, in the state where the order is made: the link or program behind the descriptor. -/
def Say.Means (w : World) : Say → Where → Prop
  | .default, x => x = .last
  | .first, x => x = .first
  | .last, x => x = .last
  | .beforeLink l, x => ∃ f k, l = .fd f ∧ w.fd f = some (.link k) ∧ x = .before (.link k)
  | .afterLink l, x => ∃ f k, l = .fd f ∧ w.fd f = some (.link k) ∧ x = .after (.link k)
  | .beforeProgram p, x => ∃ f k, p.fd = some f ∧ w.fd f = some (.prog k) ∧ x = .before (.prog k)
  | .afterProgram p, x => ∃ f k, p.fd = some f ∧ w.fd f = some (.prog k) ∧ x = .after (.prog k)
  | .beforeProgramId id, x => x = .before (.prog id)
  | .afterProgramId id, x => x = .after (.prog id)

/-- The descriptor an order depends on. -/
def Say.needs : Say → Option Nat
  | .beforeLink (.fd f) => some f
  | .afterLink (.fd f) => some f
  | .beforeProgram p => p.fd
  | .afterProgram p => p.fd
  | _ => none

/-- Orders made from a program, whose descriptor 0 the kernel takes for "nothing". -/
def Say.byProgram : Say → Bool
  | .beforeProgram _ => true
  | .afterProgram _ => true
  | _ => false

/-- Links and lists fit together: the program recorded for a link is the one it runs. -/
def Consistent (w : World) : Prop :=
  ∀ i t e l, e ∈ w.list i t → e.link = some l → w.linkProg l = some e.prog

/-- The program is loaded as `P` and its link descriptors are open. -/
structure Holds (w : World) (p : Prog) (f P : Nat) : Prop where
  fd : p.fd = some f
  prog : w.fd f = some (.prog P)
  links : ∀ g, Inner.fd g ∈ p.links → ∃ l, w.fd g = some (.link l)

/-- The attach type of a direction. -/
def hook : TcAttachType → Option Nat
  | .ingress => some 46
  | .egress => some 47
  | .custom _ => none

end Verif.Attach.Tcx.Spec
