import Verif.Attach.XdpModel
/-!
# The kernel's side of XDP

An interface has a place for a program in each of three modes. What the kernel does with the calls, from `net/core/dev.c`
(`dev_xdp_attach`), `net/core/rtnetlink.c` (`do_setlink`) and `net/core/dev.c` (`bpf_xdp_link_attach`,
`bpf_xdp_link_update`, `bpf_xdp_link_release`) of Linux. A link is open through one descriptor. The kernel may refuse any
call for further reasons.
-/
namespace Verif.Attach.Xdp.Spec
open Verif.Attach.Xdp
open Verif.Netlink (XdpMode)

/-- The places of an interface. -/
inductive Place where
  | skb | drv | hw
deriving DecidableEq, Repr

/-- What sits in a place: a program set by netlink, or a link with its program. -/
inductive Occ where
  | prog (p : Nat)
  | link (l p : Nat)
deriving DecidableEq, Repr

/-- The program that runs. -/
def Occ.program : Occ → Nat
  | .prog p => p
  | .link _ p => p

/-- What a file descriptor of the process stands for. -/
inductive Obj where
  | prog (p : Nat)
  | link (l : Nat)
deriving DecidableEq, Repr

/-- The descriptors of the process and the places of all interfaces. -/
structure World where
  fd : Nat → Option Obj
  place : Nat → Place → Option Occ

/-- The kernel: whether it has XDP links (5.9), `XDP_FLAGS_REPLACE` (5.7), native support of an interface, which calls it
refuses for other reasons, and the numbers it gives to new descriptors and links. -/
structure Kernel where
  links : Bool
  replace : Bool
  native : Nat → Bool
  refuse : World → Call → Option Nat
  newFd : World → Nat
  newLink : World → Nat

/-- The next descriptor and link are not in use. -/
structure Kernel.Fresh (K : Kernel) (w : World) : Prop where
  fd : w.fd (K.newFd w) = none
  linkFd : ∀ f, w.fd f ≠ some (.link (K.newLink w))
  linkPlace : ∀ i m p, w.place i m ≠ some (.link (K.newLink w) p)

/-- The place a mode stands for; without a mode, the driver's if it has one. -/
def place (K : Kernel) (i : Nat) : XdpMode → Place
  | .default => if K.native i then .drv else .skb
  | .skb => .skb
  | .driver => .drv
  | .hardware => .hw

/-- The place selected by the flags (2 generic, 4 driver, 8 hardware). -/
def flagsPlace (K : Kernel) (i flags : Nat) : Place :=
  if flags &&& 8 != 0 then .hw
  else if flags &&& 4 != 0 then .drv
  else if flags &&& 2 != 0 then .skb
  else if K.native i then .drv else .skb

/-- Generic and driver mode exclude each other. -/
def other : Place → Option Place
  | .skb => some .drv
  | .drv => some .skb
  | .hw => none

def setPlace (w : World) (i : Nat) (m : Place) (o : Option Occ) : World :=
  { w with place := fun i' m' => if i' = i ∧ m' = m then o else w.place i' m' }

def setFd (w : World) (f : Nat) (o : Option Obj) : World :=
  { w with fd := fun f' => if f' = f then o else w.fd f' }

/-- A program in the exclusive other place. -/
def blocked (w : World) (i : Nat) (m : Place) : Bool :=
  match other m with
  | none => false
  | some m' => (w.place i m').isSome

/-- `RTM_SETLINK` with `IFLA_XDP`, descriptors resolved. Flag 1 is `XDP_FLAGS_UPDATE_IF_NOEXIST`, 16 is
`XDP_FLAGS_REPLACE`. Errors: 16 busy, 17 exists, 22 invalid. -/
def setXdp (K : Kernel) (w : World) (i : Nat) (new old : Option Nat) (flags : Nat) : Except Nat Nat × World :=
  if flags &&& 16 != 0 && !K.replace then (.error 22, w)
  else
    match w.place i (flagsPlace K i flags) with
    | some (.link _ _) => (.error 16, w)
    | cur =>
      if flags &&& 16 != 0 && cur != old.map Occ.prog then (.error 17, w)
      else
        match new with
        | none => (.ok 0, setPlace w i (flagsPlace K i flags) none)
        | some p =>
          if flags &&& 1 != 0 && cur.isSome then (.error 16, w)
          else if blocked w i (flagsPlace K i flags) then (.error 17, w)
          else (.ok 0, setPlace w i (flagsPlace K i flags) (some (.prog p)))

/-- `BPF_LINK_CREATE`. -/
def linkCreate (K : Kernel) (w : World) (p i flags : Nat) : Except Nat Nat × World :=
  if !K.links then (.error 22, w)
  else if (w.place i (flagsPlace K i flags)).isSome then (.error 16, w)
  else if blocked w i (flagsPlace K i flags) then (.error 17, w)
  else (.ok (K.newFd w), setFd (setPlace w i (flagsPlace K i flags) (some (.link (K.newLink w) p))) (K.newFd w)
    (some (.link (K.newLink w))))

/-- The link is gone from every place. -/
def unlink (w : World) (l : Nat) : World :=
  { w with place := fun i m => match w.place i m with
      | some (.link l' p) => if l' = l then none else some (.link l' p)
      | o => o }

/-- The link runs another program. -/
def relink (w : World) (l p : Nat) : World :=
  { w with place := fun i m => match w.place i m with
      | some (.link l' p') => some (.link l' (if l' = l then p else p'))
      | o => o }

/-- A descriptor that should be a program. -/
def World.prog (w : World) (f : Nat) : Option Nat :=
  match w.fd f with
  | some (.prog p) => some p
  | _ => none

/-- An optional descriptor that should be a program: `none` if it is not one. -/
def World.optProg (w : World) : Option Nat → Option (Option Nat)
  | none => some none
  | some f => (w.prog f).map some

/-- The kernel. Error 9 is a bad descriptor. -/
def sys (K : Kernel) : Sys World := fun w c =>
  match K.refuse w c with
  | some e => match c with
    | .close f => (.error e, setFd w f none)
    | _ => (.error e, w)
  | none =>
    match c with
    | .close f =>
      match w.fd f with
      | none => (.error 9, w)
      | some (.prog _) => (.ok 0, setFd w f none)
      | some (.link l) => (.ok 0, unlink (setFd w f none) l)
    | .linkCreate f i _ flags =>
      match w.prog f with
      | none => (.error 9, w)
      | some p => linkCreate K w p i flags
    | .linkUpdate f g =>
      match w.fd f, w.prog g with
      | some (.link l), some p => (.ok 0, relink w l p)
      | _, _ => (.error 9, w)
    | .setXdp i new old flags =>
      match w.optProg new, w.optProg old with
      | some new, some old => setXdp K w i new old flags
      | _, _ => (.error 9, w)

/-- Closing descriptors and removing programs is never refused for other reasons. -/
def Kernel.Frees (K : Kernel) : Prop :=
  (∀ w f, K.refuse w (.close f) = none) ∧ ∀ w i old flags, K.refuse w (.setXdp i none old flags) = none

/-- The program is loaded as `P` and its link descriptors are open. -/
structure Holds (w : World) (p : Prog) (f P : Nat) : Prop where
  fd : p.fd = some f
  prog : w.fd f = some (.prog P)
  links : ∀ g, Inner.fd g ∈ p.links → ∃ l, w.fd g = some (.link l)

end Verif.Attach.Xdp.Spec
