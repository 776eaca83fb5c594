import Verif.Common.Except
/-!
# Classifier links that outlive their process

Model of the links of classifiers attached through netlink (`/repo/aya/src/programs/tc.rs`): attaching, reading the parameters of the link, making a link of
parameters that were kept, detaching, replacing the program, and the table of links of a program.

Handles are the 32 bits that the kernel sees (their halves, and the bytes of the requests, are C60). Names of interfaces are bytes. Links of TCX are
only descriptors here; what they do is C102.
-/
namespace Verif.TcLink

abbrev Name := List UInt8

/-- `TcAttachType` (`/repo/aya/src/programs/tc.rs:28-37`). -/
inductive Hook where
  | ingress
  | egress
  | custom (parent : Nat)
deriving DecidableEq, Repr

/-- `TcAttachType::tc_parent` (`/repo/aya/src/programs/tc.rs:111-117`). -/
def Hook.parent : Hook → Nat
  | .custom p => p
  | .ingress => 0xFFFFFFF2
  | .egress => 0xFFFFFFF3

/-- What the functions ask of the system: `if_nametoindex`, and requests to make and to delete a filter, of which the second result of making one is the priority
    and handle of the kernel's reply (`/repo/aya/src/sys/netlink.rs:230-354`). -/
structure Sys (σ : Type) where
  index : Name → σ → Except Nat Nat
  newFilter : (ifx parent prog prio handle : Nat) → (classid : Option Nat) → (create : Bool) → σ → Except Nat (Nat × Nat) × σ
  delFilter : (ifx parent prio handle : Nat) → σ → Except Nat Unit × σ

inductive Err where
  /-- `io::Error` of a name with a zero byte in it -/
  | nul
  | io (errno : Nat)
  | netlink (errno : Nat)
  | alreadyAttached
  | notAttached
  | invalidLinkOperation
deriving DecidableEq, Repr

/-- `NlLink` (`/repo/aya/src/programs/tc.rs:477-484`). -/
structure NlLink where
  ifx : Nat
  hook : Hook
  prio : Nat
  handle : Nat
  classid : Option Nat
deriving DecidableEq, Repr

/-- `TcLinkInner` (`/repo/aya/src/programs/tc.rs:517-521`). -/
inductive Link where
  | fd (fd : Nat)
  | nl (l : NlLink)
deriving DecidableEq, Repr

/-- `NlLinkId` and `NlLink::id` (`/repo/aya/src/programs/tc.rs:474-475`, `490-492`). -/
abbrev Id := Nat × Hook × Nat × Nat

def NlLink.id (l : NlLink) : Id := (l.ifx, l.hook, l.prio, l.handle)

variable {σ : Type}

/-- `ifindex_from_ifname` (`/repo/aya/src/util.rs:361-370`). -/
def ifindex (S : Sys σ) (name : Name) (s : σ) : Except Err Nat :=
  if name.contains 0 then .error .nul
  else
    match S.index name s with
    | .ok i => .ok i
    | .error e => .error (.io e)

/-- `SchedClassifierLink::attached` (`/repo/aya/src/programs/tc.rs:603-618`). -/
def attached (S : Sys σ) (name : Name) (hook : Hook) (prio handle : Nat) (classid : Option Nat) (s : σ) : Except Err Link :=
  match ifindex S name s with
  | .ok ifx => .ok (.nl ⟨ifx, hook, prio, handle, classid⟩)
  | .error e => .error e

/-- `SchedClassifierLink::attach_type` (`/repo/aya/src/programs/tc.rs:621-627`). -/
def Link.attachType : Link → Except Err Hook
  | .nl l => .ok l.hook
  | .fd _ => .error .invalidLinkOperation

/-- `SchedClassifierLink::priority` (`/repo/aya/src/programs/tc.rs:630-636`). -/
def Link.priority : Link → Except Err Nat
  | .nl l => .ok l.prio
  | .fd _ => .error .invalidLinkOperation

/-- `SchedClassifierLink::handle` (`/repo/aya/src/programs/tc.rs:639-645`). -/
def Link.getHandle : Link → Except Err Nat
  | .nl l => .ok l.handle
  | .fd _ => .error .invalidLinkOperation

/-- `SchedClassifierLink::classid` (`/repo/aya/src/programs/tc.rs:649-655`). -/
def Link.getClassid : Link → Except Err (Option Nat)
  | .nl l => .ok l.classid
  | .fd _ => .error .invalidLinkOperation

/-- `NlLink::detach` (`/repo/aya/src/programs/tc.rs:494-506`). -/
def NlLink.detach (S : Sys σ) (l : NlLink) (s : σ) : Except Err Unit × σ :=
  match S.delFilter l.ifx l.hook.parent l.prio l.handle s with
  | (.ok _, s) => (.ok (), s)
  | (.error e, s) => (.error (.netlink e), s)

/-- The drop of a wrapper (`/repo/aya/src/programs/links.rs:516-524`). -/
def NlLink.drop (S : Sys σ) (l : NlLink) (s : σ) : σ := (l.detach S s).2

/-- `Links::insert` (`/repo/aya/src/programs/links.rs:84-89`): a link whose id is there already is dropped. -/
def insert (S : Sys σ) (links : List NlLink) (l : NlLink) (s : σ) : Except Err Id × List NlLink × σ :=
  if links.any (fun x => x.id == l.id) then (.error .alreadyAttached, links, l.drop S s)
  else (.ok l.id, l :: links, s)

/-- `Links::forget` (`/repo/aya/src/programs/links.rs:99-101`), that is `take_link`. -/
def takeLink (links : List NlLink) (id : Id) : Except Err NlLink × List NlLink :=
  match links.find? (fun x => x.id == id) with
  | some l => (.ok l, links.filter (fun x => !(x.id == id)))
  | none => (.error .notAttached, links)

/-- `Links::remove` (`/repo/aya/src/programs/links.rs:91-97`), that is `SchedClassifier::detach`. -/
def remove (S : Sys σ) (links : List NlLink) (id : Id) (s : σ) : Except Err Unit × List NlLink × σ :=
  match takeLink links id with
  | (.ok l, links) =>
    match l.detach S s with
    | (r, s) => (r, links, s)
  | (.error e, links) => (.error e, links, s)

/-- `SchedClassifier::do_attach` with `TcAttachOptions::Netlink` (`/repo/aya/src/programs/tc.rs:362-402`). -/
def doAttach (S : Sys σ) (prog : Nat) (links : List NlLink) (ifx : Nat) (hook : Hook) (prio handle : Nat) (classid : Option Nat) (create : Bool) (s : σ) :
    Except Err Id × List NlLink × σ :=
  match S.newFilter ifx hook.parent prog prio handle classid create s with
  | (.ok (prio, handle), s) => insert S links ⟨ifx, hook, prio, handle, classid⟩ s
  | (.error e, s) => (.error (.netlink e), links, s)

/-- `SchedClassifier::attach_with_options` (`/repo/aya/src/programs/tc.rs:308-316`), for netlink. -/
def attach (S : Sys σ) (prog : Nat) (links : List NlLink) (name : Name) (hook : Hook) (prio handle : Nat) (classid : Option Nat) (s : σ) :
    Except Err Id × List NlLink × σ :=
  match ifindex S name s with
  | .ok ifx => doAttach S prog links ifx hook prio handle classid true s
  | .error e => (.error e, links, s)

/-- `SchedClassifier::attach_to_link` (`/repo/aya/src/programs/tc.rs:321-360`), for links of netlink: the link is taken apart before, so that nothing is detached
    when it goes. -/
def attachToLink (S : Sys σ) (prog : Nat) (links : List NlLink) (l : NlLink) (s : σ) : Except Err Id × List NlLink × σ :=
  doAttach S prog links l.ifx l.hook l.prio l.handle l.classid false s

end Verif.TcLink
