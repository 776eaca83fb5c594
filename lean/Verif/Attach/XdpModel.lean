import Verif.Netlink.Model
/-!
# Attaching XDP programs

Model of `Xdp` and its links (`/repo/aya/src/programs/xdp.rs:94-353`) with `Links` and the link wrapper
(`/repo/aya/src/programs/links.rs:69-118`, `486-560`). System calls go through a function that answers and changes the
state of the system; the model works for any such function. The netlink request is one call: C39 shows that its bytes
carry exactly these fields. Interface indexes are below `2 ^ 31`, where the conversion to `i32` does nothing.
-/
namespace Verif.Attach.Xdp
open Verif.Netlink (XdpMode)

/-- What is asked of the kernel. -/
inductive Call where
  /-- `BPF_LINK_CREATE` on an interface -/
  | linkCreate (prog ifIndex attachType flags : Nat)
  /-- `BPF_LINK_UPDATE` without flags -/
  | linkUpdate (link prog : Nat)
  /-- `RTM_SETLINK` with `IFLA_XDP`: the descriptor (`none`: -1), the expected descriptor and the flags -/
  | setXdp (ifIndex : Nat) (prog expected : Option Nat) (flags : Nat)
  | close (fd : Nat)
deriving DecidableEq, Repr

/-- A system: answers a call with a number (a descriptor, or 0) or an error number. -/
abbrev Sys (σ : Type) := σ → Call → Except Nat Nat × σ

/-- `ProgramError` as far as it arises here; `panicked` is a panic. -/
inductive Err where
  | notLoaded
  | linkCreate (errno : Nat)
  | linkUpdate (errno : Nat)
  | netlink (errno : Nat)
  | alreadyAttached
  | notAttached
  | unknownInterface
  | panicked
deriving DecidableEq, Repr

/-- `XdpLinkInner` (`xdp.rs:297-301`). -/
inductive Inner where
  | fd (fd : Nat)
  | nl (ifIndex progFd : Nat) (mode : XdpMode)
deriving DecidableEq, Repr

/-- `XdpLinkIdInner` (`xdp.rs:291-295`), `NlLinkId` (`250-251`). -/
inductive Id where
  | fd (fd : Nat)
  | nl (ifIndex progFd : Nat)
deriving DecidableEq, Repr

/-- `Link::id` (`xdp.rs:257-264`, `307-312`). -/
def Inner.id : Inner → Id
  | .fd f => .fd f
  | .nl i p _ => .nl i p

/-- `Xdp` (`xdp.rs:88-92`) with the parts of `ProgramData` used here. The links are a list instead of a set. -/
structure Prog where
  fd : Option Nat
  attachType : Nat
  links : List Inner
deriving DecidableEq, Repr

/-- `netlink_set_xdp_fd` (`/repo/aya/src/sys/netlink.rs:110-167`). -/
def netlinkSetXdpFd {σ : Type} (sys : Sys σ) (ifIndex : Nat) (fd expected : Option Nat) (mode : XdpMode) (s : σ) :
    Except Nat Nat × σ :=
  let flags := mode.flags ||| 1
  let flags := match expected with
    | none => flags
    | some _ => flags ||| 16
  sys s (.setXdp ifIndex fd expected flags)

/-- `Link::detach` (`xdp.rs:266-288`, `314-319`): a link descriptor is closed (`links.rs:317-325`), a netlink link is
removed, naming the program it expects if the kernel is at least 5.7. The result is ignored. -/
def Inner.detach {σ : Type} (sys : Sys σ) (at57 : Bool) (l : Inner) (s : σ) : σ :=
  match l with
  | .fd f => (sys s (.close f)).2
  | .nl i p m => (netlinkSetXdpFd sys i none (if at57 then some p else none) m s).2

/-- `Links::insert` (`links.rs:84-89`); a link that is already there is dropped, which detaches it (`514-522`). -/
def insert {σ : Type} (sys : Sys σ) (at57 : Bool) (p : Prog) (l : Inner) (s : σ) : Except Err Id × Prog × σ :=
  if p.links.any (fun l' => l'.id == l.id) then (.error .alreadyAttached, p, l.detach sys at57 s)
  else (.ok l.id, { p with links := p.links ++ [l] }, s)

/-- `Xdp::attach_to_if_index` (`xdp.rs:135-175`). -/
def attachToIfIndex {σ : Type} (sys : Sys σ) (at57 : Bool) (p : Prog) (ifIndex : Nat) (mode : XdpMode) (s : σ) :
    Except Err Id × Prog × σ :=
  match p.fd with
  | none => (.error .notLoaded, p, s)
  | some f =>
    match sys s (.linkCreate f ifIndex p.attachType mode.flags) with
    | (.ok linkFd, s) => insert sys at57 p (.fd linkFd) s
    | (.error e, s) =>
      if e != 22 then (.error (.linkCreate e), p, s)
      else
        match netlinkSetXdpFd sys ifIndex (some f) none mode s with
        | (.error e, s) => (.error (.netlink e), p, s)
        | (.ok _, s) => insert sys at57 p (.nl ifIndex f mode) s

/-- `Xdp::attach` (`xdp.rs:115-125`). `index` is `if_nametoindex`, which gives 0 for unknown names. -/
def attach {σ : Type} (sys : Sys σ) (at57 : Bool) (index : List Char → Nat) (p : Prog) (interface : List Char)
    (mode : XdpMode) (s : σ) : Except Err Id × Prog × σ :=
  if '\x00' ∈ interface then (.error .panicked, p, s)
  else if index interface == 0 then (.error .unknownInterface, p, s)
  else attachToIfIndex sys at57 p (index interface) mode s

/-- `Xdp::detach`: `Links::remove` (`links.rs:91-97`). -/
def detach {σ : Type} (sys : Sys σ) (at57 : Bool) (p : Prog) (id : Id) (s : σ) : Except Err Unit × Prog × σ :=
  match p.links.find? (fun l => l.id == id) with
  | none => (.error .notAttached, p, s)
  | some l => (.ok (), { p with links := p.links.erase l }, l.detach sys at57 s)

/-- `Xdp::attach_to_link` (`xdp.rs:194-241`). The link is consumed: it is dropped if the program is not loaded, its
descriptor is closed if it cannot be updated, and a netlink link taken apart is just forgotten. -/
def attachToLink {σ : Type} (sys : Sys σ) (at57 : Bool) (p : Prog) (l : Inner) (s : σ) : Except Err Id × Prog × σ :=
  match p.fd with
  | none => (.error .notLoaded, p, l.detach sys at57 s)
  | some f =>
    match l with
    | .fd linkFd =>
      match sys s (.linkUpdate linkFd f) with
      | (.error e, s) => (.error (.linkUpdate e), p, (sys s (.close linkFd)).2)
      | (.ok _, s) => insert sys at57 p (.fd linkFd) s
    | .nl i old m =>
      match netlinkSetXdpFd sys i (some f) (some old) m s with
      | (.error e, s) => (.error (.netlink e), p, s)
      | (.ok _, s) => insert sys at57 p (.nl i f m) s

end Verif.Attach.Xdp
