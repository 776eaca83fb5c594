import Verif.Util.Model
/-!
# Attaching classifiers and ordering them

Model of `SchedClassifier` (`/repo/aya/src/programs/tc.rs:79-420`), its links (`474-566`) and of `LinkOrder`
(`/repo/aya/src/programs/links.rs:621-748`). System calls go through a function that answers and changes the state of the
system. Netlink requests are one call each; their bytes and replies are the subject of C39, C41 and C60. Interface indexes
are below `2 ^ 31`.
-/
namespace Verif.Attach.Tcx
open Verif.Util (TcAttachType)

/-- `LinkRef` (`links.rs:621-625`). -/
inductive LinkRef where
  | id (id : Nat)
  | fd (fd : Nat)
deriving DecidableEq, Repr

/-- What is asked of the kernel. -/
inductive Call where
  /-- `BPF_LINK_CREATE` on an interface with `tcx.relative_fd` or `tcx.relative_id` (one field) -/
  | linkCreate (prog ifIndex attachType flags relative : Nat)
  | linkUpdate (link prog : Nat)
  /-- adding or changing a filter over netlink -/
  | filterAdd (ifIndex parent prog : Nat) (name : List Char) (priority handle : Nat) (classid : Option Nat) (create : Bool)
  /-- removing a filter over netlink -/
  | filterDel (ifIndex parent priority handle : Nat)
  | close (fd : Nat)
deriving DecidableEq, Repr

/-- A system: answers with a pair (descriptor and 0, or priority and handle) or an error number. -/
abbrev Sys (σ : Type) := σ → Call → Except Nat (Nat × Nat) × σ

/-- `ProgramError` as far as it arises here; `panicked` is a panic. -/
inductive Err where
  | notLoaded
  | invalidLink
  | io
  | invalidTcxAttach (parent : Nat)
  | linkCreate (errno : Nat)
  | linkUpdate (errno : Nat)
  | netlink (errno : Nat)
  | alreadyAttached
  | notAttached
  | panicked
deriving DecidableEq, Repr

/-- `LinkOrder` (`links.rs:662-666`). Flags: 8 before, 16 after, 32 id, 8192 link (`627-637`). -/
structure LinkOrder where
  linkRef : LinkRef
  flags : Nat
deriving DecidableEq, Repr

/-- `TcLinkInner`, `NlLink` (`tc.rs:477-484`, `516-520`). -/
inductive Inner where
  | fd (fd : Nat)
  | nl (ifIndex : Nat) (attachType : TcAttachType) (priority handle : Nat) (classid : Option Nat)
deriving DecidableEq, Repr

/-- `TcLinkIdInner`, `NlLinkId` (`tc.rs:474-475`, `510-514`). -/
inductive Id where
  | fd (fd : Nat)
  | nl (ifIndex : Nat) (attachType : TcAttachType) (priority handle : Nat)
deriving DecidableEq, Repr

/-- `Link::id` (`tc.rs:490-492`, `526-531`). -/
def Inner.id : Inner → Id
  | .fd f => .fd f
  | .nl i t p h _ => .nl i t p h

/-- `SchedClassifier` (`tc.rs:79-83`) with the parts of `ProgramData` used here. -/
structure Prog where
  fd : Option Nat
  name : Option (List Char)
  links : List Inner
deriving DecidableEq, Repr

/-- `LinkOrder::default` (`links.rs:668-676`). -/
def LinkOrder.default : LinkOrder := ⟨.fd 0, 16⟩

/-- `LinkOrder::first` (`links.rs:680-685`). -/
def LinkOrder.first : LinkOrder := ⟨.id 0, 8⟩

/-- `LinkOrder::last` (`links.rs:688-693`). -/
def LinkOrder.last : LinkOrder := ⟨.id 0, 16⟩

/-- `MultiProgLink::fd` (`/repo/aya/src/programs/mod.rs:1219-1232`, `tc.rs:543-553`). -/
def linkFd : Inner → Except Err Nat
  | .fd f => .ok f
  | .nl _ _ _ _ _ => .error .invalidLink

/-- `MultiProgram::fd` (`/repo/aya/src/programs/mod.rs:1194-1206`). -/
def progFd (p : Prog) : Except Err Nat :=
  match p.fd with
  | some f => .ok f
  | none => .error .notLoaded

/-- `LinkOrder::before_link` (`links.rs:696-701`). -/
def LinkOrder.beforeLink (l : Inner) : Except Err LinkOrder := (linkFd l).map (fun f => ⟨.fd f, 8 ||| 8192⟩)

/-- `LinkOrder::after_link` (`links.rs:704-709`). -/
def LinkOrder.afterLink (l : Inner) : Except Err LinkOrder := (linkFd l).map (fun f => ⟨.fd f, 16 ||| 8192⟩)

/-- `LinkOrder::before_program` (`links.rs:712-717`). -/
def LinkOrder.beforeProgram (p : Prog) : Except Err LinkOrder := (progFd p).map (fun f => ⟨.fd f, 8⟩)

/-- `LinkOrder::after_program` (`links.rs:720-725`). -/
def LinkOrder.afterProgram (p : Prog) : Except Err LinkOrder := (progFd p).map (fun f => ⟨.fd f, 16⟩)

/-- `LinkOrder::before_program_id` (`links.rs:728-733`). -/
def LinkOrder.beforeProgramId (id : Nat) : LinkOrder := ⟨.id id, 8 ||| 32⟩

/-- `LinkOrder::after_program_id` (`links.rs:736-741`). -/
def LinkOrder.afterProgramId (id : Nat) : LinkOrder := ⟨.id id, 16 ||| 32⟩

/-- The number put into the request: descriptor and id share a field (`/repo/aya/src/sys/bpf.rs:478-497`). -/
def LinkRef.value : LinkRef → Nat
  | .id i => i
  | .fd f => f

/-- `TcAttachType::tcx_attach_type` (`tc.rs:119-125`): `BPF_TCX_INGRESS`, `BPF_TCX_EGRESS`. -/
def tcxAttachType : TcAttachType → Except Err Nat
  | .ingress => .ok 46
  | .egress => .ok 47
  | .custom parent => .error (.invalidTcxAttach parent.toNat)

/-- `TcAttachOptions` (`tc.rs:134-140`), `NlOptions` (`186-209`). -/
inductive Options where
  | netlink (priority handle : Nat) (classid : Option Nat)
  | tcxOrder (order : LinkOrder)
deriving DecidableEq, Repr

/-- `Link::detach` (`tc.rs:494-505`, `533-538`). -/
def Inner.detach {σ : Type} (sys : Sys σ) (l : Inner) (s : σ) : Except Err Unit × σ :=
  match l with
  | .fd f => (.ok (), (sys s (.close f)).2)
  | .nl i t p h _ =>
    match sys s (.filterDel i t.tcParent.toNat p h) with
    | (.ok _, s) => (.ok (), s)
    | (.error e, s) => (.error (.netlink e), s)

/-- `Links::insert` (`links.rs:84-89`); a link that is already there is dropped, which detaches it. -/
def insert {σ : Type} (sys : Sys σ) (p : Prog) (l : Inner) (s : σ) : Except Err Id × Prog × σ :=
  if p.links.any (fun l' => l'.id == l.id) then (.error .alreadyAttached, p, (l.detach sys s).2)
  else (.ok l.id, { p with links := p.links ++ [l] }, s)

/-- `SchedClassifier::do_attach` (`tc.rs:362-420`). A name with a NUL character panics. -/
def doAttach {σ : Type} (sys : Sys σ) (p : Prog) (ifIndex : Nat) (t : TcAttachType) (o : Options) (create : Bool)
    (s : σ) : Except Err Id × Prog × σ :=
  match p.fd with
  | none => (.error .notLoaded, p, s)
  | some f =>
    match o with
    | .netlink priority handle classid =>
      if '\x00' ∈ p.name.getD [] then (.error .panicked, p, s)
      else
        match sys s (.filterAdd ifIndex t.tcParent.toNat f (p.name.getD []) priority handle classid create) with
        | (.error e, s) => (.error (.netlink e), p, s)
        | (.ok (priority, handle), s) => insert sys p (.nl ifIndex t priority handle classid) s
    | .tcxOrder order =>
      match tcxAttachType t with
      | .error e => (.error e, p, s)
      | .ok ty =>
        match sys s (.linkCreate f ifIndex ty order.flags order.linkRef.value) with
        | (.error e, s) => (.error (.linkCreate e), p, s)
        | (.ok (linkFd, _), s) => insert sys p (.fd linkFd) s

/-- `ifindex_from_ifname` (`/repo/aya/src/util.rs:361-370`); `index` is `if_nametoindex`. -/
def ifIndexOf (index : List Char → Nat) (interface : List Char) : Except Err Nat :=
  if '\x00' ∈ interface then .error .io
  else if index interface == 0 then .error .io
  else .ok (index interface)

/-- `SchedClassifier::attach_with_options` (`tc.rs:308-316`). -/
def attachWithOptions {σ : Type} (sys : Sys σ) (index : List Char → Nat) (p : Prog) (interface : List Char)
    (t : TcAttachType) (o : Options) (s : σ) : Except Err Id × Prog × σ :=
  match ifIndexOf index interface with
  | .error e => (.error e, p, s)
  | .ok i => doAttach sys p i t o true s

def isCustom : TcAttachType → Bool
  | .custom _ => true
  | _ => false

/-- `SchedClassifier::attach` (`tc.rs:239-257`). `at66`: the kernel is at least 6.6. -/
def attach {σ : Type} (sys : Sys σ) (at66 : Bool) (index : List Char → Nat) (p : Prog) (interface : List Char)
    (t : TcAttachType) (s : σ) : Except Err Id × Prog × σ :=
  if !isCustom t && at66 then attachWithOptions sys index p interface t (.tcxOrder .default) s
  else attachWithOptions sys index p interface t (.netlink 0 0 none) s

/-- `SchedClassifier::detach`: `Links::remove` (`links.rs:91-97`). -/
def detach {σ : Type} (sys : Sys σ) (p : Prog) (id : Id) (s : σ) : Except Err Unit × Prog × σ :=
  match p.links.find? (fun l => l.id == id) with
  | none => (.error .notAttached, p, s)
  | some l => ((l.detach sys s).1, { p with links := p.links.erase l }, (l.detach sys s).2)

/-- `SchedClassifier::attach_to_link` (`tc.rs:321-360`). The link is consumed. -/
def attachToLink {σ : Type} (sys : Sys σ) (p : Prog) (l : Inner) (s : σ) : Except Err Id × Prog × σ :=
  match p.fd with
  | none => (.error .notLoaded, p, (l.detach sys s).2)
  | some f =>
    match l with
    | .fd linkFd =>
      match sys s (.linkUpdate linkFd f) with
      | (.error e, s) => (.error (.linkUpdate e), p, (sys s (.close linkFd)).2)
      | (.ok _, s) => insert sys p (.fd linkFd) s
    | .nl i t priority handle classid => doAttach sys p i t (.netlink priority handle classid) false s

end Verif.Attach.Tcx
