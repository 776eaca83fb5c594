import Verif.Section.Model
/-!
# Attaching to a control group, network namespace, socket map or infrared device

Model of `attach` of the programs whose target is given by a file descriptor
(`/repo/aya/src/programs/cgroup_device.rs:72-107`, `cgroup_skb.rs:82-117`, `cgroup_sock.rs:73-104`,
`cgroup_sock_addr.rs:74-106`, `cgroup_sockopt.rs:71-104`, `cgroup_sysctl.rs:70-105`, `sock_ops.rs:69-100`,
`flow_dissector.rs:80-110`, `sk_lookup.rs:70-83`, `lsm_cgroup.rs:92-112`, `sk_msg.rs:87-98`, `sk_skb.rs:78-85`,
`lirc_mode2.rs:71-90`), of their links (`links.rs:374-443`, `lirc_mode2.rs:129-171`) and of the system calls
(`/repo/aya/src/sys/bpf.rs:448-534`, `587-627`, `937-996`). System calls go through a function that answers and changes
the state of the system.
-/
namespace Verif.Attach.Fd
open Verif.Section (CgroupSkbAttachType CgroupSockAttachType CgroupSockAddrAttachType CgroupSockoptAttachType SkSkbKind)

/-- What is asked of the kernel. -/
inductive Call where
  /-- `BPF_LINK_CREATE` with a target descriptor -/
  | linkCreate (prog target attachType flags : Nat)
  | progAttach (prog target attachType flags : Nat)
  | progDetach (prog target attachType : Nat)
  | dup (fd : Nat)
  | close (fd : Nat)
  /-- reading and raising the limit on locked memory -/
  | raiseLimit
deriving DecidableEq, Repr

/-- A system: answers a call with a number (a descriptor, or 0) or an error number. -/
abbrev Sys (σ : Type) := σ → Call → Except Nat Nat × σ

/-- `ProgramError` as far as it arises here. -/
inductive Err where
  | notLoaded
  | io (errno : Nat)
  | syscall (errno : Nat)
  | alreadyAttached
  | notAttached
deriving DecidableEq, Repr

/-- `CgroupAttachMode` (`links.rs:45-56`). -/
inductive Mode where
  | single | allowOverride | allowMultiple
deriving DecidableEq, Repr

/-- `From<CgroupAttachMode> for u32` (`links.rs:58-66`). -/
def Mode.flags : Mode → Nat
  | .single => 0
  | .allowOverride => 1
  | .allowMultiple => 2

/-- The program types with a target descriptor, with the attach type of the program. -/
inductive Kind where
  | cgroupDevice
  | cgroupSkb
  | cgroupSock (t : CgroupSockAttachType)
  | cgroupSockAddr (t : CgroupSockAddrAttachType)
  | cgroupSockopt (t : CgroupSockoptAttachType)
  | cgroupSysctl
  | sockOps
  | flowDissector
  | skLookup
  | lsmCgroup
  | skMsg
  | skSkb (k : SkSkbKind)
  | lircMode2
deriving DecidableEq, Repr

/-- How a program type is attached: by a link where the kernel has them (5.7) and otherwise by `BPF_PROG_ATTACH`, with
the mode; the same without a mode; always by a link; always by `BPF_PROG_ATTACH`. -/
inductive How where
  | linkOrAttach (mode : Mode)
  | link
  | attach
deriving DecidableEq, Repr

/-- The attach type and the way of attaching, as in the functions listed above. `skb` and `mode` are arguments of `attach`
where there are such. -/
def Kind.how (skb : CgroupSkbAttachType) (mode : Mode) : Kind → Nat × How
  | .cgroupDevice => (6, .linkOrAttach mode)
  | .cgroupSkb => (skb.num, .linkOrAttach mode)
  | .cgroupSock t => (t.num, .linkOrAttach mode)
  | .cgroupSockAddr t => (t.num, .linkOrAttach mode)
  | .cgroupSockopt t => (t.num, .linkOrAttach mode)
  | .cgroupSysctl => (18, .linkOrAttach mode)
  | .sockOps => (3, .linkOrAttach mode)
  | .flowDissector => (17, .linkOrAttach .single)
  | .skLookup => (36, .link)
  | .lsmCgroup => (43, .link)
  | .skMsg => (7, .attach)
  | .skSkb k => (k.num, .attach)
  | .lircMode2 => (16, .attach)

/-- `FdLink`, or `ProgAttachLink` and `LircLink` (`links.rs:374-384`, `lirc_mode2.rs:129-134`). -/
inductive Inner where
  | fd (fd : Nat)
  | prog (prog target attachType : Nat)
deriving DecidableEq, Repr

/-- A program. Link identifiers consist of all parts of the link (`links.rs:370-372`, `425-431`), so links stand for
their identifiers. -/
structure Prog where
  kind : Kind
  fd : Option Nat
  links : List Inner
deriving DecidableEq, Repr

/-- `with_raised_rlimit_retry` (`/repo/aya/src/sys/bpf.rs:937-996`) with `EPERM` and `ENOMEM`: before 5.11 the call is
made once more after raising the limit. The limit is raised at most once in the life of the process; here every time. -/
def withRetry {σ : Type} (sys : Sys σ) (at511 : Bool) (c : Call) (s : σ) : Except Nat Nat × σ :=
  match sys s c with
  | (.ok r, s) => (.ok r, s)
  | (.error e, s) =>
    if !at511 && (e == 1 || e == 12) then sys (sys s .raiseLimit).2 c else (.error e, s)

/-- `Link::detach` (`links.rs:317-325`, `433-440`, `lirc_mode2.rs:163-166`), then the descriptors of the link are
closed. -/
def Inner.detach {σ : Type} (sys : Sys σ) (l : Inner) (s : σ) : Except Err Unit × σ :=
  match l with
  | .fd f => (.ok (), (sys s (.close f)).2)
  | .prog p t ty =>
    match sys s (.progDetach p t ty) with
    | (.ok _, s) => (.ok (), (sys (sys s (.close p)).2 (.close t)).2)
    | (.error e, s) => (.error (.syscall e), (sys (sys s (.close p)).2 (.close t)).2)

/-- `Links::insert` (`links.rs:84-89`); a link that is already there is dropped, which detaches it. -/
def insert {σ : Type} (sys : Sys σ) (p : Prog) (l : Inner) (s : σ) : Except Err Inner × Prog × σ :=
  if p.links.contains l then (.error .alreadyAttached, p, (l.detach sys s).2)
  else (.ok l, { p with links := p.links ++ [l] }, s)

/-- `ProgAttachLink::attach` (`links.rs:399-422`), also the beginning of `LircMode2::attach`: both descriptors are
duplicated first, and the duplicates closed if anything fails. -/
def progAttachLink {σ : Type} (sys : Sys σ) (at511 : Bool) (prog target attachType : Nat) (mode : Mode) (s : σ) :
    Except Err Inner × σ :=
  match sys s (.dup prog) with
  | (.error e, s) => (.error (.io e), s)
  | (.ok prog', s) =>
    match sys s (.dup target) with
    | (.error e, s) => (.error (.io e), (sys s (.close prog')).2)
    | (.ok target', s) =>
      match withRetry sys at511 (.progAttach prog' target' attachType mode.flags) s with
      | (.error e, s) => (.error (.syscall e), (sys (sys s (.close target')).2 (.close prog')).2)
      | (.ok _, s) => (.ok (.prog prog' target' attachType), s)

/-- `bpf_link_create` (`/repo/aya/src/sys/bpf.rs:448-534`) with a target descriptor. -/
def fdLink {σ : Type} (sys : Sys σ) (at511 : Bool) (prog target attachType flags : Nat) (s : σ) : Except Err Inner × σ :=
  match withRetry sys at511 (.linkCreate prog target attachType flags) s with
  | (.error e, s) => (.error (.syscall e), s)
  | (.ok f, s) => (.ok (.fd f), s)

/-- Making the link. `at57`: the kernel is at least 5.7. -/
def makeLink {σ : Type} (sys : Sys σ) (at57 at511 : Bool) (how : How) (prog target attachType : Nat) (s : σ) :
    Except Err Inner × σ :=
  match how with
  | .linkOrAttach mode =>
    if at57 then fdLink sys at511 prog target attachType mode.flags s
    else progAttachLink sys at511 prog target attachType mode s
  | .link => fdLink sys at511 prog target attachType 0 s
  | .attach => progAttachLink sys at511 prog target attachType .single s

/-- `attach`, of the functions listed above. -/
def attach {σ : Type} (sys : Sys σ) (at57 at511 : Bool) (p : Prog) (target : Nat) (skb : CgroupSkbAttachType) (mode : Mode)
    (s : σ) : Except Err Inner × Prog × σ :=
  match p.fd with
  | none => (.error .notLoaded, p, s)
  | some f =>
    match makeLink sys at57 at511 (p.kind.how skb mode).2 f target (p.kind.how skb mode).1 s with
    | (.error e, s) => (.error e, p, s)
    | (.ok l, s) => insert sys p l s

/-- `detach`: `Links::remove` (`links.rs:91-97`). -/
def detach {σ : Type} (sys : Sys σ) (p : Prog) (id : Inner) (s : σ) : Except Err Unit × Prog × σ :=
  if p.links.contains id then ((id.detach sys s).1, { p with links := p.links.erase id }, (id.detach sys s).2)
  else (.error .notAttached, p, s)

end Verif.Attach.Fd
