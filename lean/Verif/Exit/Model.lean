import Verif.Common.Except
/-!
# Attaching, pinning and detaching, up to the end of the process

Model of the system calls that `attach` of each family of programs makes, in their order, and of dropping, pinning, unpinning and
updating links. The process can come to its end before each of these calls.

A place to which a program can be attached is a number, and so is a program. Calls that only read, the loading of programs and the
descriptors of programs are left out.
-/
namespace Verif.Exit

abbrev Fd := Nat
abbrev Hook := Nat
abbrev Prog := Nat
abbrev Path := Nat

/-- What a link is made for: a place, or an open perf event (`LinkTarget`, `/repo/aya/src/sys/bpf.rs`). -/
inductive Target where
  | hook (h : Hook)
  | perf (fd : Fd)
deriving DecidableEq, Repr

/-- System calls that change something. -/
inductive Call where
  | linkCreate (t : Target) (p : Prog)
  | rawOpen (h : Hook) (p : Prog)
  | linkUpdate (fd : Fd) (p : Prog)
  | progAttach (h : Hook) (p : Prog)
  | progDetach (h : Hook) (p : Prog)
  | netlinkSet (h : Hook) (p : Prog)
  | netlinkClear (h : Hook)
  | perfOpen (h : Hook) (cloexec : Bool)
  | setBpf (fd : Fd) (p : Prog)
  | enable (fd : Fd)
  | disable (fd : Fd)
  | writeProbe (h : Hook)
  | deleteProbe (h : Hook)
  | close (fd : Fd)
  | pin (fd : Fd) (path : Path)
  | objGet (path : Path)
  | unlink (path : Path)
  /-- The process starts another program (`fork` and `exec`). -/
  | spawn
deriving DecidableEq, Repr

/-- The system: the result of a call is an error number, or a descriptor (0 if there is none to return). If there is no result, the
    process has come to its end. -/
structure Sys (σ : Type) where
  call : Call → σ → Option (Except Nat Nat) × σ

/-- What runs until it returns or the process ends. -/
def M (σ α : Type) : Type := σ → Option α × σ

variable {σ : Type}

def ret {α : Type} (a : α) : M σ α := fun s => (some a, s)

def andThen {α β : Type} (m : M σ α) (f : α → M σ β) : M σ β := fun s =>
  match m s with
  | (none, s) => (none, s)
  | (some a, s) => f a s

/-- A system call. -/
def sys (S : Sys σ) (c : Call) : M σ (Except Nat Nat) := S.call c

/-- A system call whose result is dropped. -/
def sysUnit (S : Sys σ) (c : Call) : M σ Unit := andThen (sys S c) fun _ => ret ()

/-- `?`. -/
def onOk {α β : Type} (m : M σ (Except Nat α)) (f : α → M σ (Except Nat β)) : M σ (Except Nat β) :=
  andThen m fun r =>
    match r with
    | .error e => ret (.error e)
    | .ok a => f a

/-- Links: `FdLink`, `ProgAttachLink`, `LircLink`, the two `NlLink`s, and `PerfLink` with its probe event. -/
inductive Lk where
  | fd (fd : Fd)
  | prog (h : Hook) (p : Prog)
  | lirc
  | nl (h : Hook)
  | perf (fd : Fd) (event : Option Hook)
deriving DecidableEq, Repr

/-- What the kernel can: `KernelVersion::at_least(4, 17, 0)`, `(5, 7, 0)`, `(6, 6, 0)` and `Feature::BpfPerfLink`. -/
structure Features where
  v417 : Bool
  v57 : Bool
  v66 : Bool
  perfLink : Bool
deriving DecidableEq, Repr

/-- Families of programs by how they are attached.

* `cgroup`: `CgroupDevice`, `CgroupSkb`, `CgroupSock`, `CgroupSockAddr`, `CgroupSockopt`, `CgroupSysctl`, `SockOps`, `FlowDissector`
* `link`: `SkLookup`, `LsmCgroup`, `Iter`, `Extension`, and `UProbe` in its multi form
* `raw`: `RawTracePoint`, `BtfTracePoint`, `FEntry`, `FExit`, `Lsm`
* `sockMap`: `SkMsg`, `SkSkb`
* `tc`: `SchedClassifier::attach`, with whether the attach type is `Custom`; `tcx` and `tcNetlink` by `attach_with_options`
* `probe`: `KProbe` and `UProbe` -/
inductive Kind where
  | cgroup | link | raw | sockMap | lirc | xdp
  | tc (custom : Bool)
  | tcx | tcNetlink | tracePoint | perfEvent | probe
deriving DecidableEq, Repr

/-- `bpf_link_create` and `FdLink::new`, as in `/repo/aya/src/programs/sk_lookup.rs:75-82`, `lsm_cgroup.rs:96-111`,
    `extension.rs:107-119`, `iter.rs:81-87`. -/
def attachLink (S : Sys σ) (h : Hook) (p : Prog) : M σ (Except Nat Lk) :=
  onOk (sys S (.linkCreate (.hook h) p)) fun fd => ret (.ok (.fd fd))

/-- `ProgAttachLink::attach` (`/repo/aya/src/programs/links.rs:400-423`). -/
def attachProg (S : Sys σ) (h : Hook) (p : Prog) : M σ (Except Nat Lk) :=
  onOk (sys S (.progAttach h p)) fun _ => ret (.ok (.prog h p))

/-- `/repo/aya/src/programs/cgroup_skb.rs:84-117`; the others of this family are alike (`cgroup_device.rs:72-107`,
    `cgroup_sock.rs:73-104`, `cgroup_sock_addr.rs:74-105`, `cgroup_sockopt.rs:71-102`, `cgroup_sysctl.rs:70-101`,
    `sock_ops.rs:71-100`, `flow_dissector.rs:80-110`). -/
def attachCgroup (S : Sys σ) (f : Features) (h : Hook) (p : Prog) : M σ (Except Nat Lk) :=
  if f.v57 then attachLink S h p else attachProg S h p

/-- `attach_raw_tracepoint` (`/repo/aya/src/programs/utils.rs:18-30`). -/
def attachRaw (S : Sys σ) (h : Hook) (p : Prog) : M σ (Except Nat Lk) :=
  onOk (sys S (.rawOpen h p)) fun fd => ret (.ok (.fd fd))

/-- `LircMode2::attach` (`/repo/aya/src/programs/lirc_mode2.rs:71-90`). -/
def attachLirc (S : Sys σ) (h : Hook) (p : Prog) : M σ (Except Nat Lk) :=
  onOk (sys S (.progAttach h p)) fun _ => ret (.ok .lirc)

def einval : Nat := 22

/-- `Xdp::attach_to_if_index` (`/repo/aya/src/programs/xdp.rs:135-175`). -/
def attachXdp (S : Sys σ) (h : Hook) (p : Prog) : M σ (Except Nat Lk) :=
  andThen (sys S (.linkCreate (.hook h) p)) fun r =>
    match r with
    | .ok fd => ret (.ok (.fd fd))
    | .error e =>
      if e ≠ einval then ret (.error e)
      else onOk (sys S (.netlinkSet h p)) fun _ => ret (.ok (.nl h))

/-- `do_attach` with `TcAttachOptions::Netlink` (`/repo/aya/src/programs/tc.rs:373-400`). -/
def attachTcNetlink (S : Sys σ) (h : Hook) (p : Prog) : M σ (Except Nat Lk) :=
  onOk (sys S (.netlinkSet h p)) fun _ => ret (.ok (.nl h))

/-- `SchedClassifier::attach` (`/repo/aya/src/programs/tc.rs:235-253`). -/
def attachTc (S : Sys σ) (f : Features) (custom : Bool) (h : Hook) (p : Prog) : M σ (Except Nat Lk) :=
  if !custom && f.v66 then attachLink S h p else attachTcNetlink S h p

/-- `attach_bpf_link` (`/repo/aya/src/programs/perf_attach.rs:102-122`); the perf event is closed at its end. -/
def attachBpfLink (S : Sys σ) (fd : Fd) (p : Prog) : M σ (Except Nat Lk) :=
  andThen (sys S (.linkCreate (.perf fd) p)) fun r =>
    andThen (sysUnit S (.close fd)) fun _ =>
      match r with
      | .error e => ret (.error e)
      | .ok l => ret (.ok (.fd l))

/-- What is dropped when `attach_perf_event` fails: the probe event, which deletes its entry, and the perf event
    (`/repo/aya/src/programs/probe.rs:283-295`). -/
def giveUp (S : Sys σ) (fd : Fd) (event : Option Hook) (e : Nat) : M σ (Except Nat Lk) :=
  match event with
  | none => andThen (sysUnit S (.close fd)) fun _ => ret (.error e)
  | some h => andThen (sysUnit S (.deleteProbe h)) fun _ => andThen (sysUnit S (.close fd)) fun _ => ret (.error e)

/-- `attach_perf_event` (`/repo/aya/src/programs/perf_attach.rs:124-147`). -/
def attachPerf (S : Sys σ) (fd : Fd) (event : Option Hook) (p : Prog) : M σ (Except Nat Lk) :=
  andThen (sys S (.setBpf fd p)) fun r =>
    match r with
    | .error e => giveUp S fd event e
    | .ok _ =>
      andThen (sys S (.enable fd)) fun r =>
        match r with
        | .error e => giveUp S fd event e
        | .ok _ => ret (.ok (.perf fd event))

/-- `perf_attach` (`/repo/aya/src/programs/perf_attach.rs:87-100`), without a cookie. -/
def perfAttach (S : Sys σ) (f : Features) (fd : Fd) (p : Prog) : M σ (Except Nat Lk) :=
  if f.perfLink then attachBpfLink S fd p else attachPerf S fd none p

/-- `TracePoint::attach` (`/repo/aya/src/programs/trace_point.rs:78-90`, `/repo/aya/src/sys/perf_event.rs:165-181`). -/
def attachTracePoint (S : Sys σ) (f : Features) (h : Hook) (p : Prog) : M σ (Except Nat Lk) :=
  onOk (sys S (.perfOpen h true)) fun fd => perfAttach S f fd p

/-- `PerfEvent::attach` (`/repo/aya/src/programs/perf_event.rs:450-475`): the flags are 0. -/
def attachPerfEvent (S : Sys σ) (f : Features) (h : Hook) (p : Prog) : M σ (Except Nat Lk) :=
  onOk (sys S (.perfOpen h false)) fun fd => perfAttach S f fd p

/-- `create_as_trace_point` (`/repo/aya/src/programs/probe.rs:383-404`): the entry is deleted if the perf event cannot be opened. -/
def createAsTracePoint (S : Sys σ) (h : Hook) : M σ (Except Nat Fd) :=
  onOk (sys S (.writeProbe h)) fun _ =>
    andThen (sys S (.perfOpen h true)) fun r =>
      match r with
      | .error e => andThen (sysUnit S (.deleteProbe h)) fun _ => ret (.error e)
      | .ok fd => ret (.ok fd)

/-- `attach_impl` (`/repo/aya/src/programs/probe.rs:310-347`), without a cookie. -/
def attachProbe (S : Sys σ) (f : Features) (h : Hook) (p : Prog) : M σ (Except Nat Lk) :=
  if f.v417 && f.perfLink then onOk (sys S (.perfOpen h true)) fun fd => attachBpfLink S fd p
  else if f.v417 then onOk (sys S (.perfOpen h true)) fun fd => attachPerf S fd none p
  else onOk (createAsTracePoint S h) fun fd => attachPerf S fd (some h) p

/-- `attach` of all families. -/
def attach (S : Sys σ) (f : Features) (k : Kind) (h : Hook) (p : Prog) : M σ (Except Nat Lk) :=
  match k with
  | .cgroup => attachCgroup S f h p
  | .link => attachLink S h p
  | .raw => attachRaw S h p
  | .sockMap => attachProg S h p
  | .lirc => attachLirc S h p
  | .xdp => attachXdp S h p
  | .tc custom => attachTc S f custom h p
  | .tcx => attachLink S h p
  | .tcNetlink => attachTcNetlink S h p
  | .tracePoint => attachTracePoint S f h p
  | .perfEvent => attachPerfEvent S f h p
  | .probe => attachProbe S f h p

/-- Dropping a link: `FdLink` closes its descriptor, `ProgAttachLink` and the `NlLink`s ask the kernel
    (`/repo/aya/src/programs/links.rs:438-445`, `xdp.rs:267-286`, `tc.rs` likewise), `PerfLink` disables, deletes and closes
    (`perf_attach.rs:73-82`), `LircLink` does nothing (`lirc_mode2.rs:131-163` has no `Drop`). -/
def dropLink (S : Sys σ) (l : Lk) : M σ Unit :=
  match l with
  | .fd fd => sysUnit S (.close fd)
  | .prog h p => sysUnit S (.progDetach h p)
  | .lirc => ret ()
  | .nl h => sysUnit S (.netlinkClear h)
  | .perf fd none => andThen (sysUnit S (.disable fd)) fun _ => sysUnit S (.close fd)
  | .perf fd (some h) =>
    andThen (sysUnit S (.disable fd)) fun _ => andThen (sysUnit S (.deleteProbe h)) fun _ => sysUnit S (.close fd)

/-- `FdLink::pin` (`/repo/aya/src/programs/links.rs:288-303`): the link is dropped if it cannot be pinned. -/
def pinLink (S : Sys σ) (fd : Fd) (path : Path) : M σ (Except Nat Lk) :=
  andThen (sys S (.pin fd path)) fun r =>
    match r with
    | .error e => andThen (sysUnit S (.close fd)) fun _ => ret (.error e)
    | .ok _ => ret (.ok (.fd fd))

/-- `PinnedLink::from_pin` (`/repo/aya/src/programs/links.rs:354-366`). -/
def fromPin (S : Sys σ) (path : Path) : M σ (Except Nat Fd) := sys S (.objGet path)

/-- `attach_to_link` of a link that is a descriptor (`/repo/aya/src/programs/tc.rs:328-342`, `xdp.rs:198-210`). -/
def attachToLink (S : Sys σ) (fd : Fd) (p : Prog) : M σ (Except Nat Lk) :=
  andThen (sys S (.linkUpdate fd p)) fun r =>
    match r with
    | .error e => andThen (sysUnit S (.close fd)) fun _ => ret (.error e)
    | .ok _ => ret (.ok (.fd fd))

def enoent : Nat := 2

/-- The link to begin with in the documented way to replace a program across restarts of a process
    (`/repo/aya/src/programs/tc.rs:280-295`). -/
def restartLink (S : Sys σ) (path : Path) (h : Hook) (p : Prog) : M σ (Except Nat Lk) :=
  andThen (fromPin S path) fun r =>
    match r with
    | .ok fd => attachToLink S fd p
    | .error e => if e = enoent then attachLink S h p else ret (.error e)

/-- The documented way to replace a program across restarts of a process (`/repo/aya/src/programs/tc.rs:278-300`). Links that are not
    descriptors cannot be pinned. -/
def restart (S : Sys σ) (path : Path) (h : Hook) (p : Prog) : M σ (Except Nat Lk) :=
  onOk (restartLink S path h p) fun l =>
    match l with
    | .fd fd => pinLink S fd path
    | l => ret (.ok l)

/-- What a user can do. Links are named by the order in which they came, and are kept until they are used; `unpin` removes the file, which is how a pinned link is unpinned (`/repo/aya/src/programs/links.rs:369-372`). -/
inductive Op where
  | attach (k : Kind) (h : Hook) (p : Prog)
  | drop (i : Nat)
  | pin (i : Nat) (path : Path)
  | unpin (path : Path)
  | fromPin (path : Path)
  | update (i : Nat) (p : Prog)
  | spawn
deriving DecidableEq, Repr

/-- The links of the user, some of which are gone. -/
abbrev Store := List (Option Lk)

def keep (st : Store) (r : Except Nat Lk) : Store :=
  match r with
  | .ok l => st ++ [some l]
  | .error _ => st ++ [none]

def runOp (S : Sys σ) (f : Features) (o : Op) (st : Store) : M σ Store :=
  match o with
  | .attach k h p => andThen (attach S f k h p) fun r => ret (keep st r)
  | .drop i =>
    match st[i]? with
    | some (some l) => andThen (dropLink S l) fun _ => ret (st.set i none)
    | _ => ret st
  | .pin i path =>
    match st[i]? with
    | some (some (.fd fd)) => andThen (pinLink S fd path) fun r => ret (keep (st.set i none) r)
    | _ => ret st
  | .unpin path => andThen (sysUnit S (.unlink path)) fun _ => ret st
  | .fromPin path =>
    andThen (fromPin S path) fun r =>
      match r with
      | .ok fd => ret (keep st (.ok (.fd fd)))
      | .error e => ret (keep st (.error e))
  | .update i p =>
    match st[i]? with
    | some (some (.fd fd)) => andThen (attachToLink S fd p) fun r => ret (keep (st.set i none) r)
    | _ => ret st
  | .spawn => andThen (sysUnit S .spawn) fun _ => ret st

def runOps (S : Sys σ) (f : Features) : List Op → Store → M σ Store
  | [], st => ret st
  | o :: os, st => andThen (runOp S f o st) fun st => runOps S f os st

end Verif.Exit
