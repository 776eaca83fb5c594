import Verif.Common.Except
/-!
# Links and their conversions

The typed links of programs, `FdLink`, `PinnedLink` and iterator files, and everything that turns one into another or lets
go of one: `/repo/aya/src/programs/links.rs` and the links in `/repo/aya/src/programs/*.rs`. File names below are relative
to `/repo/aya/src/programs`.

Simplified: how a program gets attached is modelled elsewhere (`Verif.Attach`, `Verif.Probe`, `Verif.UProbe`); here an
attached program's link is given. What a netlink or `BPF_PROG_ATTACH` link remembers to be able to detach is a number of the
attachment. Definitions of probes in tracefs are left out (`Verif.Probe`). The Rust types forbid asking, say, an `IterLink`
for its list of descriptors; here such requests are refused by `Run`.
-/
namespace Verif.Conv

/-- What the kernel tells of a link (`bpf_link_info`), as far as `LinkInfo` gives it (links.rs:120-145). -/
structure Info where
  id : Nat
  prog : Nat
  type : Nat
deriving DecidableEq, Repr

/-- System calls, over a state `σ` of everything outside the library. -/
structure Os (σ : Type) where
  /-- dropping an `OwnedFd` -/
  close : Nat → σ → σ
  /-- `PERF_EVENT_IOC_DISABLE` -/
  disable : Nat → σ → σ
  /-- detaching through netlink or `BPF_PROG_DETACH` -/
  detach : Nat → σ → Except Nat Unit × σ
  /-- `BPF_OBJ_GET_INFO_BY_FD` -/
  info : Nat → σ → Except Nat Info
  /-- `BPF_ITER_CREATE` -/
  createIter : Nat → σ → Except Nat Nat × σ
  /-- `BPF_OBJ_PIN` -/
  pin : Nat → Nat → σ → Except Nat Unit × σ
  /-- `BPF_OBJ_GET` -/
  get : Nat → σ → Except Nat Nat × σ
  /-- `unlink` -/
  unlink : Nat → σ → Except Nat Unit × σ

/-- The typed links. `cgroup` stands for the links of programs of type `CgroupSkb`, `CgroupSock` and `CgroupSockAddr`
(cgroup_skb.rs:178, cgroup_sock.rs:162, cgroup_sock_addr.rs:164), `tracing` for the wrappers of an `FdLink`: `ExtensionLink`,
`FEntryLink`, `FExitLink`, `LsmLink`, `BtfTracePointLink`, `RawTracePointLink`, `SkLookupLink`. -/
inductive Kind where
  | xdp | tc | tracePoint | kprobe | perfEvent | uprobe | iter | sockOps | cgroup | flowDissector | tracing
deriving DecidableEq, Repr

/-- What a typed link consists of: `XdpLinkInner` (xdp.rs:297-301), `TcLinkInner` (tc.rs:516-520), `PerfLinkInner`
(perf_attach.rs:25-29), `ProbeLinkInner` (probe.rs:124-131) with `ManyProbeLinks` (50-54), `CgroupSkbLinkInner` and so on. -/
inductive Inner where
  /-- `Fd(FdLink)` -/
  | fd (fd : Nat)
  /-- `NlLink(_)`, `ProgAttach(_)` -/
  | direct (a : Nat)
  /-- `PerfLink(_)` -/
  | perf (fd : Nat)
  /-- `Many(ManyProbeLinks::Fd(_))` -/
  | fds (fds : List Nat)
  /-- `Many(ManyProbeLinks::PerfLink(_))` -/
  | perfs (fds : List Nat)
deriving DecidableEq, Repr

/-- Errors: `LinkError::InvalidLink`, `LinkError::SyscallError` and errors of pinning. -/
inductive Err where
  | invalidLink
  | syscall (e : Nat)
deriving DecidableEq, Repr

variable {σ : Type} (os : Os σ)

/-- Dropping the parts of a link that was taken out of its wrapper. None of `NlLink`, `ProgAttachLink` (links.rs:374-446) and
`PerfLink` implements `Drop`, so all that happens is that descriptors are closed. (The program and target descriptors of a
`ProgAttachLink` are closed too; they are left out.) -/
def dropParts : Inner → σ → σ
  | .fd fd, s => os.close fd s
  | .direct _, s => s
  | .perf fd, s => os.close fd s
  | .fds fds, s => fds.foldl (fun s fd => os.close fd s) s
  | .perfs fds, s => fds.foldl (fun s fd => os.close fd s) s

/-- `PerfLink::detach` (perf_attach.rs:73-83). -/
def detachPerf (fd : Nat) (s : σ) : σ := os.close fd (os.disable fd s)

/-- Whether detaching reports a failure: `NlLink` of TC (tc.rs:494-505) and `ProgAttachLink` (links.rs:431-438) do, `NlLink` of
XDP does not (xdp.rs:283-285). -/
def reports : Kind → Bool
  | .xdp => false
  | _ => true

/-- The result of detaching through netlink or `BPF_PROG_DETACH`. -/
def reported (k : Kind) : Except Nat Unit → Except Err Unit
  | .ok _ => .ok ()
  | .error e => if reports k then .error (.syscall e) else .ok ()

/-- `Link::detach` of what a typed link consists of: xdp.rs:314-319, tc.rs:533-538, perf_attach.rs:42-47, probe.rs:106-119. An
`FdLink` is detached by closing it (links.rs:319-326). -/
def detachParts (k : Kind) : Inner → σ → Except Err Unit × σ
  | .fd fd, s => (.ok (), os.close fd s)
  | .direct a, s => (reported k (os.detach a s).1, (os.detach a s).2)
  | .perf fd, s => (.ok (), detachPerf os fd s)
  | .fds fds, s => (.ok (), fds.foldl (fun s fd => os.close fd s) s)
  | .perfs fds, s => (.ok (), fds.foldl (fun s fd => detachPerf os fd s) s)

/-- `Drop` of a typed link (links.rs:516-524): the result of detaching is ignored. -/
def dropLink (k : Kind) (l : Inner) (s : σ) : σ := (detachParts os k l s).2

/-- `Link::detach` of a typed link (links.rs:534-536). -/
def detachLink (k : Kind) (l : Inner) (s : σ) : Except Err Unit × σ := detachParts os k l s

/-- `TryFrom<_> for FdLink`: `impl_try_into_fdlink!` (links.rs:576-590) and that of `UProbeLink` (uprobe.rs:717-728); for
`tracing`, whose parts always are an `FdLink`, `From` (links.rs:547-551). The link is taken out of its wrapper, so on failure
it is its parts that are dropped. -/
def toFd : Inner → σ → Except Err Nat × σ
  | .fd fd, s => (.ok fd, s)
  | l, s => (.error .invalidLink, dropParts os l s)

/-- `TryFrom<&SchedClassifierLink> for &FdLink` (tc.rs:543-553). -/
def asFd : Inner → Except Err Nat
  | .fd fd => .ok fd
  | _ => .error .invalidLink

/-- The types of links a typed link is made of: the arguments of `impl_try_from_fdlink!` (xdp.rs:325, tc.rs:556-560,
trace_point.rs:102-106, kprobe.rs:162-166, perf_event.rs:479-483, iter.rs:108) and of the conversion to `UProbeLink`
(uprobe.rs:735-736). -/
def wanted : Kind → List Nat
  | .xdp => [6]
  | .tc => [11]
  | .tracePoint => [7]
  | .kprobe => [7]
  | .perfEvent => [7]
  | .uprobe => [7, 12]
  | .iter => [4]
  | _ => []

/-- Whether an `FdLink` can be turned into this kind at all. -/
def fromFd : Kind → Bool
  | .sockOps | .cgroup | .flowDissector => false
  | _ => true

/-- `TryFrom<FdLink>` for a typed link: `impl_try_from_fdlink!` (links.rs:594-610) and that of `UProbeLink` (uprobe.rs:730-742);
for `tracing`, `From<FdLink>` (links.rs:541-545), which asks nothing. On failure the `FdLink` is dropped. -/
def ofFd (k : Kind) (fd : Nat) (s : σ) : Except Err Inner × σ :=
  if k = .tracing then (.ok (.fd fd), s)
  else
    match os.info fd s with
    | .error e => (.error (.syscall e), os.close fd s)
    | .ok info => if info.type ∈ wanted k then (.ok (.fd fd), s) else (.error .invalidLink, os.close fd s)

/-- `UProbeLink::into_fd_links` (uprobe.rs:753-755) and `ProbeLinkInner::into_fd_links` (probe.rs:134-143): the descriptors, or
else the link itself. -/
def intoFds : Inner → Except Inner (List Nat)
  | .fd fd => .ok [fd]
  | .fds fds => .ok fds
  | l => .error l

/-- `IterLink::into_file` (iter.rs:115-127). The link is closed at the end in any case. -/
def intoFile : Inner → σ → Except Err Nat × σ
  | .fd fd, s =>
    match os.createIter fd s with
    | (.ok file, s) => (.ok file, os.close fd s)
    | (.error e, s) => (.error (.syscall e), os.close fd s)
  | l, s => (.error .invalidLink, dropParts os l s)

/-- `FdLink::pin` (links.rs:288-303), for a path without NUL. The link is dropped on failure. -/
def pin (fd path : Nat) (s : σ) : Except Err Unit × σ :=
  match os.pin fd path s with
  | (.ok _, s) => (.ok (), s)
  | (.error e, s) => (.error (.syscall e), os.close fd s)

/-- `PinnedLink::unpin` (links.rs:369-372). The link is dropped on failure. -/
def unpin (fd path : Nat) (s : σ) : Except Err Nat × σ :=
  match os.unlink path s with
  | (.ok _, s) => (.ok fd, s)
  | (.error e, s) => (.error (.syscall e), os.close fd s)

/-- `PinnedLink::from_pin` (links.rs:354-366). -/
def fromPin (path : Nat) (s : σ) : Except Err Nat × σ :=
  match os.get path s with
  | (.ok fd, s) => (.ok fd, s)
  | (.error e, s) => (.error (.syscall e), s)

/-- `FdLink::info` (links.rs:306-308) with `LinkInfo::new_from_fd` (124-127). Turning the number of the type into a `LinkType`
(139-217) is left out. -/
def info (fd : Nat) (s : σ) : Except Err Info :=
  match os.info fd s with
  | .ok i => .ok i
  | .error e => .error (.syscall e)

end Verif.Conv
