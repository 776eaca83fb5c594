import Verif.Common.Except
/-!
# Listing links

Model of `loaded_links` (`/repo/aya/src/programs/mod.rs:1606-1637`), the iterator of ids (`/repo/aya/src/sys/bpf.rs:1467-1515`),
`bpf_link_get_fd_by_id`, `bpf_link_get_info_by_fd` (`/repo/aya/src/sys/bpf.rs:857-875`) and `LinkInfo`
(`/repo/aya/src/programs/links.rs:119-218`).

The system calls are the fields of a structure, over states of the kernel. Errors are error numbers.
-/
namespace Verif.Listing

abbrev Fd := Nat

/-- `bpf_link_info`, the fields that are read (`/repo/aya/src/programs/links.rs:129-144`). -/
structure LinkRec where
  type : Nat
  id : Nat
  progId : Nat
deriving DecidableEq, Repr

/-- `BPF_LINK_GET_NEXT_ID`, `BPF_LINK_GET_FD_BY_ID`, `BPF_OBJ_GET_INFO_BY_FD` and `close`. -/
structure Sys (σ : Type) where
  nextId : Nat → σ → Except Nat Nat × σ
  openId : Nat → σ → Except Nat Fd × σ
  info : Fd → σ → Except Nat LinkRec × σ
  close : Fd → σ → σ

/-- `ENOENT`. -/
def enoent : Nat := 2

/-- `LinkError::SyscallError`: the name of the call is that of `/repo/aya/src/sys/bpf.rs:1514`, `864` and `817`. -/
structure SyscallError where
  call : String
  errno : Nat
deriving DecidableEq, Repr

/-- One `next` of `iter_obj_ids` (`/repo/aya/src/sys/bpf.rs:1467-1506`). The argument is `current_id`; the results are the item and
    the new `current_id`. -/
def idNext {σ : Type} (S : Sys σ) (cur : Option Nat) (s : σ) : Option (Except SyscallError Nat) × Option Nat × σ :=
  match cur with
  | none => (none, none, s)
  | some c =>
    match S.nextId c s with
    | (.ok id, s) => (some (.ok id), some id, s)
    | (.error e, s) => if e = enoent then (none, none, s) else (some (.error ⟨"bpf_link_get_next_id", e⟩), none, s)

/-- The second closure (`/repo/aya/src/programs/mod.rs:1633-1636`): information by a descriptor, which is closed at the end of the
    closure in both cases. -/
def infoOf {σ : Type} (S : Sys σ) (fd : Fd) (s : σ) : Except SyscallError LinkRec × σ :=
  match S.info fd s with
  | (.ok r, s) => (.ok r, S.close fd s)
  | (.error e, s) => (.error ⟨"bpf_obj_get_info_by_fd", e⟩, S.close fd s)

/-- One `next` of `loaded_links` (`/repo/aya/src/programs/mod.rs:1627-1637`). -/
def linkNext {σ : Type} (S : Sys σ) (cur : Option Nat) (s : σ) : Option (Except SyscallError LinkRec) × Option Nat × σ :=
  match idNext S cur s with
  | (none, cur, s) => (none, cur, s)
  | (some (.error e), cur, s) => (some (.error e), cur, s)
  | (some (.ok id), cur, s) =>
    match S.openId id s with
    | (.error e, s) => (some (.error ⟨"bpf_link_get_fd_by_id", e⟩), cur, s)
    | (.ok fd, s) =>
      let (r, s) := infoOf S fd s
      (some r, cur, s)

/-- A loop over `loaded_links()` for at most `fuel` items: the items, whether it came to its end, and the state. `current_id` is
    `Some(0)` at first (`/repo/aya/src/sys/bpf.rs:1494`). -/
def linksFrom {σ : Type} (S : Sys σ) : Nat → Option Nat → σ → List (Except SyscallError LinkRec) × Bool × σ
  | 0, _, s => ([], false, s)
  | fuel + 1, cur, s =>
    match linkNext S cur s with
    | (none, _, s) => ([], true, s)
    | (some item, cur, s) =>
      let (items, ended, s) := linksFrom S fuel cur s
      (item :: items, ended, s)

def loadedLinks {σ : Type} (S : Sys σ) (fuel : Nat) (s : σ) : List (Except SyscallError LinkRec) × Bool × σ :=
  linksFrom S fuel (some 0) s

/-- `LinkType` (`/repo/aya/src/programs/links.rs:151-194`). -/
inductive LinkType where
  | unspecified | rawTracePoint | tracing | cgroup | iter | netns | xdp | perfEvent | kProbeMulti | structOps | netfilter | tcx
  | uProbeMulti | netkit
deriving DecidableEq, Repr

/-- `link_type` (`/repo/aya/src/programs/links.rs:139-144`, `196-218`, `/repo/aya-obj/src/links.rs:8-32`). `.error` is
    `UnknownLinkType`. -/
def linkType (r : LinkRec) : Except Nat LinkType :=
  match r.type with
  | 0 => .ok .unspecified
  | 1 => .ok .rawTracePoint
  | 2 => .ok .tracing
  | 3 => .ok .cgroup
  | 4 => .ok .iter
  | 5 => .ok .netns
  | 6 => .ok .xdp
  | 7 => .ok .perfEvent
  | 8 => .ok .kProbeMulti
  | 9 => .ok .structOps
  | 10 => .ok .netfilter
  | 11 => .ok .tcx
  | 12 => .ok .uProbeMulti
  | 13 => .ok .netkit
  | n => .error n

/-- `id` and `program_id` (`/repo/aya/src/programs/links.rs:129-137`). -/
def id (r : LinkRec) : Nat := r.id
def programId (r : LinkRec) : Nat := r.progId

end Verif.Listing
