import Verif.Attach.FdModel
import Verif.Attach.TcxModel
/-!
# Asking what is attached

Model of `query` (`/repo/aya/src/programs/mod.rs:795-835`), `bpf_prog_query` (`/repo/aya/src/sys/bpf.rs:635-668`),
`CgroupDevice::query` (`/repo/aya/src/programs/cgroup_device.rs:109-131`), `LircMode2::query` (`lirc_mode2.rs:107-123`) and
`SchedClassifier::query_tcx` (`tc.rs:448-471`), and of dropping the links these return (`links.rs:516-524`;
a `LircLink` has no `Drop`). The flags the kernel reports are thrown away by all callers and left out.
-/
namespace Verif.Attach.Query
open Verif.Attach.Fd (Inner Err)
open Verif.Util (TcAttachType)

/-- What `BPF_PROG_QUERY` leaves behind: an error number, the ids written to the buffer, the number of ids there are and
the revision. -/
structure Answer where
  errno : Option Nat
  ids : List Nat
  count : Nat
  revision : Nat
deriving DecidableEq, Repr

/-- The buffer after the kernel has written to its beginning. -/
def fill (buf ids : List Nat) : List Nat := ids ++ buf.drop ids.length

/-- `Vec::resize(n, 0)`. -/
def resize (buf : List Nat) (n : Nat) : List Nat := buf.take n ++ List.replicate (n - buf.length) 0

/-- The loop of `query` (`mod.rs:806-834`) with `left` retries left. `ask` is the system call with the size of the
buffer. -/
def queryLoop {σ : Type} (ask : σ → Nat → Answer × σ) (left : Nat) (buf : List Nat) (s : σ) :
    Except Nat (Nat × List Nat) × σ :=
  match ask s buf.length with
  | (a, s) =>
    match a.errno with
    | none => (.ok (a.revision, resize (fill buf a.ids) a.count), s)
    | some e =>
      match left with
      | 0 => (.error e, s)
      | left + 1 =>
        if e == 28 then queryLoop ask left (resize (fill buf a.ids) a.count) s
        else (.error e, s)

/-- `query` (`mod.rs:795-835`): the revision and the ids. -/
def query {σ : Type} (ask : σ → Nat → Answer × σ) (s : σ) : Except Nat (Nat × List Nat) × σ :=
  queryLoop ask 1 (List.replicate 64 0) s

/-- The calls of the functions that ask about an object given by a descriptor. -/
structure FdSys (σ : Type) where
  /-- `BPF_PROG_QUERY` with target descriptor, attach type and size of the buffer -/
  ask : σ → Nat → Nat → Nat → Answer × σ
  /-- `BPF_PROG_GET_FD_BY_ID` -/
  fdById : σ → Nat → Except Nat Nat × σ
  sys : Fd.Sys σ

/-- Dropping a link: a `CgroupDeviceLink` is detached, errors ignored, and its descriptors closed (`links.rs:516-524`); of
a `LircLink` only the descriptors are closed. -/
def dropLink {σ : Type} (sys : Fd.Sys σ) (detaches : Bool) (l : Inner) (s : σ) : σ :=
  if detaches then (l.detach sys s).2
  else
    match l with
    | .fd f => (sys s (.close f)).2
    | .prog p t _ => (sys (sys s (.close p)).2 (.close t)).2

/-- Dropping a vector of links, from the front. -/
def dropLinks {σ : Type} (sys : Fd.Sys σ) (detaches : Bool) (ls : List Inner) (s : σ) : σ :=
  ls.foldl (fun s l => dropLink sys detaches l s) s

/-- Making links of ids (`cgroup_device.rs:119-130`, `lirc_mode2.rs:112-122`). When one fails, the links made before are
dropped. -/
def collect {σ : Type} (q : FdSys σ) (detaches : Bool) (target attachType : Nat) :
    List Nat → List Inner → σ → Except Err (List Inner) × σ
  | [], made, s => (.ok made, s)
  | id :: ids, made, s =>
    match q.fdById s id with
    | (.error e, s) => (.error (.syscall e), dropLinks q.sys detaches made s)
    | (.ok f, s) =>
      match q.sys s (.dup target) with
      | (.error e, s) => (.error (.io e), dropLinks q.sys detaches made (q.sys s (.close f)).2)
      | (.ok t, s) => collect q detaches target attachType ids (made ++ [.prog f t attachType]) s

/-- The two functions have the same body. -/
def queryLinks {σ : Type} (q : FdSys σ) (detaches : Bool) (attachType target : Nat) (s : σ) :
    Except Err (List Inner) × σ :=
  match query (fun s cap => q.ask s target attachType cap) s with
  | (.error e, s) => (.error (.syscall e), s)
  | (.ok (_, ids), s) => collect q detaches target attachType ids [] s

/-- `CgroupDevice::query` (`cgroup_device.rs:109-131`); `BPF_CGROUP_DEVICE` is 6. -/
def queryDevice {σ : Type} (q : FdSys σ) (target : Nat) (s : σ) : Except Err (List Inner) × σ :=
  queryLinks q true 6 target s

/-- `LircMode2::query` (`lirc_mode2.rs:107-123`); `BPF_LIRC_MODE2` is 16. -/
def queryLirc {σ : Type} (q : FdSys σ) (target : Nat) (s : σ) : Except Err (List Inner) × σ :=
  queryLinks q false 16 target s

/-- Dropping the result of `CgroupDevice::query`. -/
def dropDevice {σ : Type} (q : FdSys σ) (r : Except Err (List Inner)) (s : σ) : σ :=
  match r with
  | .ok ls => dropLinks q.sys true ls s
  | .error _ => s

/-- Dropping the result of `LircMode2::query`. -/
def dropLirc {σ : Type} (q : FdSys σ) (r : Except Err (List Inner)) (s : σ) : σ :=
  match r with
  | .ok ls => dropLinks q.sys false ls s
  | .error _ => s

/-- The calls of `query_tcx`. `info` is `BPF_OBJ_GET_INFO_BY_FD` for programs. -/
structure IfSys (σ ι : Type) where
  ask : σ → Nat → Nat → Nat → Answer × σ
  fdById : σ → Nat → Except Nat Nat × σ
  info : σ → Nat → Except Nat ι
  sys : Tcx.Sys σ

/-- `ProgramError` as far as it arises in `query_tcx`. -/
inductive IfErr where
  | tc (e : Tcx.Err)
  | syscall (errno : Nat)
deriving DecidableEq, Repr

/-- The information about each program (`tc.rs:461-468`); the descriptor is closed again. -/
def infos {σ ι : Type} (q : IfSys σ ι) : List Nat → σ → Except IfErr (List ι) × σ
  | [], s => (.ok [], s)
  | id :: ids, s =>
    match q.fdById s id with
    | (.error e, s) => (.error (.syscall e), s)
    | (.ok f, s) =>
      match q.info s f with
      | .error e => (.error (.syscall e), (q.sys s (.close f)).2)
      | .ok i =>
        match infos q ids (q.sys s (.close f)).2 with
        | (.error e, s) => (.error e, s)
        | (.ok is, s) => (.ok (i :: is), s)

/-- `SchedClassifier::query_tcx` (`tc.rs:448-471`). -/
def queryTcx {σ ι : Type} (q : IfSys σ ι) (index : List Char → Nat) (interface : List Char) (t : TcAttachType) (s : σ) :
    Except IfErr (Nat × List ι) × σ :=
  match Tcx.ifIndexOf index interface with
  | .error e => (.error (.tc e), s)
  | .ok i =>
    match Tcx.tcxAttachType t with
    | .error e => (.error (.tc e), s)
    | .ok ty =>
      match query (fun s cap => q.ask s i ty cap) s with
      | (.error e, s) => (.error (.syscall e), s)
      | (.ok (revision, ids), s) =>
        match infos q ids s with
        | (.error e, s) => (.error e, s)
        | (.ok is, s) => (.ok (revision, is), s)

end Verif.Attach.Query
