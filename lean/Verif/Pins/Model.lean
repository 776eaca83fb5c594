import Verif.Common.Except

/-!
# Pinning programs, maps and links: the code

`pin`, `unpin`, `from_pin` and `from_program_info` of programs (`/repo/aya/src/programs/mod.rs`), `pin` and
`from_pin` of maps (`/repo/aya/src/maps/mod.rs`), and pinned links (`/repo/aya/src/programs/links.rs`). The
system is a parameter. Paths are bytes. Results that are errors carry the error number.
-/
namespace Verif.Pins

abbrev Path := List UInt8

/-- The system calls that are made, on a system in state `σ`: loading a program, creating a map and attaching
    a program (by a link) give descriptors; `BPF_OBJ_PIN`, `BPF_OBJ_GET` (`/repo/aya/src/sys/bpf.rs:128-143`),
    `BPF_PROG_GET_FD_BY_ID` (671-682), `BPF_OBJ_GET_INFO_BY_FD`, duplicating and closing descriptors, and
    `unlink`. -/
structure Sys (σ : Type) where
  load : Nat → σ → Except Nat Nat × σ
  create : σ → Except Nat Nat × σ
  attach : Nat → σ → Except Nat Nat × σ
  pin : Nat → Path → σ → Except Nat Unit × σ
  get : Path → σ → Except Nat Nat × σ
  byId : Nat → σ → Except Nat Nat × σ
  dup : Nat → σ → Except Nat Nat × σ
  info : Nat → σ → Except Nat Unit
  unlink : Path → σ → Except Nat Unit × σ
  close : Nat → σ → σ

inductive Error where
  /-- `PinError::NoFd` -/
  | noFd
  /-- `PinError::InvalidPinPath` -/
  | invalidPath
  /-- a system call failed -/
  | sys (errno : Nat)
  /-- `io::ErrorKind::InvalidInput`, for a path with a zero byte -/
  | invalidInput
  | notLoaded
  /-- `ProgramError::UnexpectedProgramType` -/
  | type_
  /-- not an error: the thread panics -/
  | panic
deriving DecidableEq, Repr

/-- `CString::new`: a zero byte is refused. -/
def cstring (p : Path) : Option Path := if p.contains 0 then none else some p

/-- `std::fs::remove_file`. -/
def removeFile {σ : Type} (S : Sys σ) (p : Path) (s : σ) : Except Error Unit × σ :=
  match cstring p with
  | none => (.error .invalidInput, s)
  | some p =>
      match S.unlink p s with
      | (.ok (), s) => (.ok (), s)
      | (.error e, s) => (.error (.sys e), s)

/-! ## Programs -/

/-- What matters here of `ProgramData` (`/repo/aya/src/programs/mod.rs:549-562`): descriptor and path. -/
structure Prog where
  fd : Option Nat
  path : Option Path
deriving DecidableEq, Repr

/-- `load_program` (`/repo/aya/src/programs/mod.rs:706-793`), for a program read from an object
    (`ProgramData::new`, 565-585), with programs of type `ty`. -/
def progLoad {σ : Type} (S : Sys σ) (ty : Nat) (s : σ) : Except Error Prog × σ :=
  match S.load ty s with
  | (.ok fd, s) => (.ok ⟨some fd, none⟩, s)
  | (.error e, s) => (.error (.sys e), s)

/-- `pin_program`, `/repo/aya/src/programs/mod.rs:667-689`. -/
def pinProgram {σ : Type} (S : Sys σ) (p : Prog) (path : Path) (s : σ) : Except Error Unit × σ :=
  match p.fd with
  | none => (.error .noFd, s)
  | some fd =>
      match cstring path with
      | none => (.error .invalidPath, s)
      | some path =>
          match S.pin fd path s with
          | (.ok (), s) => (.ok (), s)
          | (.error e, s) => (.error (.sys e), s)

/-- `pin` (`impl_program_pin!`), `/repo/aya/src/programs/mod.rs:1244-1247`: the path is noted first. -/
def progPin {σ : Type} (S : Sys σ) (p : Prog) (path : Path) (s : σ) : Except Error Unit × Prog × σ :=
  let p := { p with path := some path }
  match pinProgram S p path s with
  | (r, s) => (r, p, s)

/-- `unpin`, `/repo/aya/src/programs/mod.rs:1250-1255`. -/
def progUnpin {σ : Type} (S : Sys σ) (p : Prog) (s : σ) : Except Error Unit × Prog × σ :=
  match p.path with
  | none => (.ok (), p, s)
  | some path =>
      match removeFile S path s with
      | (r, s) => (r, { p with path := none }, s)

/-- `ProgramData::from_pinned_path`, `/repo/aya/src/programs/mod.rs:613-630`, called by `from_pin` of all types
    (1303-1306 and the files of the types). A path with a zero byte panics (620). Simplification: programs with
    an attach target in another BTF object (602-604) are left out. -/
def progFromPin {σ : Type} (S : Sys σ) (path : Path) (s : σ) : Except Error Prog × σ :=
  match cstring path with
  | none => (.error .panic, s)
  | some p =>
      match S.get p s with
      | (.error e, s) => (.error (.sys e), s)
      | (.ok fd, s) =>
          match S.info fd s with
          | .error e => (.error (.sys e), S.close fd s)
          | .ok () => (.ok ⟨some fd, some path⟩, s)

/-- `from_program_info` (`impl_from_prog_info!`), `/repo/aya/src/programs/mod.rs:1361-1384`, for a type of programs
    of number `ty` and a `ProgramInfo` with id and type of a program. -/
def progFromInfo {σ : Type} (S : Sys σ) (ty id infoType : Nat) (s : σ) : Except Error Prog × σ :=
  if infoType ≠ ty then (.error .type_, s)
  else
    match S.byId id s with
    | (.error e, s) => (.error (.sys e), s)
    | (.ok fd, s) =>
        match S.dup fd s with
        | (.error e, s) => (.error (.sys e), S.close fd s)
        | (.ok fd', s) => (.ok ⟨some fd', some []⟩, S.close fd s)

/-- `unload_program`, `/repo/aya/src/programs/mod.rs:659-665`, for a program without links. -/
def progUnload {σ : Type} (S : Sys σ) (p : Prog) (s : σ) : Except Error Unit × Prog × σ :=
  match p.fd with
  | none => (.error .notLoaded, p, s)
  | some fd => (.ok (), { p with fd := none }, S.close fd s)

/-- Dropping a program, `/repo/aya/src/programs/mod.rs:852-856`. -/
def progDrop {σ : Type} (S : Sys σ) (p : Prog) (s : σ) : σ := (progUnload S p s).2.2

/-! ## Maps: a `MapData` is its descriptor -/

/-- `MapData::create` with `create_with_inner_map_fd`, `/repo/aya/src/maps/mod.rs:811-861`. -/
def mapCreate {σ : Type} (S : Sys σ) (s : σ) : Except Error Nat × σ :=
  match S.create s with
  | (.ok fd, s) => (.ok fd, s)
  | (.error e, s) => (.error (.sys e), s)

/-- `MapData::pin`, `/repo/aya/src/maps/mod.rs:998-1014`; also `Map::pin` (410-450) and `PerfEventArray::pin`
    (`/repo/aya/src/maps/perf/perf_event_array.rs:208-211`). -/
def mapPin {σ : Type} (S : Sys σ) (fd : Nat) (path : Path) (s : σ) : Except Error Unit × σ :=
  match cstring path with
  | none => (.error .invalidPath, s)
  | some path =>
      match S.pin fd path s with
      | (.ok (), s) => (.ok (), s)
      | (.error e, s) => (.error (.sys e), s)

/-- `pin` of typed maps, which takes the map (`/repo/aya/src/maps/mod.rs:519-522`,
    `/repo/aya/src/maps/of_maps/array.rs:119-121`): the map is dropped afterwards. -/
def typedPin {σ : Type} (S : Sys σ) (fd : Nat) (path : Path) (s : σ) : Except Error Unit × σ :=
  match mapPin S fd path s with
  | (r, s) => (r, S.close fd s)

/-- `MapData::from_pin`, `/repo/aya/src/maps/mod.rs:929-948`, with `from_fd_inner` (956-962). -/
def mapFromPin {σ : Type} (S : Sys σ) (path : Path) (s : σ) : Except Error Nat × σ :=
  match cstring path with
  | none => (.error .invalidPath, s)
  | some path =>
      match S.get path s with
      | (.error e, s) => (.error (.sys e), s)
      | (.ok fd, s) =>
          match S.info fd s with
          | .error e => (.error (.sys e), S.close fd s)
          | .ok () => (.ok fd, s)

/-! ## Links: an `FdLink` is its descriptor, a `PinnedLink` has a path too -/

/-- Attaching a program by a link and taking the link: `attach`, `take_link` and the conversion to `FdLink`. -/
def progAttach {σ : Type} (S : Sys σ) (p : Prog) (s : σ) : Except Error Nat × σ :=
  match p.fd with
  | none => (.error .notLoaded, s)
  | some fd =>
      match S.attach fd s with
      | (.ok l, s) => (.ok l, s)
      | (.error e, s) => (.error (.sys e), s)

/-- `FdLink::pin`, `/repo/aya/src/programs/links.rs:288-303`. The link is taken: on an error it is dropped. -/
def linkPin {σ : Type} (S : Sys σ) (fd : Nat) (path : Path) (s : σ) : Except Error (Nat × Path) × σ :=
  match cstring path with
  | none => (.error .invalidPath, S.close fd s)
  | some p =>
      match S.pin fd p s with
      | (.ok (), s) => (.ok (fd, path), s)
      | (.error e, s) => (.error (.sys e), S.close fd s)

/-- `PinnedLink::from_pin`, `/repo/aya/src/programs/links.rs:354-366`. A path with a zero byte panics (358). -/
def linkFromPin {σ : Type} (S : Sys σ) (path : Path) (s : σ) : Except Error (Nat × Path) × σ :=
  match cstring path with
  | none => (.error .panic, s)
  | some p =>
      match S.get p s with
      | (.error e, s) => (.error (.sys e), s)
      | (.ok fd, s) => (.ok (fd, path), s)

/-- `PinnedLink::unpin`, `/repo/aya/src/programs/links.rs:369-372`. The link is taken: on an error it is dropped. -/
def linkUnpin {σ : Type} (S : Sys σ) (l : Nat × Path) (s : σ) : Except Error Nat × σ :=
  match removeFile S l.2 s with
  | (.ok (), s) => (.ok l.1, s)
  | (.error e, s) => (.error e, S.close l.1 s)

/-- `From<PinnedLink> for FdLink`, `/repo/aya/src/programs/links.rs:331-335`. -/
def intoFdLink (l : Nat × Path) : Nat := l.1

end Verif.Pins
