import Verif.Common.Except
/-!
# Loading the maps of an object, again and again

Model of the system calls that `EbpfLoader::load` makes for the maps of an object, one at a time, so that other processes may make theirs between
any two, and a process may come to its end before any.

The values of the maps, their sizes and the kernel's answers are as in `Verif.Maps`; here a map has one value. Names, BTF and the limits of perf
event arrays are left out, and paths have no zero bytes.
-/
namespace Verif.Reload

abbrev Fd := Nat
abbrev Path := Nat

/-- The system calls. -/
inductive Call where
  | get (path : Path)
  | create (size : Nat) (inner : Option Fd)
  | pin (fd : Fd) (path : Path)
  | update (fd : Fd) (value : List UInt8)
  | freeze (fd : Fd)
deriving DecidableEq, Repr

/-- A program that makes system calls. -/
inductive P (α : Type) where
  | ret (a : α)
  | call (c : Call) (next : Except Nat Nat → P α)

/-- What went wrong, with the error number. -/
inductive Err where
  | create (errno : Nat)
  | pin (errno : Nat)
  | update (errno : Nat)
  | freeze (errno : Nat)
deriving DecidableEq, Repr

/-- A map of the object: where it is to be pinned (`map_pin_path`, or its name in the default directory), the size of its value, the value of a data
    section, whether the section is `.rodata`, and the size of inner maps if it is a map of maps. -/
structure MapDef where
  pin : Option Path
  size : Nat
  data : List UInt8
  rodata : Bool
  inner : Option Nat
deriving DecidableEq, Repr

def P.bind {α β : Type} : P α → (α → P β) → P β
  | .ret a, f => f a
  | .call c k, f => .call c fun r => (k r).bind f

/-- `?`. -/
def P.ok {α β : Type} (x : P (Except Err α)) (f : α → P (Except Err β)) : P (Except Err β) :=
  x.bind fun r =>
    match r with
    | .ok a => f a
    | .error e => .ret (.error e)

/-- `MapData::create` and `create_with_inner_map_fd` (`/repo/aya/src/maps/mod.rs:813-860`). -/
def create (size : Nat) (inner : Option Fd) : P (Except Err Fd) :=
  .call (.create size inner) fun r =>
    match r with
    | .ok fd => .ret (.ok fd)
    | .error e => .ret (.error (.create e))

/-- The inner map, if there is to be one, and the map (`/repo/aya/src/maps/mod.rs:891-898`, `/repo/aya/src/bpf.rs:646-656`). -/
def createAll (m : MapDef) : P (Except Err Fd) :=
  match m.inner with
  | none => create m.size none
  | some s => P.ok (create s none) fun i => create m.size (some i)

/-- `MapData::pin` (`/repo/aya/src/maps/mod.rs:998-1014`) in `create_pinned_by_name`. -/
def pin (fd : Fd) (path : Path) : P (Except Err Fd) :=
  .call (.pin fd path) fun r =>
    match r with
    | .ok _ => .ret (.ok fd)
    | .error e => .ret (.error (.pin e))

/-- `MapData::create_pinned_by_name` (`/repo/aya/src/maps/mod.rs:862-905`): any error of opening leads to creation. -/
def createPinned (path : Path) (m : MapDef) : P (Except Err Fd) :=
  .call (.get path) fun r =>
    match r with
    | .ok fd => .ret (.ok fd)
    | .error _ => P.ok (createAll m) fun fd => pin fd path

/-- `bpf_map_freeze` in `finalize`, for `.rodata` (`/repo/aya/src/maps/mod.rs:917-925`). -/
def freezeIf (m : MapDef) (fd : Fd) : P (Except Err Fd) :=
  if m.rodata then
    .call (.freeze fd) fun r =>
      match r with
      | .ok _ => .ret (.ok fd)
      | .error e => .ret (.error (.freeze e))
  else .ret (.ok fd)

/-- `MapData::finalize` (`/repo/aya/src/maps/mod.rs:907-926`). -/
def finalize (m : MapDef) (fd : Fd) : P (Except Err Fd) :=
  if m.data.isEmpty then freezeIf m fd
  else
    .call (.update fd m.data) fun r =>
      match r with
      | .ok _ => freezeIf m fd
      | .error e => .ret (.error (.update e))

/-- One turn of the loop (`/repo/aya/src/bpf.rs:642-669`). -/
def loadMap (m : MapDef) : P (Except Err Fd) :=
  P.ok (match m.pin with | some path => createPinned path m | none => createAll m) (finalize m)

/-- The loop (`/repo/aya/src/bpf.rs:604-671`), with the maps in the order in which they come: first those that are no maps of maps. The descriptors of
    maps that were already there are dropped on errors; what this does is no more than that they are not used. -/
def loadAll : List MapDef → P (Except Err (List Fd))
  | [] => .ret (.ok [])
  | m :: ms => P.ok (loadMap m) fun fd => P.ok (loadAll ms) fun fds => .ret (.ok (fd :: fds))

end Verif.Reload
