import Verif.Info.Model
/-!
# Attaching a logger to a running program

Model of `EbpfLogger::init_from_id_with_logger` (`/repo/aya-log/src/lib.rs:158-174`) on the kernel of `Verif.Info.Model`, with
`MapData::from_id` (`/repo/aya/src/maps/mod.rs:951-962`) and the two mappings made by `RingBuf::new`
(`/repo/aya/src/maps/ring_buf.rs:97-111`).
-/
namespace Verif.LogAttach
open Verif.Info

/-- `mmap`: the time, descriptor, length, whether for writing, and offset. -/
abbrev Mmap := Nat → Fd → Nat → Bool → Nat → Except Nat Unit

/-- `aya_log::Error` (`/repo/aya-log/src/lib.rs:493-505`); the errors of `aya` are their error numbers. -/
inductive Error where
  | mapNotFound
  | mapError (errno : Nat)
  | programNotFound
  | programError (errno : Nat)
deriving DecidableEq, Repr

/-- A `RingBuf<MapData>`: the descriptor and what is known about its map. -/
structure Ring where
  fd : Fd
  info : MapRec
deriving DecidableEq, Repr

/-- `MAP_NAME` (`/repo/aya-log/src/lib.rs:69`), `"AYA_LOGS"`. -/
def mapName : List UInt8 := [65, 89, 65, 95, 76, 79, 71, 83]

/-- `loaded_programs().filter_map(Result::ok).find(|info| info.id() == program_id)`
    (`/repo/aya-log/src/lib.rs:159-161`). `none`: not ended after `fuel` items. -/
def findProg (k : Kernel) (pid : Nat) : Nat → Nat → Option Nat → Option (Option ProgRec × Nat)
  | 0, _, _ => none
  | fuel + 1, t, cur =>
    match progStep k t cur with
    | (none, t, _) => some (none, t)
    | (some (.ok r), t, cur) => if r.id = pid then some (some r, t) else findProg k pid fuel t cur
    | (some _, t, cur) => findProg k pid fuel t cur

/-- `name_as_str() == Some(MAP_NAME)` (`/repo/aya-log/src/lib.rs:169`, `/repo/aya/src/maps/info.rs:88-100`). `MAP_NAME` is valid
    UTF-8 and not empty, so that it is the bytes that are compared. -/
def named (r : MapRec) : Bool := nameOf r.name == mapName

/-- `.iter().filter_map(|id| MapInfo::from_id(*id).ok()).find(..)` (`/repo/aya-log/src/lib.rs:167-169`). -/
def findMap (k : Kernel) : Nat → List Nat → Option MapRec × Nat
  | t, [] => (none, t)
  | t, id :: ids =>
    match mapFromId k t id with
    | (.ok r, t) => if named r then (some r, t) else findMap k t ids
    | (_, t) => findMap k t ids

/-- `MapData::from_id` (`/repo/aya/src/maps/mod.rs:951-962`). -/
def dataFromId (k : Kernel) (t : Nat) (id : Nat) : Except Error Ring × Nat :=
  match k.mapFd t id with
  | .error e => (.error (.mapError e), t + 1)
  | .ok fd =>
    match k.mapInfo (t + 1) fd with
    | .error e => (.error (.mapError e), t + 2)
    | .ok r => (.ok ⟨fd, r⟩, t + 2)

/-- `EbpfLogger::new` (`/repo/aya-log/src/lib.rs:176-180`) and `RingBuf::new` (`/repo/aya/src/maps/ring_buf.rs:97-111`, `203-214`,
    `272-324`): the consumer page, then the producer page with the data twice. The variant `Map::RingBuf` is that given by the
    caller (`/repo/aya-log/src/lib.rs:173`), so that the type of the map is not looked at. -/
def newRing (M : Mmap) (page : Nat) (t : Nat) (m : Ring) : Except Error Ring × Nat :=
  match M t m.fd page true 0 with
  | .error e => (.error (.mapError e), t + 1)
  | .ok () =>
    match M (t + 1) m.fd (page + 2 * m.info.maxEntries) false page with
    | .error e => (.error (.mapError e), t + 2)
    | .ok () => (.ok m, t + 2)

/-- What follows once the maps of the program are known (`/repo/aya-log/src/lib.rs:166-173`). -/
def attachTo (k : Kernel) (M : Mmap) (page : Nat) (t : Nat) (ids : List Nat) : Except Error Ring × Nat :=
  match findMap k t ids with
  | (none, t) => (.error .mapNotFound, t)
  | (some r, t) =>
    match dataFromId k t r.id with
    | (.error e, t) => (.error e, t)
    | (.ok m, t) => newRing M page t m

/-- `init_from_id_with_logger` (`/repo/aya-log/src/lib.rs:158-174`). The caches are those of `ProgramInfo::map_ids`, which does not
    panic; `none`: not ended after `fuel` programs. -/
def initFromId (k : Kernel) (M : Mmap) (page : Nat) (fuel t : Nat) (c : Caches) (pid : Nat) :
    Option (Except Error Ring × Nat × Caches) :=
  match findProg k pid fuel t (some 0) with
  | none => none
  | some (none, t) => some (.error .programNotFound, t, c)
  | some (some r, t) =>
    match mapIds k t c r with
    | (.err e, t, c) => some (.error (.programError e), t, c)
    | (.panic, t, c) => some (.error (.programError 0), t, c)
    | (.ok none, t, c) => some (.error .mapNotFound, t, c)
    | (.ok (some ids), t, c) =>
      match attachTo k M page t ids with
      | (res, t) => some (res, t, c)

end Verif.LogAttach
