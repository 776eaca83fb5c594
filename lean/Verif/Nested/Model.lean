import Verif.Handles.Model
import Verif.Common.Bytes

/-!
# Maps of maps

`ArrayOfMaps` and `HashOfMaps` of the process and of programs, with arrays as inner maps. A stored map is
given by descriptor and read back by id.
-/
namespace Verif.Nested
open Verif Verif.Bytes Verif.Handles

abbrev Bytes := List UInt8

/-- The `bpf` calls that are made, and `close`, on a system in state `σ`. -/
structure Sys (σ : Type) where
  create : Obj → σ → Except Nat Nat × σ
  lookup : Nat → Bytes → Nat → σ → Except Nat Bytes
  update : Nat → Bytes → Bytes → Nat → σ → Except Nat Unit × σ
  delete : Nat → Bytes → σ → Except Nat Unit × σ
  fdById : Nat → σ → Except Nat Nat × σ
  info : Nat → σ → Except Nat Obj
  close : Nat → σ → σ

/-- `MapError`, as far as it arises here. -/
inductive Error where
  | outOfBounds
  | keyNotFound
  | syscall (errno : Nat)
  /-- the map is not what the typed map describes -/
  | type_ (e : Err)
deriving DecidableEq, Repr

/-- `bpf_map_lookup_elem` (`/repo/aya/src/sys/bpf.rs:225-247`): `ENOENT` means "no such element". -/
def lookupElem {σ : Type} (S : Sys σ) (fd : Nat) (key : Bytes) (flags : Nat) (s : σ) : Except Error Bytes :=
  match S.lookup fd key flags s with
  | .ok v => .ok v
  | .error 2 => .error .keyNotFound
  | .error e => .error (.syscall e)

/-- `bpf_map_update_elem` (`/repo/aya/src/sys/bpf.rs:320-337`), with its error wrapped. -/
def updateElem {σ : Type} (S : Sys σ) (fd : Nat) (key value : Bytes) (flags : Nat) (s : σ) : Except Error Unit × σ :=
  match S.update fd key value flags s with
  | (.ok (), s) => (.ok (), s)
  | (.error e, s) => (.error (.syscall e), s)

/-! ## Inner maps of the process -/

/-- `Array::create` (`impl_creatable_map!`, `/repo/aya/src/maps/mod.rs:740-755`), for a value of `v` bytes.
    Creating a map is `MapData::create` (823-860); its descriptor is kept. -/
def arrayCreate {σ : Type} (S : Sys σ) (v n flags : Nat) (s : σ) : Except Error Data × σ :=
  match S.create ⟨2, 4, v, n, flags⟩ s with
  | (.ok fd, s) => (.ok ⟨⟨2, 4, v, n, flags⟩, fd⟩, s)
  | (.error e, s) => (.error (.syscall e), s)

/-- `Array::get`, `/repo/aya/src/maps/array/array.rs:60-64`. -/
def arrayGet {σ : Type} (S : Sys σ) (d : Data) (index : BitVec 32) (s : σ) : Except Error Bytes :=
  if index.toNat ≥ d.obj.maxEntries then .error .outOfBounds else lookupElem S d.fd (le 4 index.toNat) 0 s

/-- `Array::set`, `/repo/aya/src/maps/array/array.rs:80-84`. -/
def arraySet {σ : Type} (S : Sys σ) (d : Data) (index : BitVec 32) (value : Bytes) (flags : Nat) (s : σ) :
    Except Error Unit × σ :=
  if index.toNat ≥ d.obj.maxEntries then (.error .outOfBounds, s)
  else updateElem S d.fd (le 4 index.toNat) value flags s

/-- The typed map of a `MapData` (`from_map_data`, `/repo/aya/src/maps/mod.rs:687-692`):
    `Map::from_map_data(map_data)?.try_into()`. -/
def typed (env : Env) (ty : Ty) (d : Data) : Except Err Handle :=
  match fromMapData d with
  | .error e => .error e
  | .ok m => tryFrom env ty m

/-- `map_from_id` (`/repo/aya/src/maps/of_maps/mod.rs:15-18`) with `MapData::from_id`
    (`/repo/aya/src/maps/mod.rs:951-962`). A descriptor that is not handed out is closed when it is dropped. -/
def mapFromId {σ : Type} (S : Sys σ) (env : Env) (ty : Ty) (id : Nat) (s : σ) : Except Error Data × σ :=
  match S.fdById id s with
  | (.error e, s) => (.error (.syscall e), s)
  | (.ok fd, s) =>
      match S.info fd s with
      | .error e => (.error (.syscall e), S.close fd s)
      | .ok obj =>
          match typed env ty ⟨obj, fd⟩ with
          | .error e => (.error (.type_ e), S.close fd s)
          | .ok h => (.ok h.data, s)

/-! ## Maps of maps of the process -/

/-- `ArrayOfMaps::get`, `/repo/aya/src/maps/of_maps/array.rs:76-90`. -/
def aomGet {σ : Type} (S : Sys σ) (env : Env) (ty : Ty) (outer : Data) (index : BitVec 32) (s : σ) :
    Except Error Data × σ :=
  if index.toNat ≥ outer.obj.maxEntries then (.error .outOfBounds, s)
  else
    match lookupElem S outer.fd (le 4 index.toNat) 0 s with
    | .error e => (.error e, s)
    | .ok v => mapFromId S env ty (ofLe v) s

/-- `ArrayOfMaps::set`, `/repo/aya/src/maps/of_maps/array.rs:100-111`. -/
def aomSet {σ : Type} (S : Sys σ) (outer : Data) (index : BitVec 32) (inner : Data) (flags : Nat) (s : σ) :
    Except Error Unit × σ :=
  if index.toNat ≥ outer.obj.maxEntries then (.error .outOfBounds, s)
  else updateElem S outer.fd (le 4 index.toNat) (le 4 inner.fd) flags s

/-- `HashOfMaps::get`, `/repo/aya/src/maps/of_maps/hash_map.rs:67-78`. -/
def homGet {σ : Type} (S : Sys σ) (env : Env) (ty : Ty) (outer : Data) (key : Bytes) (s : σ) :
    Except Error Data × σ :=
  match lookupElem S outer.fd key 0 s with
  | .error e => (.error e, s)
  | .ok v => mapFromId S env ty (ofLe v) s

/-- `HashOfMaps::insert`, `/repo/aya/src/maps/of_maps/hash_map.rs:83-90`. -/
def homInsert {σ : Type} (S : Sys σ) (outer : Data) (key : Bytes) (inner : Data) (flags : Nat) (s : σ) :
    Except Error Unit × σ :=
  updateElem S outer.fd key (le 4 inner.fd) flags s

/-- `HashOfMaps::remove`, `/repo/aya/src/maps/of_maps/hash_map.rs:95-97`. -/
def homRemove {σ : Type} (S : Sys σ) (outer : Data) (key : Bytes) (s : σ) : Except Error Unit × σ :=
  match S.delete outer.fd key s with
  | (.ok (), s) => (.ok (), s)
  | (.error e, s) => (.error (.syscall e), s)

/-! ## Maps of maps of programs -/

/-- `bpf_map_lookup_elem` called by a program: on the map of maps it gives a pointer to a map, on a map a
    pointer to a value, through which the value can be replaced. -/
structure Helpers (σ : Type) where
  inner : Bytes → σ → Option Nat
  lookup : Nat → Bytes → σ → Option Bytes
  store : Nat → Bytes → Bytes → σ → σ

/-- `ArrayOfMaps::get_value`, `/repo/ebpf/aya-ebpf/src/btf_maps/of_maps/array.rs:60-66`, and
    `HashOfMaps::get_value`, `of_maps/hash_map.rs:68-72`, with `lookup_inner`,
    `/repo/ebpf/aya-ebpf/src/btf_maps/mod.rs:130-137`. -/
def getValue {σ : Type} (H : Helpers σ) (outer inner : Bytes) (s : σ) : Option Bytes :=
  match H.inner outer s with
  | none => none
  | some m => H.lookup m inner s

/-- A write through the pointer of `get_value_ptr_mut`, `of_maps/array.rs:80-83`, `of_maps/hash_map.rs:80-87`. -/
def writeValue {σ : Type} (H : Helpers σ) (outer inner value : Bytes) (s : σ) : Option Unit × σ :=
  match H.inner outer s with
  | none => (none, s)
  | some m =>
      match H.lookup m inner s with
      | none => (none, s)
      | some _ => (some (), H.store m inner value s)

end Verif.Nested
