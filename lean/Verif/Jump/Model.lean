import Verif.Common.Bytes
import Verif.Common.Except

/-!
# Jump tables: the code

`ProgramArray` of the process (`/repo/aya/src/maps/array/program_array.rs`) and of programs
(`/repo/ebpf/aya-ebpf/src/maps/program_array.rs`, `/repo/ebpf/aya-ebpf/src/btf_maps/program_array.rs`), and what they are made of.
The system is a parameter.
-/
namespace Verif.Jump
open Verif.Bytes

abbrev Bytes := List UInt8

/-- What a program does, as far as it matters here: something that can be seen, or a tail call through one of the tables it uses. -/
inductive Instr where
  | emit (n : Nat)
  | jump (table : Nat) (index : BitVec 32)
deriving DecidableEq, Repr

/-- The system calls that are made, on a system in state `σ`. `BPF_MAP_CREATE` of a program array with a number of entries;
    `BPF_PROG_LOAD` with a type, the descriptors of the tables used and the code (what is done for each context); `dup`; `close`;
    `BPF_MAP_UPDATE_ELEM` with descriptor, key, value and flags; `BPF_MAP_DELETE_ELEM`; `BPF_MAP_GET_NEXT_KEY`; `BPF_OBJ_PIN` to a new
    path; `BPF_OBJ_GET` of a path with the number of entries found in the map's info. -/
structure Sys (σ : Type) where
  createMap : Nat → σ → Except Nat Nat × σ
  load : Nat → List Nat → (Nat → List Instr) → σ → Except Nat Nat × σ
  dup : Nat → σ → Except Nat Nat × σ
  close : Nat → σ → σ
  update : Nat → Bytes → Bytes → Nat → σ → Except Nat Unit × σ
  delete : Nat → Bytes → σ → Except Nat Unit × σ
  nextKey : Nat → Option Bytes → σ → Except Nat Bytes
  pin : Nat → σ → Except Nat Unit × σ
  get : Nat → σ → Except Nat (Nat × Nat) × σ

inductive Error where
  | outOfBounds (index max : Nat)
  | syscall (call : String) (errno : Nat)
  /-- `MapError::CreateError` -/
  | create (errno : Nat)
  /-- `ProgramError::LoadError` -/
  | load (errno : Nat)
  /-- an `io::Error` without a name -/
  | io (errno : Nat)
deriving DecidableEq, Repr

/-- `MapData`: the descriptor and, of the definition, the number of entries. That key and value have 4 bytes is checked when the typed map is
    made (`program_array.rs:54-59`; see C82). -/
structure Data where
  fd : Nat
  max : Nat
deriving DecidableEq, Repr

/-- `MapData::create`, `/repo/aya/src/maps/mod.rs:814-862`, for a declared program array. -/
def create {σ : Type} (S : Sys σ) (max : Nat) (s : σ) : Except Error Data × σ :=
  match S.createMap max s with
  | (.ok fd, s) => (.ok ⟨fd, max⟩, s)
  | (.error e, s) => (.error (.create e), s)

/-- `MapData::from_pin`, `/repo/aya/src/maps/mod.rs:929-962`. -/
def fromPin {σ : Type} (S : Sys σ) (path : Nat) (s : σ) : Except Error Data × σ :=
  match S.get path s with
  | (.ok (fd, max), s) => (.ok ⟨fd, max⟩, s)
  | (.error e, s) => (.error (.syscall "BPF_OBJ_GET" e), s)

/-- `MapData::pin`, `/repo/aya/src/maps/mod.rs:998-1014`. -/
def pin {σ : Type} (S : Sys σ) (d : Data) (s : σ) : Except Error Unit × σ :=
  match S.pin d.fd s with
  | (.ok (), s) => (.ok (), s)
  | (.error e, s) => (.error (.syscall "BPF_OBJ_PIN" e), s)

/-- `load` of a program whose code refers to maps by descriptor (see C05, C62). -/
def load {σ : Type} (S : Sys σ) (kind : Nat) (uses : List Nat) (body : Nat → List Instr) (s : σ) : Except Error Nat × σ :=
  match S.load kind uses body s with
  | (.ok fd, s) => (.ok fd, s)
  | (.error e, s) => (.error (.load e), s)

/-- `ProgramFd::try_clone`, `/repo/aya/src/programs/mod.rs:269-273`. -/
def tryClone {σ : Type} (S : Sys σ) (fd : Nat) (s : σ) : Except Error Nat × σ :=
  match S.dup fd s with
  | (.ok fd, s) => (.ok fd, s)
  | (.error e, s) => (.error (.io e), s)

/-- `hash_map::insert`, `/repo/aya/src/maps/hash_map/mod.rs:31-44`. -/
def insert {σ : Type} (S : Sys σ) (d : Data) (key value : Bytes) (flags : Nat) (s : σ) : Except Error Unit × σ :=
  match S.update d.fd key value flags s with
  | (.ok (), s) => (.ok (), s)
  | (.error e, s) => (.error (.syscall "bpf_map_update_elem" e), s)

/-- `hash_map::remove`, `/repo/aya/src/maps/hash_map/mod.rs:46-54`. -/
def remove {σ : Type} (S : Sys σ) (d : Data) (key : Bytes) (s : σ) : Except Error Unit × σ :=
  match S.delete d.fd key s with
  | (.ok (), s) => (.ok (), s)
  | (.error e, s) => (.error (.syscall "bpf_map_delete_elem" e), s)

/-- `check_bounds`, `/repo/aya/src/maps/mod.rs:771-778`. -/
def checkBounds (d : Data) (index : BitVec 32) : Except Error Unit :=
  if index.toNat ≥ d.max then .error (.outOfBounds index.toNat d.max) else .ok ()

/-- `ProgramArray::set`, `program_array.rs:72-76`. The value is the number of the program's descriptor, a C int. -/
def set {σ : Type} (S : Sys σ) (d : Data) (index : BitVec 32) (program flags : Nat) (s : σ) : Except Error Unit × σ :=
  match checkBounds d index with
  | .error e => (.error e, s)
  | .ok () => insert S d (le 4 index.toNat) (le 4 program) flags s

/-- `ProgramArray::clear_index`, `program_array.rs:82-86`. -/
def clearIndex {σ : Type} (S : Sys σ) (d : Data) (index : BitVec 32) (s : σ) : Except Error Unit × σ :=
  match checkBounds d index with
  | .error e => (.error e, s)
  | .ok () => remove S d (le 4 index.toNat) s

/-- `bpf_map_get_next_key`, `/repo/aya/src/sys/bpf.rs:391-410`: `ENOENT` is the end. -/
def getNextKey {σ : Type} (S : Sys σ) (d : Data) (key : Option (BitVec 32)) (s : σ) : Except Error (Option (BitVec 32)) :=
  match S.nextKey d.fd (key.map fun i => le 4 i.toNat) s with
  | .ok next => .ok (some (BitVec.ofNat 32 (ofLe next)))
  | .error e => if e = 2 then .ok none else .error (.syscall "bpf_map_get_next_key" e)

/-- `ProgramArray::indices` (`program_array.rs:62-64`), a `MapKeys` (`/repo/aya/src/maps/mod.rs:1043-1083`): what up to `n` calls of `next`
    give, until one gives `None`. -/
def indices {σ : Type} (S : Sys σ) (d : Data) : Nat → Option (BitVec 32) → σ → List (Except Error (BitVec 32))
  | 0, _, _ => []
  | n + 1, key, s =>
      match getNextKey S d key s with
      | .error e => [.error e]
      | .ok none => []
      | .ok (some next) => .ok next :: indices S d n (some next) s

/-- `ProgramArray::tail_call` of programs, `/repo/ebpf/aya-ebpf/src/maps/program_array.rs:53-58`,
    `/repo/ebpf/aya-ebpf/src/btf_maps/program_array.rs:52-57`: the helper `bpf_tail_call` is given the context, the table and the index. -/
def tailCall {α : Type} (helper : Nat → Nat → BitVec 32 → α) (table : Nat) (ctx : Nat) (index : BitVec 32) : α := helper ctx table index

end Verif.Jump
