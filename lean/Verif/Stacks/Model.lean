import Verif.Handles.Model
import Verif.Common.Bytes

/-!
# Stack traces

`StackTraceMap` of the process (`/repo/aya/src/maps/stack_trace.rs`) and `get_stackid` of programs
(`/repo/ebpf/aya-ebpf/src/programs/tracing.rs`). `new` is `Verif.Handles.newStackTrace`. Hosts are little endian.
-/
namespace Verif.Stacks
open Verif Verif.Bytes

abbrev Bytes := List UInt8

/-- The `bpf` calls made on the map, on a system in state `σ`. `lookup` gives the bytes the kernel writes at the address it is given. -/
structure Sys (σ : Type) where
  lookup : Bytes → Nat → σ → Except Nat Bytes × σ
  nextKey : Option Bytes → σ → Except Nat Bytes × σ
  delete : Bytes → σ → Except Nat Unit × σ

/-- `MapError`, as far as it arises here; `ub`: memory outside of the buffer is written. -/
inductive Error where
  | keyNotFound
  | syscall (call : String) (errno : Nat)
  | ub
deriving DecidableEq, Repr

/-- `StackTrace`, `/repo/aya/src/maps/stack_trace.rs:195-212`; a frame is its instruction pointer. -/
structure StackTrace where
  id : Nat
  frames : List Nat
deriving DecidableEq, Repr

/-- What is in a buffer after the kernel has written to its start; `none` if it wrote more than the buffer holds. -/
def written (buf bytes : Bytes) : Option Bytes :=
  if bytes.length ≤ buf.length then some (bytes ++ buf.drop bytes.length) else none

/-- The entries of a `Vec<u64>` with the given memory. -/
def entries : Nat → Bytes → List Nat
  | 0, _ => []
  | n + 1, mem => ofLe (mem.take 8) :: entries n (mem.drop 8)

/-- `StackTraceMap::get`, `/repo/aya/src/maps/stack_trace.rs:130-151`, with `bpf_map_lookup_elem_ptr`,
`/repo/aya/src/sys/bpf.rs:278-299`, where `ENOENT` means that there is no such element. -/
def get {σ : Type} (S : Sys σ) (depth : Nat) (id : BitVec 32) (flags : Nat) (s : σ) : Except Error StackTrace × σ :=
  match S.lookup (le 4 id.toNat) flags s with
  | (.error e, s) => (.error (if e = 2 then .keyNotFound else .syscall "bpf_map_lookup_elem" e), s)
  | (.ok bytes, s) =>
      match written (List.replicate (8 * depth) 0) bytes with
      | none => (.error .ub, s)
      | some mem => (.ok ⟨id.toNat, (entries depth mem).takeWhile (· ≠ 0)⟩, s)

/-- `MapKeys::next`, `/repo/aya/src/maps/mod.rs:1062-1083`, with `bpf_map_get_next_key`, `/repo/aya/src/sys/bpf.rs`, where `ENOENT` means
that there is no further key. The state is whether there was an error, and the last key. -/
def keysNext {σ : Type} (S : Sys σ) (k : Bool × Option (BitVec 32)) (s : σ) :
    Option (Except Error (BitVec 32)) × (Bool × Option (BitVec 32)) × σ :=
  if k.1 then (none, k, s)
  else
    match S.nextKey (k.2.map fun id => le 4 id.toNat) s with
    | (.error e, s) =>
        if e = 2 then (none, (false, none), s) else (some (.error (.syscall "bpf_map_get_next_key" e)), (true, k.2), s)
    | (.ok key, s) => (some (.ok (BitVec.ofNat 32 (ofLe key))), (false, some (BitVec.ofNat 32 (ofLe key))), s)

/-- `MapIter::next`, `/repo/aya/src/maps/mod.rs:1105-1117`, with `get` of `/repo/aya/src/maps/stack_trace.rs:171-173`. `none`: the loop is still
running after the given number of rounds. -/
def iterNext {σ : Type} (S : Sys σ) (depth : Nat) : Nat → Bool × Option (BitVec 32) → σ →
    Option (Option (Except Error (BitVec 32 × StackTrace)) × (Bool × Option (BitVec 32)) × σ)
  | 0, _, _ => none
  | fuel + 1, k, s =>
      match keysNext S k s with
      | (none, k, s) => some (none, k, s)
      | (some (.error e), k, s) => some (some (.error e), k, s)
      | (some (.ok id), k, s) =>
          match get S depth id 0 s with
          | (.ok t, s) => some (some (.ok (id, t)), k, s)
          | (.error .keyNotFound, s) => iterNext S depth fuel k s
          | (.error e, s) => some (some (.error e), k, s)

/-- `for` over the iterator (`StackTraceMap::iter`, `/repo/aya/src/maps/stack_trace.rs:155-157`), for at most so many items: what it
yields, and whether it has come to its end. -/
def collect {σ : Type} (S : Sys σ) (depth rounds : Nat) : Nat → Bool × Option (BitVec 32) → σ →
    List (Except Error (BitVec 32 × StackTrace)) × Bool × σ
  | 0, _, s => ([], false, s)
  | n + 1, k, s =>
      match iterNext S depth rounds k s with
      | none => ([], false, s)
      | some (none, _, s) => ([], true, s)
      | some (some x, k, s) => (x :: (collect S depth rounds n k s).1, (collect S depth rounds n k s).2)

/-- `StackTraceMap::remove`, `/repo/aya/src/maps/stack_trace.rs:187-189`, with `hash_map::remove`, `/repo/aya/src/maps/hash_map/mod.rs:46-54`. -/
def remove {σ : Type} (S : Sys σ) (id : BitVec 32) (s : σ) : Except Error Unit × σ :=
  match S.delete (le 4 id.toNat) s with
  | (.ok (), s) => (.ok (), s)
  | (.error e, s) => (.error (.syscall "bpf_map_delete_elem" e), s)

/-- `StackIdContext::get_stackid`, `/repo/ebpf/aya-ebpf/src/programs/tracing.rs:24-27`, after the helper returned `ret`, 64 bits; the error is
cut to 32 bits. -/
def getStackid (ret : BitVec 64) : Except Int Int :=
  if ret.toInt < 0 then .error (ret.truncate 32).toInt else .ok ret.toInt

end Verif.Stacks
