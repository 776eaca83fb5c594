import Verif.Maps.Hash

/-!
# Maps used by a process and by eBPF programs: the code

The process side is `Verif.Maps.Model`. This file has the operations of the `aya-ebpf` map types. The
helper functions of the kernel are parameters (`Helpers`); a helper returns a 64-bit integer, 0 or a
negated errno, and the pointer returned by `bpf_map_lookup_elem` is modelled by the bytes it points to,
`store` being a write through it.
-/
namespace Verif.Shared
open Verif.Maps Verif.Bytes

/-- The kernel's helper functions for one map whose state is `σ`
    (`/repo/ebpf/aya-ebpf-bindings/src/x86_64/helpers.rs:2-36, 883-913`, `bpf_map_lookup_elem`,
    `bpf_map_update_elem`, `bpf_map_delete_elem`; `bpf_map_push_elem`, `bpf_map_pop_elem`,
    `bpf_map_peek_elem`). `pop` and `peek` also return the contents of the caller's
    buffer, given to `peek` as its first argument. -/
structure Helpers (σ : Type) where
  lookup : Bytes → σ → Option Bytes
  store : Bytes → Bytes → σ → σ
  update : Bytes → Bytes → Nat → σ → Int × σ
  delete : Bytes → σ → Int × σ
  push : Bytes → Nat → σ → Int × σ
  pop : Bytes → σ → Int × Bytes × σ
  peek : Bytes → σ → Int × Bytes × σ

/-- `ret as i32` for a 64-bit `ret`. -/
def toI32 (ret : Int) : Int := Int.bmod ret 4294967296

/-- `/repo/ebpf/aya-ebpf/src/lib.rs:181-188` (`insert`). -/
def insert {σ : Type} (H : Helpers σ) (key value : Bytes) (flags : Nat) (s : σ) : Except Int Unit × σ :=
  match H.update key value flags s with
  | (ret, s) => if ret = 0 then (.ok (), s) else (.error (toI32 ret), s)

/-- `/repo/ebpf/aya-ebpf/src/lib.rs:191-197` (`remove`). -/
def remove {σ : Type} (H : Helpers σ) (key : Bytes) (s : σ) : Except Int Unit × σ :=
  match H.delete key s with
  | (ret, s) => if ret = 0 then (.ok (), s) else (.error (toI32 ret), s)

/-- `/repo/ebpf/aya-ebpf/src/lib.rs:200-203` (`lookup`): a null pointer is `None`. -/
def lookup {σ : Type} (H : Helpers σ) (key : Bytes) (s : σ) : Option Bytes := H.lookup key s

/-! ## Hash maps

`/repo/ebpf/aya-ebpf/src/maps/hash_map.rs:44-101` (all four kinds) and
`/repo/ebpf/aya-ebpf/src/btf_maps/hash_map.rs`. -/

/-- `get`/`get_ptr` followed by a read, `hash_map.rs:49-59, 89-91, 99-101`. -/
def hmGet {σ : Type} (H : Helpers σ) (key : Bytes) (s : σ) : Option Bytes := lookup H key s

/-- `get_ptr_mut` followed by a write of `value` through the pointer, `hash_map.rs:66-68, 94-96`; `none`
    if there is no pointer. Simplification: looking up and writing are one step. -/
def hmWrite {σ : Type} (H : Helpers σ) (key value : Bytes) (s : σ) : Option Unit × σ :=
  match lookup H key s with
  | some _ => (some (), H.store key value s)
  | none => (none, s)

/-- `insert`, `hash_map.rs:71-73`. -/
def hmInsert {σ : Type} (H : Helpers σ) (key value : Bytes) (flags : Nat) (s : σ) : Except Int Unit × σ :=
  insert H key value flags s

/-- `remove`, `hash_map.rs:76-78`. -/
def hmRemove {σ : Type} (H : Helpers σ) (key : Bytes) (s : σ) : Except Int Unit × σ := remove H key s

/-! ## Arrays

`/repo/ebpf/aya-ebpf/src/maps/array.rs:20-48`, `per_cpu_array.rs:20-51` and the same files of
`/repo/ebpf/aya-ebpf/src/btf_maps`. An index is a `u32`. -/

/-- The bytes of a `u32` in memory. -/
def u32Bytes (n : BitVec 32) : Bytes := le 4 n.toNat

/-- `get`/`get_ptr` followed by a read, `array.rs:24-31, 39-41`, `per_cpu_array.rs:24-34, 42-44`. -/
def arrGet {σ : Type} (H : Helpers σ) (index : BitVec 32) (s : σ) : Option Bytes :=
  lookup H (u32Bytes index) s

/-- `get_ptr_mut` followed by a write, `array.rs:34-36`, `per_cpu_array.rs:37-39`. Simplification: one
    step. -/
def arrWrite {σ : Type} (H : Helpers σ) (index : BitVec 32) (value : Bytes) (s : σ) : Option Unit × σ :=
  match lookup H (u32Bytes index) s with
  | some _ => (some (), H.store (u32Bytes index) value s)
  | none => (none, s)

/-- `set`, `array.rs:45-47`, `per_cpu_array.rs:48-50`. -/
def arrSet {σ : Type} (H : Helpers σ) (index : BitVec 32) (value : Bytes) (flags : Nat) (s : σ) :
    Except Int Unit × σ :=
  insert H (u32Bytes index) value flags s

/-! ## Queues, stacks and Bloom filters -/

/-- `Queue::push`, `/repo/ebpf/aya-ebpf/src/maps/queue.rs:24-29`; `Stack::push`, `stack.rs:24-29`;
    `BloomFilter::insert`, `bloom_filter.rs:35-40`. -/
def qPush {σ : Type} (H : Helpers σ) (value : Bytes) (flags : Nat) (s : σ) : Except Int Unit × σ :=
  match H.push value flags s with
  | (ret, s) => if ret = 0 then (.ok (), s) else (.error (toI32 ret), s)

/-- How `pop` and `peek` judge what the helper returned, `queue.rs:44-48, 65-69`. -/
def qVerdict (ret : Int) (buf : Bytes) : Except Int (Option Bytes) :=
  if toI32 ret = 0 then .ok (some buf)
  else if toI32 ret = -2 then .ok none
  else .error (toI32 ret)

/-- `Queue::pop`, `queue.rs:41-50`; `Stack::pop`, `stack.rs:41-50`. The buffer is uninitialised: `junk`. -/
def qPop {σ : Type} (H : Helpers σ) (junk : Bytes) (s : σ) : Except Int (Option Bytes) × σ :=
  match H.pop junk s with
  | (ret, buf, s) => (qVerdict ret buf, s)

/-- `Queue::peek`, `queue.rs:62-71`; `Stack::peek`, `stack.rs:62-71`. -/
def qPeek {σ : Type} (H : Helpers σ) (junk : Bytes) (s : σ) : Except Int (Option Bytes) × σ :=
  match H.peek junk s with
  | (ret, buf, s) => (qVerdict ret buf, s)

/-- `BloomFilter::contains`, `/repo/ebpf/aya-ebpf/src/maps/bloom_filter.rs:24-32`. -/
def bfContains {σ : Type} (H : Helpers σ) (value : Bytes) (s : σ) : Except Int Unit × σ :=
  match H.peek value s with
  | (ret, _, s) => if ret = 0 then (.ok (), s) else (.error (toI32 ret), s)

/-! ## The process side of per-CPU arrays -/

/-- `PerCpuArray::get`, `/repo/aya/src/maps/array/per_cpu_array.rs:81-92`. -/
def pcArrayGet (k : Kernel) (m : MapData) (size index : Nat) (h : Hist) :
    Option (Except MapError (List Bytes)) × Hist :=
  match checkBounds m index with
  | .error e => (some (.error e), h)
  | .ok () => perCpuGet k m size (idx index) 0 h

/-- `PerCpuArray::set`, `/repo/aya/src/maps/array/per_cpu_array.rs:108-120`; the values come in a
    `PerCpuValues`, which can only be made of one value per CPU (`perCpuValues`). -/
def pcArraySet (k : Kernel) (m : MapData) (nrCpus size index : Nat) (values : List Bytes) (flags : Nat)
    (h : Hist) : Option (Except MapError Unit) × Hist :=
  match checkBounds m index with
  | .error e => (some (.error e), h)
  | .ok () => perCpuInsert k m nrCpus size (idx index) values flags h

/-! ## Longest-prefix-match tries -/

/-- The bytes of a `Key<K>`: `/repo/ebpf/aya-ebpf/src/maps/lpm_trie.rs:23-35` (`#[repr(C, packed)]`:
    `prefix_len`, then `data`, no padding). -/
def progLpmKey (prefixLen : BitVec 32) (data : Bytes) : Bytes := le 4 prefixLen.toNat ++ data

/-- The bytes of the process's `Key<K>`: `/repo/aya/src/maps/lpm_trie.rs:64-90`. -/
def procLpmKey (prefixLen : BitVec 32) (data : Bytes) : Bytes := le 4 prefixLen.toNat ++ data

/-- `LpmTrie::get`, `/repo/ebpf/aya-ebpf/src/maps/lpm_trie.rs:41-43`. -/
def lpmGet {σ : Type} (H : Helpers σ) (p : BitVec 32) (data : Bytes) (s : σ) : Option Bytes :=
  lookup H (progLpmKey p data) s

/-- `LpmTrie::insert`, `lpm_trie.rs:46-48`. -/
def lpmInsert {σ : Type} (H : Helpers σ) (p : BitVec 32) (data value : Bytes) (flags : Nat) (s : σ) :
    Except Int Unit × σ :=
  insert H (progLpmKey p data) value flags s

/-- `LpmTrie::remove`, `lpm_trie.rs:51-53`. -/
def lpmRemove {σ : Type} (H : Helpers σ) (p : BitVec 32) (data : Bytes) (s : σ) : Except Int Unit × σ :=
  remove H (progLpmKey p data) s

/-! ## Redirecting and selecting -/

/-- `try_redirect_map`, `/repo/ebpf/aya-ebpf/src/maps/xdp/mod.rs:20-29` and
    `/repo/ebpf/aya-ebpf/src/btf_maps/mod.rs:111-121`: `ret.unsigned_abs() as u32` compared with
    `XDP_REDIRECT` (4). Called by `CpuMap::redirect`, `DevMap::redirect` (`dev_map.rs:146-148`),
    `DevMapHash::redirect` and `XskMap::redirect` (`xsk_map.rs:138-140`). -/
def tryRedirect (ret : Int) : Except Nat Nat :=
  if ret.natAbs % 4294967296 = 4 then .ok 4 else .error (ret.natAbs % 4294967296)

/-- A `DevMapValue`: interface, and the id of the chained program. -/
abbrev DevValue := Nat × Option Nat

/-- `DevMap::get`, `/repo/ebpf/aya-ebpf/src/maps/xdp/dev_map.rs:97-108`. The value is a
    `bpf_devmap_val`: two 32-bit numbers. -/
def devGet {σ : Type} (H : Helpers σ) (index : BitVec 32) (s : σ) : Option DevValue :=
  (lookup H (u32Bytes index) s).map fun v =>
    (ofLe (v.take 4), if ofLe ((v.drop 4).take 4) = 0 then none else some (ofLe ((v.drop 4).take 4)))

/-- `DevMap::get_ifindex`, `/repo/ebpf/aya-ebpf/src/maps/xdp/dev_map.rs:118-125`. -/
def devIfindex {σ : Type} (H : Helpers σ) (index : BitVec 32) (s : σ) : Option Nat :=
  (lookup H (u32Bytes index) s).map fun v => ofLe (v.take 4)

/-- What a program does with a socket taken from a map. -/
inductive SkEvent where
  | acquired (sk : Nat)
  | assigned (sk : Nat) (flags : Nat)
  | released (sk : Nat)
deriving DecidableEq, Repr

/-- `SockMap::redirect_sk_lookup`, `/repo/ebpf/aya-ebpf/src/maps/sock_map.rs:65-75`, and
    `SockHash::redirect_sk_lookup`, `sock_hash.rs:64-74`. `found` is the socket in the map, which the
    lookup takes a reference to; `assign` is what `bpf_sk_assign` returns. -/
def redirectSkLookup (found : Option Nat) (assign : Int) (flags : Nat) : Except Int Unit × List SkEvent :=
  match found with
  | none => (.error (-2), [])
  | some sk =>
      let events := [SkEvent.acquired sk, .assigned sk flags, .released sk]
      if assign = 0 then (.ok (), events) else (.error (toI32 assign), events)

/-- `CgroupArray::current_task_under_cgroup`, `/repo/ebpf/aya-ebpf/src/maps/cgroup_array.rs:48-56`. -/
def underCgroup (ret : Int) : Except Int Bool :=
  if ret = 1 then .ok true else if ret = 0 then .ok false else .error ret

end Verif.Shared
