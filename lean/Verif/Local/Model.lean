import Verif.Common.Bytes
import Verif.Common.Except
import Verif.Maps.Model

/-!
# Storage of sockets, inodes and cgroups, and arrays of cgroups: the code

`SkStorage`, `InodeStorage`, `CgrpStorage`, `CgroupStorage`, `PerCpuCgroupStorage` and `CgroupArray` of the process
(`/repo/aya/src/maps/{sk_storage,inode_storage,cgrp_storage,cgroup_storage}.rs`, `/repo/aya/src/maps/array/cgroup_array.rs`) and of programs
(`/repo/ebpf/aya-ebpf/src/btf_maps/{sk_storage,inode_storage,cgrp_storage,cgroup_storage,cgroup_array}.rs`,
`/repo/ebpf/aya-ebpf/src/maps/{cgroup_storage,cgroup_array}.rs`). The system is a parameter. A value of a Rust type is the list of its bytes.
-/
namespace Verif.Local
open Verif.Bytes

abbrev Bytes := List UInt8

/-- The kinds of map, in the order of the list above. -/
inductive Kind where
  | sk | inode | cgrp | old | oldAll | array
deriving DecidableEq, Repr

/-- The system calls that are made, on a system in state `σ`: `BPF_MAP_CREATE` with kind, size of key and of value, number of entries;
    `BPF_MAP_LOOKUP_ELEM` with descriptor, key and flags, `BPF_MAP_UPDATE_ELEM` with descriptor, key, value and flags, `BPF_MAP_DELETE_ELEM`,
    `close`. -/
structure Sys (σ : Type) where
  createMap : Kind → Nat → Nat → Nat → σ → Except Nat Nat × σ
  lookup : Nat → Bytes → Nat → σ → Except Nat Bytes
  update : Nat → Bytes → Bytes → Nat → σ → Except Nat Unit × σ
  delete : Nat → Bytes → σ → Except Nat Unit × σ
  close : Nat → σ → σ

inductive Error where
  | outOfBounds (index max : Nat)
  | invalidKeySize (size expected : Nat)
  | invalidValueSize (size expected : Nat)
  | keyNotFound
  | syscall (call : String) (errno : Nat)
  | create (errno : Nat)
  /-- not an error of the code: memory is accessed out of bounds -/
  | outside
deriving DecidableEq, Repr

/-- `MapData`: the descriptor and, of the definition, sizes and number of entries. -/
structure Data where
  fd : Nat
  ksize : Nat
  vsize : Nat
  max : Nat
deriving DecidableEq, Repr

/-- `MapData::create`, `/repo/aya/src/maps/mod.rs:814-862`. -/
def create {σ : Type} (S : Sys σ) (kind : Kind) (ksize vsize max : Nat) (s : σ) : Except Error Data × σ :=
  match S.createMap kind ksize vsize max s with
  | (.ok fd, s) => (.ok ⟨fd, ksize, vsize, max⟩, s)
  | (.error e, s) => (.error (.create e), s)

/-- `check_bounds`, `/repo/aya/src/maps/mod.rs:771-778`. -/
def checkBounds (d : Data) (index : BitVec 32) : Except Error Unit :=
  if index.toNat ≥ d.max then .error (.outOfBounds index.toNat d.max) else .ok ()

/-- `check_kv_size`, `/repo/aya/src/maps/mod.rs:780-792`. -/
def checkKvSize (d : Data) (key value : Nat) : Except Error Unit :=
  if key ≠ d.ksize then .error (.invalidKeySize key d.ksize)
  else if value ≠ d.vsize then .error (.invalidValueSize value d.vsize)
  else .ok ()

/-- `SkStorage::new` (`sk_storage.rs:29-37`), `InodeStorage::new` (`inode_storage.rs:29-37`), `CgrpStorage::new` (`cgrp_storage.rs:32-40`),
    `CgroupStorage::new` (`cgroup_storage.rs:75-83`), `PerCpuCgroupStorage::new` (`cgroup_storage.rs:118-126`), `CgroupArray::new`
    (`cgroup_array.rs:38-43`), for a type of `size` bytes. A `bpf_cgroup_storage_key` has 16 bytes. -/
def new (kind : Kind) (d : Data) (size : Nat) : Except Error Unit :=
  match kind with
  | .sk => checkKvSize d 4 size
  | .inode => checkKvSize d 4 size
  | .cgrp => checkKvSize d 4 size
  | .old => checkKvSize d 16 size
  | .oldAll => checkKvSize d 16 size
  | .array => checkKvSize d 4 4

/-- A map is made and, with `TryFrom<Map>` (`/repo/aya/src/maps/mod.rs:598-612`), given its type. If that fails the map is dropped. -/
def make {σ : Type} (S : Sys σ) (kind : Kind) (ksize vsize max size : Nat) (s : σ) : Except Error Data × σ :=
  match create S kind ksize vsize max s with
  | (.error e, s) => (.error e, s)
  | (.ok d, s) =>
      match new kind d size with
      | .error e => (.error e, S.close d.fd s)
      | .ok () => (.ok d, s)

/-- `bpf_map_lookup_elem`, `/repo/aya/src/sys/bpf.rs:225-255`: `ENOENT` is no error. -/
def bpfLookup {σ : Type} (S : Sys σ) (fd : Nat) (key : Bytes) (flags : Nat) (s : σ) : Except Nat (Option Bytes) :=
  match S.lookup fd key flags s with
  | .ok value => .ok (some value)
  | .error e => if e = 2 then .ok none else .error e

/-- `hash_map::get`, `/repo/aya/src/maps/hash_map/mod.rs:22-29`. -/
def mapGet {σ : Type} (S : Sys σ) (d : Data) (key : Bytes) (flags : Nat) (s : σ) : Except Error Bytes :=
  match bpfLookup S d.fd key flags s with
  | .ok (some value) => .ok value
  | .ok none => .error .keyNotFound
  | .error e => .error (.syscall "bpf_map_lookup_elem" e)

/-- `hash_map::insert`, `/repo/aya/src/maps/hash_map/mod.rs:31-44`. -/
def mapInsert {σ : Type} (S : Sys σ) (d : Data) (key value : Bytes) (flags : Nat) (s : σ) : Except Error Unit × σ :=
  match S.update d.fd key value flags s with
  | (.ok (), s) => (.ok (), s)
  | (.error e, s) => (.error (.syscall "bpf_map_update_elem" e), s)

/-- `hash_map::remove`, `/repo/aya/src/maps/hash_map/mod.rs:46-54`. -/
def mapRemove {σ : Type} (S : Sys σ) (d : Data) (key : Bytes) (s : σ) : Except Error Unit × σ :=
  match S.delete d.fd key s with
  | (.ok (), s) => (.ok (), s)
  | (.error e, s) => (.error (.syscall "bpf_map_delete_elem" e), s)

/-- `SkStorage::get`, `sk_storage.rs:40-42`. The key is the number of the descriptor, a C int. -/
def skGet {σ : Type} (S : Sys σ) (d : Data) (fd flags : Nat) (s : σ) : Except Error Bytes := mapGet S d (le 4 fd) flags s
/-- `SkStorage::insert`, `sk_storage.rs:47-49`. -/
def skInsert {σ : Type} (S : Sys σ) (d : Data) (fd : Nat) (value : Bytes) (flags : Nat) (s : σ) : Except Error Unit × σ :=
  mapInsert S d (le 4 fd) value flags s
/-- `SkStorage::remove`, `sk_storage.rs:52-54`. -/
def skRemove {σ : Type} (S : Sys σ) (d : Data) (fd : Nat) (s : σ) : Except Error Unit × σ := mapRemove S d (le 4 fd) s

/-- `InodeStorage::get`, `inode_storage.rs:40-42`. -/
def inodeGet {σ : Type} (S : Sys σ) (d : Data) (fd flags : Nat) (s : σ) : Except Error Bytes := mapGet S d (le 4 fd) flags s
/-- `InodeStorage::insert`, `inode_storage.rs:47-49`. -/
def inodeInsert {σ : Type} (S : Sys σ) (d : Data) (fd : Nat) (value : Bytes) (flags : Nat) (s : σ) : Except Error Unit × σ :=
  mapInsert S d (le 4 fd) value flags s
/-- `InodeStorage::remove`, `inode_storage.rs:52-54`. -/
def inodeRemove {σ : Type} (S : Sys σ) (d : Data) (fd : Nat) (s : σ) : Except Error Unit × σ := mapRemove S d (le 4 fd) s

/-- `CgrpStorage::get`, `cgrp_storage.rs:43-45`. -/
def cgrpGet {σ : Type} (S : Sys σ) (d : Data) (fd flags : Nat) (s : σ) : Except Error Bytes := mapGet S d (le 4 fd) flags s
/-- `CgrpStorage::insert`, `cgrp_storage.rs:50-52`. -/
def cgrpInsert {σ : Type} (S : Sys σ) (d : Data) (fd : Nat) (value : Bytes) (flags : Nat) (s : σ) : Except Error Unit × σ :=
  mapInsert S d (le 4 fd) value flags s
/-- `CgrpStorage::remove`, `cgrp_storage.rs:55-57`. -/
def cgrpRemove {σ : Type} (S : Sys σ) (d : Data) (fd : Nat) (s : σ) : Except Error Unit × σ := mapRemove S d (le 4 fd) s

/-- `CgroupStorageKey`, `cgroup_storage.rs:29-41`. -/
structure CgKey where
  ino : BitVec 64
  attach : BitVec 32
deriving DecidableEq, Repr

/-- `CgroupStorageKey::to_kernel`, `cgroup_storage.rs:43-52`. The last four bytes of the C structure are padding; they are whatever is in memory. -/
def CgKey.toKernel (key : CgKey) (padding : BitVec 32) : Bytes := le 8 key.ino.toNat ++ le 4 key.attach.toNat ++ le 4 padding.toNat

/-- `CgroupStorage::get`, `cgroup_storage.rs:86-88`. -/
def oldGet {σ : Type} (S : Sys σ) (d : Data) (key : CgKey) (padding : BitVec 32) (flags : Nat) (s : σ) : Except Error Bytes :=
  mapGet S d (key.toKernel padding) flags s
/-- `CgroupStorage::insert`, `cgroup_storage.rs:96-98`. -/
def oldInsert {σ : Type} (S : Sys σ) (d : Data) (key : CgKey) (padding : BitVec 32) (value : Bytes) (flags : Nat) (s : σ) :
    Except Error Unit × σ := mapInsert S d (key.toKernel padding) value flags s

/-- `PerCpuCgroupStorage::get`, `cgroup_storage.rs:129-139`, with `bpf_map_lookup_elem_per_cpu`, `/repo/aya/src/sys/bpf.rs:265-276`. -/
def oldAllGet {σ : Type} (S : Sys σ) (d : Data) (key : CgKey) (padding : BitVec 32) (flags : Nat) (s : σ) : Except Error (List Bytes) :=
  match bpfLookup S d.fd (key.toKernel padding) flags s with
  | .ok (some mem) =>
      match Maps.fromKernelMem d.vsize mem with
      | some values => .ok values
      | none => .error .outside
  | .ok none => .error .keyNotFound
  | .error e => .error (.syscall "bpf_map_lookup_elem" e)

/-- `PerCpuCgroupStorage::insert`, `cgroup_storage.rs:147-160`, with `bpf_map_update_elem_per_cpu`, `/repo/aya/src/sys/bpf.rs:371-379`. -/
def oldAllInsert {σ : Type} (S : Sys σ) (cpus : Nat) (d : Data) (key : CgKey) (padding : BitVec 32) (values : List Bytes) (flags : Nat) (s : σ) :
    Except Error Unit × σ :=
  match Maps.buildKernelMem cpus d.vsize values with
  | none => (.error .outside, s)
  | some mem =>
      match S.update d.fd (key.toKernel padding) mem flags s with
      | (.ok (), s) => (.ok (), s)
      | (.error e, s) => (.error (.syscall "bpf_map_update_elem" e), s)

/-- `CgroupArray::set`, `cgroup_array.rs:60-64`, given something that does not own the descriptor. -/
def arraySet {σ : Type} (S : Sys σ) (d : Data) (index : BitVec 32) (fd flags : Nat) (s : σ) : Except Error Unit × σ :=
  match checkBounds d index with
  | .error e => (.error e, s)
  | .ok () => mapInsert S d (le 4 index.toNat) (le 4 fd) flags s

/-- `CgroupArray::set`, `cgroup_array.rs:60-64`, given the open directory itself: the argument is taken by value, so that it is closed at the end. -/
def arraySetOwned {σ : Type} (S : Sys σ) (d : Data) (index : BitVec 32) (fd flags : Nat) (s : σ) : Except Error Unit × σ :=
  match arraySet S d index fd flags s with
  | (r, s) => (r, S.close fd s)

/-- `CgroupArray::unset`, `cgroup_array.rs:72-76`. -/
def arrayUnset {σ : Type} (S : Sys σ) (d : Data) (index : BitVec 32) (s : σ) : Except Error Unit × σ :=
  match checkBounds d index with
  | .error e => (.error e, s)
  | .ok () => mapRemove S d (le 4 index.toNat) s

/-! ## Programs -/

/-- The helpers of the kernel that are called, on the state `σ` of a program at work, with pointers `π`: `bpf_sk_storage_get` and the like (map, object,
    what is at the value pointer unless that is null, flags), `bpf_sk_storage_delete` and the like, `bpf_get_local_storage` (map, flags),
    `bpf_current_task_under_cgroup`, `bpf_skb_under_cgroup` (map, index). -/
structure Helpers (σ π : Type) where
  skGet : Nat → Nat → Option Bytes → Nat → σ → Option π × σ
  inodeGet : Nat → Nat → Option Bytes → Nat → σ → Option π × σ
  cgrpGet : Nat → Nat → Option Bytes → Nat → σ → Option π × σ
  skDelete : Nat → Nat → σ → Int × σ
  inodeDelete : Nat → Nat → σ → Int × σ
  cgrpDelete : Nat → Nat → σ → Int × σ
  local_ : Nat → Nat → σ → Option π
  taskUnder : Nat → BitVec 32 → σ → Int
  skbUnder : Nat → BitVec 32 → σ → Int

/-- `bpf_sock_addr`: of the context, the socket. -/
structure SockAddr where
  sk : Nat
deriving DecidableEq, Repr

/-- `SkStorage::get_ptr`, btf_maps/sk_storage.rs:28-32. -/
def skPtr {σ π : Type} (H : Helpers σ π) (m : Nat) (ctx : SockAddr) (value : Option Bytes) (flags : Nat) (s : σ) : Option π × σ :=
  H.skGet m ctx.sk value flags s
/-- `SkStorage::get_ptr_mut`, btf_maps/sk_storage.rs:36-38. -/
def skPtrMut {σ π : Type} (H : Helpers σ π) (m : Nat) (ctx : SockAddr) (s : σ) : Option π × σ := skPtr H m ctx none 0 s
/-- `SkStorage::get_or_insert_ptr_mut`, btf_maps/sk_storage.rs:44-50. `BPF_SK_STORAGE_GET_F_CREATE` is 1. -/
def skPtrOrInsert {σ π : Type} (H : Helpers σ π) (m : Nat) (ctx : SockAddr) (value : Option Bytes) (s : σ) : Option π × σ := skPtr H m ctx value 1 s

/-- `InodeStorage::get_ptr`, btf_maps/inode_storage.rs:24-27. -/
def inodePtr {σ π : Type} (H : Helpers σ π) (m n : Nat) (value : Option Bytes) (flags : Nat) (s : σ) : Option π × σ := H.inodeGet m n value flags s
/-- `InodeStorage::get_ptr_mut`, btf_maps/inode_storage.rs:31-33. -/
def inodePtrMut {σ π : Type} (H : Helpers σ π) (m n : Nat) (s : σ) : Option π × σ := inodePtr H m n none 0 s
/-- `InodeStorage::get_or_insert_ptr_mut`, btf_maps/inode_storage.rs:39-45. `BPF_LOCAL_STORAGE_GET_F_CREATE` is 1. -/
def inodePtrOrInsert {σ π : Type} (H : Helpers σ π) (m n : Nat) (value : Option Bytes) (s : σ) : Option π × σ := inodePtr H m n value 1 s

/-- `CgrpStorage::get_ptr`, btf_maps/cgrp_storage.rs:24-26. -/
def cgrpPtr {σ π : Type} (H : Helpers σ π) (m n : Nat) (value : Option Bytes) (flags : Nat) (s : σ) : Option π × σ := H.cgrpGet m n value flags s
/-- `CgrpStorage::get_ptr_mut`, btf_maps/cgrp_storage.rs:30-32. -/
def cgrpPtrMut {σ π : Type} (H : Helpers σ π) (m n : Nat) (s : σ) : Option π × σ := cgrpPtr H m n none 0 s
/-- `CgrpStorage::get_or_insert_ptr_mut`, btf_maps/cgrp_storage.rs:38-44. -/
def cgrpPtrOrInsert {σ π : Type} (H : Helpers σ π) (m n : Nat) (value : Option Bytes) (s : σ) : Option π × σ := cgrpPtr H m n value 1 s

/-- `ret as i32`. -/
def asI32 (ret : Int) : Int := (BitVec.ofInt 32 ret).toInt

/-- `SkStorage::delete`, btf_maps/sk_storage.rs:54-57. -/
def skDelete {σ π : Type} (H : Helpers σ π) (m n : Nat) (s : σ) : Except Int Unit × σ :=
  match H.skDelete m n s with
  | (ret, s) => (if ret = 0 then .ok () else .error (asI32 ret), s)
/-- `InodeStorage::delete`, btf_maps/inode_storage.rs:49-52. The helper returns a C int. -/
def inodeDelete {σ π : Type} (H : Helpers σ π) (m n : Nat) (s : σ) : Except Int Unit × σ :=
  match H.inodeDelete m n s with
  | (ret, s) => (if ret = 0 then .ok () else .error ret, s)
/-- `CgrpStorage::delete`, btf_maps/cgrp_storage.rs:53-56. -/
def cgrpDelete {σ π : Type} (H : Helpers σ π) (m n : Nat) (s : σ) : Except Int Unit × σ :=
  match H.cgrpDelete m n s with
  | (ret, s) => (if ret = 0 then .ok () else .error (asI32 ret), s)

/-- `CgroupStorage::get_ptr_mut` and `PerCpuCgroupStorage::get_ptr_mut`, maps/cgroup_storage.rs:56-60, btf_maps/cgroup_storage.rs:32-36. -/
def oldPtrMut {σ π : Type} (H : Helpers σ π) (m : Nat) (s : σ) : Option π := H.local_ m 0 s

/-- `match ret { 1 => Ok(true), 0 => Ok(false), ret => Err(ret) }`. -/
def under (ret : Int) : Except Int Bool := if ret = 1 then .ok true else if ret = 0 then .ok false else .error ret

/-- `CgroupArray::current_task_under_cgroup`, maps/cgroup_array.rs:48-56, btf_maps/cgroup_array.rs:47-56. -/
def currentTaskUnderCgroup {σ π : Type} (H : Helpers σ π) (m : Nat) (index : BitVec 32) (s : σ) : Except Int Bool := under (H.taskUnder m index s)
/-- `TcContext::skb_under_cgroup`, `/repo/ebpf/aya-ebpf/src/programs/tc.rs:218-227`. -/
def skbUnderCgroup {σ π : Type} (H : Helpers σ π) (m : Nat) (index : BitVec 32) (s : σ) : Except Int Bool := under (H.skbUnder m index s)

end Verif.Local
