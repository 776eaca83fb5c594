import Verif.Loader.Model
/-!
# Typed map handles

Model of how typed maps (`Array`, `HashMap`, …) are made from a `MapData`, of the checks made on the way, and of the
buffers their operations give to the kernel. A Rust type that appears as a type parameter (`K`, `V`) is its size in bytes;
a pointer given to the kernel is the size in bytes of the object it points to. What the calls answer is modelled in
`Verif.Maps`.
-/
namespace Verif.Handles
open Verif.Loader (Variant variantFor)

/-- The fields of `aya_obj::Map` that are used here (`/repo/aya-obj/src/maps.rs`). -/
structure Obj where
  mapType : Nat
  keySize : Nat
  valueSize : Nat
  maxEntries : Nat
  mapFlags : Nat
deriving DecidableEq, Repr

/-- `MapData` (`/repo/aya/src/maps/mod.rs:807-810`). -/
structure Data where
  obj : Obj
  fd : Nat
deriving DecidableEq, Repr

/-- `Map` (`/repo/aya/src/maps/mod.rs:306-367`). The variants are public: anybody can label a `MapData`. -/
structure Map where
  variant : Variant
  data : Data
deriving DecidableEq, Repr

/-- The machine: features of the running kernel (`Feature::CpuMapProgId`, `Feature::DevMapProgId`) and the number of CPUs
(`nr_cpus`; `none`: it cannot be read). -/
structure Env where
  cpuMapProgId : Bool
  devMapProgId : Bool
  nrCpus : Option Nat
deriving DecidableEq, Repr

/-- `MapError` and `XdpMapError` as far as they arise before a call is made. -/
inductive Err where
  | invalidMapType (mapType : Nat)
  | invalidKeySize (size expected : Nat)
  | invalidValueSize (size expected : Nat)
  | unsupportedMapFlags (flags : Nat)
  | invalidValueStride (size : Nat)
  | outOfBounds (index maxEntries : Nat)
  | chainedProgramNotSupported
  | noCpus
deriving DecidableEq, Repr

/-- The commands of the `bpf` system call that are used here. -/
inductive Cmd where
  | lookup
  | lookupAndDelete
  | update
  | delete
  | getNextKey
deriving DecidableEq, Repr

/-- A call: the pointers are given as the sizes of what they point to, `none` is the null pointer. -/
structure Req where
  cmd : Cmd
  fd : Nat
  key : Option Nat := none
  value : Option Nat := none
  nextKey : Option Nat := none
deriving DecidableEq, Repr

/-- `lookup` (`/repo/aya/src/sys/bpf.rs:225-247`), used by `bpf_map_lookup_elem` (`249-255`) and
`bpf_map_lookup_and_delete_elem` (`257-263`). -/
def lookup (cmd : Cmd) (fd : Nat) (key : Option Nat) (value : Nat) : Req := { cmd, fd, key, value := some value }

/-- `bpf_map_lookup_elem_ptr` (`/repo/aya/src/sys/bpf.rs:278-299`). -/
def lookupPtr (fd : Nat) (key : Option Nat) (value : Nat) : Req := { cmd := .lookup, fd, key, value := some value }

/-- `bpf_map_peek_elem` (`/repo/aya/src/sys/bpf.rs:301-318`). -/
def peek (fd value : Nat) : Req := { cmd := .lookup, fd, value := some value }

/-- `bpf_map_update_elem` (`/repo/aya/src/sys/bpf.rs:320-337`) and `bpf_map_update_elem_ptr` (`354-369`). -/
def update (fd : Nat) (key : Option Nat) (value : Nat) : Req := { cmd := .update, fd, key, value := some value }

/-- `bpf_map_push_elem` (`/repo/aya/src/sys/bpf.rs:339-352`). -/
def push (fd value : Nat) : Req := { cmd := .update, fd, value := some value }

/-- `bpf_map_delete_elem` (`/repo/aya/src/sys/bpf.rs:381-389`). -/
def delete (fd key : Nat) : Req := { cmd := .delete, fd, key := some key }

/-- `bpf_map_get_next_key` (`/repo/aya/src/sys/bpf.rs:391-410`), called by `MapKeys::next`
(`/repo/aya/src/maps/mod.rs:1062-1082`) with the key before, if there is one. -/
def getNextKey (fd : Nat) (prev : Bool) (key : Nat) : Req :=
  { cmd := .getNextKey, fd, key := if prev then some key else none, nextKey := some key }

/-- `check_bounds` (`/repo/aya/src/maps/mod.rs:771-778`) and what follows. -/
def bounded (d : Data) (index : Nat) (r : Except Err Req) : Except Err Req :=
  if index ≥ d.obj.maxEntries then .error (.outOfBounds index d.obj.maxEntries) else r

/-- `check_kv_size` (`/repo/aya/src/maps/mod.rs:780-792`). -/
def checkKvSize (d : Data) (key value : Nat) : Except Err Unit :=
  if key ≠ d.obj.keySize then .error (.invalidKeySize key d.obj.keySize)
  else if value ≠ d.obj.valueSize then .error (.invalidValueSize value d.obj.valueSize)
  else .ok ()

/-- `check_v_size` (`/repo/aya/src/maps/mod.rs:794-801`). -/
def checkVSize (d : Data) (value : Nat) : Except Err Unit :=
  if value ≠ d.obj.valueSize then .error (.invalidValueSize value d.obj.valueSize) else .ok ()

/-- `PerCpuValues::alloc_kernel_mem` (`/repo/aya/src/maps/mod.rs:1177-1183`), for lookups and updates
(`/repo/aya/src/sys/bpf.rs:265-276`, `371-379`). -/
def perCpuMem (env : Env) (value : Nat) : Except Err Nat :=
  match env.nrCpus with
  | none => .error .noCpus
  | some n => .ok (n * ((value + 7) / 8 * 8))

/-- A call with memory for every CPU. -/
def perCpu (env : Env) (value : Nat) (req : Nat → Req) : Except Err Req :=
  match perCpuMem env value with
  | .error e => .error e
  | .ok n => .ok (req n)

/-- The typed maps with the sizes of their type parameters. -/
inductive Ty where
  | array (v : Nat)
  | arrayOfMaps
  | bloomFilter (v : Nat)
  | cgroupArray
  | cgroupStorage (v : Nat)
  | cgrpStorage (v : Nat)
  | cpuMap
  | devMap
  | devMapHash
  | hashMap (k v : Nat)
  | hashOfMaps (k : Nat)
  | inodeStorage (v : Nat)
  | lpmTrie (k v : Nat)
  | perCpuArray (v : Nat)
  | perCpuCgroupStorage (v : Nat)
  | perCpuHashMap (k v : Nat)
  | perfEventArray
  | programArray
  | queue (v : Nat)
  | reusePortSockArray
  | ringBuf
  | sockHash (k : Nat)
  | sockMap
  | skStorage (v : Nat)
  | stack (v : Nat)
  | stackTrace
  | xskMap
deriving DecidableEq, Repr

/-- A typed map. `depth` is `max_stack_depth` (`/repo/aya/src/maps/stack_trace.rs:77`), 0 for the other types. -/
structure Handle where
  ty : Ty
  data : Data
  depth : Nat := 0
deriving DecidableEq, Repr

/-- `StackTraceMap::new` (`/repo/aya/src/maps/stack_trace.rs:85-122`). `BPF_F_STACK_BUILD_ID` is 32. -/
def newStackTrace (d : Data) : Except Err Handle :=
  if d.obj.keySize ≠ 4 then .error (.invalidKeySize d.obj.keySize 4)
  else if d.obj.mapFlags / 32 % 2 ≠ 0 then .error (.unsupportedMapFlags d.obj.mapFlags)
  else if d.obj.valueSize = 0 ∨ d.obj.valueSize % 8 ≠ 0 then .error (.invalidValueStride d.obj.valueSize)
  else .ok { ty := .stackTrace, data := d, depth := d.obj.valueSize / 8 }

/-- The checks of the functions `new` of the types other than `StackTraceMap`; all files in `/repo/aya/src/maps`. `RawFd`
and `i32` have 4 bytes, `bpf_cpumap_val` and `bpf_devmap_val` 8, `bpf_cgroup_storage_key` 16; `lpm_trie::Key<K>` is packed.
That `RingBuf::new` maps memory is not modelled here. -/
def check (env : Env) (d : Data) : Ty → Except Err Unit
  /- `array/array.rs:37-45` -/
  | .array v => checkKvSize d 4 v
  /- `of_maps/array.rs:38-45` -/
  | .arrayOfMaps => checkKvSize d 4 4
  /- `bloom_filter.rs:46-54` -/
  | .bloomFilter v => checkVSize d v
  /- `array/cgroup_array.rs:38-43` -/
  | .cgroupArray => checkKvSize d 4 4
  /- `cgroup_storage.rs:75-83` -/
  | .cgroupStorage v => checkKvSize d 16 v
  /- `cgrp_storage.rs:32-40` -/
  | .cgrpStorage v => checkKvSize d 4 v
  /- `xdp/cpu_map.rs:59-69` -/
  | .cpuMap => checkKvSize d 4 (if env.cpuMapProgId then 8 else 4)
  /- `xdp/dev_map.rs:50-60` -/
  | .devMap => checkKvSize d 4 (if env.devMapProgId then 8 else 4)
  /- `xdp/dev_map_hash.rs:49-59` -/
  | .devMapHash => checkKvSize d 4 (if env.devMapProgId then 8 else 4)
  /- `hash_map/hash_map.rs:40-48` -/
  | .hashMap k v => checkKvSize d k v
  /- `of_maps/hash_map.rs:39-47` -/
  | .hashOfMaps k => checkKvSize d k 4
  /- `inode_storage.rs:29-37` -/
  | .inodeStorage v => checkKvSize d 4 v
  /- `lpm_trie.rs:107-115` -/
  | .lpmTrie k v => checkKvSize d (4 + k) v
  /- `array/per_cpu_array.rs:58-66` -/
  | .perCpuArray v => checkKvSize d 4 v
  /- `cgroup_storage.rs:118-126` -/
  | .perCpuCgroupStorage v => checkKvSize d 16 v
  /- `hash_map/per_cpu_hash_map.rs:51-59` -/
  | .perCpuHashMap k v => checkKvSize d k v
  /- `perf/perf_event_array.rs:197-202` -/
  | .perfEventArray => .ok ()
  /- `array/program_array.rs:54-59` -/
  | .programArray => checkKvSize d 4 4
  /- `queue.rs:39-47` -/
  | .queue v => checkKvSize d 0 v
  /- `sock/reuseport_sock_array.rs:54-59` -/
  | .reusePortSockArray => checkKvSize d 4 4
  /- `ring_buf.rs:98-111` -/
  | .ringBuf => .ok ()
  /- `sock/sock_hash.rs:71-79` -/
  | .sockHash k => checkKvSize d k 4
  /- `sock/sock_map.rs:58-63` -/
  | .sockMap => checkKvSize d 4 4
  /- `sk_storage.rs:29-37` -/
  | .skStorage v => checkKvSize d 4 v
  /- `stack.rs:39-47` -/
  | .stack v => checkKvSize d 0 v
  /- see `newStackTrace` -/
  | .stackTrace => .ok ()
  /- `xdp/xsk_map.rs:40-45` -/
  | .xskMap => checkKvSize d 4 4

/-- `new` of the typed maps. -/
def new (env : Env) (ty : Ty) (d : Data) : Except Err Handle :=
  if ty = .stackTrace then newStackTrace d
  else
    match check env d ty with
    | .error e => .error e
    | .ok () => .ok { ty, data := d }

/-- The variants a typed map is made from (`impl_try_from_map!`, `/repo/aya/src/maps/mod.rs:615-666`). -/
def variantsFor : Ty → List Variant
  | .array _ => [.array]
  | .arrayOfMaps => [.arrayOfMaps]
  | .bloomFilter _ => [.bloomFilter]
  | .cgroupArray => [.cgroupArray]
  | .cgroupStorage _ => [.cgroupStorage]
  | .cgrpStorage _ => [.cgrpStorage]
  | .cpuMap => [.cpuMap]
  | .devMap => [.devMap]
  | .devMapHash => [.devMapHash]
  | .hashMap _ _ => [.hashMap, .lruHashMap]
  | .hashOfMaps _ => [.hashOfMaps]
  | .inodeStorage _ => [.inodeStorage]
  | .lpmTrie _ _ => [.lpmTrie]
  | .perCpuArray _ => [.perCpuArray]
  | .perCpuCgroupStorage _ => [.perCpuCgroupStorage]
  | .perCpuHashMap _ _ => [.perCpuHashMap, .perCpuLruHashMap]
  | .perfEventArray => [.perfEventArray]
  | .programArray => [.programArray]
  | .queue _ => [.queue]
  | .reusePortSockArray => [.reusePortSockArray]
  | .ringBuf => [.ringBuf]
  | .sockHash _ => [.sockHash]
  | .sockMap => [.sockMap]
  | .skStorage _ => [.skStorage]
  | .stack _ => [.stack]
  | .stackTrace => [.stackTrace]
  | .xskMap => [.xskMap]

/-- `TryFrom<Map>` (`/repo/aya/src/maps/mod.rs:597-611`). -/
def tryFrom (env : Env) (ty : Ty) (m : Map) : Except Err Handle :=
  if (variantsFor ty).contains m.variant then new env ty m.data else .error (.invalidMapType m.data.obj.mapType)

/-- The variant chosen by `Map::from_map_data` (`/repo/aya/src/maps/mod.rs:455-497`). -/
def variantOfData : Nat → Option Variant
  | 1 => some .hashMap
  | 2 => some .array
  | 3 => some .programArray
  | 4 => some .perfEventArray
  | 5 => some .perCpuHashMap
  | 6 => some .perCpuArray
  | 7 => some .stackTrace
  | 9 => some .lruHashMap
  | 10 => some .perCpuLruHashMap
  | 11 => some .lpmTrie
  | 14 => some .devMap
  | 15 => some .sockMap
  | 16 => some .cpuMap
  | 17 => some .xskMap
  | 18 => some .sockHash
  | 22 => some .queue
  | 23 => some .stack
  | 25 => some .devMapHash
  | 27 => some .ringBuf
  | 30 => some .bloomFilter
  | 8 => some .cgroupArray
  | 12 => some .arrayOfMaps
  | 13 => some .hashOfMaps
  | 19 => some .cgroupStorage
  | 20 => some .reusePortSockArray
  | 24 => some .skStorage
  | 26 => some .unsupported
  | 28 => some .inodeStorage
  | 29 => some .unsupported
  | 31 => some .unsupported
  | 32 => some .cgrpStorage
  | 33 => some .unsupported
  | 21 => some .perCpuCgroupStorage
  | _ => none

/-- `Map::from_map_data` (`/repo/aya/src/maps/mod.rs:455-497`). -/
def fromMapData (d : Data) : Except Err Map :=
  match variantOfData d.obj.mapType with
  | some v => .ok ⟨v, d⟩
  | none => .error (.invalidMapType d.obj.mapType)

/-- The map handed out by `EbpfLoader::load` for a map it made (`/repo/aya/src/bpf.rs:880-883`). `none`: an error. -/
def loaded (allow : Bool) (d : Data) : Option Map := (variantFor allow d.obj.mapType).map fun v => ⟨v, d⟩

/-- What can be done with a typed map. Operations that differ only in name (`set` and `insert`; `remove`, `unset` and
`clear_index`) are the same here, and an iterator is the calls it makes: `nextKey` and `get`. -/
inductive Op where
  /-- `index` is the index or stands for the key -/
  | get (index : Nat)
  | set (index : Nat) (program : Bool)
  | remove (index : Nat)
  /-- a step of an iterator; `prev`: not the first -/
  | nextKey (prev : Bool)
  | push
  | pop
  | contains
  /-- `PerfEventArray::open` -/
  | openBuffer (index : Nat)
deriving DecidableEq, Repr

/-- `set` of `CpuMap`, `DevMap` and `insert` of `DevMapHash` after the check of the index
(`/repo/aya/src/maps/xdp/cpu_map.rs:151-165`, `dev_map.rs:141-156`, `dev_map_hash.rs:132-156`). -/
def chainSet (progId program : Bool) (fd : Nat) : Except Err Req :=
  if progId then .ok (update fd (some 4) 8)
  else if program then .error .chainedProgramNotSupported
  else .ok (update fd (some 4) 4)

/-- `get` of the same types (`/repo/aya/src/maps/xdp/cpu_map.rs:84-112`, `dev_map.rs:75-103`, `dev_map_hash.rs:66-92`). -/
def chainGet (progId : Bool) (fd : Nat) : Except Err Req :=
  if progId then .ok (lookup .lookup fd (some 4) 8) else .ok (lookup .lookup fd (some 4) 4)

/-- `Array` (`/repo/aya/src/maps/array/array.rs:60-84`). -/
def arrayOp (d : Data) (v : Nat) : Op → Option (Except Err Req)
  | .get i => some (bounded d i (.ok (lookup .lookup d.fd (some 4) v)))
  | .set i _ => some (bounded d i (.ok (update d.fd (some 4) v)))
  | _ => none

/-- `ArrayOfMaps` (`/repo/aya/src/maps/of_maps/array.rs:76-111`). -/
def arrayOfMapsOp (d : Data) : Op → Option (Except Err Req)
  | .get i => some (bounded d i (.ok (lookup .lookup d.fd (some 4) 4)))
  | .set i _ => some (bounded d i (.ok (update d.fd (some 4) 4)))
  | _ => none

/-- `BloomFilter` (`/repo/aya/src/maps/bloom_filter.rs:57-80`). -/
def bloomFilterOp (d : Data) (v : Nat) : Op → Option (Except Err Req)
  | .contains => some (.ok (peek d.fd v))
  | .push => some (.ok (push d.fd v))
  | _ => none

/-- `CgroupArray` (`/repo/aya/src/maps/array/cgroup_array.rs:60-76`) and `XskMap`
(`/repo/aya/src/maps/xdp/xsk_map.rs:66-82`). -/
def fdArrayOp (d : Data) : Op → Option (Except Err Req)
  | .set i _ => some (bounded d i (.ok (update d.fd (some 4) 4)))
  | .remove i => some (bounded d i (.ok (delete d.fd 4)))
  | _ => none

/-- `ProgramArray` (`/repo/aya/src/maps/array/program_array.rs:62-86`), `ReusePortSockArray`
(`/repo/aya/src/maps/sock/reuseport_sock_array.rs:62-95`) and `SockMap` (`/repo/aya/src/maps/sock/sock_map.rs:66-95`). -/
def fdIndicesOp (d : Data) : Op → Option (Except Err Req)
  | .nextKey prev => some (.ok (getNextKey d.fd prev 4))
  | op => fdArrayOp d op

/-- `CgroupStorage` (`/repo/aya/src/maps/cgroup_storage.rs:86-98`). -/
def cgroupStorageOp (d : Data) (v : Nat) : Op → Option (Except Err Req)
  | .get _ => some (.ok (lookup .lookup d.fd (some 16) v))
  | .set _ _ => some (.ok (update d.fd (some 16) v))
  | _ => none

/-- `PerCpuCgroupStorage` (`/repo/aya/src/maps/cgroup_storage.rs:129-160`). -/
def perCpuCgroupStorageOp (env : Env) (d : Data) (v : Nat) : Op → Option (Except Err Req)
  | .get _ => some (perCpu env v (lookupPtr d.fd (some 16)))
  | .set _ _ => some (perCpu env v (update d.fd (some 16)))
  | _ => none

/-- `CgrpStorage`, `InodeStorage` and `SkStorage` (`/repo/aya/src/maps/cgrp_storage.rs:43-57`,
`inode_storage.rs:40-54`, `sk_storage.rs:40-54`). -/
def localStorageOp (d : Data) (v : Nat) : Op → Option (Except Err Req)
  | .get _ => some (.ok (lookup .lookup d.fd (some 4) v))
  | .set _ _ => some (.ok (update d.fd (some 4) v))
  | .remove _ => some (.ok (delete d.fd 4))
  | _ => none

/-- `CpuMap` (`/repo/aya/src/maps/xdp/cpu_map.rs:84-174`) and `DevMap` (`dev_map.rs:75-165`). -/
def chainOp (progId : Bool) (d : Data) : Op → Option (Except Err Req)
  | .get i => some (bounded d i (chainGet progId d.fd))
  | .set i p => some (bounded d i (chainSet progId p d.fd))
  | _ => none

/-- `DevMapHash` (`/repo/aya/src/maps/xdp/dev_map_hash.rs:66-165`). -/
def devMapHashOp (progId : Bool) (d : Data) : Op → Option (Except Err Req)
  | .get _ => some (chainGet progId d.fd)
  | .set _ p => some (chainSet progId p d.fd)
  | .remove _ => some (.ok (delete d.fd 4))
  | .nextKey prev => some (.ok (getNextKey d.fd prev 4))
  | _ => none

/-- `HashMap` (`/repo/aya/src/maps/hash_map/hash_map.rs:51-86`), `LpmTrie` (`lpm_trie.rs:118-155`), `HashOfMaps`
(`of_maps/hash_map.rs:51-97`) and `SockHash` (`sock/sock_hash.rs:82-128`). -/
def hashOp (d : Data) (k v : Nat) : Op → Option (Except Err Req)
  | .get _ => some (.ok (lookup .lookup d.fd (some k) v))
  | .set _ _ => some (.ok (update d.fd (some k) v))
  | .remove _ => some (.ok (delete d.fd k))
  | .nextKey prev => some (.ok (getNextKey d.fd prev k))
  | _ => none

/-- `PerCpuArray` (`/repo/aya/src/maps/array/per_cpu_array.rs:81-120`). -/
def perCpuArrayOp (env : Env) (d : Data) (v : Nat) : Op → Option (Except Err Req)
  | .get i => some (bounded d i (perCpu env v (lookupPtr d.fd (some 4))))
  | .set i _ => some (bounded d i (perCpu env v (update d.fd (some 4))))
  | _ => none

/-- `PerCpuHashMap` (`/repo/aya/src/maps/hash_map/per_cpu_hash_map.rs:62-137`). -/
def perCpuHashOp (env : Env) (d : Data) (k v : Nat) : Op → Option (Except Err Req)
  | .get _ => some (perCpu env v (lookupPtr d.fd (some k)))
  | .set _ _ => some (perCpu env v (update d.fd (some k)))
  | .remove _ => some (.ok (delete d.fd k))
  | .nextKey prev => some (.ok (getNextKey d.fd prev k))
  | _ => none

/-- `PerfEventArray::open` (`/repo/aya/src/maps/perf/perf_event_array.rs:222-238`) after the buffer is open. -/
def perfOp (d : Data) : Op → Option (Except Err Req)
  | .openBuffer _ => some (.ok (update d.fd (some 4) 4))
  | _ => none

/-- `Queue` (`/repo/aya/src/maps/queue.rs:64-90`). -/
def queueOp (d : Data) (v : Nat) : Op → Option (Except Err Req)
  | .pop => some (.ok (lookup .lookupAndDelete d.fd none v))
  | .push => some (.ok (push d.fd v))
  | _ => none

/-- `Stack` (`/repo/aya/src/maps/stack.rs:64-90`). -/
def stackOp (d : Data) (v : Nat) : Op → Option (Except Err Req)
  | .pop => some (.ok (lookup .lookupAndDelete d.fd none v))
  | .push => some (.ok (update d.fd none v))
  | _ => none

/-- `StackTraceMap` (`/repo/aya/src/maps/stack_trace.rs:130-189`): the buffer of `get` has `max_stack_depth` words. -/
def stackTraceOp (h : Handle) : Op → Option (Except Err Req)
  | .get _ => some (.ok (lookupPtr h.data.fd (some 4) (h.depth * 8)))
  | .remove _ => some (.ok (delete h.data.fd 4))
  | .nextKey prev => some (.ok (getNextKey h.data.fd prev 4))
  | _ => none

/-- The call made by an operation; `none`: the type has no such operation. -/
def request (env : Env) (h : Handle) : Op → Option (Except Err Req) :=
  match h.ty with
  | .array v => arrayOp h.data v
  | .arrayOfMaps => arrayOfMapsOp h.data
  | .bloomFilter v => bloomFilterOp h.data v
  | .cgroupArray => fdArrayOp h.data
  | .cgroupStorage v => cgroupStorageOp h.data v
  | .cgrpStorage v => localStorageOp h.data v
  | .cpuMap => chainOp env.cpuMapProgId h.data
  | .devMap => chainOp env.devMapProgId h.data
  | .devMapHash => devMapHashOp env.devMapProgId h.data
  | .hashMap k v => hashOp h.data k v
  | .hashOfMaps k => hashOp h.data k 4
  | .inodeStorage v => localStorageOp h.data v
  | .lpmTrie k v => hashOp h.data (4 + k) v
  | .perCpuArray v => perCpuArrayOp env h.data v
  | .perCpuCgroupStorage v => perCpuCgroupStorageOp env h.data v
  | .perCpuHashMap k v => perCpuHashOp env h.data k v
  | .perfEventArray => perfOp h.data
  | .programArray => fdIndicesOp h.data
  | .queue v => queueOp h.data v
  | .reusePortSockArray => fdIndicesOp h.data
  | .ringBuf => fun _ => none
  | .sockHash k => hashOp h.data k 4
  | .sockMap => fdIndicesOp h.data
  | .skStorage v => localStorageOp h.data v
  | .stack v => stackOp h.data v
  | .stackTrace => stackTraceOp h
  | .xskMap => fdArrayOp h.data

/-- The definition `create` asks the kernel for (`impl_creatable_map!`, `/repo/aya/src/maps/mod.rs:740-769`); `none`: the
type has no `create`. Sizes are cast to `u32`. -/
def createDef (maxEntries flags : Nat) : Ty → Option Obj
  | .array v => some ⟨2, 4, v % 2 ^ 32, maxEntries, flags⟩
  | .perCpuArray v => some ⟨6, 4, v % 2 ^ 32, maxEntries, flags⟩
  | .bloomFilter v => some ⟨30, 0, v % 2 ^ 32, maxEntries, flags⟩
  | .queue v => some ⟨22, 0, v % 2 ^ 32, maxEntries, flags⟩
  | .stack v => some ⟨23, 0, v % 2 ^ 32, maxEntries, flags⟩
  | .hashMap k v => some ⟨1, k % 2 ^ 32, v % 2 ^ 32, maxEntries, flags⟩
  | .perCpuHashMap k v => some ⟨5, k % 2 ^ 32, v % 2 ^ 32, maxEntries, flags⟩
  | .lpmTrie k v => some ⟨11, (4 + k) % 2 ^ 32, v % 2 ^ 32, maxEntries, flags⟩
  | _ => none

/-- `create` (`/repo/aya/src/maps/mod.rs:744-750`); the kernel gave the descriptor `fd`. -/
def create (env : Env) (ty : Ty) (maxEntries flags fd : Nat) : Option (Except Err Handle) :=
  (createDef maxEntries flags ty).map fun o => new env ty ⟨o, fd⟩

/-- The frames of `StackTraceMap::get` (`/repo/aya/src/maps/stack_trace.rs:141-145`) from the words the kernel wrote. -/
def frames (words : List Nat) : List Nat := words.takeWhile (· != 0)

end Verif.Handles
