import Verif.Common.Bytes

/-!
# Model of the user-space map API (`/repo/aya/src/maps`, `/repo/aya/src/sys/bpf.rs`)

Every operation issues `bpf(2)` system calls.  The kernel is an arbitrary function `Kernel` from the
calls made so far and the call being made to its outcome, so one value of `Kernel` stands for one
complete behaviour of the kernel together with everything other processes and eBPF programs do to
the map in between.  Theorems quantify over all such functions.

Simplifications: keys and values are their bytes (`Pod` types are plain bytes); the value buffer of a
lookup after a successful call is the data of the reply (the kernel fills the whole buffer, see
`Verif.Maps.Load` for the sizes); the assertion that a successful call returns 0 is dropped.
-/
namespace Verif.Maps
open Verif.Bytes

abbrev Bytes := List UInt8

/-- What a map creation asks the kernel for (`/repo/aya/src/sys/bpf.rs:54-126`). Descriptor 0 stands
    for "none", as in the system call. -/
structure CreateAttr where
  mapType : Nat
  keySize : Nat
  valueSize : Nat
  maxEntries : Nat
  flags : Nat
  extra : Nat
  innerFd : Nat
  btfKey : Nat
  btfValue : Nat
  btfFd : Nat
  name : Bytes
deriving DecidableEq, Repr

/-- The `bpf(2)` calls issued by the modelled code (`/repo/aya/src/sys/bpf.rs:54-147,225-419,
    1467-1488`). -/
inductive Call where
  | lookup (fd : Nat) (key : Option Bytes) (flags : Nat)
  | lookupDelete (fd : Nat) (key : Option Bytes) (flags : Nat)
  | peek (fd : Nat) (value : Bytes) (flags : Nat)
  | update (fd : Nat) (key : Option Bytes) (value : Bytes) (flags : Nat)
  | delete (fd : Nat) (key : Bytes)
  | nextKey (fd : Nat) (key : Option Bytes)
  | freeze (fd : Nat)
  | mapFdById (id : Nat)
  | objGet (path : Bytes)
  | objPin (fd : Nat) (path : Bytes)
  | create (attr : CreateAttr)
  | info (fd : Nat)
  | nextId (cmd : Nat) (start : Nat)
deriving DecidableEq, Repr

/-- What the kernel hands back on success: bytes written to the caller's buffer, the number
    returned (a file descriptor or an id), and for map information the key size, value size and number
    of entries. -/
structure Out where
  data : Bytes := []
  num : Nat := 0
  sizes : Nat × Nat × Nat := (0, 0, 0)
deriving DecidableEq, Repr

/-- The calls made so far, oldest first. -/
abbrev Hist := List Call

/-- A complete behaviour of the kernel and of everybody else using it; the error is an `errno`. -/
abbrev Kernel := Hist → Call → Except Nat Out

/-- Issue one system call (`/repo/aya/src/sys/bpf.rs:1463-1465`, `unit_sys_bpf`). -/
def sys (k : Kernel) (c : Call) (h : Hist) : Except Nat Out × Hist := (k h c, h ++ [c])

/-- `ENOENT` (libc). -/
def ENOENT : Nat := 2

/-- The errors of the modelled operations (`/repo/aya/src/maps/mod.rs:146-290`, `MapError`, and
    `/repo/aya/src/maps/xdp/mod.rs`, `XdpMapError::ChainedProgramNotSupported`). -/
inductive MapError where
  | outOfBounds (index maxEntries : Nat)
  | keyNotFound
  | elementNotFound
  | syscall (call : String) (errno : Nat)
  | invalidKeySize (size expected : Nat)
  | invalidValueSize (size expected : Nat)
  | chainedProgramNotSupported
deriving DecidableEq, Repr

/-- The part of `MapData` the operations use (`/repo/aya/src/maps/mod.rs:807-810`): the sizes come from
    the map definition, the descriptor from the kernel. -/
structure MapData where
  fd : Nat
  keySize : Nat
  valueSize : Nat
  maxEntries : Nat
deriving DecidableEq, Repr

/-- `/repo/aya/src/sys/bpf.rs:225-247` (`lookup`), shared by `bpf_map_lookup_elem` and
    `bpf_map_lookup_elem_ptr` (`278-299`): `ENOENT` means "no such element". -/
def bpfLookup (k : Kernel) (fd : Nat) (key : Option Bytes) (flags : Nat) (h : Hist) :
    Except Nat (Option Bytes) × Hist :=
  match sys k (.lookup fd key flags) h with
  | (.ok o, h) => (.ok (some o.data), h)
  | (.error e, h) => if e = ENOENT then (.ok none, h) else (.error e, h)

/-- `/repo/aya/src/sys/bpf.rs:257-263` (`bpf_map_lookup_and_delete_elem`). -/
def bpfLookupDelete (k : Kernel) (fd : Nat) (key : Option Bytes) (flags : Nat) (h : Hist) :
    Except Nat (Option Bytes) × Hist :=
  match sys k (.lookupDelete fd key flags) h with
  | (.ok o, h) => (.ok (some o.data), h)
  | (.error e, h) => if e = ENOENT then (.ok none, h) else (.error e, h)

/-- `/repo/aya/src/sys/bpf.rs:301-318` (`bpf_map_peek_elem`): present or not. -/
def bpfPeek (k : Kernel) (fd : Nat) (value : Bytes) (flags : Nat) (h : Hist) :
    Except Nat Bool × Hist :=
  match sys k (.peek fd value flags) h with
  | (.ok _, h) => (.ok true, h)
  | (.error e, h) => if e = ENOENT then (.ok false, h) else (.error e, h)

/-- `/repo/aya/src/sys/bpf.rs:320-337` (`bpf_map_update_elem`), also `bpf_map_push_elem` (`339-352`,
    no key) and `bpf_map_update_elem_ptr` (`354-369`). -/
def bpfUpdate (k : Kernel) (fd : Nat) (key : Option Bytes) (value : Bytes) (flags : Nat) (h : Hist) :
    Except Nat Unit × Hist :=
  match sys k (.update fd key value flags) h with
  | (.ok _, h) => (.ok (), h)
  | (.error e, h) => (.error e, h)

/-- `/repo/aya/src/sys/bpf.rs:381-389` (`bpf_map_delete_elem`). -/
def bpfDelete (k : Kernel) (fd : Nat) (key : Bytes) (h : Hist) : Except Nat Unit × Hist :=
  match sys k (.delete fd key) h with
  | (.ok _, h) => (.ok (), h)
  | (.error e, h) => (.error e, h)

/-- `/repo/aya/src/sys/bpf.rs:391-410` (`bpf_map_get_next_key`): `ENOENT` means "no further key". -/
def bpfNextKey (k : Kernel) (fd : Nat) (key : Option Bytes) (h : Hist) :
    Except Nat (Option Bytes) × Hist :=
  match sys k (.nextKey fd key) h with
  | (.ok o, h) => (.ok (some o.data), h)
  | (.error e, h) => if e = ENOENT then (.ok none, h) else (.error e, h)

/-- `/repo/aya/src/maps/hash_map/mod.rs:22-29` (`hash_map::get`). -/
def hashGet (k : Kernel) (m : MapData) (key : Bytes) (flags : Nat) (h : Hist) :
    Except MapError Bytes × Hist :=
  match bpfLookup k m.fd (some key) flags h with
  | (.ok (some v), h) => (.ok v, h)
  | (.ok none, h) => (.error .keyNotFound, h)
  | (.error e, h) => (.error (.syscall "bpf_map_lookup_elem" e), h)

/-- `/repo/aya/src/maps/hash_map/mod.rs:31-44` (`hash_map::insert`). -/
def hashInsert (k : Kernel) (m : MapData) (key value : Bytes) (flags : Nat) (h : Hist) :
    Except MapError Unit × Hist :=
  match bpfUpdate k m.fd (some key) value flags h with
  | (.ok (), h) => (.ok (), h)
  | (.error e, h) => (.error (.syscall "bpf_map_update_elem" e), h)

/-- `/repo/aya/src/maps/hash_map/mod.rs:46-54` (`hash_map::remove`). -/
def hashRemove (k : Kernel) (m : MapData) (key : Bytes) (h : Hist) :
    Except MapError Unit × Hist :=
  match bpfDelete k m.fd key h with
  | (.ok (), h) => (.ok (), h)
  | (.error e, h) => (.error (.syscall "bpf_map_delete_elem" e), h)

/-- `/repo/aya/src/maps/mod.rs:771-778` (`check_bounds`). -/
def checkBounds (m : MapData) (index : Nat) : Except MapError Unit :=
  if index ≥ m.maxEntries then .error (.outOfBounds index m.maxEntries) else .ok ()

/-- `/repo/aya/src/maps/mod.rs:780-792` (`check_kv_size`): run when a typed handle is made from a
    map. -/
def checkKvSize (m : MapData) (key value : Nat) : Except MapError Unit :=
  if key ≠ m.keySize then .error (.invalidKeySize key m.keySize)
  else if value ≠ m.valueSize then .error (.invalidValueSize value m.valueSize)
  else .ok ()

/-- The bytes of a `u32` index. -/
def idx (index : Nat) : Bytes := le 4 index

/-! ## Per-CPU values -/

/-- `usize::next_multiple_of(8)`. -/
def roundUp8 (n : Nat) : Nat := (n + 7) / 8 * 8

/-- `ptr::write_unaligned` of `v` at `off`: `none` models writing outside the buffer. -/
def writeAt (mem : Bytes) (off : Nat) (v : Bytes) : Option Bytes :=
  if off + v.length ≤ mem.length then some (mem.take off ++ v ++ mem.drop (off + v.length)) else none

/-- `ptr::read_unaligned` of `n` bytes at `off`: `none` models reading outside the buffer. -/
def readAt (mem : Bytes) (off n : Nat) : Option Bytes :=
  if off + n ≤ mem.length then some ((mem.drop off).take n) else none

/-- `/repo/aya/src/maps/mod.rs:1177-1183` (`alloc_kernel_mem`). -/
def allocKernelMem (nrCpus size : Nat) : Bytes := List.replicate (nrCpus * roundUp8 size) 0

/-- The loop of `build_kernel_mem` (`/repo/aya/src/maps/mod.rs:1199-1208`) from value number `i`. -/
def buildLoop (size : Nat) : Nat → List Bytes → Bytes → Option Bytes
  | _, [], mem => some mem
  | i, v :: vs, mem => do
      let mem ← writeAt mem (i * roundUp8 size) v
      buildLoop size (i + 1) vs mem

/-- `/repo/aya/src/maps/mod.rs:1199-1208` (`build_kernel_mem`). -/
def buildKernelMem (nrCpus size : Nat) (values : List Bytes) : Option Bytes :=
  buildLoop size 0 values (allocKernelMem nrCpus size)

/-- The loop of `from_kernel_mem` (`/repo/aya/src/maps/mod.rs:1185-1197`) from byte `off`.  `fuel`
    bounds the number of rounds; `none` also models an out-of-bounds read. -/
def fromLoop (size : Nat) (mem : Bytes) : Nat → Nat → Option (List Bytes)
  | 0, _ => none
  | fuel + 1, off =>
      if off < mem.length then do
        let v ← readAt mem off size
        let vs ← fromLoop size mem fuel (off + roundUp8 size)
        some (v :: vs)
      else some []

/-- `/repo/aya/src/maps/mod.rs:1185-1197` (`from_kernel_mem`). Every round of the loop advances by at
    least one byte unless the size is 0, when the buffer is empty: `mem.length + 1` rounds suffice. -/
def fromKernelMem (size : Nat) (mem : Bytes) : Option (List Bytes) :=
  fromLoop size mem (mem.length + 1) 0

/-- `/repo/aya/src/maps/mod.rs:1159-1173` (`TryFrom<Vec<T>>`): one value per CPU. -/
def perCpuValues (nrCpus : Nat) (values : List Bytes) : Option (List Bytes) :=
  if values.length ≠ nrCpus then none else some values

/-- `/repo/aya/src/sys/bpf.rs:265-276` (`bpf_map_lookup_elem_per_cpu`) followed by the error mapping of
    `/repo/aya/src/maps/hash_map/per_cpu_hash_map.rs:62-71`. The outer `Option` is `none` if memory is
    accessed out of bounds. -/
def perCpuGet (k : Kernel) (m : MapData) (size : Nat) (key : Bytes) (flags : Nat) (h : Hist) :
    Option (Except MapError (List Bytes)) × Hist :=
  match bpfLookup k m.fd (some key) flags h with
  | (.ok (some mem), h) => ((fromKernelMem size mem).map .ok, h)
  | (.ok none, h) => (some (.error .keyNotFound), h)
  | (.error e, h) => (some (.error (.syscall "bpf_map_lookup_elem" e)), h)

/-- `/repo/aya/src/sys/bpf.rs:371-379` (`bpf_map_update_elem_per_cpu`) with the error mapping of
    `/repo/aya/src/maps/hash_map/per_cpu_hash_map.rs:124-132`. -/
def perCpuInsert (k : Kernel) (m : MapData) (nrCpus size : Nat) (key : Bytes) (values : List Bytes)
    (flags : Nat) (h : Hist) : Option (Except MapError Unit) × Hist :=
  match buildKernelMem nrCpus size values with
  | none => (none, h)
  | some mem =>
    match bpfUpdate k m.fd (some key) mem flags h with
    | (.ok (), h) => (some (.ok ()), h)
    | (.error e, h) => (some (.error (.syscall "bpf_map_update_elem" e)), h)

/-! ## Maps indexed by a number -/

/-- The operations of the maps indexed by a number.  Descriptors (sockets, programs, maps, cgroups)
    are numbers; `progId` of the device and CPU map operations says whether the kernel supports chained
    programs. -/
inductive IndexedOp where
  /-- `Array::get`, `/repo/aya/src/maps/array/array.rs:60-64` -/
  | arrayGet (flags : Nat)
  /-- `Array::set`, `/repo/aya/src/maps/array/array.rs:80-84` -/
  | arraySet (value : Bytes) (flags : Nat)
  /-- `ProgramArray::set`, `/repo/aya/src/maps/array/program_array.rs:72-76`; `CgroupArray::set`,
      `cgroup_array.rs:60-64`; `SockMap::set`, `/repo/aya/src/maps/sock/sock_map.rs:84-88`;
      `ReusePortSockArray::set`, `reuseport_sock_array.rs:72-82`; `XskMap::set`,
      `/repo/aya/src/maps/xdp/xsk_map.rs:66-70`; `ArrayOfMaps::set`,
      `/repo/aya/src/maps/of_maps/array.rs:100-111` -/
  | fdSet (fd : Nat) (flags : Nat)
  /-- `ProgramArray::clear_index`, `program_array.rs:82-86`; `CgroupArray::unset`,
      `cgroup_array.rs:72-76`; `SockMap::clear_index`, `sock_map.rs:91-95`;
      `ReusePortSockArray::clear_index`, `reuseport_sock_array.rs:85-95`; `XskMap::unset`,
      `xsk_map.rs:78-82` -/
  | clear
  /-- `DevMap::get`, `/repo/aya/src/maps/xdp/dev_map.rs:75-102`; `CpuMap::get`, `cpu_map.rs:84-112` -/
  | chainGet (progId : Bool) (flags : Nat)
  /-- `DevMap::set`, `/repo/aya/src/maps/xdp/dev_map.rs:130-166`; `CpuMap::set`, `cpu_map.rs:140-173` -/
  | chainSet (progId : Bool) (target : Nat) (program : Option Nat) (flags : Nat)
deriving DecidableEq, Repr

/-- What such an operation returns. -/
inductive IndexedRes where
  | unit
  | value (v : Bytes)
  /-- interface or queue size, and the id of the chained program -/
  | chain (target : Nat) (progId : Option Nat)
deriving DecidableEq, Repr

/-- `Array::get`, `/repo/aya/src/maps/array/array.rs:60-64`. -/
def arrayGet (k : Kernel) (m : MapData) (index flags : Nat) (h : Hist) :
    Except MapError Bytes × Hist :=
  match checkBounds m index with
  | .error e => (.error e, h)
  | .ok () => hashGet k m (idx index) flags h

/-- `Array::set`, `/repo/aya/src/maps/array/array.rs:80-84`. -/
def arraySet (k : Kernel) (m : MapData) (index : Nat) (value : Bytes) (flags : Nat) (h : Hist) :
    Except MapError Unit × Hist :=
  match checkBounds m index with
  | .error e => (.error e, h)
  | .ok () => hashInsert k m (idx index) value flags h

/-- The `set` operations storing a descriptor, see `IndexedOp.fdSet`. -/
def fdSet (k : Kernel) (m : MapData) (index fd flags : Nat) (h : Hist) :
    Except MapError Unit × Hist :=
  match checkBounds m index with
  | .error e => (.error e, h)
  | .ok () => hashInsert k m (idx index) (le 4 fd) flags h

/-- The `clear_index`/`unset` operations, see `IndexedOp.clear`. -/
def clearIndex (k : Kernel) (m : MapData) (index : Nat) (h : Hist) : Except MapError Unit × Hist :=
  match checkBounds m index with
  | .error e => (.error e, h)
  | .ok () => hashRemove k m (idx index) h

/-- `NonZeroU32::new`. -/
def nonZero (n : Nat) : Option Nat := if n = 0 then none else some n

/-- `DevMap::get`, `/repo/aya/src/maps/xdp/dev_map.rs:75-102`, and `CpuMap::get`,
    `/repo/aya/src/maps/xdp/cpu_map.rs:84-112`. -/
def chainGet (k : Kernel) (m : MapData) (progId : Bool) (index flags : Nat) (h : Hist) :
    Except MapError (Nat × Option Nat) × Hist :=
  match checkBounds m index with
  | .error e => (.error e, h)
  | .ok () =>
    match bpfLookup k m.fd (some (idx index)) flags h with
    | (.ok (some v), h) =>
        if progId then (.ok (ofLe (v.take 4), nonZero (ofLe ((v.drop 4).take 4))), h)
        else (.ok (ofLe (v.take 4), none), h)
    | (.ok none, h) => (.error .keyNotFound, h)
    | (.error e, h) => (.error (.syscall "bpf_map_lookup_elem" e), h)

/-- `DevMap::set`, `/repo/aya/src/maps/xdp/dev_map.rs:130-166`, and `CpuMap::set`,
    `/repo/aya/src/maps/xdp/cpu_map.rs:140-173`. -/
def chainSet (k : Kernel) (m : MapData) (progId : Bool) (index target : Nat) (program : Option Nat)
    (flags : Nat) (h : Hist) : Except MapError Unit × Hist :=
  match checkBounds m index with
  | .error e => (.error e, h)
  | .ok () =>
    if progId then hashInsert k m (idx index) (le 4 target ++ le 4 (program.getD 0)) flags h
    else if program.isSome then (.error .chainedProgramNotSupported, h)
    else hashInsert k m (idx index) (le 4 target) flags h

/-- Run one operation on one index. -/
def runIndexed (k : Kernel) (m : MapData) (op : IndexedOp) (index : Nat) (h : Hist) :
    Except MapError IndexedRes × Hist :=
  match op with
  | .arrayGet flags => let (r, h) := arrayGet k m index flags h; (r.map .value, h)
  | .arraySet value flags => let (r, h) := arraySet k m index value flags h; (r.map fun _ => .unit, h)
  | .fdSet fd flags => let (r, h) := fdSet k m index fd flags h; (r.map fun _ => .unit, h)
  | .clear => let (r, h) := clearIndex k m index h; (r.map fun _ => .unit, h)
  | .chainGet p flags =>
      let (r, h) := chainGet k m p index flags h; (r.map fun x => .chain x.1 x.2, h)
  | .chainSet p t prog flags =>
      let (r, h) := chainSet k m p index t prog flags h; (r.map fun _ => .unit, h)

/-- `Array::iter`, `/repo/aya/src/maps/array/array.rs:68-70`: `(0..len).map(|i| self.get(&i, 0))`,
    driven to its end. -/
def arrayIterFrom (k : Kernel) (m : MapData) : Nat → Nat → Hist → List (Except MapError Bytes) × Hist
  | 0, _, h => ([], h)
  | n + 1, i, h =>
      let (r, h) := arrayGet k m i 0 h
      let (rs, h) := arrayIterFrom k m n (i + 1) h
      (r :: rs, h)

/-- See `arrayIterFrom`. -/
def arrayIter (k : Kernel) (m : MapData) (h : Hist) : List (Except MapError Bytes) × Hist :=
  arrayIterFrom k m m.maxEntries 0 h

/-! ## Queues, stacks and Bloom filters -/

/-- `Queue::push`/`Stack::push`/`BloomFilter::insert` (`/repo/aya/src/maps/queue.rs:82-89`,
    `stack.rs:82-89`, `bloom_filter.rs:72-80`). The name in the error differs, which the model ignores
    (`bpf_map_update_elem` for all). -/
def push (k : Kernel) (m : MapData) (value : Bytes) (flags : Nat) (h : Hist) :
    Except MapError Unit × Hist :=
  match bpfUpdate k m.fd none value flags h with
  | (.ok (), h) => (.ok (), h)
  | (.error e, h) => (.error (.syscall "bpf_map_update_elem" e), h)

/-- `Queue::pop`/`Stack::pop` (`/repo/aya/src/maps/queue.rs:64-75`, `stack.rs:64-75`). -/
def pop (k : Kernel) (m : MapData) (flags : Nat) (h : Hist) : Except MapError Bytes × Hist :=
  match bpfLookupDelete k m.fd none flags h with
  | (.ok (some v), h) => (.ok v, h)
  | (.ok none, h) => (.error .elementNotFound, h)
  | (.error e, h) => (.error (.syscall "bpf_map_lookup_and_delete_elem" e), h)

/-- `BloomFilter::contains` (`/repo/aya/src/maps/bloom_filter.rs:57-67`). -/
def bloomContains (k : Kernel) (m : MapData) (value : Bytes) (flags : Nat) (h : Hist) :
    Except MapError Unit × Hist :=
  match bpfPeek k m.fd value flags h with
  | (.ok true, h) => (.ok (), h)
  | (.ok false, h) => (.error .elementNotFound, h)
  | (.error e, h) => (.error (.syscall "bpf_map_peek_elem" e), h)

/-! ## Iteration -/

/-- `MapKeys` (`/repo/aya/src/maps/mod.rs:1043-1048`). -/
structure Keys where
  err : Bool := false
  key : Option Bytes := none
deriving DecidableEq, Repr

/-- `MapKeys::next` (`/repo/aya/src/maps/mod.rs:1062-1083`). -/
def keysNext (k : Kernel) (fd : Nat) (s : Keys) (h : Hist) :
    Option (Except MapError Bytes) × Keys × Hist :=
  if s.err then (none, s, h)
  else
    match bpfNextKey k fd s.key h with
    | (.error e, h) =>
        (some (.error (.syscall "bpf_map_get_next_key" e)), { s with err := true }, h)
    | (.ok key, h) => (key.map .ok, { s with key := key }, h)

/-- `MapIter::next` (`/repo/aya/src/maps/mod.rs:1105-1118`); `get` is the map type's own `get` with
    flags 0. `none` means the loop is still running after `fuel` rounds. -/
def iterNext {V : Type} (k : Kernel) (fd : Nat) (get : Bytes → Hist → Except MapError V × Hist) :
    Nat → Keys → Hist → Option (Option (Except MapError (Bytes × V)) × Keys × Hist)
  | 0, _, _ => none
  | fuel + 1, s, h =>
      match keysNext k fd s h with
      | (some (.ok key), s, h) =>
          match get key h with
          | (.ok value, h) => some (some (.ok (key, value)), s, h)
          | (.error .keyNotFound, h) => iterNext k fd get fuel s h
          | (.error e, h) => some (some (.error e), s, h)
      | (some (.error e), s, h) => some (some (.error e), s, h)
      | (none, s, h) => some (none, s, h)

/-- A `for` loop over `map.iter()`: the items until the iterator returns `None`. -/
def iterAll {V : Type} (k : Kernel) (fd : Nat) (get : Bytes → Hist → Except MapError V × Hist) :
    Nat → Keys → Hist → Option (List (Except MapError (Bytes × V)) × Keys × Hist)
  | 0, _, _ => none
  | fuel + 1, s, h =>
      match iterNext k fd get (fuel + 1) s h with
      | none => none
      | some (none, s, h) => some ([], s, h)
      | some (some item, s, h) =>
          match iterAll k fd get fuel s h with
          | none => none
          | some (items, s, h) => some (item :: items, s, h)

/-- A `for` loop over `map.keys()`. -/
def keysAll (k : Kernel) (fd : Nat) :
    Nat → Keys → Hist → Option (List (Except MapError Bytes) × Keys × Hist)
  | 0, _, _ => none
  | fuel + 1, s, h =>
      match keysNext k fd s h with
      | (none, s, h) => some ([], s, h)
      | (some item, s, h) =>
          match keysAll k fd fuel s h with
          | none => none
          | some (items, s, h) => some (item :: items, s, h)

/-! ## Ids of kernel objects -/

/-- `/repo/aya/src/sys/bpf.rs:1467-1488` (`bpf_obj_get_next_id`). -/
def objNextId (k : Kernel) (cmd id : Nat) (h : Hist) : Except Nat (Option Nat) × Hist :=
  match sys k (.nextId cmd id) h with
  | (.ok o, h) => (.ok (some o.num), h)
  | (.error e, h) => if e = ENOENT then (.ok none, h) else (.error e, h)

/-- One call of the iterator of `iter_obj_ids` (`/repo/aya/src/sys/bpf.rs:1490-1506`): the state is
    `current_id`. -/
def idsNext (k : Kernel) (cmd : Nat) (cur : Option Nat) (h : Hist) :
    Option (Except Nat Nat) × Option Nat × Hist :=
  match cur with
  | none => (none, none, h)
  | some id =>
    match objNextId k cmd id h with
    | (.ok (some next), h) => (some (.ok next), some next, h)
    | (.ok none, h) => (none, none, h)
    | (.error e, h) => (some (.error e), none, h)

/-- A `for` loop over the ids. -/
def idsAll (k : Kernel) (cmd : Nat) :
    Nat → Option Nat → Hist → Option (List (Except Nat Nat) × Option Nat × Hist)
  | 0, _, _ => none
  | fuel + 1, cur, h =>
      match idsNext k cmd cur h with
      | (none, cur, h) => some ([], cur, h)
      | (some item, cur, h) =>
          match idsAll k cmd fuel cur h with
          | none => none
          | some (items, cur, h) => some (item :: items, cur, h)

/-! ## Initial contents -/

/-- `MapData::finalize` (`/repo/aya/src/maps/mod.rs:907-926`): `data` are the initial bytes of the map,
    `rodata` says whether it comes from a read-only data section. The key is the number 0 in four
    bytes. -/
def finalize (k : Kernel) (fd : Nat) (data : Bytes) (rodata : Bool) (h : Hist) :
    Except MapError Unit × Hist :=
  let (r, h) :=
    if data.isEmpty then ((.ok () : Except Nat Unit), h)
    else bpfUpdate k fd (some (le 4 0)) data 0 h
  match r with
  | .error e => (.error (.syscall "bpf_map_update_elem" e), h)
  | .ok () =>
    if rodata then
      match sys k (.freeze fd) h with
      | (.ok _, h) => (.ok (), h)
      | (.error e, h) => (.error (.syscall "bpf_map_freeze" e), h)
    else (.ok (), h)

/-! ## Sizes -/

/-- Numbers of `u32` arithmetic (release build: overflow wraps). -/
def u32 (n : Nat) : Nat := n % 2 ^ 32

/-- `div_ceil` (`/repo/aya/src/bpf.rs:996-1000`). -/
def divCeil (n rhs : Nat) : Nat := if n % rhs > 0 ∧ rhs > 0 then n / rhs + 1 else n / rhs

/-- The least power of two that is at least `n`, searched from `p`. -/
def npow2From (n : Nat) : Nat → Nat → Nat
  | 0, p => p
  | fuel + 1, p => if n ≤ p then p else npow2From n fuel (2 * p)

/-- `u32::next_power_of_two`. The least power of two at least `n`; 2^32 wraps to 0. -/
def nextPow2 (n : Nat) : Nat := u32 (npow2From n 32 1)

/-- `/repo/aya/src/bpf.rs:988-1003` (`adjust_to_page_size`). -/
def adjustToPageSize (byteSize pageSize : Nat) : Nat :=
  if byteSize = 0 then 0 else u32 (pageSize * nextPow2 (divCeil byteSize pageSize))

/-- Map types that the loader treats specially (`/repo/aya-obj/src/generated`). -/
def RINGBUF : Nat := 27
def PERF_EVENT_ARRAY : Nat := 4
def CPUMAP : Nat := 16
def DEVMAP : Nat := 14
def DEVMAP_HASH : Nat := 25

/-- `/repo/aya/src/bpf.rs:944-959` (`max_entries_override`); `numCpus` is `none` when the number of CPUs
    cannot be read. -/
def maxEntriesOverride (mapType : Nat) (user : Option Nat) (current : Nat) (numCpus : Option Nat)
    (pageSize : Nat) : Option (Option Nat) :=
  let maxEntries := user.getD current
  if mapType = PERF_EVENT_ARRAY ∧ maxEntries = 0 then numCpus.map some
  else if mapType = RINGBUF then
    some (((some (adjustToPageSize maxEntries pageSize)).filter (· ≠ maxEntries)).or user)
  else some user

/-- `/repo/aya/src/bpf.rs:963-982` (`value_size_override`). -/
def valueSizeOverride (mapType : Nat) (cpuProgId devProgId : Bool) : Option Nat :=
  if mapType = CPUMAP then some (if cpuProgId then 8 else 4)
  else if mapType = DEVMAP ∨ mapType = DEVMAP_HASH then some (if devProgId then 8 else 4)
  else if mapType = RINGBUF then some 0
  else none

end Verif.Maps
