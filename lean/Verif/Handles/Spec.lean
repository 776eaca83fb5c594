import Verif.Handles.Model
/-!
# Maps as the kernel knows them, and what it reads and writes

The kernel's side (`kernel/bpf/syscall.c`: `__bpf_copy_key`, `bpf_map_value_size`, `map_lookup_elem`, `map_update_elem`,
`map_delete_elem`, `map_get_next_key`, `map_lookup_and_delete_elem`). Map types are the numbers of `enum bpf_map_type`.
-/
namespace Verif.Handles.Spec
open Verif.Handles

/-- A map in the kernel. -/
structure KMap where
  mapType : Nat
  keySize : Nat
  valueSize : Nat
  maxEntries : Nat
  flags : Nat
deriving DecidableEq, Repr

/-- Maps with a value for every CPU: per-CPU hash (5), array (6), LRU hash (10) and cgroup storage (21). -/
def PerCpu (m : KMap) : Prop := m.mapType ∈ [5, 6, 10, 21]

/-- Maps whose values are exchanged as descriptors or ids: programs (3), perf events (4), cgroups (8), maps (12, 13). -/
def OfObjects (m : KMap) : Prop := m.mapType ∈ [3, 4, 8, 12, 13]

instance (m : KMap) : Decidable (PerCpu m) := by unfold PerCpu; infer_instance
instance (m : KMap) : Decidable (OfObjects m) := by unfold OfObjects; infer_instance

/-- The next multiple of 8. -/
def up8 (n : Nat) : Nat := if n % 8 = 0 then n else n + (8 - n % 8)

/-- The bytes of a value as they are copied between the kernel and the process, with `cpus` possible CPUs. -/
def valueBytes (cpus : Nat) (m : KMap) : Nat :=
  if PerCpu m then up8 m.valueSize * cpus else if OfObjects m then 4 else m.valueSize

/-- A buffer of a call. -/
inductive Buffer where
  | key
  | value
  | nextKey
deriving DecidableEq, Repr

/-- The size of a buffer, if it is given. -/
def size (r : Req) : Buffer → Option Nat
  | .key => r.key
  | .value => r.value
  | .nextKey => r.nextKey

/-- The buffers the kernel reads or writes in a call, and how many bytes, if the call gets that far. A map without keys
does not read any; the key before is only read if it is given. -/
inductive Accesses (cpus : Nat) (m : KMap) (r : Req) : Buffer → Nat → Prop
  | key (hk : m.keySize ≠ 0) (hc : r.cmd ≠ .getNextKey) : Accesses cpus m r .key m.keySize
  | prev (hc : r.cmd = .getNextKey) (hp : r.key ≠ none) : Accesses cpus m r .key m.keySize
  | next (hc : r.cmd = .getNextKey) : Accesses cpus m r .nextKey m.keySize
  | value (hc : r.cmd = .lookup ∨ r.cmd = .lookupAndDelete ∨ r.cmd = .update) :
      Accesses cpus m r .value (valueBytes cpus m)

/-- Every buffer the kernel accesses is given and has exactly the size accessed: nothing beside it is read or written, and
what is returned is written entirely. A key is not given to a map without keys, which the kernel refuses. -/
structure Fits (cpus : Nat) (m : KMap) (r : Req) : Prop where
  buffers : ∀ b n, Accesses cpus m r b n → size r b = some n
  noKey : m.keySize = 0 → r.key = none

/-- Rules of the kernel for creating maps (`map_alloc_check` of the map types): perf event arrays have keys of 4 bytes;
queues, stacks and bloom filters have no keys, and besides them only maps without elements (26, 27, 31, 33). -/
structure Allowed (m : KMap) : Prop where
  perf : m.mapType = 4 → m.keySize = 4
  keyless : m.mapType ∈ [22, 23, 30] → m.keySize = 0
  keyed : m.keySize = 0 → m.mapType ∈ [22, 23, 26, 27, 30, 31, 33]

/-- The handle knows the map behind its descriptor. -/
structure Knows (d : Data) (m : KMap) : Prop where
  mapType : d.obj.mapType = m.mapType
  keySize : d.obj.keySize = m.keySize
  valueSize : d.obj.valueSize = m.valueSize
  maxEntries : d.obj.maxEntries = m.maxEntries
  flags : d.obj.mapFlags = m.flags

/-- The kernel's map types a typed map stands for. -/
def kinds : Ty → List Nat
  | .hashMap _ _ => [1, 9]
  | .array _ => [2]
  | .programArray => [3]
  | .perfEventArray => [4]
  | .perCpuHashMap _ _ => [5, 10]
  | .perCpuArray _ => [6]
  | .stackTrace => [7]
  | .cgroupArray => [8]
  | .lpmTrie _ _ => [11]
  | .arrayOfMaps => [12]
  | .hashOfMaps _ => [13]
  | .devMap => [14]
  | .sockMap => [15]
  | .cpuMap => [16]
  | .xskMap => [17]
  | .sockHash _ => [18]
  | .cgroupStorage _ => [19]
  | .reusePortSockArray => [20]
  | .perCpuCgroupStorage _ => [21]
  | .queue _ => [22]
  | .stack _ => [23]
  | .skStorage _ => [24]
  | .devMapHash => [25]
  | .ringBuf => [27]
  | .inodeStorage _ => [28]
  | .bloomFilter _ => [30]
  | .cgrpStorage _ => [32]

/-- The sizes of keys and values of a typed map; `none`: not fixed by the type. Entries of CPU and device maps hold a
program besides the number since the kernel supports it. -/
def sizes (env : Env) : Ty → Option Nat × Option Nat
  | .hashMap k v => (some k, some v)
  | .perCpuHashMap k v => (some k, some v)
  | .lpmTrie k v => (some (k + 4), some v)
  | .array v => (some 4, some v)
  | .perCpuArray v => (some 4, some v)
  | .skStorage v => (some 4, some v)
  | .inodeStorage v => (some 4, some v)
  | .cgrpStorage v => (some 4, some v)
  | .cgroupStorage v => (some 16, some v)
  | .perCpuCgroupStorage v => (some 16, some v)
  | .queue v => (some 0, some v)
  | .stack v => (some 0, some v)
  | .bloomFilter v => (none, some v)
  | .programArray => (some 4, some 4)
  | .cgroupArray => (some 4, some 4)
  | .arrayOfMaps => (some 4, some 4)
  | .sockMap => (some 4, some 4)
  | .xskMap => (some 4, some 4)
  | .reusePortSockArray => (some 4, some 4)
  | .hashOfMaps k => (some k, some 4)
  | .sockHash k => (some k, some 4)
  | .cpuMap => (some 4, some (if env.cpuMapProgId then 8 else 4))
  | .devMap => (some 4, some (if env.devMapProgId then 8 else 4))
  | .devMapHash => (some 4, some (if env.devMapProgId then 8 else 4))
  | .stackTrace => (some 4, none)
  | .perfEventArray => (none, none)
  | .ringBuf => (none, none)

/-- A typed map describes a map of the kernel. Stack traces hold a positive number of addresses, not build ids
(`BPF_F_STACK_BUILD_ID`, bit 5). -/
structure Describes (env : Env) (ty : Ty) (o : Obj) : Prop where
  kind : o.mapType ∈ kinds ty
  key : ∀ n, (sizes env ty).1 = some n → o.keySize = n
  value : ∀ n, (sizes env ty).2 = some n → o.valueSize = n
  stack : ty = .stackTrace → ¬ o.mapFlags.testBit 5 ∧ 0 < o.valueSize ∧ 8 ∣ o.valueSize

/-- How a `Map` is got from the library: from a loaded object, or from a `MapData`. -/
inductive Given (d : Data) (m : Map) : Prop
  | loaded (allow : Bool) (h : loaded allow d = some m)
  | data (h : fromMapData d = .ok m)

/-- How a typed map is got from the library: from such a `Map`, or created. -/
inductive Made (env : Env) (d : Data) (h : Handle) : Prop
  | from (m : Map) (ty : Ty) (hg : Given d m) (ht : tryFrom env ty m = .ok h)
  | created (ty : Ty) (maxEntries flags : Nat) (hc : create env ty maxEntries flags d.fd = some (.ok h)) (hd : h.data = d)

/-- Typed maps that can be created, with their map type. -/
def creatable : Ty → Option Nat
  | .hashMap _ _ => some 1
  | .array _ => some 2
  | .perCpuHashMap _ _ => some 5
  | .perCpuArray _ => some 6
  | .lpmTrie _ _ => some 11
  | .queue _ => some 22
  | .stack _ => some 23
  | .bloomFilter _ => some 30
  | _ => none

/-- A lookup of a socket in a map of sockets: the kernel only answers, with the cookie of the socket, if values have 8
bytes (`sock_map_lookup_sys`, `sock_hash_lookup_sys`, `bpf_fd_reuseport_array_lookup_elem`). -/
def AnswersSockets (answer : KMap → Req → Except Nat Unit) : Prop :=
  ∀ m r, m.mapType ∈ [15, 18, 20] → r.cmd = .lookup → m.valueSize ≠ 8 → answer m r = .error 28

/-- Typed maps whose operations take an index checked against the number of entries. -/
def indexed : Ty → Bool
  | .array _ | .perCpuArray _ | .arrayOfMaps | .programArray | .cgroupArray | .sockMap | .xskMap | .reusePortSockArray
  | .cpuMap | .devMap => true
  | _ => false

/-- The index an operation is given. -/
def indexOf : Op → Option Nat
  | .get i => some i
  | .set i _ => some i
  | .remove i => some i
  | _ => none

/-- The index is one of the map, if the operation takes an index. -/
def InBounds (ty : Ty) (op : Op) (maxEntries : Nat) : Prop := indexed ty = true → ∀ i, indexOf op = some i → i < maxEntries

/-- A program is to be run for the entry, and the kernel does not support it. -/
def NoChain (env : Env) (ty : Ty) (op : Op) : Prop :=
  (∃ i, op = .set i true) ∧
    (ty = .cpuMap ∧ env.cpuMapProgId = false ∨ (ty = .devMap ∨ ty = .devMapHash) ∧ env.devMapProgId = false)

/-- The operation exchanges a value for every CPU. -/
def EveryCpu (ty : Ty) (op : Op) : Prop :=
  (∃ n ∈ kinds ty, n ∈ [5, 6, 10, 21]) ∧ ((∃ i, op = .get i) ∨ ∃ i p, op = .set i p)

/-- The command an operation stands for. -/
def command : Op → Cmd
  | .get _ => .lookup
  | .contains => .lookup
  | .pop => .lookupAndDelete
  | .set _ _ => .update
  | .push => .update
  | .openBuffer _ => .update
  | .remove _ => .delete
  | .nextKey _ => .getNextKey

/-- The operations a typed map has. -/
def has : Ty → Op → Bool
  | .hashMap _ _, op | .perCpuHashMap _ _, op | .lpmTrie _ _, op | .hashOfMaps _, op | .sockHash _, op | .devMapHash, op =>
    match op with
    | .get _ | .set _ _ | .remove _ | .nextKey _ => true
    | _ => false
  | .array _, op | .perCpuArray _, op | .arrayOfMaps, op | .cpuMap, op | .devMap, op | .cgroupStorage _, op
  | .perCpuCgroupStorage _, op =>
    match op with
    | .get _ | .set _ _ => true
    | _ => false
  | .programArray, op | .sockMap, op | .reusePortSockArray, op =>
    match op with
    | .set _ _ | .remove _ | .nextKey _ => true
    | _ => false
  | .cgroupArray, op | .xskMap, op =>
    match op with
    | .set _ _ | .remove _ => true
    | _ => false
  | .skStorage _, op | .inodeStorage _, op | .cgrpStorage _, op =>
    match op with
    | .get _ | .set _ _ | .remove _ => true
    | _ => false
  | .stackTrace, op =>
    match op with
    | .get _ | .remove _ | .nextKey _ => true
    | _ => false
  | .queue _, op | .stack _, op =>
    match op with
    | .push | .pop => true
    | _ => false
  | .bloomFilter _, op =>
    match op with
    | .push | .contains => true
    | _ => false
  | .perfEventArray, op =>
    match op with
    | .openBuffer _ => true
    | _ => false
  | .ringBuf, _ => false

end Verif.Handles.Spec
