import Verif.Ebpf.DeclModel
import Verif.Handles.Spec
import Verif.Maps.LoadSpec
/-!
# What a declared map is

For each map type of the eBPF side: the typed map of user space with the same name, the sizes of keys and values as programs use them,
and the number of entries and flags the kernel is to be asked for. Only the names of the map types are shared with the model.
-/
namespace Verif.Ebpf.Decl.Spec
open Verif.Ebpf.Decl Verif.Handles

/-- The typed map of user space for a declaration. -/
def opens : Decl → Ty
  | .array v => .array v
  | .arrayOfMaps => .arrayOfMaps
  | .bloomFilter v => .bloomFilter v
  | .cgroupArray => .cgroupArray
  | .cgroupStorage v => .cgroupStorage v
  | .cgrpStorage v => .cgrpStorage v
  | .cpuMap => .cpuMap
  | .devMap => .devMap
  | .devMapHash => .devMapHash
  | .hashMap k v => .hashMap k v
  | .hashOfMaps k => .hashOfMaps k
  | .inodeStorage v => .inodeStorage v
  | .lpmTrie k v => .lpmTrie k v
  | .lruHashMap k v => .hashMap k v
  | .lruPerCpuHashMap k v => .perCpuHashMap k v
  | .perCpuArray v => .perCpuArray v
  | .perCpuCgroupStorage v => .perCpuCgroupStorage v
  | .perCpuHashMap k v => .perCpuHashMap k v
  | .perfEventArray => .perfEventArray
  | .perfEventByteArray => .perfEventArray
  | .programArray => .programArray
  | .queue v => .queue v
  | .reusePortSockArray => .reusePortSockArray
  | .ringBuf _ => .ringBuf
  | .skStorage v => .skStorage v
  | .sockHash k => .sockHash k
  | .sockMap => .sockMap
  | .stack v => .stack v
  | .stackTrace _ => .stackTrace
  | .xskMap => .xskMap

/-- Maps that drop old entries when full. -/
def lru : Decl → Bool
  | .lruHashMap _ _ | .lruPerCpuHashMap _ _ => true
  | _ => false

/-- The bytes of a key: those of the key type; a prefix length of 4 bytes goes before the data of a prefix; a cgroup is identified by
16 bytes; queues, stacks, filters and ring buffers have no keys; all other keys are 32-bit numbers. -/
def keyBytes : Decl → Nat
  | .hashMap k _ | .lruHashMap k _ | .perCpuHashMap k _ | .lruPerCpuHashMap k _ | .hashOfMaps k | .sockHash k => k
  | .lpmTrie k _ => 4 + k
  | .cgroupStorage _ | .perCpuCgroupStorage _ => 16
  | .queue _ | .stack _ | .bloomFilter _ | .ringBuf _ => 0
  | _ => 4

/-- The bytes of a value: those of the value type; a 32-bit number and a program for CPUs and devices; 8 bytes for each address of a
stack trace; none for ring buffers; all other values are 32-bit numbers. -/
def valueBytes : Decl → Nat
  | .array v | .bloomFilter v | .cgroupStorage v | .cgrpStorage v | .hashMap _ v | .inodeStorage v | .lpmTrie _ v | .lruHashMap _ v
  | .lruPerCpuHashMap _ v | .perCpuArray v | .perCpuCgroupStorage v | .perCpuHashMap _ v | .queue v | .skStorage v | .stack v => v
  | .cpuMap | .devMap | .devMapHash => 8
  | .stackTrace depth => 8 * depth
  | .ringBuf _ => 0
  | _ => 4

/-- Storage attached to objects has no number of entries; perf event arrays get theirs from the loader. -/
def entries (n : Nat) : Decl → Nat
  | .cgroupStorage _ | .perCpuCgroupStorage _ | .cgrpStorage _ | .inodeStorage _ | .skStorage _ | .perfEventArray
  | .perfEventByteArray => 0
  | _ => n

/-- Bit 0 is `BPF_F_NO_PREALLOC`, which the kernel demands for prefix tries and storage of sockets, inodes and cgroups. -/
def Flags (given : Nat) (d : Decl) (actual : Nat) : Prop :=
  match d with
  | .cgroupStorage _ | .perCpuCgroupStorage _ => actual = 0
  | .cgrpStorage _ | .inodeStorage _ | .skStorage _ => actual = 1
  | .lpmTrie _ _ => ∀ i, i ≠ 0 → actual.testBit i = given.testBit i
  | _ => actual = given

/-- The definition read by user space is the declaration. -/
structure Is (d : Decl) (n flags : Nat) (m : Maps.MapDef) : Prop where
  kind : m.mapType ∈ Handles.Spec.kinds (opens d)
  lru : m.mapType ∈ [9, 10] ↔ lru d = true
  key : m.keySize = keyBytes d
  value : m.valueSize = valueBytes d
  entries : m.maxEntries = entries n d
  flags : Flags flags d m.flags

/-- The parameters fit their fields, and the declaration can be made: stack traces are not build ids and have a depth. -/
structure Fits (d : Decl) (n fl : Nat) : Prop where
  entries : n < 2 ^ 32
  flags : fl < 2 ^ 32
  key : keyBytes d < 2 ^ 32
  value : valueBytes d < 2 ^ 32
  stack : ∀ depth, d = .stackTrace depth → 0 < depth ∧ fl.testBit 5 = false

end Verif.Ebpf.Decl.Spec
