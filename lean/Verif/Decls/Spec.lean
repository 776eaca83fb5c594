import Verif.Decls.Model
/-!
# What the kernel accepts, and where it puts values

From the `alloc_check` functions of the kernel (`kernel/bpf/arraymap.c`, `hashtab.c`, `lpm_trie.c`, `queue_stack_maps.c`, `bloom_filter.c`, `ringbuf.c`, `stackmap.c`, `cpumap.c`,
`devmap.c`, `local_storage.c`, `bpf_local_storage.c`, `net/core/sock_map.c`, `net/xdp/xskmap.c`, `kernel/bpf/reuseport_array.c`), for a caller with all privileges. Flags are numbers of bits.
-/
namespace Verif.Decls

/-- Limits that depend on how the kernel was built and set up. -/
structure Limits where
  /-- `KMALLOC_MAX_SIZE` -/
  alloc : Nat
  /-- `PCPU_MIN_UNIT_SIZE` -/
  perCpu : Nat
  /-- `sysctl_perf_event_max_stack` -/
  frames : Nat
  /-- `NR_CPUS` -/
  cpus : Nat
  page : Nat
  /-- `BPF_LOCAL_STORAGE_MAX_VALUE_SIZE` -/
  storage : Nat

/-- Only these bits are set, and not both of reading only and writing only by programs (bits 7 and 8). -/
def Flags (f : Nat) (allowed : List Nat) : Prop :=
  (∀ i < 32, f.testBit i = true → i ∈ allowed) ∧ ¬ (f.testBit 7 = true ∧ f.testBit 8 = true)

/-- The least multiple of 8 that is at least `n`. -/
def up8 (n : Nat) : Nat := (n + 7) / 8 * 8

/-- The kernel makes the map. -/
def Accepts (K : Limits) (a : Attr) : Prop :=
  match a.type with
  /- `BPF_MAP_TYPE_ARRAY` -/
  | 2 => a.key = 4 ∧ a.value ≠ 0 ∧ a.entries ≠ 0 ∧ a.value < 2 ^ 31 ∧ a.extra = 0 ∧ Flags a.flags [2, 3, 4, 7, 8, 10, 12]
  /- `BPF_MAP_TYPE_PERCPU_ARRAY` -/
  | 6 => a.key = 4 ∧ a.value ≠ 0 ∧ a.entries ≠ 0 ∧ a.value < 2 ^ 31 ∧ up8 a.value ≤ K.perCpu ∧ a.extra = 0 ∧ Flags a.flags [3, 4, 7, 8]
  /- `BPF_MAP_TYPE_PROG_ARRAY`, `BPF_MAP_TYPE_CGROUP_ARRAY` -/
  | 3 => a.key = 4 ∧ a.value = 4 ∧ a.entries ≠ 0 ∧ a.extra = 0 ∧ Flags a.flags [2, 3, 4]
  | 8 => a.key = 4 ∧ a.value = 4 ∧ a.entries ≠ 0 ∧ a.extra = 0 ∧ Flags a.flags [2, 3, 4]
  /- `BPF_MAP_TYPE_PERF_EVENT_ARRAY` -/
  | 4 => a.key = 4 ∧ a.value = 4 ∧ a.entries ≠ 0 ∧ a.extra = 0 ∧ Flags a.flags [2, 3, 4, 11]
  /- `BPF_MAP_TYPE_REUSEPORT_SOCKARRAY` -/
  | 20 => a.key = 4 ∧ (a.value = 4 ∨ a.value = 8) ∧ a.entries ≠ 0 ∧ a.extra = 0 ∧ Flags a.flags [2, 3, 4, 7, 8]
  /- `BPF_MAP_TYPE_HASH` -/
  | 1 => a.key ≠ 0 ∧ a.value ≠ 0 ∧ a.entries ≠ 0 ∧ a.key + a.value + 56 < K.alloc ∧ a.extra = 0 ∧ Flags a.flags [0, 2, 3, 4, 6, 7, 8]
  /- `BPF_MAP_TYPE_LRU_HASH`; lists of each CPU (bit 1) are not for one node (bit 2) -/
  | 9 => a.key ≠ 0 ∧ a.value ≠ 0 ∧ a.entries ≠ 0 ∧ a.key + a.value + 56 < K.alloc ∧ a.extra = 0 ∧ Flags a.flags [1, 2, 3, 4, 6, 7, 8] ∧
      ¬ (a.flags.testBit 1 = true ∧ a.flags.testBit 2 = true)
  /- `BPF_MAP_TYPE_PERCPU_HASH` -/
  | 5 => a.key ≠ 0 ∧ a.value ≠ 0 ∧ a.entries ≠ 0 ∧ a.key + a.value + 56 < K.alloc ∧ up8 a.value ≤ K.perCpu ∧ a.extra = 0 ∧ Flags a.flags [0, 3, 4, 6, 7, 8]
  /- `BPF_MAP_TYPE_LRU_PERCPU_HASH` -/
  | 10 => a.key ≠ 0 ∧ a.value ≠ 0 ∧ a.entries ≠ 0 ∧ a.key + a.value + 56 < K.alloc ∧ up8 a.value ≤ K.perCpu ∧ a.extra = 0 ∧ Flags a.flags [1, 3, 4, 6, 7, 8]
  /- `BPF_MAP_TYPE_LPM_TRIE` -/
  | 11 => 5 ≤ a.key ∧ a.key ≤ 260 ∧ 1 ≤ a.value ∧ a.value + 300 ≤ K.alloc ∧ a.entries ≠ 0 ∧ a.extra = 0 ∧ Flags a.flags [0, 2, 3, 4, 7, 8] ∧ a.flags.testBit 0 = true
  /- `BPF_MAP_TYPE_QUEUE`, `BPF_MAP_TYPE_STACK` -/
  | 22 => a.key = 0 ∧ a.value ≠ 0 ∧ a.value ≤ K.alloc ∧ a.entries ≠ 0 ∧ a.extra = 0 ∧ Flags a.flags [2, 3, 4, 7, 8]
  | 23 => a.key = 0 ∧ a.value ≠ 0 ∧ a.value ≤ K.alloc ∧ a.entries ≠ 0 ∧ a.extra = 0 ∧ Flags a.flags [2, 3, 4, 7, 8]
  /- `BPF_MAP_TYPE_BLOOM_FILTER` -/
  | 30 => a.key = 0 ∧ a.value ≠ 0 ∧ a.entries ≠ 0 ∧ a.extra ≤ 15 ∧ Flags a.flags [2, 3, 4, 6, 7, 8]
  /- `BPF_MAP_TYPE_RINGBUF` -/
  | 27 => a.key = 0 ∧ a.value = 0 ∧ (∃ j, a.entries = 2 ^ j) ∧ K.page ∣ a.entries ∧ a.extra = 0 ∧ Flags a.flags [2]
  /- `BPF_MAP_TYPE_STACK_TRACE`: frames of 8 bytes, or of 32 with build identifiers (bit 5) -/
  | 7 => a.key = 4 ∧ a.entries ≠ 0 ∧ a.extra = 0 ∧ Flags a.flags [2, 3, 4, 5] ∧
      ∃ n, 0 < n ∧ n ≤ K.frames ∧ a.value = n * (if a.flags.testBit 5 = true then 32 else 8)
  /- `BPF_MAP_TYPE_SOCKMAP` -/
  | 15 => a.key = 4 ∧ (a.value = 4 ∨ a.value = 8) ∧ a.entries ≠ 0 ∧ a.extra = 0 ∧ Flags a.flags [2, 3, 4]
  /- `BPF_MAP_TYPE_SOCKHASH` -/
  | 18 => a.key ≠ 0 ∧ a.key ≤ 512 ∧ (a.value = 4 ∨ a.value = 8) ∧ a.entries ≠ 0 ∧ a.extra = 0 ∧ Flags a.flags [2, 3, 4]
  /- `BPF_MAP_TYPE_CPUMAP` -/
  | 16 => a.key = 4 ∧ (a.value = 4 ∨ a.value = 8) ∧ a.entries ≠ 0 ∧ a.entries ≤ K.cpus ∧ a.extra = 0 ∧ Flags a.flags [2]
  /- `BPF_MAP_TYPE_DEVMAP`, `BPF_MAP_TYPE_DEVMAP_HASH` -/
  | 14 => a.key = 4 ∧ (a.value = 4 ∨ a.value = 8) ∧ a.entries ≠ 0 ∧ a.extra = 0 ∧ Flags a.flags [2, 3, 4]
  | 25 => a.key = 4 ∧ (a.value = 4 ∨ a.value = 8) ∧ a.entries ≠ 0 ∧ a.entries ≤ 2 ^ 31 ∧ a.extra = 0 ∧ Flags a.flags [2, 3, 4]
  /- `BPF_MAP_TYPE_XSKMAP` -/
  | 17 => a.key = 4 ∧ a.value = 4 ∧ a.entries ≠ 0 ∧ a.extra = 0 ∧ Flags a.flags [2, 3, 4]
  /- `BPF_MAP_TYPE_SK_STORAGE`, `BPF_MAP_TYPE_INODE_STORAGE`, `BPF_MAP_TYPE_CGRP_STORAGE` -/
  | 24 => a.key = 4 ∧ a.value ≠ 0 ∧ a.value ≤ K.storage ∧ a.entries = 0 ∧ a.extra = 0 ∧ Flags a.flags [0, 9] ∧ a.flags.testBit 0 = true
  | 28 => a.key = 4 ∧ a.value ≠ 0 ∧ a.value ≤ K.storage ∧ a.entries = 0 ∧ a.extra = 0 ∧ Flags a.flags [0, 9] ∧ a.flags.testBit 0 = true
  | 32 => a.key = 4 ∧ a.value ≠ 0 ∧ a.value ≤ K.storage ∧ a.entries = 0 ∧ a.extra = 0 ∧ Flags a.flags [0, 9] ∧ a.flags.testBit 0 = true
  /- `BPF_MAP_TYPE_CGROUP_STORAGE`, `BPF_MAP_TYPE_PERCPU_CGROUP_STORAGE` -/
  | 19 => (a.key = 8 ∨ a.key = 16) ∧ a.value ≠ 0 ∧ a.value ≤ K.page ∧ a.entries = 0 ∧ a.extra = 0 ∧ Flags a.flags [2, 3, 4, 7, 8]
  | 21 => (a.key = 8 ∨ a.key = 16) ∧ a.value ≠ 0 ∧ a.value ≤ K.page ∧ a.value ≤ K.perCpu ∧ a.entries = 0 ∧ a.extra = 0 ∧ Flags a.flags [2, 3, 4, 7, 8]
  | _ => False

/-- The numbers of a declaration that have more than 32 bits are none. A ring buffer is at most half of what 32 bits can say. -/
def Small : Decl → Prop
  | .array v n f | .perCpuArray v n f | .queue v n f | .stack v n f => v.size < 2 ^ 32 ∧ n < 2 ^ 32 ∧ f < 2 ^ 32
  | .ringBuf _ n f => n ≤ 2 ^ 31 ∧ f < 2 ^ 32
  | .hash _ k v n f => k.size < 2 ^ 32 ∧ v.size < 2 ^ 32 ∧ n < 2 ^ 32 ∧ f < 2 ^ 32
  | .lpmTrie k v n f => k.size + 4 < 2 ^ 32 ∧ v.size < 2 ^ 32 ∧ n < 2 ^ 32 ∧ f < 2 ^ 32
  | .bloom v n f g => v.size < 2 ^ 32 ∧ n < 2 ^ 32 ∧ f < 2 ^ 32 ∧ g < 2 ^ 32
  | .stackTrace n f d => n < 2 ^ 32 ∧ f < 2 ^ 32 ∧ 8 * d < 2 ^ 32
  | .sockHash k n f => k.size < 2 ^ 32 ∧ n < 2 ^ 32 ∧ f < 2 ^ 32
  | .sockMap n f | .cpuMap n f | .devMap n f | .devMapHash n f | .xskMap n f | .cgroupArray n f | .programArray n f | .reusePort n f => n < 2 ^ 32 ∧ f < 2 ^ 32
  | .perfEventArray f => f < 2 ^ 32
  | .skStorage v | .inodeStorage v | .cgrpStorage v | .cgroupStorage _ v => v.size < 2 ^ 32

/-- The kernel has the flags of the declaration, for this type of map and no matter what was refused when compiling; and the sizes are within its limits. Where nothing is checked
    when compiling, the sizes are also not 0. -/
def Fits (K : Limits) : Decl → Prop
  | .array v n f => 0 < v.size ∧ v.size < 2 ^ 31 ∧ 0 < n ∧ Flags f [2, 3, 4, 7, 8, 10, 12]
  | .perCpuArray v _ f => v.size < 2 ^ 31 ∧ up8 v.size ≤ K.perCpu ∧ Flags f [3, 4, 7, 8]
  | .hash .plain k v _ f => k.size + v.size + 56 < K.alloc ∧ Flags f [0, 1, 2, 3, 4, 6, 7, 8]
  | .hash .lru k v _ f => k.size + v.size + 56 < K.alloc ∧ Flags f [0, 1, 2, 3, 4, 6, 7, 8] ∧ ¬ (f.testBit 1 = true ∧ f.testBit 2 = true)
  | .hash _ k v _ f => k.size + v.size + 56 < K.alloc ∧ up8 v.size ≤ K.perCpu ∧ Flags f [0, 1, 3, 4, 6, 7, 8]
  | .lpmTrie _ v _ f => v.size + 300 ≤ K.alloc ∧ Flags f [0, 2, 3, 4, 7, 8] ∧ f.testBit 0 = true
  | .queue v _ f | .stack v _ f => v.size ≤ K.alloc ∧ Flags f [0, 2, 3, 4, 7, 8]
  | .bloom v n f g => 0 < v.size ∧ 0 < n ∧ g ≤ 15 ∧ Flags f [2, 3, 4, 6, 7, 8]
  | .ringBuf _ n f => 0 < n ∧ Flags f [2]
  | .stackTrace _ f d => d ≤ K.frames ∧ Flags f [2, 3, 4, 5]
  | .sockMap _ f | .sockHash _ _ f | .devMap _ f | .xskMap _ f | .cgroupArray _ f => Flags f [2, 3, 4]
  | .devMapHash n f => n ≤ 2 ^ 31 ∧ Flags f [2, 3, 4]
  | .cpuMap n f => n ≤ K.cpus ∧ Flags f [2]
  | .programArray n f => 0 < n ∧ Flags f [2, 3, 4]
  | .reusePort n f => 0 < n ∧ Flags f [2, 3, 4, 7, 8]
  | .perfEventArray f => Flags f [2, 3, 4, 11]
  | .skStorage v | .inodeStorage v | .cgrpStorage v => 0 < v.size ∧ v.size ≤ K.storage
  | .cgroupStorage false v => 0 < v.size ∧ v.size ≤ K.page
  | .cgroupStorage true v => 0 < v.size ∧ v.size ≤ K.page ∧ v.size ≤ K.perCpu

/-- The map is as declared. -/
def AsDeclared (H : Host) : Decl → Attr → Prop
  | .array v n f, a => a = ⟨2, 4, v.size, n, f, 0⟩
  | .perCpuArray v n f, a => a = ⟨6, 4, v.size, n, f, 0⟩
  | .hash .plain k v n f, a => a = ⟨1, k.size, v.size, n, f, 0⟩
  | .hash .lru k v n f, a => a = ⟨9, k.size, v.size, n, f, 0⟩
  | .hash .perCpu k v n f, a => a = ⟨5, k.size, v.size, n, f, 0⟩
  | .hash .lruPerCpu k v n f, a => a = ⟨10, k.size, v.size, n, f, 0⟩
  | .lpmTrie k v n f, a => a = ⟨11, k.size + 4, v.size, n, f, 0⟩
  | .queue v n f, a => a = ⟨22, 0, v.size, n, f, 0⟩
  | .stack v n f, a => a = ⟨23, 0, v.size, n, f, 0⟩
  | .bloom v n f g, a => a = ⟨30, 0, v.size, n, f, g⟩
  /- the least power of two times the size of pages that is enough; nothing if nothing was asked for -/
  | .ringBuf _ n f, a => ∃ m, a = ⟨27, 0, 0, m, f, 0⟩ ∧ (n = 0 → m = 0) ∧
      (0 < n → n ≤ m ∧ (∃ j, m = H.page * 2 ^ j) ∧ ∀ i, n ≤ H.page * 2 ^ i → m ≤ H.page * 2 ^ i)
  | .stackTrace n f d, a => a = ⟨7, 4, d * 8, n, f, 0⟩
  | .sockMap n f, a => a = ⟨15, 4, 4, n, f, 0⟩
  | .sockHash k n f, a => a = ⟨18, k.size, 4, n, f, 0⟩
  | .cpuMap n f, a => a = ⟨16, 4, if H.cpuProg then 8 else 4, n, f, 0⟩
  | .devMap n f, a => a = ⟨14, 4, if H.devProg then 8 else 4, n, f, 0⟩
  | .devMapHash n f, a => a = ⟨25, 4, if H.devProg then 8 else 4, n, f, 0⟩
  | .xskMap n f, a => a = ⟨17, 4, 4, n, f, 0⟩
  | .cgroupArray n f, a => a = ⟨8, 4, 4, n, f, 0⟩
  | .programArray n f, a => a = ⟨3, 4, 4, n, f, 0⟩
  | .reusePort n f, a => a = ⟨20, 4, 4, n, f, 0⟩
  | .perfEventArray f, a => a = ⟨4, 4, 4, H.cpus, f, 0⟩
  | .skStorage v, a => a = ⟨24, 4, v.size, 0, 1, 0⟩
  | .inodeStorage v, a => a = ⟨28, 4, v.size, 0, 1, 0⟩
  | .cgrpStorage v, a => a = ⟨32, 4, v.size, 0, 1, 0⟩
  | .cgroupStorage false v, a => a = ⟨19, 16, v.size, 0, 0, 0⟩
  | .cgroupStorage true v, a => a = ⟨21, 16, v.size, 0, 0, 0⟩

/-- What is refused although the kernel would make the map: values that would not be aligned, and stacks of build identifiers, which programs would read as addresses. -/
def Excused : Decl → Prop
  | .hash _ _ v _ _ | .perCpuArray v _ _ => 8 < v.align
  | .lpmTrie k v _ _ => 8 < v.align ∨ ¬ v.align ∣ k.size
  | .stackTrace _ f _ => f.testBit 5 = true
  | _ => False

/-- Where the kernel has values of the map that programs get references to. Elements are 8-aligned; in an array they are one after the other, each a multiple of 8 long; in a hash map values come after keys,
    which are filled up to a multiple of 8; in a trie they come after the data of keys, which are not. -/
inductive ValueAt : Decl → Nat → Prop
  | array {v : Ty} {n f base i : Nat} : 8 ∣ base → i < n → ValueAt (.array v n f) (base + i * up8 v.size)
  | perCpuArray {v : Ty} {n f p : Nat} : 8 ∣ p → ValueAt (.perCpuArray v n f) p
  | hash {h : Hash} {k v : Ty} {n f key : Nat} : (h = .plain ∨ h = .lru) → 8 ∣ key → ValueAt (.hash h k v n f) (key + up8 k.size)
  | perCpuHash {h : Hash} {k v : Ty} {n f p : Nat} : (h = .perCpu ∨ h = .lruPerCpu) → 8 ∣ p → ValueAt (.hash h k v n f) p
  | lpmTrie {k v : Ty} {n f data : Nat} : 8 ∣ data → ValueAt (.lpmTrie k v n f) (data + k.size)

/-- The type of the values. -/
def valueType : Decl → Option Ty
  | .array v _ _ | .perCpuArray v _ _ | .hash _ _ v _ _ | .lpmTrie _ v _ _ => some v
  | _ => none

end Verif.Decls
