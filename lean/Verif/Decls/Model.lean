import Verif.Maps.Model
/-!
# Maps declared with the types of `aya_ebpf::btf_maps`

A declaration is a Rust type with sizes and flags as constants (`/repo/ebpf/aya-ebpf/src/btf_maps/*.rs`). Most of these types check their constants when the program is
compiled (`_CHECK`); the compiler writes the constants to the object as lengths of arrays, and the loader makes of them what it asks the kernel for.

Not here: maps of maps (`/repo/ebpf/aya-ebpf/src/btf_maps/mod.rs`), and the reading of the object itself, which is in `Verif.ObjMaps`: the numbers are taken from the
declaration, each as the 32 bits in which the object has it.
-/
namespace Verif.Decls
open Verif.Maps (u32 maxEntriesOverride valueSizeOverride)

/-- `size_of` and `align_of` of a Rust type. -/
structure Ty where
  size : Nat
  align : Nat
deriving DecidableEq, Repr

/-- The instances of the macro of hash maps (`/repo/ebpf/aya-ebpf/src/btf_maps/hash_map.rs:145`, `196`, `249`, `305`). -/
inductive Hash where
  | plain
  | lru
  | perCpu
  | lruPerCpu
deriving DecidableEq, Repr

/-- A declaration: key and value types, `MAX_ENTRIES`, `FLAGS`, and what else there is. -/
inductive Decl where
  /-- `/repo/ebpf/aya-ebpf/src/btf_maps/array.rs:18-23` -/
  | array (v : Ty) (n f : Nat)
  /-- `/repo/ebpf/aya-ebpf/src/btf_maps/per_cpu_array.rs:43-48` -/
  | perCpuArray (v : Ty) (n f : Nat)
  /-- `/repo/ebpf/aya-ebpf/src/btf_maps/hash_map.rs:26-34` -/
  | hash (h : Hash) (k v : Ty) (n f : Nat)
  /-- `/repo/ebpf/aya-ebpf/src/btf_maps/lpm_trie.rs:38-43`; `k` is the data of the key. -/
  | lpmTrie (k v : Ty) (n f : Nat)
  /-- `/repo/ebpf/aya-ebpf/src/btf_maps/queue.rs:36-41` -/
  | queue (v : Ty) (n f : Nat)
  /-- `/repo/ebpf/aya-ebpf/src/btf_maps/stack.rs:36-41` -/
  | stack (v : Ty) (n f : Nat)
  /-- `/repo/ebpf/aya-ebpf/src/btf_maps/bloom_filter.rs:23-29` -/
  | bloom (v : Ty) (n f funcs : Nat)
  /-- `/repo/ebpf/aya-ebpf/src/btf_maps/ring_buf.rs:15-21`; `v` is the type of what is sent. -/
  | ringBuf (v : Ty) (n f : Nat)
  /-- `/repo/ebpf/aya-ebpf/src/btf_maps/stack_trace.rs:37-46` -/
  | stackTrace (n f depth : Nat)
  /-- `/repo/ebpf/aya-ebpf/src/btf_maps/sock_map.rs:34-39` -/
  | sockMap (n f : Nat)
  /-- `/repo/ebpf/aya-ebpf/src/btf_maps/sock_hash.rs:36-41` -/
  | sockHash (k : Ty) (n f : Nat)
  /-- `/repo/ebpf/aya-ebpf/src/btf_maps/cpu_map.rs:25-30` -/
  | cpuMap (n f : Nat)
  /-- `/repo/ebpf/aya-ebpf/src/btf_maps/dev_map.rs:50-55` -/
  | devMap (n f : Nat)
  /-- `/repo/ebpf/aya-ebpf/src/btf_maps/dev_map_hash.rs:31-36` -/
  | devMapHash (n f : Nat)
  /-- `/repo/ebpf/aya-ebpf/src/btf_maps/xsk_map.rs:23-28` -/
  | xskMap (n f : Nat)
  /-- `/repo/ebpf/aya-ebpf/src/btf_maps/cgroup_array.rs:26-31` -/
  | cgroupArray (n f : Nat)
  /-- `/repo/ebpf/aya-ebpf/src/btf_maps/program_array.rs:25-30` -/
  | programArray (n f : Nat)
  /-- `/repo/ebpf/aya-ebpf/src/btf_maps/reuseport_sock_array.rs:24-35` -/
  | reusePort (n f : Nat)
  /-- `/repo/ebpf/aya-ebpf/src/btf_maps/perf_event_array.rs:33-38`, `/repo/ebpf/aya-ebpf/src/btf_maps/perf_event_byte_array.rs:20-25` -/
  | perfEventArray (f : Nat)
  /-- `/repo/ebpf/aya-ebpf/src/btf_maps/sk_storage.rs:16-23` -/
  | skStorage (v : Ty)
  /-- `/repo/ebpf/aya-ebpf/src/btf_maps/inode_storage.rs:14-19` -/
  | inodeStorage (v : Ty)
  /-- `/repo/ebpf/aya-ebpf/src/btf_maps/cgrp_storage.rs:14-19` -/
  | cgrpStorage (v : Ty)
  /-- `/repo/ebpf/aya-ebpf/src/btf_maps/cgroup_storage.rs:11-20` -/
  | cgroupStorage (perCpu : Bool) (v : Ty)
deriving DecidableEq, Repr

/-- `BPF_F_NO_PREALLOC`, `BPF_F_NO_COMMON_LRU`, `BPF_F_STACK_BUILD_ID` (`/repo/ebpf/aya-ebpf-bindings/src/x86_64/bindings.rs:846-851`). -/
def NO_PREALLOC : Nat := 1
def NO_COMMON_LRU : Nat := 2
def STACK_BUILD_ID : Nat := 32

/-- The flag that a hash map refuses (`/repo/ebpf/aya-ebpf/src/btf_maps/hash_map.rs:146-149`, `197-200`, `250-253`, `306-309`). -/
def Hash.rejected : Hash → Nat
  | .plain => NO_COMMON_LRU
  | .lru => NO_PREALLOC
  | .perCpu => NO_COMMON_LRU
  | .lruPerCpu => NO_PREALLOC

/-- `size_of::<Key<K>>()`, a packed struct (`/repo/ebpf/aya-ebpf/src/maps/lpm_trie.rs:23-29`). -/
def keySize (k : Ty) : Nat := 4 + k.size

/-- `_CHECK`: the assertions on the constants. Types without it accept all constants. -/
def check : Decl → Bool
  /- `/repo/ebpf/aya-ebpf/src/btf_maps/hash_map.rs:37-58` -/
  | .hash h k v n f => k.size > 0 && v.size > 0 && n > 0 && (f &&& h.rejected == 0) && v.align ≤ 8
  /- `/repo/ebpf/aya-ebpf/src/btf_maps/lpm_trie.rs:51-88` -/
  | .lpmTrie k v n _ => keySize k ≥ 5 && keySize k ≤ 260 && v.size ≥ 1 && n > 0 && v.align ≤ 8 && k.size % v.align == 0
  /- `/repo/ebpf/aya-ebpf/src/btf_maps/per_cpu_array.rs:61-79` -/
  | .perCpuArray v n _ => v.size ≥ 1 && n > 0 && v.align ≤ 8
  /- `/repo/ebpf/aya-ebpf/src/btf_maps/queue.rs:45-55` -/
  | .queue v n f => v.size > 0 && n > 0 && f &&& NO_PREALLOC == 0
  /- `/repo/ebpf/aya-ebpf/src/btf_maps/stack.rs:45-55` -/
  | .stack v n f => v.size > 0 && n > 0 && f &&& NO_PREALLOC == 0
  /- `/repo/ebpf/aya-ebpf/src/btf_maps/stack_trace.rs:55-66` -/
  | .stackTrace n f depth => depth > 0 && n > 0 && f &&& STACK_BUILD_ID == 0
  /- `/repo/ebpf/aya-ebpf/src/btf_maps/sock_hash.rs:49-59` -/
  | .sockHash k n _ => k.size > 0 && k.size ≤ 512 && n > 0
  /- `/repo/ebpf/aya-ebpf/src/btf_maps/sock_map.rs:47-52` -/
  | .sockMap n _ => n > 0
  /- `/repo/ebpf/aya-ebpf/src/btf_maps/cpu_map.rs:34-39` -/
  | .cpuMap n _ => n > 0
  /- `/repo/ebpf/aya-ebpf/src/btf_maps/dev_map.rs:59-64` -/
  | .devMap n _ => n > 0
  /- `/repo/ebpf/aya-ebpf/src/btf_maps/dev_map_hash.rs:40-45` -/
  | .devMapHash n _ => n > 0
  /- `/repo/ebpf/aya-ebpf/src/btf_maps/xsk_map.rs:32-37` -/
  | .xskMap n _ => n > 0
  /- `/repo/ebpf/aya-ebpf/src/btf_maps/cgroup_array.rs:35-40` -/
  | .cgroupArray n _ => n > 0
  | _ => true

/-- Whether the program compiles. Constants of generic types are evaluated only where they are used, and `_CHECK` is used in the methods
    (`/repo/ebpf/aya-ebpf/src/btf_maps/lpm_trie.rs:48-50`, `95`): `used` is whether the program calls a method of the map. -/
def compiles (used : Bool) (d : Decl) : Bool := !used || check d

/-- What `BPF_MAP_CREATE` is asked for (`/repo/aya/src/sys/bpf.rs:62-68`). -/
structure Attr where
  type : Nat
  key : Nat
  value : Nat
  entries : Nat
  flags : Nat
  extra : Nat
deriving DecidableEq, Repr

/-- The fields of the struct of a declaration (`btf_map_def!`, `/repo/ebpf/aya-ebpf/src/btf_maps/mod.rs:233-250`) as the loader reads them
    (`/repo/aya-obj/src/obj.rs:1256-1306`). The length of an array type has 32 bits in BTF, to which the compiler cuts longer lengths; sizes are cut in the same way.
    Types are numbered as in `bpf_map_type`. `bpf_cgroup_storage_key` has 16 bytes; `bpf_cpumap_val` and `bpf_devmap_val` 8. -/
def define : Decl → Attr
  | .array v n f => ⟨2, 4, u32 v.size, u32 n, u32 f, 0⟩
  | .perCpuArray v n f => ⟨6, 4, u32 v.size, u32 n, u32 f, 0⟩
  | .hash .plain k v n f => ⟨1, u32 k.size, u32 v.size, u32 n, u32 f, 0⟩
  | .hash .lru k v n f => ⟨9, u32 k.size, u32 v.size, u32 n, u32 f, 0⟩
  | .hash .perCpu k v n f => ⟨5, u32 k.size, u32 v.size, u32 n, u32 f, 0⟩
  | .hash .lruPerCpu k v n f => ⟨10, u32 k.size, u32 v.size, u32 n, u32 f, 0⟩
  | .lpmTrie k v n f => ⟨11, u32 (keySize k), u32 v.size, u32 n, u32 f, 0⟩
  | .queue v n f => ⟨22, 0, u32 v.size, u32 n, u32 f, 0⟩
  | .stack v n f => ⟨23, 0, u32 v.size, u32 n, u32 f, 0⟩
  | .bloom v n f funcs => ⟨30, 0, u32 v.size, u32 n, u32 f, u32 funcs⟩
  /- the field `value_size`, an array without elements, comes after `value` -/
  | .ringBuf _ n f => ⟨27, 0, 0, u32 n, u32 f, 0⟩
  | .stackTrace n f depth => ⟨7, 4, u32 (8 * depth), u32 n, u32 f, 0⟩
  | .sockMap n f => ⟨15, 4, 4, u32 n, u32 f, 0⟩
  | .sockHash k n f => ⟨18, u32 k.size, 4, u32 n, u32 f, 0⟩
  | .cpuMap n f => ⟨16, 4, 8, u32 n, u32 f, 0⟩
  | .devMap n f => ⟨14, 4, 8, u32 n, u32 f, 0⟩
  | .devMapHash n f => ⟨25, 4, 8, u32 n, u32 f, 0⟩
  | .xskMap n f => ⟨17, 4, 4, u32 n, u32 f, 0⟩
  | .cgroupArray n f => ⟨8, 4, 4, u32 n, u32 f, 0⟩
  | .programArray n f => ⟨3, 4, 4, u32 n, u32 f, 0⟩
  | .reusePort n f => ⟨20, 4, 4, u32 n, u32 f, 0⟩
  | .perfEventArray f => ⟨4, 4, 4, 0, u32 f, 0⟩
  | .skStorage v => ⟨24, 4, u32 v.size, 0, NO_PREALLOC, 0⟩
  | .inodeStorage v => ⟨28, 4, u32 v.size, 0, NO_PREALLOC, 0⟩
  | .cgrpStorage v => ⟨32, 4, u32 v.size, 0, NO_PREALLOC, 0⟩
  | .cgroupStorage false v => ⟨19, 16, u32 v.size, 0, 0, 0⟩
  | .cgroupStorage true v => ⟨21, 16, u32 v.size, 0, 0, 0⟩

/-- What the loader finds out about the machine: CPUs, size of pages, and whether values of CPU and device maps have programs. -/
structure Host where
  cpus : Nat
  page : Nat
  cpuProg : Bool
  devProg : Bool
deriving DecidableEq, Repr

/-- What the loader asks for, if the user sets no number of entries and the number of CPUs is known (`/repo/aya/src/bpf.rs:617-629`). -/
def attr (H : Host) (d : Decl) : Attr :=
  let a := define d
  { a with
    entries := ((maxEntriesOverride a.type none a.entries (some H.cpus) H.page).map (·.getD a.entries)).getD a.entries
    value := (valueSizeOverride a.type H.cpuProg H.devProg).getD a.value }

end Verif.Decls
