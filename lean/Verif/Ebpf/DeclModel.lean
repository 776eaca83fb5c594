import Verif.Common.Bytes
import Verif.ObjMaps.Spec
import Verif.Obj.Model
import Verif.Maps.LoadModel
/-!
# Model of map declarations in eBPF programs

`ebpf/aya-ebpf/src/maps` (declared with `#[map]`, a C structure in the section `maps`) and `ebpf/aya-ebpf/src/btf_maps`
(declared with `#[btf_map]`, described by the BTF of a structure in the section `.maps`).

A key or value type is its size. What the compiler writes is not modelled: a static is its bytes, a structure type its list of
members, written as in `Verif.ObjMaps.Spec.Line`.
-/
namespace Verif.Ebpf.Decl
open Verif.Bytes Verif.ObjMaps Verif.ObjMaps.Spec

/-- The map types of the two modules with the sizes of their type parameters. -/
inductive Decl where
  | array (v : Nat)
  | arrayOfMaps
  | bloomFilter (v : Nat)
  | cgroupArray
  | cgroupStorage (v : Nat)
  | cgrpStorage (v : Nat)
  | cpuMap
  | devMap
  | devMapHash
  | hashMap (k v : Nat)
  | hashOfMaps (k : Nat)
  | inodeStorage (v : Nat)
  | lpmTrie (k v : Nat)
  | lruHashMap (k v : Nat)
  | lruPerCpuHashMap (k v : Nat)
  | perCpuArray (v : Nat)
  | perCpuCgroupStorage (v : Nat)
  | perCpuHashMap (k v : Nat)
  | perfEventArray
  | perfEventByteArray
  | programArray
  | queue (v : Nat)
  | reusePortSockArray
  | ringBuf (v : Nat)
  | skStorage (v : Nat)
  | sockHash (k : Nat)
  | sockMap
  | stack (v : Nat)
  /-- the number of addresses; 127 for the map of `maps` -/
  | stackTrace (depth : Nat)
  | xskMap
  deriving DecidableEq, Repr

/-- `bpf_map_def` (`MapDef::new`, ebpf/aya-ebpf/src/maps/mod.rs:20-39): seven `u32`, the sizes cast. `pinning` is `PinningType`
(lines 8-12). -/
def mapDefNew (key value type maxEntries flags pinning : Nat) : List UInt8 :=
  [type, key, value, maxEntries, flags, 0, pinning].flatMap (le 4)

/-- The constructors of `map_constructors!` (ebpf/aya-ebpf/src/maps/mod.rs:49-77) and those written out: `pin` is the difference
between `pinned` and the other constructor. -/
def pinning (pin : Bool) : Nat := if pin then 1 else 0

/-- A static of a type of `maps`, made by a constructor. `none`: there is no such type. In ebpf/aya-ebpf/src/maps: array.rs:21,
bloom_filter.rs:21, cgroup_array.rs:41, cgroup_storage.rs:27-45 (106, 138), xdp/cpu_map.rs:42-45, xdp/dev_map.rs:44-47,
xdp/dev_map_hash.rs:46-49, hash_map.rs:33-38, 83-86, lpm_trie.rs:23-29, 38, per_cpu_array.rs:21, perf/perf_event_array.rs:25-30,
perf/perf_event_byte_array.rs:22-26, program_array.rs:33, queue.rs:22, reuseport_sock_array.rs:25, ring_buf.rs:133-137, sock_hash.rs:28,
sock_map.rs:25, stack.rs:22, stack_trace.rs:19-23, xdp/xsk_map.rs:63-66. Numbers of map types from
ebpf/aya-ebpf-bindings/src/x86_64/bindings.rs:670-705, the same for all architectures; `bpf_cgroup_storage_key` has 16 bytes
(588-591), `bpf_cpumap_val` and `bpf_devmap_val` 8; `Key<K>` is packed. -/
def legacy (maxEntries flags : Nat) (pin : Bool) : Decl → Option (List UInt8)
  | .array v => some (mapDefNew 4 v 2 maxEntries flags (pinning pin))
  | .bloomFilter v => some (mapDefNew 0 v 30 maxEntries flags (pinning pin))
  | .cgroupArray => some (mapDefNew 4 4 8 maxEntries flags (pinning pin))
  | .cgroupStorage v => some (mapDefNew 16 v 19 0 0 (pinning pin))
  | .cpuMap => some (mapDefNew 4 8 16 maxEntries flags (pinning pin))
  | .devMap => some (mapDefNew 4 8 14 maxEntries flags (pinning pin))
  | .devMapHash => some (mapDefNew 4 8 25 maxEntries flags (pinning pin))
  | .hashMap k v => some (mapDefNew k v 1 maxEntries flags (pinning pin))
  | .lpmTrie k v => some (mapDefNew (4 + k) v 11 maxEntries (flags ||| 1) (pinning pin))
  | .lruHashMap k v => some (mapDefNew k v 9 maxEntries flags (pinning pin))
  | .lruPerCpuHashMap k v => some (mapDefNew k v 10 maxEntries flags (pinning pin))
  | .perCpuArray v => some (mapDefNew 4 v 6 maxEntries flags (pinning pin))
  | .perCpuCgroupStorage v => some (mapDefNew 16 v 21 0 0 (pinning pin))
  | .perCpuHashMap k v => some (mapDefNew k v 5 maxEntries flags (pinning pin))
  | .perfEventArray => some (mapDefNew 4 4 4 0 flags (pinning pin))
  | .perfEventByteArray => some (mapDefNew 4 4 4 0 flags (pinning pin))
  | .programArray => some (mapDefNew 4 4 3 maxEntries flags (pinning pin))
  | .queue v => some (mapDefNew 0 v 22 maxEntries flags (pinning pin))
  | .reusePortSockArray => some (mapDefNew 4 4 20 maxEntries flags (pinning pin))
  | .ringBuf _ => some (mapDefNew 0 0 27 maxEntries flags (pinning pin))
  | .sockHash k => some (mapDefNew k 4 18 maxEntries flags (pinning pin))
  | .sockMap => some (mapDefNew 4 4 15 maxEntries flags (pinning pin))
  | .stack v => some (mapDefNew 0 v 23 maxEntries flags (pinning pin))
  | .stackTrace depth => if depth = 127 then some (mapDefNew 4 (8 * 127) 7 maxEntries flags (pinning pin)) else none
  | .xskMap => some (mapDefNew 4 4 17 maxEntries flags (pinning pin))
  | .arrayOfMaps | .hashOfMaps _ | .inodeStorage _ | .skStorage _ | .cgrpStorage _ => none

/-- The structure written by `btf_map_def!` (ebpf/aya-ebpf/src/btf_maps/mod.rs:233-250): its members in order. `kt` and `vt` are the ids
the compiler gives the types behind the pointers `key` and `value`. -/
def btfMapDef {ι : Type} (kt vt key value type maxEntries flags : Nat) (extra : List (Line ι)) : List (Line ι) :=
  [.num .type type, .key kt key, .value vt value, .num .maxEntries maxEntries, .num .mapFlags flags] ++ extra

/-- A structure type of `btf_maps`. `inner`: the inner map type of a map of maps (`inner_map`, mod.rs:199-211); `hashFuncs`: the
parameter of `BloomFilter`. In ebpf/aya-ebpf/src/btf_maps: array.rs:18-23, of_maps/array.rs:24-30, bloom_filter.rs:23-29,
cgroup_array.rs:26-31, cgroup_storage.rs:15-20 (76, 108), cgrp_storage.rs:14-19, cpu_map.rs:25-30, dev_map.rs:50-55, dev_map_hash.rs:31-36,
hash_map.rs:28-33 (145, 196, 249, 305), of_maps/hash_map.rs:24-30, inode_storage.rs:14-19, lpm_trie.rs:38-43, per_cpu_array.rs:43-48,
perf_event_array.rs:33-38, perf_event_byte_array.rs:20-25, program_array.rs:25-30, queue.rs:36-41, reuseport_sock_array.rs:24-35,
ring_buf.rs:15-21, sk_storage.rs:15-23, sock_hash.rs:36-41, sock_map.rs:34-39, stack.rs:36-41, stack_trace.rs:37-46, xsk_map.rs:23-28.
Compile-time assertions on the parameters are left out. -/
def btf {ι : Type} (kt vt maxEntries flags hashFuncs : Nat) (inner : ι) : Decl → List (Line ι)
  | .array v => btfMapDef kt vt 4 v 2 maxEntries flags []
  | .arrayOfMaps => btfMapDef kt vt 4 4 12 maxEntries flags [.values inner]
  | .bloomFilter v => btfMapDef kt vt 0 v 30 maxEntries flags [.num .mapExtra hashFuncs]
  | .cgroupArray => btfMapDef kt vt 4 4 8 maxEntries flags []
  | .cgroupStorage v => btfMapDef kt vt 16 v 19 0 0 []
  | .cgrpStorage v => btfMapDef kt vt 4 v 32 0 1 []
  | .cpuMap => btfMapDef kt vt 4 8 16 maxEntries flags []
  | .devMap => btfMapDef kt vt 4 8 14 maxEntries flags []
  | .devMapHash => btfMapDef kt vt 4 8 25 maxEntries flags []
  | .hashMap k v => btfMapDef kt vt k v 1 maxEntries flags []
  | .hashOfMaps k => btfMapDef kt vt k 4 13 maxEntries flags [.values inner]
  | .inodeStorage v => btfMapDef kt vt 4 v 28 0 1 []
  | .lpmTrie k v => btfMapDef kt vt (4 + k) v 11 maxEntries flags []
  | .lruHashMap k v => btfMapDef kt vt k v 9 maxEntries flags []
  | .lruPerCpuHashMap k v => btfMapDef kt vt k v 10 maxEntries flags []
  | .perCpuArray v => btfMapDef kt vt 4 v 6 maxEntries flags []
  | .perCpuCgroupStorage v => btfMapDef kt vt 16 v 21 0 0 []
  | .perCpuHashMap k v => btfMapDef kt vt k v 5 maxEntries flags []
  | .perfEventArray => btfMapDef kt vt 4 4 4 0 flags []
  | .perfEventByteArray => btfMapDef kt vt 4 4 4 0 flags []
  | .programArray => btfMapDef kt vt 4 4 3 maxEntries flags []
  | .queue v => btfMapDef kt vt 0 v 22 maxEntries flags []
  | .reusePortSockArray => btfMapDef kt vt 4 4 20 maxEntries flags []
  | .ringBuf v => btfMapDef kt vt 0 v 27 maxEntries flags [.num .valueSize 0]
  | .skStorage v => btfMapDef kt vt 4 v 24 0 1 []
  | .sockHash k => btfMapDef kt vt k 4 18 maxEntries flags []
  | .sockMap => btfMapDef kt vt 4 4 15 maxEntries flags []
  | .stack v => btfMapDef kt vt 0 v 23 maxEntries flags []
  | .stackTrace depth => btfMapDef kt vt 4 (8 * depth) 7 maxEntries flags []
  | .xskMap => btfMapDef kt vt 4 4 17 maxEntries flags []

/-- What the loader reads of a parsed map of the section `maps` (aya-obj/src/maps.rs:146-211). -/
def ofLegacy (d : Obj.MapDef) : Maps.MapDef :=
  { mapType := d.mapType, keySize := d.keySize, valueSize := d.valueSize, maxEntries := d.maxEntries, flags := d.mapFlags,
    extra := 0, pinByName := d.pinning == 1, btf := none }

/-- What the loader reads of a parsed map of the section `.maps` (aya-obj/src/maps.rs:146-211). -/
def ofBtf (d : BtfDef) : Maps.MapDef :=
  { mapType := d.mapType, keySize := d.keySize, valueSize := d.valueSize, maxEntries := d.maxEntries, flags := d.mapFlags,
    extra := d.mapExtra, pinByName := d.pinByName, btf := some (d.keyTypeId, d.valueTypeId) }

end Verif.Ebpf.Decl
