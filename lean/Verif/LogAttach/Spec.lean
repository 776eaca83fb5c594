import Verif.LogAttach.Model
import Verif.Info.Spec
/-!
# Specification: which maps can be mapped, and which map is a program's log

The world is that of `Verif.Info.Spec`, with what Linux lets a process map (kernel/bpf/ringbuf.c `ringbuf_map_mmap_kern`,
kernel/bpf/arraymap.c `array_map_mmap`, kernel/bpf/syscall.c `bpf_map_mmap`).
-/
namespace Verif.LogAttach
open Verif.Info

/-- `BPF_MAP_TYPE_RINGBUF` and `BPF_MAP_TYPE_ARRAY`, `BPF_F_MMAPABLE`. -/
def ringType : Nat := 27
def arrayType : Nat := 2
def mmapable : Nat := 1024

/-- The bytes of an array that may be mapped, if any. -/
def arrayRoom (f : MapFacts) : Nat := f.maxEntries * ((f.valueSize + 7) / 8 * 8)

/-- Whether Linux maps `len` bytes at `off` of a map: of a ring buffer the first page for writing, and for reading anything up to the
    end of the data, which comes after two pages, twice; of an array made for it, anything within. -/
def mayMap (page : Nat) (f : MapFacts) (len : Nat) (write : Bool) (off : Nat) : Prop :=
  (f.type = ringType ∧ (if write then off = 0 ∧ len = page else off + len ≤ 2 * page + 2 * f.maxEntries)) ∨
  (f.type = arrayType ∧ f.mapFlags = mmapable ∧ off + len ≤ arrayRoom f)

instance (page : Nat) (f : MapFacts) (len : Nat) (write : Bool) (off : Nat) : Decidable (mayMap page f len write off) := by
  unfold mayMap; exact inferInstance

/-- `mmap` in a world; `EINVAL` (22) stands for all refusals. -/
def mmapOf (w : World) (page : Nat) : Mmap := fun t fd len write off =>
  w.unless t (if mayMap page (w.map fd) len write off then .ok () else .error 22)

/-- The name by which `aya-log-ebpf` calls its map, `AYA_LOGS`. -/
def logName : List UInt8 := ['A', 'Y', 'A', '_', 'L', 'O', 'G', 'S'].map (fun c => c.toNat.toUInt8)

/-- The log of a program that uses `ids`, in this order: the first of the maps that is called so. -/
def logOf (w : World) (ids : List Nat) : Option Nat := ids.find? (fun id => (w.map id).name == logName)

/-- Nothing gets in the way of the process from time `t` on: no call fails for a reason of its own, it may load programs, the kernel
    tells names and maps, and program `pid` and the maps it used at any time stay. -/
structure Calm (w : World) (t pid : Nat) : Prop where
  fault : ∀ t' ≥ t, w.fault t' = none
  mayLoad : ∀ t' ≥ t, w.mayLoad t' = true
  names : w.tellsName = true
  maps : w.tellsMaps = true
  prog : ∀ t' ≥ t, pid ∈ w.progs t'
  used : ∀ t' ≥ t, ∀ id ∈ w.uses t' pid, ∀ t'' ≥ t', id ∈ w.maps t''

end Verif.LogAttach
