import Verif.Perf.Spec
/-!
# Model of perf event output in eBPF programs

`ebpf/aya-ebpf/src/maps/perf/perf_event_array.rs`, `perf_event_byte_array.rs` and `ebpf/aya-ebpf/src/btf_maps/perf_event_array.rs`, with
`PerfEventArray::open` of the process (`aya/src/maps/perf/perf_event_array.rs`) and the kernel's helper. The records written are those
that `Verif.Perf.Model` reads.
-/
namespace Verif.Ebpf.Perf
open Verif.Perf.Spec (KRec)

/-! ## The library -/

/-- A call of `bpf_perf_event_output`: flags and data. -/
structure Call where
  flags : Nat
  data : List UInt8
  deriving DecidableEq, Repr

/-- `BPF_F_CURRENT_CPU as u32` (ebpf/aya-ebpf-bindings/src/x86_64/bindings.rs:1540). -/
def currentCpu : Nat := 4294967295

/-- `output_at_index` (perf_event_array.rs:36-47, perf_event_byte_array.rs:32-43, btf_maps/perf_event_array.rs:46-57). `index` and
`flags` are `u32`. The result of the helper is dropped. -/
def outputAtIndex (index : Nat) (data : List UInt8) (flags : Nat) : Call :=
  ⟨(flags <<< 32) ||| index, data⟩

/-- `output` (perf_event_array.rs:32-34, perf_event_byte_array.rs:28-30, btf_maps/perf_event_array.rs:42-44). -/
def output (data : List UInt8) (flags : Nat) : Call := outputAtIndex currentCpu data flags

/-! ## The kernel (environment) -/

/-- A perf buffer: the CPU it was opened for, the records written so far and the number of records that did not fit since the last
one written. -/
structure Buf where
  cpu : Nat
  written : List KRec
  lost : Nat
  deriving DecidableEq, Repr

/-- The array, with one slot per CPU, and the buffers in the order they were opened. -/
structure World where
  cpus : Nat
  slots : List (Option Nat)
  bufs : List Buf
  deriving DecidableEq, Repr

/-- Which helper: that of tracing programs (`kernel/trace/bpf_trace.c`) or that of programs on packets (`net/core/filter.c`), which can
append bytes of the packet. -/
inductive Kind where
  | tracing
  | packet (bytes : List UInt8)
  deriving DecidableEq, Repr

/-- Bytes appended according to the upper half of the flags; `none`: refused. -/
def appended : Kind → Nat → Option (List UInt8)
  | .tracing, hi => if hi = 0 then some [] else none
  | .packet bs, hi => if hi < 2 ^ 20 ∧ hi ≤ bs.length then some (bs.take hi) else none

/-- A raw sample is padded so that it and its length field end at a multiple of 8 (`perf_sample_save_raw_data`). The padding is whatever
`pad` has. -/
def padded (pad : Nat → UInt8) (bs : List UInt8) : List UInt8 :=
  bs ++ (List.range ((8 - (bs.length + 4) % 8) % 8)).map pad

/-- Writing to a buffer (`perf_output_begin`): a record of the lost ones before the sample, or one more lost. -/
def put (b : Buf) (room : Bool) (bs : List UInt8) : Buf :=
  if room then
    { b with
      written := b.written ++ ((if b.lost = 0 then [] else [KRec.lost 0 0 b.lost []]) ++ [KRec.sample 0 bs])
      lost := 0 }
  else { b with lost := b.lost + 1 }

/-- `__bpf_perf_event_output` on CPU `cpu`. The records of a buffer can only be written on its CPU. -/
def kOutput (w : World) (kind : Kind) (cpu : Nat) (pad : Nat → UInt8) (room : Bool) (c : Call) : World :=
  match appended kind (c.flags / 2 ^ 32) with
  | none => w
  | some ctx =>
    let index := if c.flags % 2 ^ 32 = 4294967295 then cpu else c.flags % 2 ^ 32
    match w.slots[index]? with
    | some (some b) =>
      match w.bufs[b]? with
      | some buf =>
        if buf.cpu = cpu then { w with bufs := w.bufs.set b (put buf room (padded pad (c.data ++ ctx))) } else w
      | none => w
    | _ => w

/-- What happens. -/
inductive Op where
  /-- the process calls `PerfEventArray::open` -/
  | open (index : Nat)
  /-- a program on CPU `cpu` calls `output` -/
  | output (kind : Kind) (cpu : Nat) (pad : Nat → UInt8) (room : Bool) (data : List UInt8) (flags : Nat)
  /-- a program on CPU `cpu` calls `output_at_index` -/
  | outputAt (kind : Kind) (cpu : Nat) (pad : Nat → UInt8) (room : Bool) (index : Nat) (data : List UInt8) (flags : Nat)

/-- `PerfEventArray::open` (aya/src/maps/perf/perf_event_array.rs:222-238): a new buffer for the CPU of that number, put in the slot of
that number. Opening fails without effect if there is no such CPU. -/
def openBuf (w : World) (index : Nat) : World :=
  if index < w.cpus then
    { w with
      slots := w.slots.set index (some w.bufs.length)
      bufs := w.bufs ++ [⟨index, [], 0⟩] }
  else w

def step (w : World) : Op → World
  | .open index => openBuf w index
  | .output kind cpu pad room data flags => kOutput w kind cpu pad room (output data flags)
  | .outputAt kind cpu pad room index data flags => kOutput w kind cpu pad room (outputAtIndex index data flags)

def run (w : World) (ops : List Op) : World := ops.foldl step w

end Verif.Ebpf.Perf
