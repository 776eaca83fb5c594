import Verif.RingBuf.Model
/-!
# Model of ring buffer output in eBPF programs

`ebpf/aya-ebpf/src/maps/ring_buf.rs` and `ebpf/aya-ebpf/src/btf_maps/ring_buf.rs`, over the kernel and the reader of
`Verif.RingBuf.Model`: any number of programs write while the process reads.

A record is handed to a program as a pointer into the data area of the ring, which the kernel maps twice, so that a record is
contiguous for the program. The area starts at `base`, which is not 0.
-/
namespace Verif.Ebpf.Ring
open Verif.RingBuf

/-! ## Helpers of the kernel (environment, `kernel/bpf/ringbuf.c`) -/

/-- A call of a helper. -/
inductive Call where
  | reserve (size flags : Nat)
  | submit (ptr flags : Nat)
  | discard (ptr flags : Nat)
  | output (data : List UInt8) (flags : Nat)
  deriving DecidableEq, Repr

/-- The pointer handed out for a record (`__bpf_ringbuf_reserve`: `(void *)hdr + BPF_RINGBUF_HDR_SZ`). -/
def sampleAt (base size : Nat) (r : Rec) : Nat := base + (r.start + kHdrSz) % size

/-- The record a pointer refers to (`bpf_ringbuf_commit`: `sample - BPF_RINGBUF_HDR_SZ`). The verifier only lets pointers of reserved
records pass. -/
def recordOf (base size : Nat) (s : Sys) (ptr : Nat) : Option Nat :=
  s.recs.findIdx? (fun r => r.status == .busy && sampleAt base size r == ptr)

/-- `__bpf_ringbuf_reserve`: the pointer to the new record, or null. Flags must be 0. `pg` is what the kernel writes besides the length. -/
def kReserve (base size : Nat) (s : Sys) (n flags pg : Nat) : Nat × Sys :=
  if flags ≠ 0 then (0, s)
  else match kstep size s (.reserve n pg) with
    | none => (0, s)
    | some s' => (base + (s.prod + kHdrSz) % size, s')

/-- `bpf_ringbuf_commit` up to the exchange of the header. `none`: not a reserved record. Flags only matter for the notification, which
is a later step: `Op.check`. With `BPF_RB_NO_WAKEUP` that step is never made, with `BPF_RB_FORCE_WAKEUP` there is also an
`Op.spurious`. -/
def kCommit (base size : Nat) (s : Sys) (ptr : Nat) (discard : Bool) : Option Sys :=
  (recordOf base size s ptr).bind (fun i => kstep size s (.commit i discard))

/-- A store through the pointer of a reserved record. -/
def kStore (base size : Nat) (s : Sys) (ptr off : Nat) (b : UInt8) : Option Sys :=
  (recordOf base size s ptr).bind (fun i => kstep size s (.write i off b))

/-! ## The library -/

/-- `RingBufBytes` and `RingBufEntry<T>` (maps/ring_buf.rs:35, 80): a slice. -/
structure Entry where
  ptr : Nat
  len : Nat
  deriving DecidableEq, Repr

/-- `RingBufBytes::from_raw` (maps/ring_buf.rs:54-58) and `RingBufEntry::from_raw` (99-101). -/
def fromRaw (ptr size : Nat) : Option Entry := if ptr = 0 then none else some ⟨ptr, size⟩

/-- `reserve_bytes` (maps/ring_buf.rs:146-150, btf_maps/ring_buf.rs:32-35): the call made. -/
def reserveCall (size flags : Nat) : Call := .reserve size flags

/-- `submit` (maps/ring_buf.rs:61-64, 110-113): the call made. -/
def submitCall (e : Entry) (flags : Nat) : Call := .submit e.ptr flags

/-- `discard` (maps/ring_buf.rs:67-70, 104-107): the call made. -/
def discardCall (e : Entry) (flags : Nat) : Call := .discard e.ptr flags

/-- `output` (maps/ring_buf.rs:199-208, btf_maps/ring_buf.rs:111-120): the call made, `none` if the assertion fails. `align` is the
alignment of the data. -/
def outputCall (align : Nat) (data : List UInt8) (flags : Nat) : Option Call :=
  if 8 % align = 0 then some (.output data flags) else none

/-- `reserve::<T>` (maps/ring_buf.rs:172-182, btf_maps/ring_buf.rs:80-89): the call made, `none` if the assertion fails.
With `generic_const_exprs` (156-161) the assertion is made by the compiler. -/
def reserveTyped (align size flags : Nat) : Option Call :=
  if 8 % align = 0 then some (.reserve size flags) else none

/-- The end of `output` (maps/ring_buf.rs:209, btf_maps/ring_buf.rs:121): the helper's result, an `i64`, as result of the call. -/
def outputResult (ret : Int) : Except Int Unit := if ret < 0 then .error (BitVec.ofInt 32 ret).toInt else .ok ()

/-! ## Programs, the kernel and the reader together -/

/-- What holds a record that is not yet committed: a value of a program, or a call of `bpf_ringbuf_output` that has copied some
bytes. Values are consumed by `submit` and `discard`. -/
inductive Slot where
  | entry (e : Entry)
  | copying (ptr : Nat) (data : List UInt8) (copied : Nat)
  | gone
  deriving DecidableEq, Repr

structure World where
  sys : Sys
  held : List Slot

/-- A step. Records are numbered in the order of their reservation. -/
inductive Op where
  /-- a program calls `reserve_bytes` -/
  | reserve (size flags pg : Nat)
  /-- a program calls `reserve::<T>` -/
  | reserveT (align size flags pg : Nat)
  /-- a program writes a byte of its entry -/
  | write (i off : Nat) (b : UInt8)
  | submit (i flags : Nat)
  | discard (i flags : Nat)
  /-- a program calls `output` -/
  | output (align : Nat) (data : List UInt8) (flags pg : Nat)
  /-- the kernel copies a byte for a call of `output` -/
  | copy (i : Nat)
  /-- the kernel commits the record of a call of `output`, which returns -/
  | finish (i : Nat)
  /-- the kernel decides about notifying the reader of a committed record -/
  | check (i : Nat)
  /-- the reader, or a store of the reader becoming visible, or another notification -/
  | reader (a : CAct)
  | flush
  | spurious
  deriving DecidableEq, Repr

/-- What the caller sees. -/
inductive Res where
  /-- an entry was reserved -/
  | reserved
  /-- `None` -/
  | full
  | done
  | failed (e : Int)
  | panicked
  /-- `output` has begun; the caller sees nothing yet -/
  | begun
  deriving DecidableEq, Repr

/-- Carrying out a call of `reserve`: the answer becomes an entry of `n` bytes. -/
def doReserve (base size : Nat) (w : World) (n : Nat) (pg : Nat) : Call → Option (World × Res)
  | .reserve len flags =>
    let (ptr, s) := kReserve base size w.sys len flags pg
    match fromRaw ptr n with
    | none => some ({ w with sys := s }, .full)
    | some e => some (⟨s, w.held ++ [.entry e]⟩, .reserved)
  | _ => none

/-- Carrying out a call of `submit` or `discard`. -/
def doCommit (base size : Nat) (w : World) (i : Nat) : Call → Option (World × Res)
  | .submit ptr _ => (kCommit base size w.sys ptr false).map fun s => (⟨s, w.held.set i .gone⟩, .done)
  | .discard ptr _ => (kCommit base size w.sys ptr true).map fun s => (⟨s, w.held.set i .gone⟩, .done)
  | _ => none

/-- The beginning of a call of `output` (`bpf_ringbuf_output`): reserving, or returning `-EAGAIN` (11). With unknown flags the kernel
returns `-EINVAL` (22). -/
def doOutput (base size : Nat) (w : World) (pg : Nat) : Call → Option (World × Res)
  | .output data flags =>
    if 4 ≤ flags then
      match outputResult (-22) with
      | .error e => some (w, .failed e)
      | .ok _ => some (w, .done)
    else
      let (ptr, s) := kReserve base size w.sys data.length 0 pg
      if ptr = 0 then
        match outputResult (-11) with
        | .error e => some (w, .failed e)
        | .ok _ => some (w, .done)
      else some (⟨s, w.held ++ [.copying ptr data 0]⟩, .begun)
  | _ => none

/-- A step; `none`: it is not possible. -/
def wstep (base size : Nat) (w : World) : Op → Option (World × Res)
  | .reserve n flags pg => doReserve base size w n pg (reserveCall n flags)
  | .reserveT align n flags pg =>
    match reserveTyped align n flags with
    | none => some (w, .panicked)
    | some c => doReserve base size w n pg c
  | .write i off b =>
    match w.held[i]? with
    | some (.entry e) =>
      if off < e.len then (kStore base size w.sys e.ptr off b).map fun s => ({ w with sys := s }, .done)
      else some (w, .panicked)
    | _ => none
  | .submit i flags =>
    match w.held[i]? with
    | some (.entry e) => doCommit base size w i (submitCall e flags)
    | _ => none
  | .discard i flags =>
    match w.held[i]? with
    | some (.entry e) => doCommit base size w i (discardCall e flags)
    | _ => none
  | .output align data flags pg =>
    match outputCall align data flags with
    | none => some (w, .panicked)
    | some c => doOutput base size w pg c
  | .copy i =>
    match w.held[i]? with
    | some (.copying ptr data n) =>
      match data[n]? with
      | some b => (kStore base size w.sys ptr n b).map fun s => (⟨s, w.held.set i (.copying ptr data (n + 1))⟩, .begun)
      | none => none
    | _ => none
  | .finish i =>
    match w.held[i]? with
    | some (.copying ptr data n) =>
      if n = data.length then (kCommit base size w.sys ptr false).map fun s => (⟨s, w.held.set i .gone⟩, .done)
      else none
    | _ => none
  | .check i => (kstep size w.sys (.check i)).map fun s => ({ w with sys := s }, .done)
  | .reader a => (cstep size w.sys a).map fun s => ({ w with sys := s }, .done)
  | .flush => (kstep size w.sys .flush).map fun s => ({ w with sys := s }, .done)
  | .spurious => (kstep size w.sys .spurious).map fun s => ({ w with sys := s }, .done)

/-- A run: the steps made with what the callers saw. -/
def wrun (base size : Nat) (w : World) : List Op → Option (World × List (Op × Res))
  | [] => some (w, [])
  | o :: os =>
    match wstep base size w o with
    | none => none
    | some (w', r) => (wrun base size w' os).map fun (w'', l) => (w'', (o, r) :: l)

end Verif.Ebpf.Ring
