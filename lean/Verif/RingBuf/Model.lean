import Verif.Common.Bytes
/-!
# Model of the ring buffer consumer, `aya/src/maps/ring_buf.rs`

The consumer is a small-step machine: one step per access to memory shared with the kernel (load of
the producer position, load of a record header, store of the consumer position, fence). Local
computation is merged into the adjacent step. The store of the consumer position goes through a
store buffer (the strongest reordering an x86 CPU, and the one that matters on any CPU, can apply to
"store, then load"): it becomes visible to the kernel at an arbitrary later `flush`, or before a
`fence(SeqCst)` completes.

The second half of the file is the environment: the kernel's producer side
(kernel/bpf/ringbuf.c: `__bpf_ringbuf_reserve`, `bpf_ringbuf_commit`), with BPF programs writing into
their reservations. It is an assumption about the kernel, not code of aya.

Simplifications: positions are unbounded (`usize` would wrap after 2^64 bytes); the bytes of the
double mapping are read modulo the ring size; a kernel `reserve` takes effect in one step at the
moment its producer position becomes visible.
-/
namespace Verif.RingBuf
open Verif.Bytes

/-- `BPF_RINGBUF_BUSY_BIT`, `BPF_RINGBUF_DISCARD_BIT`, `BPF_RINGBUF_HDR_SZ`
(aya-obj/src/generated). -/
def busyBit : Nat := 2 ^ 31
def discardBit : Nat := 2 ^ 30
def hdrSz : Nat := 8

/-- `usize::next_multiple_of(8)`. -/
def nextMultipleOf8 (n : Nat) : Nat := (n + 7) / 8 * 8

/-- Byte of the double-mapped data area at offset `x`. -/
def byteAt (mem : Nat → UInt8) (size x : Nat) : UInt8 := mem (x % size)

/-- `n` consecutive bytes of the double-mapped data area. -/
def readBytes (mem : Nat → UInt8) (size x n : Nat) : List UInt8 :=
  (List.range n).map (fun j => byteAt mem size (x + j))

/-- `enum Item`, aya/src/maps/ring_buf.rs:363-367, with the panic of `must_get_data` added. -/
inductive Item where
  | busy
  | discard (len : Nat)
  | data (bytes : List UInt8)
  | panic
  deriving DecidableEq, Repr

/-- `read_item`, aya/src/maps/ring_buf.rs:404-436. The data slice is `2 * size` bytes long
(line 307); both `must_get_data` calls are checked against that. `mask` is line 317. -/
def readItem (mem : Nat → UInt8) (size pos : Nat) : Item :=
  let mask := size - 1
  let offset := pos &&& mask
  if offset + 4 ≤ 2 * size then
    let header := ofLe (readBytes mem size offset 4)
    if header &&& busyBit ≠ 0 then .busy
    else
      let len := header &&& mask
      if header &&& discardBit ≠ 0 then .discard len
      else if offset + hdrSz + len ≤ 2 * size then
        .data (readBytes mem size (offset + hdrSz) len)
      else .panic
  else .panic

/-- Where the consumer is in its code. `idle`: not inside `next`, no item held. -/
inductive Pc where
  /-- no `RingBuf` value exists -/
  | absent
  /-- in `RingBuf::new` (97-111), consumer position loaded, producer position not yet -/
  | creating
  | idle
  /-- before the fence at line 385 -/
  | daFence
  /-- before the load at line 388 -/
  | daLoad
  /-- before the header load at line 423 -/
  | readHdr
  /-- before the fence at line 354 -/
  | busyFence
  /-- `next` returned this item and it has not been dropped -/
  | held (data : List UInt8)
  | panicked
  deriving DecidableEq, Repr

/-- Local state of the consumer: `ConsumerPos.pos`, `ConsumerPos.needs_wakeup`,
`ProducerData.pos_cache` (aya/src/maps/ring_buf.rs:222-226, 257-269). -/
structure Consumer where
  pos : Nat
  cache : Nat
  needsWakeup : Bool
  pc : Pc
  deriving DecidableEq, Repr

/-- The start of `data_available` up to its first shared access or to its result,
aya/src/maps/ring_buf.rs:381-401, as entered from the loop head of `next` (line 346). -/
def enterLoop (c : Consumer) : Consumer :=
  if c.pos = c.cache then
    if c.needsWakeup then { c with pc := .daFence } else { c with pc := .daLoad }
  else { c with pc := .readHdr }

/-- Record status in the kernel's history (ghost): being written; committed but the committing CPU
has not yet decided about the notification; committed. The flag tells discarded from submitted. -/
inductive Status where
  | busy
  | pending (discarded : Bool)
  | done (discarded : Bool)
  deriving DecidableEq, Repr

/-- A reservation: position, requested length, status, and the content of its data area as the BPF
program sees it. -/
structure Rec where
  start : Nat
  len : Nat
  status : Status
  content : List UInt8
  deriving DecidableEq, Repr

/-- Whole system: shared memory, the consumer's store buffer (oldest first), the consumer, and
ghost state (the kernel's reservation history, data returned by `next` so far, whether a notification
was sent since the last decision to return `None`, whether the last thing the consumer did was to
return `None`). -/
structure Sys where
  mem : Nat → UInt8
  prod : Nat
  consMem : Nat
  buf : List Nat
  con : Consumer
  recs : List Rec
  delivered : List (List UInt8)
  notified : Bool
  sleeping : Bool

/-- `ConsumerPos::consume`, aya/src/maps/ring_buf.rs:239-254; the store enters the store buffer. -/
def consume (s : Sys) (len : Nat) : Sys :=
  let pos := s.con.pos + nextMultipleOf8 (hdrSz + len)
  { s with
    con := { s.con with pos := pos, needsWakeup := true }
    buf := s.buf ++ [pos] }

/-- `next` returns `None` (lines 350, 361): ghost bookkeeping only. -/
def returnNone (s : Sys) : Sys :=
  { s with con := { s.con with pc := .idle }, sleeping := true, notified := false }

/-- Steps of the consumer. -/
inductive CAct where
  /-- `RingBuf::new`, first load (line 231) -/
  | newPos
  /-- `RingBuf::new`, second load (line 312) -/
  | newCache
  /-- the `RingBuf` is dropped (allowed only with the store buffer drained: unmapping is a system
  call) -/
  | destroy
  /-- `RingBuf::next` is called -/
  | callNext
  /-- the fence of line 385 -/
  | daFence
  /-- the load of line 388 and the comparison of line 401 -/
  | daLoad
  /-- the header load of line 423 and the match of lines 347-359 -/
  | readHdr
  /-- the fence of line 354 -/
  | busyFence
  /-- the item is dropped (lines 173-178) -/
  | drop
  deriving DecidableEq, Repr

/-- One consumer step; `none` when the action does not apply. Fences complete only when the store
buffer is empty. -/
def cstep (size : Nat) (s : Sys) : CAct → Option Sys
  | .newPos =>
    if s.con.pc = .absent then
      some { s with con := { s.con with pos := s.consMem, needsWakeup := false, pc := .creating } }
    else none
  | .newCache =>
    if s.con.pc = .creating then
      some { s with con := { s.con with cache := s.prod, pc := .idle } }
    else none
  | .destroy =>
    if s.con.pc = .idle ∧ s.buf = [] then
      some { s with con := { s.con with pc := .absent }, sleeping := false }
    else none
  | .callNext =>
    if s.con.pc = .idle then some { s with con := enterLoop s.con, sleeping := false } else none
  | .daFence =>
    if s.con.pc = .daFence ∧ s.buf = [] then
      some { s with con := { s.con with needsWakeup := false, pc := .daLoad } }
    else none
  | .daLoad =>
    if s.con.pc = .daLoad then
      let s := { s with con := { s.con with cache := s.prod } }
      if s.con.pos ≠ s.con.cache then some { s with con := { s.con with pc := .readHdr } }
      else some (returnNone s)
    else none
  | .readHdr =>
    if s.con.pc = .readHdr then
      match readItem s.mem size s.con.pos with
      | .busy =>
        if s.con.needsWakeup = false then some (returnNone s)
        else some { s with con := { s.con with pc := .busyFence } }
      | .discard len =>
        let s := consume s len
        some { s with con := enterLoop s.con }
      | .data bytes =>
        some { s with con := { s.con with pc := .held bytes }, delivered := s.delivered ++ [bytes] }
      | .panic => some { s with con := { s.con with pc := .panicked } }
    else none
  | .busyFence =>
    if s.con.pc = .busyFence ∧ s.buf = [] then
      let s := { s with con := { s.con with needsWakeup := false } }
      some { s with con := enterLoop s.con }
    else none
  | .drop =>
    match s.con.pc with
    | .held data =>
      let s := consume s data.length
      some { s with con := { s.con with pc := .idle } }
    | _ => none

/-! ## Environment: store buffer and kernel producer

The kernel's constants and address computation are defined again here, so that the two sides agree by
proof and not by sharing a definition. -/

/-- `BPF_RINGBUF_HDR_SZ`, `BPF_RINGBUF_BUSY_BIT`, `BPF_RINGBUF_DISCARD_BIT` (include/uapi/linux/bpf.h). -/
def kHdrSz : Nat := 8
def kBusyBit : Nat := 2147483648
def kDiscardBit : Nat := 1073741824

/-- `round_up(n, 8)`. -/
def kRoundUp8 (n : Nat) : Nat := if n % 8 = 0 then n else n + (8 - n % 8)

/-- Bytes of the ring from logical position `p` on. -/
def kBytes (mem : Nat → UInt8) (size p n : Nat) : List UInt8 :=
  (List.range n).map (fun j => mem ((p + j) % size))

/-- Bytes written at logical position `p` of the ring. -/
def writeBytes (mem : Nat → UInt8) (size p : Nat) (bs : List UInt8) : Nat → UInt8 :=
  fun x => (bs[(x + (size - p % size)) % size]?).getD (mem x)

/-- Header word of a record. -/
def Rec.header (r : Rec) : Nat :=
  match r.status with
  | .busy => r.len + kBusyBit
  | .pending d | .done d => r.len + if d then kDiscardBit else 0

/-- Steps of the environment. `reserve` carries the requested length and the second header word. -/
inductive KAct where
  /-- the oldest buffered store of the consumer becomes visible -/
  | flush
  /-- `bpf_ringbuf_reserve(len)` succeeds -/
  | reserve (len : Nat) (pgOff : Nat)
  /-- the BPF program writes a byte of its reservation -/
  | write (i j : Nat) (b : UInt8)
  /-- `bpf_ringbuf_submit` / `bpf_ringbuf_discard`: the header exchange -/
  | commit (i : Nat) (discard : Bool)
  /-- the committing CPU compares the consumer position and maybe notifies -/
  | check (i : Nat)
  /-- any other notification (forced wake-up) -/
  | spurious
  deriving DecidableEq, Repr

/-- One environment step. `reserve` succeeds only if the record and everything not yet released fit
in the ring (kernel: `new_prod_pos - cons_pos <= mask`) and the length is at most
`RINGBUF_MAX_RECORD_SZ` (< 2^30). -/
def kstep (size : Nat) (s : Sys) : KAct → Option Sys
  | .flush =>
    match s.buf with
    | [] => none
    | p :: rest => some { s with consMem := p, buf := rest }
  | .reserve len pgOff =>
    let sz := kRoundUp8 (kHdrSz + len)
    if len < 2 ^ 30 ∧ s.prod + sz < s.consMem + size then
      let mem := writeBytes s.mem size s.prod (le 4 (len + kBusyBit) ++ le 4 pgOff)
      some { s with
        mem := mem
        prod := s.prod + sz
        recs := s.recs ++ [⟨s.prod, len, .busy, kBytes mem size (s.prod + kHdrSz) len⟩] }
    else none
  | .write i j b =>
    match s.recs[i]? with
    | some r =>
      if r.status = .busy ∧ j < r.len then
        some { s with
          mem := writeBytes s.mem size (r.start + kHdrSz + j) [b]
          recs := s.recs.set i { r with content := r.content.set j b } }
      else none
    | none => none
  | .commit i d =>
    match s.recs[i]? with
    | some r =>
      if r.status = .busy then
        some { s with
          mem := writeBytes s.mem size r.start (le 4 (r.len + if d then kDiscardBit else 0))
          recs := s.recs.set i { r with status := .pending d } }
      else none
    | none => none
  | .check i =>
    match s.recs[i]? with
    | some r =>
      match r.status with
      | .pending d =>
        some { s with
          recs := s.recs.set i { r with status := .done d }
          notified := s.notified || (s.consMem % size == r.start % size) }
      | _ => none
    | none => none
  | .spurious => some { s with notified := true }

/-- A step of the system. -/
inductive Act where
  | c (a : CAct)
  | k (a : KAct)
  deriving DecidableEq, Repr

def step (size : Nat) (s : Sys) : Act → Option Sys
  | .c a => cstep size s a
  | .k a => kstep size s a

/-- An empty ring at position `base` with arbitrary memory content and no `RingBuf` value yet. -/
def init (mem : Nat → UInt8) (base : Nat) : Sys :=
  { mem := mem, prod := base, consMem := base, buf := []
    con := { pos := base, cache := base, needsWakeup := false, pc := .absent }
    recs := [], delivered := [], notified := false, sleeping := false }

/-- Runs a schedule; `none` if some action does not apply. -/
def run (size : Nat) (s : Sys) : List Act → Option Sys
  | [] => some s
  | a :: as => (step size s a).bind (fun s => run size s as)

end Verif.RingBuf
