import Verif.Common.Except

/-!
# Memory shared with the kernel: the code

`MMap` (`/repo/aya/src/util.rs`), `RingBuf` (`/repo/aya/src/maps/ring_buf.rs`) and `PerfBuffer`
(`/repo/aya/src/maps/perf/perf_buffer.rs`), with every access to memory by address. The system is a parameter. Numbers of 64 bits are
natural numbers, and arithmetic is that of release builds. The values that loads give are arguments: they can be anything. Left
out: what fences order (C01 to C05), and that the kernel changes memory while it is borrowed as a slice.
-/
namespace Verif.Mapped

/-- An access to memory, of `len` bytes at `addr`, which must be a multiple of `align`. -/
structure Access where
  write : Bool
  addr : Nat
  len : Nat
  align : Nat
deriving DecidableEq, Repr

/-- The system, in state `σ`: `mmap` with descriptor, length, whether writable, and offset (the address is picked by the system); `munmap`;
    `close`; `perf_event_open` for a CPU; the ioctls that enable and disable an event; `BPF_MAP_UPDATE_ELEM` with descriptor, index and value;
    an access to memory. -/
structure Sys (σ : Type) where
  mmap : Nat → Nat → Bool → Nat → σ → Except Nat Nat × σ
  munmap : Nat → Nat → σ → σ
  close : Nat → σ → σ
  perfOpen : Nat → σ → Except Nat Nat × σ
  enable : Nat → σ → Except Nat Unit × σ
  disable : Nat → σ → σ
  update : Nat → Nat → Nat → σ → Except Nat Unit × σ
  access : Access → σ → σ

inductive Error where
  | mmap (errno : Nat)
  | null
  | pageCount (n : Nat)
  | event (errno : Nat)
  | enable (errno : Nat)
  | update (errno : Nat)
deriving DecidableEq, Repr

/-- `MMap`, util.rs:442-445. -/
structure MMap where
  ptr : Nat
  len : Nat
deriving DecidableEq, Repr

/-- `MMap::new`, util.rs:453-477. -/
def MMap.new {σ : Type} (S : Sys σ) (fd len : Nat) (write : Bool) (offset : Nat) (s : σ) : Except Error MMap × σ :=
  match S.mmap fd len write offset s with
  | (.error e, s) => (.error (.mmap e), s)
  | (.ok ptr, s) => if ptr = 0 then (.error .null, s) else (.ok ⟨ptr, len⟩, s)

/-- `MMap::drop`, util.rs:510-513. -/
def MMap.drop {σ : Type} (S : Sys σ) (m : MMap) (s : σ) : σ := S.munmap m.ptr m.len s

/-! ## Ring buffers -/

/-- `MapData`: the descriptor, and the number of entries of the definition. -/
structure Data where
  fd : Nat
  max : Nat
deriving DecidableEq, Repr

/-- `RingBuf`, with `ConsumerPos` and `ProducerData`: ring_buf.rs:91-95, 222-226, 257-269. `map` is the map, if it is owned; `item` the length of the
    item that is borrowed (`RingBufItem`, 161-164), if any. -/
structure Ring where
  map : Option Data
  consumer : MMap
  pos : Nat
  needsWakeup : Bool
  producer : MMap
  dataOffset : Nat
  posCache : Nat
  mask : Nat
  item : Option Nat
deriving DecidableEq, Repr

/-- The map is dropped if it was given by value. -/
def dropMap {σ : Type} (S : Sys σ) (owned : Bool) (d : Data) (s : σ) : σ := if owned then S.close d.fd s else s

/-- `RingBuf::new` (ring_buf.rs:98-111) with `ConsumerMetadata::new` (204-213), `ConsumerPos::new` (229-237) and `ProducerData::new`
    (272-324). `pos` and `produced` are the positions that are loaded. -/
def Ring.new {σ : Type} (S : Sys σ) (page : Nat) (owned : Bool) (d : Data) (pos produced : Nat) (s : σ) : Except Error Ring × σ :=
  match MMap.new S d.fd page true 0 s with
  | (.error e, s) => (.error e, dropMap S owned d s)
  | (.ok consumer, s) =>
      let s := S.access ⟨false, consumer.ptr, 8, 8⟩ s
      match MMap.new S d.fd (page + 2 * d.max) false page s with
      | (.error e, s) => (.error e, dropMap S owned d (consumer.drop S s))
      | (.ok producer, s) =>
          let s := S.access ⟨false, producer.ptr, 8, 8⟩ s
          (.ok { map := if owned then some d else none, consumer := consumer, pos := pos, needsWakeup := false, producer := producer,
                 dataOffset := page, posCache := produced, mask := (d.max + (2 ^ 32 - 1)) % 2 ^ 32, item := none }, s)

/-- The fields of a `RingBuf` are dropped in order. -/
def Ring.drop {σ : Type} (S : Sys σ) (r : Ring) (s : σ) : σ :=
  r.producer.drop S (r.consumer.drop S (match r.map with | some d => S.close d.fd s | none => s))

/-- `ConsumerPos::consume`, ring_buf.rs:239-254. -/
def Ring.consume {σ : Type} (S : Sys σ) (r : Ring) (len : Nat) (s : σ) : Ring × σ :=
  ({ r with pos := (r.pos + (8 + len + 7) / 8 * 8) % 2 ^ 64, needsWakeup := true }, S.access ⟨true, r.consumer.ptr, 8, 8⟩ s)

/-- `RingBufItem::drop`, ring_buf.rs:173-177. -/
def Ring.release {σ : Type} (S : Sys σ) (r : Ring) (s : σ) : Option (Ring × σ) :=
  match r.item with
  | none => none
  | some len => some (({ r with item := none } : Ring).consume S len s)

/-- What loads give in one round of the loop: the producer's position and a header. -/
structure Turn where
  produced : Nat
  header : BitVec 32
deriving DecidableEq, Repr

/-- What `next` gives: an item, with its address and length, or nothing; or it panics, or it is still in the loop. -/
inductive Got where
  | item (addr len : Nat)
  | nothing
  | panic
  | going
deriving DecidableEq, Repr

/-- `data_available`, ring_buf.rs:369-402. -/
def Ring.available {σ : Type} (S : Sys σ) (r : Ring) (produced : Nat) (s : σ) : Bool × Ring × σ :=
  if r.pos = r.posCache then
    (r.pos != produced, { r with needsWakeup := false, posCache := produced }, S.access ⟨false, r.producer.ptr, 8, 8⟩ s)
  else (true, r, s)

/-- `read_item`, ring_buf.rs:404-436: the header is at the position, cut to the mask. -/
def Ring.offset (r : Ring) : Nat := r.pos &&& r.mask

/-- The length of what is behind the first page, ring_buf.rs:339-345. -/
def Ring.dataLen (r : Ring) : Nat := r.producer.len - r.dataOffset

/-- `ProducerData::next`, ring_buf.rs:326-361, with `read_item`. A round of the loop for each turn. The panic of 339-345 is left out: the mapping
    is longer than a page. -/
def Ring.next {σ : Type} (S : Sys σ) : List Turn → Ring → σ → Got × Ring × σ
  | [], r, s => (.going, r, s)
  | t :: ts, r, s =>
      match r.available S t.produced s with
      | (false, r, s) => (.nothing, r, s)
      | (true, r, s) =>
          if r.offset + 4 > r.dataLen then (.panic, r, s)
          else
            let s := S.access ⟨false, r.producer.ptr + r.dataOffset + r.offset, 4, 4⟩ s
            let len := t.header.toNat &&& r.mask
            if t.header.getLsbD 31 then
              if r.needsWakeup then Ring.next S ts { r with needsWakeup := false } s else (.nothing, r, s)
            else if t.header.getLsbD 30 then
              match r.consume S len s with
              | (r, s) => Ring.next S ts r s
            else if r.offset + 8 + len > r.dataLen then (.panic, r, s)
            else
              (.item (r.producer.ptr + r.dataOffset + (r.offset + 8)) len, { r with item := some len },
                S.access ⟨false, r.producer.ptr + r.dataOffset + (r.offset + 8), len, 1⟩ s)

/-! ## Perf buffers -/

/-- `PerfBuffer`, perf_buffer.rs:98-103. -/
structure Perf where
  mmap : MMap
  size : Nat
  page : Nat
  fd : Nat
deriving DecidableEq, Repr

/-- A `PerfBuffer` is dropped: its `drop` (perf_buffer.rs:340-343), then its fields in order. -/
def Perf.drop {σ : Type} (S : Sys σ) (b : Perf) (s : σ) : σ := S.close b.fd (b.mmap.drop S (S.disable b.fd s))

/-- `usize::is_power_of_two`. -/
def isPowerOfTwo (n : Nat) : Bool := n != 0 && (n &&& (n - 1)) == 0

/-- `PerfBuffer::open`, perf_buffer.rs:106-145. -/
def Perf.open_ {σ : Type} (S : Sys σ) (cpu page pages : Nat) (s : σ) : Except Error Perf × σ :=
  if !isPowerOfTwo pages then (.error (.pageCount pages), s)
  else
    match S.perfOpen cpu s with
    | (.error e, s) => (.error (.event e), s)
    | (.ok fd, s) =>
        match MMap.new S fd ((page * pages % 2 ^ 64 + page) % 2 ^ 64) true 0 s with
        | (.error e, s) => (.error e, S.close fd s)
        | (.ok mmap, s) =>
            let b : Perf := { mmap := mmap, size := page * pages % 2 ^ 64, page := page, fd := fd }
            match S.enable fd s with
            | (.error e, s) => (.error (.enable e), b.drop S s)
            | (.ok (), s) => (.ok b, s)

/-- `PerfEventArray::open`, perf_event_array.rs:222-238. -/
def arrayOpen {σ : Type} (S : Sys σ) (array index page pages : Nat) (s : σ) : Except Error Perf × σ :=
  match Perf.open_ S index page pages s with
  | (.error e, s) => (.error e, s)
  | (.ok b, s) =>
      match S.update array index b.fd s with
      | (.error e, s) => (.error (.update e), b.drop S s)
      | (.ok (), s) => (.ok b, s)

/-- What loads give for one record, and what the caller's function does: the type and size of the record, the length of a sample; whether the
    function breaks off. -/
structure Rec where
  type : Nat
  size : Nat
  sample : Nat
  stop : Bool
deriving DecidableEq, Repr

/-- The start of the data, perf_buffer.rs:191-195. -/
def Perf.base (b : Perf) : Nat := b.mmap.ptr + b.page

/-- The bytes of a sample, perf_buffer.rs:258-279. -/
def Perf.sample {σ : Type} (S : Sys σ) (b : Perf) (start len : Nat) (s : σ) : σ :=
  if start + len ≥ b.size then
    S.access ⟨false, b.base, start + len - b.size, 1⟩ (S.access ⟨false, b.base + start, b.size - start, 1⟩ s)
  else S.access ⟨false, b.base + start, len, 1⟩ s

/-- The body of the loop, perf_buffer.rs:232-305. -/
def Perf.body {σ : Type} (S : Sys σ) (b : Perf) (tail : Nat) (e : Rec) (s : σ) : σ :=
  let start := tail % b.size
  let s := S.access ⟨false, b.base + start, 8, 4⟩ s
  if e.type = 9 then
    b.sample S ((start + 8 + 4) % b.size) e.sample (S.access ⟨false, b.base + (start + 8) % b.size, 4, 4⟩ s)
  else if e.type = 2 then S.access ⟨false, b.base + (start + 8 + 8) % b.size, 8, 8⟩ s
  else s

/-- The loop, perf_buffer.rs:231-311: where the tail is in the end, and whether it panics (a buffer of size zero: 232). A round for each record; no record
    left: it is still in the loop. -/
def Perf.loop {σ : Type} (S : Sys σ) (b : Perf) (head : Nat) : List Rec → Nat → σ → Bool × Nat × σ
  | [], tail, s => (false, tail, s)
  | e :: es, tail, s =>
      if tail = head then (false, tail, s)
      else if b.size = 0 then (true, tail, s)
      else if e.stop && (e.type == 9 || e.type == 2) then (false, (tail + e.size) % 2 ^ 64, b.body S tail e s)
      else Perf.loop S b head es ((tail + e.size) % 2 ^ 64) (b.body S tail e s)

/-- `try_fold`, perf_buffer.rs:201-314, with `data_head` (155-165), `data_tail` (169-174) and `data_tail_ptr` (180-188): the two are 1024 and 1032 bytes
    into the first page. `fold` (316-323) and `for_each` (325-330) are the same with a function that never breaks off. -/
def Perf.fold {σ : Type} (S : Sys σ) (b : Perf) (head tail : Nat) (es : List Rec) (s : σ) : Bool × σ :=
  let s := S.access ⟨false, b.mmap.ptr + 1032, 8, 8⟩ (S.access ⟨false, b.mmap.ptr + 1024, 8, 8⟩ s)
  match b.loop S head es tail s with
  | (panics, tail', s) => (panics, if tail' ≠ tail then S.access ⟨true, b.mmap.ptr + 1032, 8, 8⟩ s else s)

end Verif.Mapped
