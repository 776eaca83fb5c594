import Verif.Mapped.Model

/-!
# Memory shared with the kernel: the system

The memory of a process is a map from addresses to whether they can be written; an access elsewhere is a fault, counted. What is
mapped before is arbitrary.
-/
namespace Verif.Mapped.Spec
open Verif.Mapped (Sys Access)

/-- What a descriptor is: a ring buffer map with a size, or an event. -/
inductive Obj where
  | ring (size : Nat)
  | event
  | other
deriving DecidableEq, Repr

/-- `on`: the events that are enabled, by descriptor; one that is closed while enabled and still in an array stays on. -/
structure K where
  mem : Nat → Option Bool
  fds : Nat → Option Obj
  on : Nat → Bool := fun _ => false
  faults : Nat := 0

/-- Calls that can fail for lack of memory and the like. -/
inductive Call where
  | mmap (write : Bool)
  | perfOpen
  | enable
  | update
deriving DecidableEq, Repr

/-- Rounded up to pages. -/
def up (page len : Nat) : Nat := (len + page - 1) / page * page

/-- All bytes of an access can be read, and written if it is a write; the address is aligned. -/
def Right (mem : Nat → Option Bool) (a : Access) : Prop :=
  a.addr % a.align = 0 ∧ ∀ x, a.addr ≤ x → x < a.addr + a.len → ∃ w, mem x = some w ∧ (a.write = true → w = true)

open Classical in
/-- An access. -/
noncomputable def K.access (k : K) (a : Access) : K := if Right k.mem a then k else { k with faults := k.faults + 1 }

def isPower (n : Nat) : Prop := ∃ m, n = 2 ^ m

/-- What can be mapped of a file: of a ring buffer one page at 0, writable, or anything of the pages behind (one page and the data twice)
    read-only; of an event the first page and zero pages or a power of two. -/
def Allowed (page : Nat) (len : Nat) (write : Bool) (offset : Nat) : Obj → Prop
  | .ring size =>
      if write then offset = 0 ∧ up page len = page else offset % page = 0 ∧ 0 < len ∧ offset + up page len ≤ page + page + 2 * size
  | .event => offset = 0 ∧ ∃ n, (n = 0 ∨ isPower n) ∧ up page len = page + n * page
  | .other => False

open Classical in
/-- Linux. `place` picks addresses, `fresh` descriptors; `fault` makes calls fail. -/
noncomputable def sys (page : Nat) (place : (Nat → Option Bool) → Nat → Option Nat) (fresh : (Nat → Option Obj) → Option Nat)
    (fault : Call → Option Nat) : Sys K where
  mmap fd len write offset k :=
    match fault (.mmap write), k.fds fd with
    | some e, _ => (.error e, k)
    | none, none => (.error 9, k)
    | none, some x =>
        if Allowed page len write offset x then
          match place k.mem (up page len) with
          | none => (.error 12, k)
          | some a => (.ok a, { k with mem := fun x => if a ≤ x ∧ x < a + up page len then some write else k.mem x })
        else (.error 22, k)
  munmap addr len k := { k with mem := fun x => if addr ≤ x ∧ x < addr + up page len then none else k.mem x }
  close fd k := { k with fds := fun x => if x = fd then none else k.fds x }
  perfOpen _ k :=
    match fault .perfOpen, fresh k.fds with
    | some e, _ => (.error e, k)
    | none, none => (.error 24, k)
    | none, some fd =>
        (.ok fd, { k with fds := fun x => if x = fd then some .event else k.fds x, on := fun x => if x = fd then false else k.on x })
  enable fd k :=
    match fault .enable with
    | some e => (.error e, k)
    | none => (.ok (), { k with on := fun x => if x = fd then true else k.on x })
  disable fd k := { k with on := fun x => if x = fd then false else k.on x }
  update _ _ _ k :=
    match fault .update with
    | some e => (.error e, k)
    | none => (.ok (), k)
  access a k := k.access a

/-- Addresses are picked from what is free, in pages, and are not 0. -/
def Places (page : Nat) (place : (Nat → Option Bool) → Nat → Option Nat) : Prop :=
  ∀ mem len a, place mem len = some a → 0 < a ∧ a % page = 0 ∧ ∀ x, a ≤ x → x < a + len → mem x = none

/-- Descriptors are picked from what is free. -/
def Fresh (fresh : (Nat → Option Obj) → Option Nat) : Prop := ∀ fds n, fresh fds = some n → fds n = none

/-- A page is a power of two of at least 4096 bytes. -/
def PageOk (page : Nat) : Prop := ∃ m, 12 ≤ m ∧ m ≤ 20 ∧ page = 2 ^ m

/-- How a process starts: no fault yet, and what is enabled is open. -/
def Clean (k : K) : Prop := k.faults = 0 ∧ ∀ f, k.on f = true → (k.fds f).isSome

/-- Where a record at a position is in a ring buffer of a size: after the first page. -/
def recordAt (page size pos : Nat) : Nat := page + pos % size

/-! ## What is done -/

/-- Maps and buffers have names: the first thing made is 0, the next 1, and so on. -/
inductive Op where
  /-- a ring buffer map of a size, believed to have another (or the same) -/
  | map (size believed : BitVec 32)
  /-- a `RingBuf` of it, made from the map itself or from a reference; the positions found there -/
  | ring (h : Nat) (owned : Bool) (pos produced : Nat)
  | next (h : Nat) (turns : List Turn)
  /-- the item is dropped -/
  | release (h : Nat)
  /-- `PerfEventArray::open` -/
  | perf (array index : Nat) (pages : BitVec 64)
  | fold (h head tail : Nat) (records : List Rec)
  | drop (h : Nat)
deriving DecidableEq, Repr

inductive Res where
  | done
  | failed (e : Error)
  | got (g : Got)
  | panicked
  /-- there is no such thing, or it is borrowed -/
  | nothing
deriving DecidableEq, Repr

/-- What the kernel promises of values that are read: positions in ring buffers are multiples of 8, and 64 bits; perf records are as
    long as a multiple of 8, and samples no longer than the buffer, which has `size` bytes. -/
def Sound (size : Nat → Nat) : Op → Prop
  | .ring _ _ pos _ => pos % 8 = 0
  | .fold h _ tail records => tail % 8 = 0 ∧ ∀ e ∈ records, e.size % 8 = 0 ∧ (e.type = 9 → e.sample ≤ size h)
  | _ => True

end Verif.Mapped.Spec
