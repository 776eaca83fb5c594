import Verif.Common.Bytes
/-!
# Model of `aya/src/maps/perf/perf_buffer.rs`

`data_head`/`data_tail` are `u64`s that wrap at 2^64. The data pages are `size` bytes; a read that
does not lie inside them is the error `oob`. The model is of a release build: the `debug_assert`s of
lines 234, 261 and 305 are not modelled.
-/
namespace Verif.Perf
open Verif.Bytes

/-- `PerfEvent`, aya/src/maps/perf/perf_buffer.rs:76-95. -/
inductive PEvent where
  | sample (head tail : List UInt8)
  | lost (count : Nat)
  deriving DecidableEq, Repr

/-- `n` bytes at offset `off` of the data pages; `none` if they do not all lie inside. -/
def peek (mem : Nat → UInt8) (size off n : Nat) : Option (List UInt8) :=
  if off + n ≤ size then some ((List.range n).map (fun j => mem (off + j))) else none

def PERF_RECORD_LOST : Nat := 2
def PERF_RECORD_SAMPLE : Nat := 9

/-- One iteration of the loop of `try_fold` up to the callback,
aya/src/maps/perf/perf_buffer.rs:231-308: the new local tail and the event to hand out (`none` for
other record types). `none` overall: a read outside the mapping. -/
def readEvent (mem : Nat → UInt8) (size tail : Nat) : Option (Nat × Option PEvent) :=
  let eventStart := tail % size
  match peek mem size eventStart 8 with
  | none => none
  | some hdr =>
    let type_ := ofLe (hdr.take 4)
    let evSize := ofLe (hdr.drop 6)
    let tail := (tail + evSize) % 2 ^ 64
    if type_ = PERF_RECORD_SAMPLE then
      match peek mem size ((eventStart + 8) % size) 4 with
      | none => none
      | some sz =>
        let sampleSize := ofLe sz
        let sampleStart := (eventStart + 8 + 4) % size
        if size ≤ sampleStart + sampleSize then
          let second := sampleStart + sampleSize - size
          let first := size - sampleStart
          match peek mem size sampleStart first, peek mem size 0 second with
          | some h, some t => some (tail, some (.sample h t))
          | _, _ => none
        else
          match peek mem size sampleStart sampleSize with
          | some h => some (tail, some (.sample h []))
          | none => none
    else if type_ = PERF_RECORD_LOST then
      match peek mem size ((eventStart + 8 + 8) % size) 8 with
      | some c => some (tail, some (.lost (ofLe c)))
      | none => none
    else some (tail, none)

/-- `ControlFlow<B, C>`. A panic of the callback runs the same guard as `Break`. -/
inductive Flow (β γ : Type) where
  | brk (b : β)
  | cont (c : γ)
  deriving DecidableEq, Repr

/-- Result of `try_fold`: the tail stored for the kernel by the guard (lines 216-226; storing the
unchanged tail is the same as not storing), and the value returned. -/
inductive Outcome (β γ : Type) where
  | done (tail : Nat) (r : Flow β γ)
  | oob
  /-- the loop did not end within the fuel -/
  | running
  deriving DecidableEq, Repr

/-- `PerfBuffer::try_fold`, aya/src/maps/perf/perf_buffer.rs:201-314; `head` is the snapshot of
line 207. -/
def tryFold {β γ : Type} (mem : Nat → UInt8) (size head : Nat) (f : γ → PEvent → Flow β γ) :
    Nat → Nat → γ → Outcome β γ
  | 0, tail, acc => if tail = head then .done tail (.cont acc) else .running
  | fuel + 1, tail, acc =>
    if tail = head then .done tail (.cont acc)
    else
      match readEvent mem size tail with
      | none => .oob
      | some (tail, none) => tryFold mem size head f fuel tail acc
      | some (tail, some ev) =>
        match f acc ev with
        | .cont acc => tryFold mem size head f fuel tail acc
        | .brk b => .done tail (.brk b)

/-- `PerfBuffer::open`'s check of the page count, aya/src/maps/perf/perf_buffer.rs:111-113. -/
def openAccepts (pageCount : Nat) : Bool := pageCount != 0 && (pageCount &&& (pageCount - 1)) == 0

end Verif.Perf
