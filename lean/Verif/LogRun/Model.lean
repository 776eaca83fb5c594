import Verif.Log.Model
import Verif.Ebpf.RingModel
/-!
# Log statements of running programs, and the logger of the process

`aya-log-ebpf-macros/src/expand.rs`, `ebpf/aya-log-ebpf/src/lib.rs` and `aya-log/src/lib.rs` at work together: programs on any
number of CPUs execute log statements, byte by byte and interleaved in any way, while the process reads with `EbpfLogger`.

Records and texts are those of `Verif.Log.Model`, the ring buffer with its kernel side and its reader is that of
`Verif.Ebpf.RingModel`.
-/
namespace Verif.LogRun
open Verif.Bytes Verif.Log

abbrev Ring := Verif.Ebpf.Ring.World

/-- A log statement with the values of its arguments when it is executed: aya-log-ebpf-macros/src/expand.rs 11-17. -/
structure Stmt where
  header : Header
  format : List Char
  args : List Val
deriving DecidableEq, Repr

/-- The values of the statement, fixed when the program is compiled: aya-log-ebpf-macros/src/expand.rs 96-162.  `none`: there is no
such program. -/
def compile (utf8 : List Char → Bytes) (st : Stmt) : Option (List Item) :=
  match parse st.format with
  | .error _ => none
  | .ok fs =>
    match expand utf8 fs st.args with
    | none => none
    | some items => if items.length < 4294967296 then some items else none

/-- The three slices of a field (`Field::with_bytes`): aya-log-common/src/lib.rs 312-326.  `none`: `Field::new` fails. -/
def slicesOf (kv : UInt8 × Bytes) : Option (List Bytes) :=
  if kv.2.length < 65536 then some [[kv.1], le 2 kv.2.length, kv.2] else none

/-- The slices of all fields, in order (`Header::with_bytes`, aya-log-common/src/lib.rs 372-388, then the values:
aya-log-ebpf-macros/src/expand.rs 232-235). -/
def slices : List (UInt8 × Bytes) → Option (List Bytes)
  | [] => some []
  | kv :: r =>
    match slicesOf kv with
    | none => none
    | some a =>
      match slices r with
      | none => none
      | some b => some (a ++ b)

/-- Adding up the lengths: aya-log-ebpf-macros/src/expand.rs 197-205. -/
def measure (ss : List Bytes) : Nat := ss.foldl (fun n s => n + s.length) 2

/-- What a statement does before it reserves: aya-log-ebpf-macros/src/expand.rs 175-219, with `level_enabled` of
ebpf/aya-log-ebpf/src/lib.rs 37-40.  The bytes to ask for, and the slices to write: the size first (231), then the fields.  `none`:
the statement ends without reserving. -/
def prepare (enabled : Nat) (h : Header) (items : List Item) : Option (Nat × List Bytes) :=
  if h.level.byte.toNat ≤ enabled then
    match slices (recordFields h items) with
    | none => none
    | some ss =>
      if measure ss < 65536 then
        match capacityFor 9 64 (measure ss) with
        | none => none
        | some cap => some (cap, le 2 (measure ss) :: ss)
      else none
  else none

/-- A statement that has reserved, at work: aya-log-ebpf-macros/src/expand.rs 220-240.  `slot` is the entry it holds, `len` its length,
`pos` as at 223; `cur` is what remains to be copied of the slice being copied (227), `todo` the slices after it. -/
structure Thread where
  slot : Nat
  len : Nat
  pos : Nat
  cur : Bytes
  todo : List Bytes
deriving DecidableEq, Repr

/-- The process' logger. -/
inductive Logger where
  /-- can be used -/
  | working
  /-- `flush` panicked at `unwrap`, or the behaviour was undefined -/
  | stopped
deriving DecidableEq, Repr

structure State where
  ring : Ring
  threads : List (Option Thread)
  logger : Logger
  /-- what the logger was given, oldest first -/
  shown : List Shown

/-- A step. -/
inductive Op where
  /-- a program begins a log statement; `pg` is a word of the kernel's -/
  | log (st : Stmt) (pg : Nat)
  /-- the `k`-th statement that has reserved takes its next step -/
  | run (k : Nat)
  /-- the kernel decides about notifying the process of the `k`-th record -/
  | decide (k : Nat)
  /-- the process' `RingBuf` -/
  | reader (a : Verif.RingBuf.CAct)
  /-- a store of the process becomes visible -/
  | visible
  /-- a notification for another reason -/
  | spurious
deriving DecidableEq, Repr

/-- What is seen of a step from outside. -/
inductive Res where
  /-- the statement has its place in the ring -/
  | placed
  /-- the statement is over and left nothing -/
  | dropped
  /-- the statement goes on -/
  | going
  /-- its record is submitted, it is over -/
  | sent
  /-- its record is discarded, it is over -/
  | withdrawn
  | done
deriving DecidableEq, Repr

/-- The beginning of a statement, up to the reservation: aya-log-ebpf-macros/src/expand.rs 174-220. -/
def begin (base size enabled : Nat) (s : State) (h : Header) (items : List Item) (pg : Nat) : Option (State × Res) :=
  match prepare enabled h items with
  | none => some (s, .dropped)
  | some (cap, ss) =>
    match Verif.Ebpf.Ring.wstep base size s.ring (.reserve cap 0 pg) with
    | some (r, .reserved) =>
      some ({ s with ring := r, threads := s.threads ++ [some ⟨s.ring.held.length, cap, 0, [], ss⟩] }, .placed)
    | some (r, .full) => some ({ s with ring := r }, .dropped)
    | _ => none

/-- The next step of a statement that has reserved: a byte is copied (227), or the next slice is begun (225-226; 228 is folded into
the position), or the record is submitted (238) or discarded (239). -/
def continue_ (base size : Nat) (s : State) (k : Nat) (t : Thread) : Option (State × Res) :=
  match t.cur, t.todo with
  | b :: cur, _ =>
    match Verif.Ebpf.Ring.wstep base size s.ring (.write t.slot t.pos b) with
    | some (r, .done) =>
      some ({ s with ring := r, threads := s.threads.set k (some { t with pos := t.pos + 1, cur := cur }) }, .going)
    | _ => none
  | [], slice :: todo =>
    if t.pos + slice.length ≤ t.len then
      some ({ s with threads := s.threads.set k (some { t with cur := slice, todo := todo }) }, .going)
    else
      match Verif.Ebpf.Ring.wstep base size s.ring (.discard t.slot 0) with
      | some (r, .done) => some ({ s with ring := r, threads := s.threads.set k none }, .withdrawn)
      | _ => none
  | [], [] =>
    match Verif.Ebpf.Ring.wstep base size s.ring (.submit t.slot 0) with
    | some (r, .done) => some ({ s with ring := r, threads := s.threads.set k none }, .sent)
    | _ => none

/-- `log_buf(buf).unwrap()` in `flush`: aya-log/src/lib.rs 183-188.  A panic ends the use of the logger. -/
def handle (std : Std) (s : State) (buf : Bytes) : State :=
  match flushOne std buf with
  | .logged r => { s with shown := s.shown ++ [.logged r] }
  | .panic => { s with shown := s.shown ++ [.panic], logger := .stopped }
  | .ub => { s with shown := s.shown ++ [.ub], logger := .stopped }

/-- A step of the process' `RingBuf`: `EbpfLogger` makes it in `new` (aya-log/src/lib.rs 176-180) and in `flush` (183-188); when `next`
returns an item, it is handled before anything else.  Simplification: the logger takes no step once `flush` has panicked (nothing in
the crate catches the panic). -/
def read (base size : Nat) (std : Std) (s : State) (a : Verif.RingBuf.CAct) : Option (State × Res) :=
  match s.logger with
  | .stopped => none
  | .working =>
    match Verif.Ebpf.Ring.wstep base size s.ring (.reader a) with
    | some (r, .done) =>
      match a, r.sys.con.pc with
      | .readHdr, .held buf => some (handle std { s with ring := r } buf, .done)
      | _, _ => some ({ s with ring := r }, .done)
    | _ => none

/-- A step of the ring only. -/
def ringOnly (base size : Nat) (s : State) (o : Verif.Ebpf.Ring.Op) : Option (State × Res) :=
  match Verif.Ebpf.Ring.wstep base size s.ring o with
  | some (r, .done) => some ({ s with ring := r }, .done)
  | _ => none

/-- A step; `none`: it is not possible. -/
def step (base size enabled : Nat) (utf8 : List Char → Bytes) (std : Std) (s : State) : Op → Option (State × Res)
  | .log st pg =>
    match compile utf8 st with
    | none => none
    | some items => begin base size enabled s st.header items pg
  | .run k =>
    match s.threads[k]? with
    | some (some t) => continue_ base size s k t
    | _ => none
  | .decide k => ringOnly base size s (.check k)
  | .reader a => read base size std s a
  | .visible => ringOnly base size s .flush
  | .spurious => ringOnly base size s .spurious

/-- A run: the steps made with what is seen of them. -/
def run (base size enabled : Nat) (utf8 : List Char → Bytes) (std : Std) (s : State) : List Op → Option (State × List (Op × Res))
  | [] => some (s, [])
  | o :: os =>
    match step base size enabled utf8 std s o with
    | none => none
    | some (s', r) => (run base size enabled utf8 std s' os).map fun (s'', l) => (s'', (o, r) :: l)

/-- An empty ring at any position divisible by 8, with any content; no program is running and there is no logger yet. -/
def start (mem : Nat → UInt8) (pos : Nat) : State := ⟨⟨RingBuf.init mem pos, []⟩, [], .working, []⟩

end Verif.LogRun
