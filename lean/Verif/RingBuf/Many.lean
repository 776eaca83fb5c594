import Verif.RingBuf.Model
import Verif.RingBuf.Spec
/-!
# A ring buffer that is opened more than once

Every `RingBuf` value maps the ring's pages for itself (aya/src/maps/ring_buf.rs:97-111), reads the
consumer position once, when it is created (228-237), and from then on stores its own position into
the page all of them share (239-254). Nothing in the API prevents a second value for the same ring: a `RingBuf` can be made from a
shared reference `&Map`, as often as one likes (aya/src/maps/mod.rs:585, 598-612, 623), or from the same
map opened again by pin or id (mod.rs:929-973), and `EbpfLogger::init_from_id`
(aya-log/src/lib.rs:136-174) does precisely this for a program whose logs may already have a reader.

This file puts any number of readers next to each other. A step of a reader is the step `cstep` of
`Model.lean`, applied to the shared memory and to that reader's own variables and store buffer; the
kernel's steps are those of `kstep`. Readers may be in the same process or in different ones: they share
nothing but the pages of the ring.
-/
namespace Verif.RingBuf.Many
open Verif.RingBuf

/-- What belongs to one `RingBuf` value (aya/src/maps/ring_buf.rs:91-95, 222-226, 257-269): its
variables and place in the code, the stores of its CPU that are not visible yet, and two ghost flags as
in `Sys`. -/
structure Reader where
  con : Consumer
  buf : List Nat
  notified : Bool
  sleeping : Bool
  deriving DecidableEq, Repr

/-- The ring and all its readers. `log`: what was returned by `next` so far, and to whom. -/
structure Multi where
  mem : Nat → UInt8
  prod : Nat
  consMem : Nat
  recs : List Rec
  readers : Nat → Reader
  log : List (Nat × List UInt8)

/-- The ring as reader `i` sees it. -/
def Multi.view (m : Multi) (i : Nat) : Sys :=
  { mem := m.mem, prod := m.prod, consMem := m.consMem, buf := (m.readers i).buf, con := (m.readers i).con
    recs := m.recs, delivered := [], notified := (m.readers i).notified, sleeping := (m.readers i).sleeping }

/-- After a step of reader `i`, or of its store buffer. -/
def Multi.put (m : Multi) (i : Nat) (s : Sys) : Multi :=
  { mem := s.mem, prod := s.prod, consMem := s.consMem, recs := s.recs
    readers := fun j => if j = i then ⟨s.con, s.buf, s.notified, s.sleeping⟩ else m.readers j
    log := m.log ++ s.delivered.map (fun d => (i, d)) }

/-- The ring as the kernel sees it; the consumer of this `Sys` is not used. -/
def Multi.kview (m : Multi) : Sys :=
  { mem := m.mem, prod := m.prod, consMem := m.consMem, buf := []
    con := ⟨0, 0, false, .absent⟩
    recs := m.recs, delivered := [], notified := false, sleeping := false }

/-- After a step of the kernel; a notification reaches every reader. -/
def Multi.kput (m : Multi) (s : Sys) : Multi :=
  { m with
    mem := s.mem, prod := s.prod, consMem := s.consMem, recs := s.recs
    readers := fun j => { m.readers j with notified := (m.readers j).notified || s.notified } }

/-- Steps. -/
inductive MAct where
  /-- a step of reader `i` -/
  | r (i : Nat) (a : CAct)
  /-- the oldest buffered store of reader `i` becomes visible -/
  | flush (i : Nat)
  /-- a step of the kernel or of a BPF program -/
  | k (a : KAct)
  deriving DecidableEq, Repr

/-- The kernel's test `new_prod_pos - cons_pos > mask` is one of unsigned numbers: with a consumer position
beyond the producer position every reservation is refused. -/
def kernelMay (m : Multi) : KAct → Bool
  | .flush => false
  | .reserve _ _ => decide (m.consMem ≤ m.prod)
  | _ => true

/-- One step; `none` when it does not apply. -/
def mstep (size : Nat) (m : Multi) : MAct → Option Multi
  | .r i a => (cstep size (m.view i) a).map (m.put i)
  | .flush i => (kstep size (m.view i) .flush).map (m.put i)
  | .k a => if kernelMay m a then (kstep size m.kview a).map m.kput else none

/-- An empty ring at position `base`, with arbitrary memory content and no `RingBuf` value. -/
def minit (mem : Nat → UInt8) (base : Nat) : Multi :=
  { mem := mem, prod := base, consMem := base, recs := []
    readers := fun _ => ⟨⟨base, base, false, .absent⟩, [], false, false⟩
    log := [] }

/-- Runs a schedule; `none` if some action does not apply. -/
def mrun (size : Nat) (m : Multi) : List MAct → Option Multi
  | [] => some m
  | a :: as => (mstep size m a).bind (fun m => mrun size m as)

/-! ## Vocabulary -/

/-- Some schedule of readers and kernel leads from an empty ring to `m`. -/
def MReachable (size : Nat) (m : Multi) : Prop :=
  ∃ mem base sched, base % 8 = 0 ∧ mrun size (minit mem base) sched = some m

/-- What all readers were given, in the order in which it was given. -/
def Multi.given (m : Multi) : List (List UInt8) := m.log.map Prod.snd

/-- What reader `i` was given. -/
def Multi.givenTo (m : Multi) (i : Nat) : List (List UInt8) :=
  (m.log.filter (fun p => p.1 = i)).map Prod.snd

/-- Opening and closing a `RingBuf`, as opposed to reading from it. -/
def openOrClose : CAct → Bool
  | .newPos | .newCache | .destroy => true
  | _ => false

/-- Readers that take turns. `Turns size m o`: the ring can get to `m` while at every time at most one reader
is read from, at present `o`. Others may be open. The turn goes to a reader that is opened only after the
one before has let go of its last item (and that is visible); whoever has lost the turn is not read from any
more, though it may stay open. -/
inductive Turns (size : Nat) : Multi → Option Nat → Prop
  | start (mem : Nat → UInt8) (base : Nat) (hb : base % 8 = 0) : Turns size (minit mem base) none
  | kernel (m m' : Multi) (o : Option Nat) (a : KAct) (h : Turns size m o)
      (hs : mstep size m (.k a) = some m') : Turns size m' o
  | use (m m' : Multi) (i : Nat) (a : CAct) (h : Turns size m (some i))
      (hs : mstep size m (.r i a) = some m') : Turns size m' (some i)
  | flush (m m' : Multi) (i : Nat) (h : Turns size m (some i))
      (hs : mstep size m (.flush i) = some m') : Turns size m' (some i)
  | other (m m' : Multi) (o : Option Nat) (j : Nat) (a : CAct) (h : Turns size m o) (hj : o ≠ some j)
      (ha : openOrClose a = true) (hs : mstep size m (.r j a) = some m') : Turns size m' o
  | turn (m : Multi) (o : Option Nat) (j : Nat) (h : Turns size m o)
      (hdone : ∀ i, o = some i → ((m.readers i).con.pc = .idle ∨ (m.readers i).con.pc = .absent) ∧
        (m.readers i).buf = [])
      (hj : (m.readers j).con.pc = .absent) : Turns size m (some j)

/-- Readers in the first lap. `FirstLap size base m`: the ring can get to `m`, from being empty at position
`base`, in such a way that it has not been filled once since (nothing has been overwritten yet), and every
reader was opened before any reader had released a record. Otherwise the readers may do as they please. -/
inductive FirstLap (size base : Nat) : Multi → Prop
  | start (mem : Nat → UInt8) (hb : base % 8 = 0) : FirstLap size base (minit mem base)
  | step (m m' : Multi) (a : MAct) (h : FirstLap size base m) (hs : mstep size m a = some m')
      (hopen : ∀ i, a = .r i .newPos → m.consMem = base)
      (hlap : m'.prod < base + size) : FirstLap size base m'

end Verif.RingBuf.Many
