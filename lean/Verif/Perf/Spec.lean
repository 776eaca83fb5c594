import Verif.Perf.Model
/-!
# What the kernel writes into a perf buffer (environment) and the vocabulary for C04, C05

`include/uapi/linux/perf_event.h`: every record is `{ u32 type, u16 misc, u16 size, body }` with
`size` a multiple of eight. A BPF output sample's body is `{ u32 n, char data[n] }`, a lost record's
is `{ u64 id, u64 lost, sample_id }`.
-/
namespace Verif.Perf.Spec
open Verif.Bytes Verif.Perf

/-- A record as the kernel writes it. -/
inductive KRec where
  | sample (misc : Nat) (data : List UInt8)
  | lost (misc id count : Nat) (sampleId : List UInt8)
  | other (type misc : Nat) (body : List UInt8)
  deriving DecidableEq, Repr

def KRec.type : KRec → Nat
  | .sample .. => 9
  | .lost .. => 2
  | .other t .. => t

def KRec.misc : KRec → Nat
  | .sample m _ => m
  | .lost m .. => m
  | .other _ m _ => m

def KRec.body : KRec → List UInt8
  | .sample _ d => le 4 d.length ++ d
  | .lost _ id c s => le 8 id ++ (le 8 c ++ s)
  | .other _ _ b => b

def KRec.size (r : KRec) : Nat := 8 + r.body.length

/-- The bytes of the record. -/
def KRec.bytes (r : KRec) : List UInt8 := le 4 r.type ++ (le 2 r.misc ++ (le 2 r.size ++ r.body))

/-- Well-formed: the size is a multiple of eight and fits its 16-bit field, the lost count fits 64
bits, an `other` record is neither a sample nor a lost record. -/
def KRec.WF (r : KRec) : Prop :=
  r.size % 8 = 0 ∧ r.size < 2 ^ 16 ∧
  match r with
  | .sample .. => True
  | .lost _ _ c _ => c < 2 ^ 64
  | .other t _ _ => t < 2 ^ 32 ∧ t ≠ 9 ∧ t ≠ 2

instance (r : KRec) : Decidable r.WF := by
  unfold KRec.WF
  cases r <;> infer_instance

/-- What the user must be shown of a record. -/
inductive View where
  | sample (bytes : List UInt8)
  | lost (count : Nat)
  deriving DecidableEq, Repr

def KRec.view : KRec → Option View
  | .sample _ d => some (.sample d)
  | .lost _ _ c _ => some (.lost c)
  | .other .. => none

/-- The user's view of an event: a sample's two slices joined. -/
def show' : PEvent → View
  | .sample h t => .sample (h ++ t)
  | .lost c => .lost c

/-- The ring holds `bs` from position `pos` on. -/
def RingAt (mem : Nat → UInt8) (size pos : Nat) (bs : List UInt8) : Prop :=
  ∀ i, (h : i < bs.length) → mem ((pos + i) % size) = bs[i]

def bytesOf (recs : List KRec) : List UInt8 := recs.flatMap KRec.bytes

/-- The ring holds exactly these records between `tail` and `head`. -/
structure Holds (mem : Nat → UInt8) (size tail head : Nat) (recs : List KRec) : Prop where
  wf : ∀ r ∈ recs, r.WF
  aligned : tail % 8 = 0
  tail64 : tail < 2 ^ 64
  fits : (bytesOf recs).length ≤ size
  head : head = (tail + (bytesOf recs).length) % 2 ^ 64
  data : RingAt mem size tail (bytesOf recs)

/-- Feeding a list of events (with gaps for skipped records) to a callback until it breaks: how many
records were used up, and the result. -/
def feed {β γ : Type} (f : γ → PEvent → Flow β γ) : γ → List (Option PEvent) → Nat × Flow β γ
  | acc, [] => (0, .cont acc)
  | acc, none :: t => ((feed f acc t).1 + 1, (feed f acc t).2)
  | acc, some e :: t =>
    match f acc e with
    | .brk b => (1, .brk b)
    | .cont acc' => ((feed f acc' t).1 + 1, (feed f acc' t).2)

end Verif.Perf.Spec
