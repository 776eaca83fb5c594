import Verif.Stacks.Model

/-!
# Stack traces of Linux

`kernel/bpf/stackmap.c`: `__bpf_get_stackid` called by programs on any CPU, and lookups, removals and the search for the next key by any
process. A call of a program reads a bucket and later puts another in its place; a lookup takes the bucket out, copies it and puts it back.
Between these steps anything may happen. Maps are without `BPF_F_STACK_BUILD_ID`.
-/
namespace Verif.Stacks.Spec
open Verif Verif.Bytes

/-- A map: entries of a value, number of buckets, `kernel.perf_event_max_stack`, and the hash of stacks. -/
structure Conf where
  depth : Nat
  buckets : Nat
  limit : Nat
  hash : List Nat → Nat

structure Conf.Ok (c : Conf) : Prop where
  depth : 0 < c.depth
  buckets : 0 < c.buckets
  ids : c.buckets ≤ 2 ^ 32

/-- The frames, innermost first, that are kept of a stack: after those skipped, as many as a value has. -/
def kept (c : Conf) (flags : Nat) (stack : List Nat) : List Nat :=
  (stack.take (min (c.depth + flags % 256) c.limit)).drop (flags % 256)

/-- The bucket of a stack. -/
def idOf (c : Conf) (frames : List Nat) : Nat := c.hash frames % c.buckets

/-- The map, what readers have taken out, and what programs are about to put in: bucket and frames. -/
structure W where
  bucket : Nat → Option (List Nat) := fun _ => none
  hold : Nat → Option (Nat × List Nat) := fun _ => none
  pend : Nat → Option (Nat × List Nat) := fun _ => none

def upd {α : Type} (f : Nat → α) (k : Nat) (v : α) (n : Nat) : α := if n = k then v else f n

/-- What happens: program `p` calls `bpf_get_stackid` on a stack, or finishes; another reader takes a bucket out, or puts it back; a stack is
removed. `nomem`: there is no free bucket. -/
inductive Ev where
  | look (p : Nat) (stack : List Nat) (flags : Nat) (nomem : Bool)
  | put (p : Nat)
  | out (r : Nat) (id : Nat)
  | back (r : Nat)
  | remove (id : Nat)
deriving DecidableEq

def takeOut (r id : Nat) (w : W) : W :=
  match w.bucket id with
  | none => w
  | some b => { w with bucket := upd w.bucket id none, hold := upd w.hold r (some (id, b)) }

def putBack (r : Nat) (w : W) : W :=
  match w.hold r with
  | none => w
  | some (id, b) => { w with bucket := upd w.bucket id (some b), hold := upd w.hold r none }

/-- The first part of `bpf_get_stackid`; `some` is what it returns. -/
def looked (c : Conf) (p : Nat) (frames : List Nat) (flags : Nat) (nomem : Bool) (w : W) : W × Option Int :=
  if flags ≥ 2048 then (w, some (-22))
  else if frames = [] then (w, some (-14))
  else if flags / 512 % 2 = 1 ∧ (w.bucket (idOf c frames)).map c.hash = some (c.hash frames) then (w, some (idOf c frames))
  else if w.bucket (idOf c frames) = some frames then (w, some (idOf c frames))
  else if (w.bucket (idOf c frames)).isSome ∧ flags / 1024 % 2 = 0 then (w, some (-17))
  else if nomem then (w, some (-12))
  else ({ w with pend := upd w.pend p (some (idOf c frames, frames)) }, none)

/-- One step, and what `bpf_get_stackid` returns if it returns. The reader 0 is the one of the calls of `sys`. -/
def step (c : Conf) (e : Ev) (w : W) : W × Option Int :=
  match e with
  | .look p stack flags nomem => if (w.pend p).isSome then (w, none) else looked c p (kept c flags stack) flags nomem w
  | .put p =>
      match w.pend p with
      | none => (w, none)
      | some (id, b) => ({ w with bucket := upd w.bucket id (some b), pend := upd w.pend p none }, some id)
  | .out r id => if (w.hold (r + 1)).isSome then (w, none) else (takeOut (r + 1) id w, none)
  | .back r => (putBack (r + 1) w, none)
  | .remove id => ({ w with bucket := upd w.bucket id none }, none)

def run (c : Conf) : List Ev → W → W
  | [], w => w
  | e :: es, w => run c es (step c e w).1

/-- The bytes of a value: the frames, then zeros. -/
def value (c : Conf) (b : List Nat) : List UInt8 := b.flatMap (le 8) ++ List.replicate (8 * (c.depth - b.length)) 0

/-- The system a process makes its calls on, with what the others do during each of its lookups. -/
structure S where
  w : W
  next : List (List Ev) := []

def nextFrom (c : Conf) (w : W) (start : Nat) : Option Nat :=
  (List.range' start (c.buckets - start)).find? fun id => (w.bucket id).isSome

def start (c : Conf) (w : W) : Option (List UInt8) → Nat
  | none => 0
  | some key => if c.buckets ≤ ofLe key ∨ w.bucket (ofLe key) = none then 0 else ofLe key + 1

def sys (c : Conf) : Sys S where
  lookup key flags s :=
    if flags ≠ 0 then (.error 22, s)
    else if c.buckets ≤ ofLe key then (.error 2, s)
    else
      match s.w.bucket (ofLe key) with
      | none => (.error 2, s)
      | some b => (.ok (value c b), ⟨putBack 0 (run c (s.next.headD []) (takeOut 0 (ofLe key) s.w)), s.next.tail⟩)
  nextKey key s :=
    match nextFrom c s.w (start c s.w key) with
    | none => (.error 2, s)
    | some id => (.ok (le 4 id), s)
  delete key s :=
    if c.buckets ≤ ofLe key then (.error 7, s)
    else if s.w.bucket (ofLe key) = none then (.error 2, s)
    else (.ok (), { s with w := { s.w with bucket := upd s.w.bucket (ofLe key) none } })

/-! ## What is asked of the library -/

/-- A program has asked for the id of a stack with these frames. -/
def Taken (c : Conf) (evs : List Ev) (id : Nat) (frames : List Nat) : Prop :=
  ∃ p stack flags nomem, Ev.look p stack flags nomem ∈ evs ∧ frames = kept c flags stack ∧ frames ≠ [] ∧ id = idOf c frames

/-- Addresses have 64 bits. -/
def Addresses (evs : List Ev) : Prop := ∀ p stack flags nomem, Ev.look p stack flags nomem ∈ evs → ∀ ip ∈ stack, ip < 2 ^ 64

/-- `bpf_get_stackid` returns `id` to a program for `frames`, compared in full. -/
def Answered (c : Conf) (w : W) (e : Ev) (id : Nat) (frames : List Nat) : Prop :=
  (step c e w).2 = some (id : Int) ∧
    ((∃ p stack flags nomem, e = .look p stack flags nomem ∧ flags / 512 % 2 = 0 ∧ frames = kept c flags stack) ∨
     (∃ p, e = .put p ∧ (w.pend p).map (·.2) = some frames))

/-- Nobody is in the middle of a call for this bucket. -/
def Idle (id : Nat) (w : W) : Prop :=
  (∀ p x, w.pend p = some x → x.1 ≠ id) ∧ (∀ r x, w.hold r = some x → x.1 ≠ id)

/-- The call is for this bucket. -/
def Starts (c : Conf) (id : Nat) : Ev → Prop
  | .look _ stack flags _ => idOf c (kept c flags stack) = id
  | .out _ id' => id' = id
  | _ => False

/-- Calls for this bucket are made one after another. -/
def Turns (c : Conf) (id : Nat) : W → List Ev → Prop
  | _, [] => True
  | w, e :: es => (Starts c id e → Idle id w) ∧ Turns c id (step c e w).1 es

/-- The stack in this bucket is neither removed, nor does a program ask for another to take its place. -/
def Stays (c : Conf) (id : Nat) (e : Ev) : Prop :=
  e ≠ .remove id ∧ ∀ p stack flags nomem, e = .look p stack flags nomem → idOf c (kept c flags stack) = id → flags / 1024 % 2 = 0

end Verif.Stacks.Spec
