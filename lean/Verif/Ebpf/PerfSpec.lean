import Verif.Ebpf.PerfModel
/-!
# What the buffers must get, told from the calls alone
-/
namespace Verif.Ebpf.Perf.Spec
open Verif.Ebpf.Perf

/-- The calls so far: the CPU of each buffer opened, and the outputs for it: a payload, or `none` for one that did not fit. -/
structure Past where
  opened : List Nat
  sent : List (Nat × Option (List UInt8))
  deriving DecidableEq, Repr

/-- The buffer opened last for a CPU. -/
def latest (opened : List Nat) (cpu : Nat) : Option Nat :=
  (List.range opened.length).reverse.find? (fun b => opened[b]? == some cpu)

/-- The payload of a call: the data, followed by as many bytes of the packet as the flags say. -/
def payload (kind : Kind) (data : List UInt8) (flags : Nat) : Option (List UInt8) :=
  match kind with
  | .tracing => if flags = 0 then some data else none
  | .packet bs => if flags < 1048576 ∧ flags ≤ bs.length then some (data ++ bs.take flags) else none

/-- An output on a CPU goes to the buffer opened last for that CPU. -/
def send (p : Past) (kind : Kind) (cpu : Nat) (room : Bool) (data : List UInt8) (flags : Nat) : Past :=
  match payload kind data flags, latest p.opened cpu with
  | some bs, some b => { p with sent := p.sent ++ [(b, if room then some bs else none)] }
  | _, _ => p

def after (cpus : Nat) (p : Past) : Op → Past
  | .open index => if index < cpus then { p with opened := p.opened ++ [index] } else p
  | .output kind cpu _ room data flags => send p kind cpu room data flags
  | .outputAt kind cpu _ room index data flags => if index = cpu ∨ index = 4294967295 then send p kind cpu room data flags else p

def past (cpus : Nat) (ops : List Op) : Past := ops.foldl (after cpus) ⟨[], []⟩

/-- The outputs for a buffer, in order. -/
def sentTo (p : Past) (b : Nat) : List (Option (List UInt8)) := (p.sent.filter (fun x => x.1 == b)).map (·.2)

/-- What the reader must see: the payloads in order, and before a payload the number of those lost since the one before. -/
inductive Item where
  | sample (payload : List UInt8)
  | lost (n : Nat)
  deriving DecidableEq, Repr

def items : Nat → List (Option (List UInt8)) → List Item
  | _, [] => []
  | n, none :: t => items (n + 1) t
  | n, some bs :: t => (if n = 0 then [] else [.lost n]) ++ .sample bs :: items 0 t

/-- An event shows an item: a payload with fewer than 8 bytes after it, or the number lost. -/
def Shows : Item → Perf.Spec.View → Prop
  | .sample bs, .sample got => ∃ pad : List UInt8, got = bs ++ pad ∧ pad.length < 8 ∧ (got.length + 4) % 8 = 0
  | .lost n, .lost m => n = m
  | _, _ => False

inductive Each {α β : Type} (R : α → β → Prop) : List α → List β → Prop where
  | nil : Each R [] []
  | cons {a : α} {b : β} {as : List α} {bs : List β} : R a b → Each R as bs → Each R (a :: as) (b :: bs)

/-- A process that has not opened any buffer. -/
def start (cpus : Nat) : World := ⟨cpus, List.replicate cpus none, []⟩

/-- Arguments are `u32`. -/
def Typed : Op → Prop
  | .open i => i < 2 ^ 32
  | .output _ _ _ _ _ flags => flags < 2 ^ 32
  | .outputAt _ _ _ _ i _ flags => i < 2 ^ 32 ∧ flags < 2 ^ 32

end Verif.Ebpf.Perf.Spec
