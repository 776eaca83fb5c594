import Verif.Ctx.Spec
/-!
# A program that rewrites fields of packets

It loads the field, stores the new value and has the checksum replaced, as programs that translate addresses do.
-/
namespace Verif.Ctx
open Verif.Ctx.Packet

/-- Which checksum is replaced. -/
inductive Layer where
  | three
  /-- With these flags, apart from the size. -/
  | four (flags : Nat)
  deriving DecidableEq, Repr

/-- What to rewrite: a field of `size` bytes, its new value, and which checksum covers it. -/
structure Edit where
  offset : Nat
  size : Nat
  value : Nat
  csum : Nat
  layer : Layer
  deriving DecidableEq, Repr

/-- Replaces the checksum. -/
def fix (h : Helpers) (p : Pkt) (e : Edit) (old : Nat) : Except Int Unit × Pkt :=
  match e.layer with
  | .three => l3CsumReplace h p e.csum old e.value e.size
  | .four flags => l4CsumReplace h p e.csum old e.value (flags + e.size)

/-- Rewrites a field. -/
def rewrite (h : Helpers) (p : Pkt) (e : Edit) : Except Int Unit × Pkt :=
  match load h p e.offset e.size with
  | .error er => (.error er, p)
  | .ok old =>
    match store h p e.offset e.size e.value 0 with
    | (.error er, q) => (.error er, q)
    | (.ok (), q) => fix h q e old

/-- Rewrites fields one after the other, until one fails. -/
def rewrites (h : Helpers) (p : Pkt) : List Edit → Except Int Unit × Pkt
  | [] => (.ok (), p)
  | e :: es =>
    match rewrite h p e with
    | (.error er, q) => (.error er, q)
    | (.ok (), q) => rewrites h q es

/-- Rewrites an address of a packet of TCP or UDP: it is covered by two checksums, that of `e` and, in layer three, that at `ip`. -/
def translate (h : Helpers) (p : Pkt) (e : Edit) (ip : Nat) : Except Int Unit × Pkt :=
  match load h p e.offset e.size with
  | .error er => (.error er, p)
  | .ok old =>
    match fix h p e old with
    | (.error er, q) => (.error er, q)
    | (.ok (), q) =>
      match fix h q { e with csum := ip, layer := .three } old with
      | (.error er, q) => (.error er, q)
      | (.ok (), q) => store h q e.offset e.size e.value 0

end Verif.Ctx
