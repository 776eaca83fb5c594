import Verif.Common.Str
/-!
# What the lines of `/proc/<pid>/maps` say, and what the file name of a path is
-/
namespace Verif.UProbe.Spec
open Verif.Str

/-- A mapping of a process as the kernel knows it. The path is empty for anonymous memory. -/
structure Mapping where
  start : Nat
  stop : Nat
  perms : List Char
  offset : Nat
  major : Nat
  minor : Nat
  inode : Nat
  path : List Char
deriving DecidableEq, Repr

/-- A number in hexadecimal after `z` zeros (the kernel pads to a fixed width). -/
def hex (z n : Nat) : List Char := List.replicate z '0' ++ render 16 n

/-- The padding used in a line: zeros before the five hexadecimal numbers and spaces before the path. -/
structure Pads where
  a : Nat
  b : Nat
  off : Nat
  major : Nat
  minor : Nat
  spaces : Nat

/-- The device as printed. -/
def device (pad : Pads) (m : Mapping) : List Char := hex pad.major m.major ++ ':' :: hex pad.minor m.minor

/-- The line the kernel prints for a mapping (`show_map_vma` of the kernel's `fs/proc/task_mmu.c`), without
    the line feed. -/
def line (pad : Pads) (m : Mapping) : List Char :=
  hex pad.a m.start ++ '-' :: (hex pad.b m.stop ++ ' ' :: (m.perms ++ ' ' :: (hex pad.off m.offset ++
    ' ' :: (device pad m ++ ' ' :: (render 10 m.inode ++ ' ' :: (List.replicate pad.spaces ' ' ++ m.path))))))

/-- White space in ASCII. -/
def White (c : Char) : Prop := c = ' ' ∨ c = '\t' ∨ c = '\n' ∨ c = '\x0c' ∨ c = '\r'

/-- A text that neither begins nor ends with white space. -/
def Trimmed (s : List Char) : Prop :=
  (∀ c, s.head? = some c → ¬ White c) ∧ (∀ c, s.getLast? = some c → ¬ White c)

/-- The numbers fit into 64 bits and the permissions are one word. -/
def Fits (m : Mapping) : Prop :=
  m.start < 2 ^ 64 ∧ m.stop < 2 ^ 64 ∧ m.offset < 2 ^ 64 ∧ m.perms ≠ [] ∧ ∀ c ∈ m.perms, ¬ White c

/-- `n` is the last component of the path `p`, not counting what only says "here": slashes and dots. -/
def LastName (p n : List Char) : Prop :=
  n ≠ [] ∧ '/' ∉ n ∧ n ≠ ['.'] ∧ n ≠ ['.', '.'] ∧
  ∃ pre post, p = pre ++ n ++ post ∧ (pre = [] ∨ pre.getLast? = some '/') ∧
    ∃ comps : List (List Char), (∀ c ∈ comps, c = [] ∨ c = ['.']) ∧ post = (comps.map ('/' :: ·)).flatten

/-- A library name without the ending `.so`. -/
def Base (lib base : List Char) : Prop :=
  lib = base ++ ['.', 's', 'o'] ∨ lib = base ∧ ¬ ∃ b, lib = b ++ ['.', 's', 'o']

/-- What may follow: nothing, a text that begins with `.so`, or one that begins with `-`. -/
def Tail (t : List Char) : Prop := t = [] ∨ (∃ r, t = '.' :: 's' :: 'o' :: r) ∨ ∃ r, t = '-' :: r

/-- The path names the library: its last component is the base name with such a tail. -/
def Names (lib p : List Char) : Prop := ∃ base n t, Base lib base ∧ LastName p n ∧ n = base ++ t ∧ Tail t

/-- A numeral: digits of the radix with a value below `2 ^ bits`, after an optional plus sign. -/
def Numeral (radix bits : Nat) (s : List Char) (v : Nat) : Prop :=
  ∃ ds, (s = ds ∨ s = '+' :: ds) ∧ ds ≠ [] ∧ parseDigits radix 0 ds = some v ∧ v < 2 ^ bits

/-- A run of white space, perhaps empty. -/
def Run (w : List Char) : Prop := ∀ c ∈ w, White c
/-- A non-empty run of white space. -/
def Sep (w : List Char) : Prop := w ≠ [] ∧ Run w
/-- A word: something without white space. -/
def Word (w : List Char) : Prop := w ≠ [] ∧ ∀ c ∈ w, ¬ White c

/-- A line in the shape of a mapping: five words separated by white space, of which the first is a range of
    hexadecimal numbers, the third is a hexadecimal number and the fifth a decimal number of 32 bits; behind them
    nothing, or a path that may contain white space but neither begins nor ends with it. -/
def Shape (l : List Char) (start stop : Nat) (perms : List Char) (offset : Nat) (dev : List Char) (inode : Nat)
    (path : Option (List Char)) : Prop :=
  ∃ w0 a b w1 w2 o w3 w4 i tail,
    l = w0 ++ ((a ++ '-' :: b) ++ (w1 ++ (perms ++ (w2 ++ (o ++ (w3 ++ (dev ++ (w4 ++ (i ++ tail))))))))) ∧
    Run w0 ∧ Sep w1 ∧ Sep w2 ∧ Sep w3 ∧ Sep w4 ∧
    Word (a ++ '-' :: b) ∧ Word perms ∧ Word o ∧ Word dev ∧ Word i ∧
    Numeral 16 64 a start ∧ Numeral 16 64 b stop ∧ Numeral 16 64 o offset ∧ Numeral 10 32 i inode ∧
    ((Run tail ∧ path = none) ∨
     (∃ w5 p w6, tail = w5 ++ (p ++ w6) ∧ Sep w5 ∧ p ≠ [] ∧ Trimmed p ∧ Run w6 ∧ path = some p))

end Verif.UProbe.Spec
