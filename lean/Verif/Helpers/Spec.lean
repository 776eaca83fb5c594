import Verif.Common.Str
import Verif.Common.Bytes
import Verif.Common.Except

/-!
# What helpers of Linux do, and what a message should say

Written from the kernel (`kernel/trace/bpf_trace.c`, `kernel/bpf/helpers.c`, `lib/vsprintf.c`,
`lib/string.c`) and from the printf manual, without the aya code.
-/
namespace Verif.Helpers.Spec

/-! ## Memory of processes and of the kernel -/

/-- Memory: the byte at an address, if the address can be read. -/
abbrev Mem := Nat → Option UInt8

/-- `n` bytes from address `a` on, when all can be read. -/
def bytesAt (m : Mem) : Nat → Nat → Option (List UInt8)
  | _, 0 => some []
  | a, n + 1 =>
    match m a, bytesAt m (a + 1) n with
    | some b, some r => some (b :: r)
    | _, _ => none

/-- The memory a reading helper sees: 112 that of the process, 113 that of the kernel, 4 that of the process
below `split` (the size of a process' address space) and of the kernel above. -/
def seen (user kernel : Mem) (split : Nat) (number : Nat) (src : Nat) : Option Mem :=
  if number = 112 then some user
  else if number = 113 then some kernel
  else if number = 4 then (if src < split then some user else some kernel)
  else none

/-- A reading helper: all bytes and 0, or `-EFAULT` and a buffer of zeros. Another number is another helper. -/
def readHelper (user kernel : Mem) (split : Nat) (number : Nat) (len : BitVec 32) (src : BitVec 64) :
    Int × List UInt8 :=
  match seen user kernel split number src.toNat with
  | none => (-22, [])
  | some m =>
    match bytesAt m src.toNat len.toNat with
    | some bs => (0, bs)
    | none => (-14, List.replicate len.toNat 0)

/-- Memory of a process with what can be written: bytes are written one after the other until one cannot be. -/
def store (writable : Nat → Bool) : Nat → List UInt8 → Mem → Bool × Mem
  | _, [], m => (true, m)
  | a, b :: bs, m =>
    if writable a then store writable (a + 1) bs (fun x => if x = a then some b else m x)
    else (false, m)

/-- `bpf_probe_write_user`, helper 36. -/
def writeHelper (writable : Nat → Bool) (number : Nat) (dst : BitVec 64) (bs : List UInt8) (len : BitVec 32)
    (m : Mem) : Int × Mem :=
  if number = 36 then
    let r := store writable dst.toNat (bs.take len.toNat) m
    (if r.1 then 0 else -14, r.2)
  else (-22, m)

/-! ## The name of the task -/

/-- `strscpy_pad`: the string, cut so that a NUL fits, and NULs up to the size. -/
def padded (name : List UInt8) (size : Nat) : List UInt8 :=
  name.take (size - 1) ++ List.replicate (size - (name.take (size - 1)).length) 0

/-- `bpf_get_current_comm`, helper 16: there may be no task. -/
def commHelper (task : Option (List UInt8)) (number : Nat) (len : BitVec 32) (buf : List UInt8) :
    Int × List UInt8 :=
  if number ≠ 16 then (-22, buf)
  else match task with
    | some name => (0, padded name len.toNat)
    | none => (-22, List.replicate len.toNat 0)

/-! ## Formats -/

/-- Flags of a directive. -/
inductive Flag | zero | plus | minus | space
deriving DecidableEq, Repr

def Flag.char : Flag → Char
  | .zero => '0' | .plus => '+' | .minus => '-' | .space => ' '

/-- What a directive prints: signed and unsigned decimals, hexadecimals, a character, a pointer (`%px`). -/
inductive Conv | d | i | u | x | X | c | px
deriving DecidableEq, Repr

def Conv.text : Conv → List Char
  | .d => ['d'] | .i => ['i'] | .u => ['u'] | .x => ['x'] | .X => ['X'] | .c => ['c'] | .px => ['p', 'x']

/-- Nothing, `l` or `ll`. -/
inductive Size | int | long | longLong
deriving DecidableEq, Repr

def Size.text : Size → List Char
  | .int => [] | .long => ['l'] | .longLong => ['l', 'l']

/-- A directive: `%`, flags, a width (0: none), a size and a conversion. -/
structure Dir where
  flags : List Flag
  width : Nat
  size : Size
  conv : Conv
deriving DecidableEq, Repr

/-- A piece of a format: a character that stands for itself, `%%`, or a directive. -/
inductive Piece | lit (c : Char) | percent | dir (d : Dir)
deriving DecidableEq, Repr

def Dir.text (d : Dir) : List Char :=
  '%' :: (d.flags.map Flag.char ++ (if d.width = 0 then [] else Str.render 10 d.width) ++ d.size.text ++ d.conv.text)

def Piece.text : Piece → List Char
  | .lit c => [c]
  | .percent => ['%', '%']
  | .dir d => d.text

/-- The format string written with these pieces. -/
def formatText (ps : List Piece) : List Char := ps.flatMap Piece.text

/-- Characters a message can hold: ASCII, printing or white space. -/
def plain (c : Char) : Bool := (32 ≤ c.toNat && c.toNat < 127) || (9 ≤ c.toNat && c.toNat ≤ 13)

/-- A format that can be written that way: literal characters are plain and not `%`, conversions for characters and
pointers have no size. -/
def Piece.ok : Piece → Bool
  | .lit c => plain c && c != '%'
  | .percent => true
  | .dir d => match d.conv with
    | .c | .px => d.size == .int
    | _ => true

/-! ## Numbers as printf prints them -/

def upper (c : Char) : Char := if 'a' ≤ c ∧ c ≤ 'f' then Char.ofNat (c.toNat - 32) else c

def Conv.signed : Conv → Bool
  | .d | .i => true
  | _ => false

/-- The digits of a number. A pointer has 16. -/
def digits (c : Conv) (n : Nat) : List Char :=
  match c with
  | .x => Str.render 16 n
  | .X => (Str.render 16 n).map upper
  | .px => List.replicate (16 - (Str.render 16 n).length) '0' ++ Str.render 16 n
  | _ => Str.render 10 n

/-- The sign of a number. -/
def sign (d : Dir) (v : Int) : List Char :=
  if d.conv.signed then
    (if v < 0 then ['-'] else if Flag.plus ∈ d.flags then ['+'] else if Flag.space ∈ d.flags then [' '] else [])
  else []

/-- Sign and digits brought to the width: with spaces on the right, with zeros after the sign, or with spaces on
the left. -/
def adjust (d : Dir) (s ds : List Char) : List Char :=
  let pad := d.width - (s.length + ds.length)
  if Flag.minus ∈ d.flags then s ++ ds ++ List.replicate pad ' '
  else if Flag.zero ∈ d.flags ∧ d.conv ≠ .c then s ++ List.replicate pad '0' ++ ds
  else List.replicate pad ' ' ++ s ++ ds

/-- What printf prints for the number `v` with the directive. -/
def shown (d : Dir) (v : Int) : List Char :=
  match d.conv with
  | .c => adjust d [] [Char.ofNat v.toNat]
  | _ => adjust d (sign d v) (digits d.conv v.natAbs)

/-! ## The promise -/

/-- The numbers a directive is for. -/
def covers (d : Dir) (v : Int) : Prop :=
  match d.conv, d.size with
  | .d, .int | .i, .int => -2 ^ 31 ≤ v ∧ v < 2 ^ 31
  | .d, _ | .i, _ => -2 ^ 63 ≤ v ∧ v < 2 ^ 63
  | .u, .int | .x, .int | .X, .int => 0 ≤ v ∧ v < 2 ^ 32
  | .u, _ | .x, _ | .X, _ => 0 ≤ v ∧ v < 2 ^ 64
  | .c, _ => 0 ≤ v ∧ v < 128
  | .px, _ => 0 ≤ v ∧ v < 2 ^ 64

/-- The message a format and numbers stand for: each directive shows the next number, which it is for, and all
numbers are used. -/
inductive Says : List Piece → List Int → List Char → Prop
  | done : Says [] [] []
  | lit (c : Char) {ps vs t} : Says ps vs t → Says (.lit c :: ps) vs (c :: t)
  | percent {ps vs t} : Says ps vs t → Says (.percent :: ps) vs ('%' :: t)
  | dir (d : Dir) (v : Int) {ps vs t} : covers d v → Says ps vs t → Says (.dir d :: ps) (v :: vs) (shown d v ++ t)

/-! ## The kernel reads a format -/

/-- `[0 +-]*`. -/
def readFlags : List Char → List Flag × List Char
  | c :: r =>
    if c = '0' then (.zero :: (readFlags r).1, (readFlags r).2)
    else if c = '+' then (.plus :: (readFlags r).1, (readFlags r).2)
    else if c = '-' then (.minus :: (readFlags r).1, (readFlags r).2)
    else if c = ' ' then (.space :: (readFlags r).1, (readFlags r).2)
    else ([], c :: r)
  | [] => ([], [])

/-- `[0-9]*`. -/
def readWidth : Nat → List Char → Nat × List Char
  | acc, c :: r => if '0' ≤ c ∧ c ≤ '9' then readWidth (acc * 10 + (c.toNat - 48)) r else (acc, c :: r)
  | acc, [] => (acc, [])

/-- The rest of a directive. Only these are known to `bpf_bprintf_prepare` (strings and the other pointers are left
out here, as is the check of what follows `%p`). -/
def readConv (fs : List Flag) (w : Nat) : List Char → Option (Dir × List Char)
  | 'c' :: r => some (⟨fs, w, .int, .c⟩, r)
  | 'p' :: 'x' :: r => some (⟨fs, w, .int, .px⟩, r)
  | 'l' :: 'l' :: 'd' :: r => some (⟨fs, w, .longLong, .d⟩, r)
  | 'l' :: 'l' :: 'i' :: r => some (⟨fs, w, .longLong, .i⟩, r)
  | 'l' :: 'l' :: 'u' :: r => some (⟨fs, w, .longLong, .u⟩, r)
  | 'l' :: 'l' :: 'x' :: r => some (⟨fs, w, .longLong, .x⟩, r)
  | 'l' :: 'l' :: 'X' :: r => some (⟨fs, w, .longLong, .X⟩, r)
  | 'l' :: 'd' :: r => some (⟨fs, w, .long, .d⟩, r)
  | 'l' :: 'i' :: r => some (⟨fs, w, .long, .i⟩, r)
  | 'l' :: 'u' :: r => some (⟨fs, w, .long, .u⟩, r)
  | 'l' :: 'x' :: r => some (⟨fs, w, .long, .x⟩, r)
  | 'l' :: 'X' :: r => some (⟨fs, w, .long, .X⟩, r)
  | 'd' :: r => some (⟨fs, w, .int, .d⟩, r)
  | 'i' :: r => some (⟨fs, w, .int, .i⟩, r)
  | 'u' :: r => some (⟨fs, w, .int, .u⟩, r)
  | 'x' :: r => some (⟨fs, w, .int, .x⟩, r)
  | 'X' :: r => some (⟨fs, w, .int, .X⟩, r)
  | _ => none

/-- A directive after its `%`. -/
def readDir (s : List Char) : Option (Dir × List Char) :=
  let f := readFlags s
  let w := readWidth 0 f.2
  readConv f.1 w.1 w.2

/-- The number a directive takes from an argument of 64 bits: with no size the low 32 bits, for a character the
low 8. -/
def taken (d : Dir) (a : BitVec 64) : Int :=
  match d.conv, d.size with
  | .d, .int | .i, .int => (a.setWidth 32).toInt
  | .d, _ | .i, _ => a.toInt
  | .u, .int | .x, .int | .X, .int => ((a.setWidth 32).toNat : Nat)
  | .c, _ => ((a.setWidth 8).toNat : Nat)
  | _, _ => (a.toNat : Nat)

/-- `bpf_bprintf_prepare` and `bstr_printf`: the text, or nothing when the format is refused or has more directives
than there are arguments. -/
def print : Nat → List Char → List (BitVec 64) → Option (List Char)
  | 0, _, _ => none
  | _, [], _ => some []
  | fuel + 1, c :: r, args =>
    if c = '%' then
      (if r.head? = some '%' then (print fuel r.tail args).map ('%' :: ·)
       else match readDir r, args with
         | some (d, rest), a :: args => (print fuel rest args).map (shown d (taken d a) ++ ·)
         | _, _ => none)
    else if plain c then (print fuel r args).map (c :: ·)
    else none

/-- The text up to the NUL in the first `size` characters. -/
def cstr (mem : List Char) (size : Nat) : Option (List Char) :=
  if '\x00' ∈ mem.take size then some (mem.takeWhile (· != '\x00')) else none

/-- What is printed: at most 1023 bytes. A refusal is `-EINVAL`. -/
def emit (fmt : List Char) (size : BitVec 32) (args : List (BitVec 64)) : Except Int (List Char) :=
  match cstr fmt size.toNat with
  | none => .error (-22)
  | some f => match print (f.length + 1) f args with
    | some t => .ok (t.take 1023)
    | none => .error (-22)

/-- `bpf_trace_printk`, helper 6: always three registers, whatever was left in those that were not given. -/
def printRegisters (junk : Nat → BitVec 64) (number : Nat) (fmt : List Char) (size : BitVec 32)
    (regs : List (BitVec 64)) : Except Int (List Char) :=
  if number ≠ 6 then .error (-22)
  else emit fmt size ((regs ++ [junk 0, junk 1, junk 2].drop regs.length).take 3)

/-- The numbers of 64 bits in memory. -/
def words : Nat → List UInt8 → List (BitVec 64)
  | 0, _ => []
  | n + 1, bs => BitVec.ofNat 64 (Verif.Bytes.ofLe (bs.take 8)) :: words n (bs.drop 8)

/-- `bpf_trace_vprintk`, helper 177: at most 12 numbers. -/
def printMemory (number : Nat) (fmt : List Char) (size : BitVec 32) (data : List UInt8) (len : BitVec 32) :
    Except Int (List Char) :=
  if number ≠ 177 then .error (-22)
  else if len.toNat % 8 ≠ 0 ∨ len.toNat > 96 then .error (-22)
  else emit fmt size (words (len.toNat / 8) data)

/-! ## Strings -/

/-- `strncmp` of the kernel. -/
def kstrncmp : List UInt8 → Nat → List UInt8 → Int
  | _, 0, _ => 0
  | a :: as, n + 1, b :: bs =>
    if a ≠ b then (if a.toNat < b.toNat then -1 else 1)
    else if a = 0 then 0
    else kstrncmp as n bs
  | _, _, _ => 0

/-- `bpf_strncmp`, helper 182. -/
def strncmpHelper (number : Nat) (s1 : List UInt8) (n : BitVec 32) (s2 : List UInt8) : Int :=
  if number ≠ 182 then -22 else kstrncmp s1 n.toNat s2

/-- The string in a byte array: what stands before the first NUL. -/
def stringIn (s : List UInt8) : List UInt8 := s.takeWhile (· != 0)

/-- The order of words in a dictionary, by bytes. -/
def dictionary : List UInt8 → List UInt8 → Ordering
  | [], [] => .eq
  | [], _ :: _ => .lt
  | _ :: _, [] => .gt
  | a :: as, b :: bs => if a.toNat < b.toNat then .lt else if b.toNat < a.toNat then .gt else dictionary as bs

end Verif.Helpers.Spec
