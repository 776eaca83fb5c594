import Verif.Common.Bytes
import Verif.Common.Except
/-!
# Model of aya-log: format strings, records written by eBPF programs, records read in user space

Code modelled: `aya-log-parser/src/lib.rs`, `aya-log-common/src/lib.rs`, the code generated by
`aya-log-ebpf-macros/src/expand.rs`, and `aya-log/src/lib.rs`.

Simplifications that hold throughout the file:
* the target is little-endian and 64-bit (`to_ne_bytes` is `le`, `usize` has eight bytes);
* the texts produced by the Rust standard library (`Display`, `LowerHex`, … and UTF-8 validation)
  are the fields of a structure `Std` about which nothing is assumed, so that the theorems hold for
  any of them;
* a string is the list of its UTF-8 bytes, except in the format-string parser, where it is the list
  of its characters.
-/
set_option linter.unusedVariables false
namespace Verif.Log
open Verif.Bytes

abbrev Bytes := List UInt8

/-- `DisplayHint`: aya-log-common/src/lib.rs 151-169. -/
inductive Hint where
  | dflt | lowerHex | upperHex | ip | lowerMac | upperMac | pointer
deriving DecidableEq, Repr

/-- The byte of a hint (`IntoPrimitive`, first discriminant 1): aya-log-common/src/lib.rs 151-169. -/
def Hint.byte : Hint → UInt8
  | .dflt => 1 | .lowerHex => 2 | .upperHex => 3 | .ip => 4 | .lowerMac => 5 | .upperMac => 6
  | .pointer => 7

/-- `Level`: aya-log-common/src/lib.rs 12-35. -/
inductive Level where
  | error | warn | info | debug | trace
deriving DecidableEq, Repr

/-- The byte of a level (first discriminant 1): aya-log-common/src/lib.rs 12-35. -/
def Level.byte : Level → UInt8
  | .error => 1 | .warn => 2 | .info => 3 | .debug => 4 | .trace => 5

/-! ## The format-string parser -/

/-- `Fragment`: aya-log-parser/src/lib.rs 5-19. -/
inductive Fragment where
  | literal (s : List Char)
  | param (h : Hint)
deriving DecidableEq, Repr

/-- Why a format string is refused (the messages are those of the code). -/
inductive ParseError where
  | unmatchedOpen | unmatchedClose | missingClose | missingHint | unknownHint | unexpectedContent
deriving DecidableEq, Repr

/-- The scan for single braces of `push_literal`: aya-log-parser/src/lib.rs 21-47.
`lo` and `lc` are `last_open` and `last_close`. -/
def scanBraces : List Char → Bool → Bool → Except ParseError Unit
  | [], lo, lc => if lo then .error .unmatchedOpen else if lc then .error .unmatchedClose else .ok ()
  | c :: cs, lo, lc =>
    if c = '{' then scanBraces cs (!lo) lc
    else if c = '}' then scanBraces cs lo (!lc)
    else if lo then .error .unmatchedOpen
    else if lc then .error .unmatchedClose
    else scanBraces cs lo lc

/-- `str::replace` of a doubled character by a single one, left to right without overlap:
aya-log-parser/src/lib.rs 49. -/
def undouble (b : Char) : List Char → List Char
  | x :: y :: r => if x = b ∧ y = b then b :: undouble b r else x :: undouble b (y :: r)
  | [x] => [x]
  | [] => []

/-- `push_literal`: aya-log-parser/src/lib.rs 21-53. -/
def pushLiteral (frags : List Fragment) (lit : List Char) : Except ParseError (List Fragment) :=
  match scanBraces lit false false with
  | .error e => .error e
  | .ok () => .ok (frags ++ [.literal (undouble '}' (undouble '{' lit))])

/-- `parse_param`: aya-log-parser/src/lib.rs 58-77. -/
def parseParam : List Char → Except ParseError Hint
  | ':' :: rest =>
    if rest = [] then .error .missingHint
    else if rest = ['x'] then .ok .lowerHex
    else if rest = ['X'] then .ok .upperHex
    else if rest = ['i'] then .ok .ip
    else if rest = ['m', 'a', 'c'] then .ok .lowerMac
    else if rest = ['M', 'A', 'C'] then .ok .upperMac
    else if rest = ['p'] then .ok .pointer
    else .error .unknownHint
  | [] => .ok .dflt
  | _ => .error .unexpectedContent

/-- The literal before a parameter, if there is one: aya-log-parser/src/lib.rs 101-106. -/
def literalBefore (s : List Char) (pos endPos : Nat) (frags : List Fragment) :
    Except ParseError (List Fragment) :=
  if pos > endPos then pushLiteral frags ((s.drop endPos).take (pos - endPos)) else .ok frags

/-- The loop of `parse`: aya-log-parser/src/lib.rs 84-127.  `chars` is what the iterator has left,
`pos` its position and `endPos` is `end_pos`.  Positions count characters, where the code counts
bytes: every position used is a character boundary, so the slices are the same. -/
def parseLoop (s : List Char) : List Char → Nat → Nat → List Fragment →
    Except ParseError (List Fragment)
  | [], _, endPos, frags =>
    if endPos ≠ s.length then pushLiteral frags (s.drop endPos) else .ok frags
  | c :: rest, pos, endPos, frags =>
    if c ≠ '{' then parseLoop s rest (pos + 1) endPos frags
    else match rest with
      | '{' :: rest' => parseLoop s rest' (pos + 2) endPos frags
      | rest =>
        match literalBefore s pos endPos frags with
        | .error e => .error e
        | .ok frags =>
          match rest.findIdx? (· = '}') with
          | none => .error .missingClose
          | some len =>
            match parseParam (((s.drop (pos + 1)).take len)) with
            | .error e => .error e
            | .ok h => parseLoop s rest (pos + 1) (pos + 1 + len + 1) (frags ++ [.param h])
termination_by chars => chars.length
decreasing_by all_goals simp_wf <;> omega

/-- `parse`: aya-log-parser/src/lib.rs 81-127. -/
def parse (s : List Char) : Except ParseError (List Fragment) := parseLoop s s 0 0 []

/-! ## Values that can be logged -/

/-- The integer types with an `Argument` implementation: aya-log-common/src/lib.rs 192-202. -/
inductive IntTy where
  | i8 | i16 | i32 | i64 | isize | u8 | u16 | u32 | u64 | usize
deriving DecidableEq, Repr

/-- Size in bytes of an integer type (64-bit target). -/
def IntTy.size : IntTy → Nat
  | .i8 | .u8 => 1
  | .i16 | .u16 => 2
  | .i32 | .u32 => 4
  | .i64 | .u64 | .isize | .usize => 8

/-- Whether the type is signed. -/
def IntTy.signed : IntTy → Bool
  | .i8 | .i16 | .i32 | .i64 | .isize => true
  | _ => false

/-- The values a log statement accepts as arguments, by type: the `Argument` implementations of
aya-log-common/src/lib.rs 180-302.  `IpAddr` is one of the two address types (225-239).  Pointers
`*const T` and `*mut T` are their addresses. -/
inductive Val where
  | int (t : IntTy) (v : Int)
  | f32 (bits : Nat)
  | f64 (bits : Nat)
  | ipv4 (octets : Bytes)
  | ipv6 (octets : Bytes)
  /-- `[u8; N]` -/
  | arr (b : Bytes)
  /-- `&[u8; N]` -/
  | refArr (b : Bytes)
  /-- `&[u8]` -/
  | slice (b : Bytes)
  /-- `&str` -/
  | str (s : Bytes)
  | ptr (addr : Nat)
deriving DecidableEq, Repr

/-- `ArgumentKind` as its byte: aya-log-common/src/lib.rs 113-149. -/
def IntTy.kind : IntTy → UInt8
  | .i8 => 1 | .i16 => 2 | .i32 => 3 | .i64 => 4 | .isize => 5
  | .u8 => 6 | .u16 => 7 | .u32 => 8 | .u64 => 9 | .usize => 10

/-- Kind of a byte array: aya-log-common/src/lib.rs 256-266. -/
def arrKind (b : Bytes) : UInt8 :=
  if b.length = 4 then 15 else if b.length = 6 then 16 else if b.length = 16 then 17 else 19

/-- `as_argument` of each type: aya-log-common/src/lib.rs 180-302.  The kind byte and the value
bytes.  For `&[u8; N]` the method found is the one of `[u8; N]` (its receiver type `&[u8; N]` is
tried first), so the kind is that of the array. -/
def Val.argument : Val → UInt8 × Bytes
  | .int t v => (t.kind, le t.size (v % 256 ^ t.size).toNat)
  | .f32 b => (11, le 4 b)
  | .f64 b => (12, le 8 b)
  | .ipv4 o => (13, o)
  | .ipv6 o => (14, o)
  | .arr b => (arrKind b, b)
  | .refArr b => (arrKind b, b)
  | .slice b => (19, b)
  | .str s => (20, s)
  | .ptr a => (21, le 8 a)

/-- The `*Formatter` traits, which decide whether an argument with a hint compiles:
aya-log-common/src/lib.rs 45-98.  (`bool`, `char`, `str` and `[u16; 8]` have a formatter but no
`Argument` implementation, so they cannot be logged.) -/
def accepted : Hint → Val → Bool
  | .dflt, .int _ _ | .dflt, .f32 _ | .dflt, .f64 _ | .dflt, .ipv4 _ | .dflt, .ipv6 _
  | .dflt, .str _ => true
  | .lowerHex, .int _ _ | .lowerHex, .slice _ | .lowerHex, .refArr _ => true
  | .upperHex, .int _ _ | .upperHex, .slice _ | .upperHex, .refArr _ => true
  | .ip, .ipv4 _ | .ip, .ipv6 _ => true
  | .ip, .int t _ => t = .u32
  | .ip, .arr b => b.length = 4 ∨ b.length = 16
  | .lowerMac, .arr b | .upperMac, .arr b => b.length = 6
  | .pointer, .ptr _ => true
  | _, _ => false

/-! ## Writing a record -/

/-- What one generated statement logs, in order: literal text, or a hint followed by its argument
(`values` of aya-log-ebpf-macros/src/expand.rs 106-149). -/
inductive Item where
  | text (s : Bytes)
  | hint (h : Hint)
  | arg (v : Val)
deriving DecidableEq, Repr

/-- The loop over the fragments: aya-log-ebpf-macros/src/expand.rs 104-149.  `none`: the macro does
not expand (too few arguments: an error at 113, or an index out of range at 112); or the argument has
no formatter for its hint (137-143, a type error).  `utf8` encodes a string literal. -/
def expand (utf8 : List Char → Bytes) : List Fragment → List Val → Option (List Item)
  | [], _ => some []
  | .literal s :: fs, args =>
    match expand utf8 fs args with
    | none => none
    | some r => some (.text (utf8 s) :: r)
  | .param h :: fs, a :: args =>
    if accepted h a then
      match expand utf8 fs args with
      | none => none
      | some r => some (.hint h :: .arg a :: r)
    else none
  | .param _ :: _, [] => none

/-- `as_argument` of an item. -/
def Item.argument : Item → UInt8 × Bytes
  | .text s => (20, s)
  | .hint h => (0, [h.byte])
  | .arg v => v.argument

/-- Everything but the items that a statement logs: the arguments of `Header::new`,
aya-log-common/src/lib.rs 339-347. -/
structure Header where
  target : Bytes
  level : Level
  module : Bytes
  file : Bytes
  line : Nat
deriving DecidableEq, Repr

/-- A field: kind, length and value (`Field::new`, `with_bytes`): aya-log-common/src/lib.rs 304-327.
`none`: the value is longer than a `u16` can say. -/
def field (kind : UInt8) (value : Bytes) : Option Bytes :=
  if value.length < 65536 then some (kind :: le 2 value.length ++ value) else none

/-- Fields one after the other; `none` if one of them is too long. -/
def fields : List (UInt8 × Bytes) → Option Bytes
  | [] => some []
  | (k, v) :: r =>
    match field k v with
    | none => none
    | some b => match fields r with
      | none => none
      | some c => some (b ++ c)

/-- The fields of the header and of the items: aya-log-common/src/lib.rs 348-388 and
aya-log-ebpf-macros/src/expand.rs 182-204.  The count is a compile-time `u32` (157-163). -/
def recordFields (h : Header) (items : List Item) : List (UInt8 × Bytes) :=
  [(0, h.target), (1, [h.level.byte]), (2, h.module), (3, h.file), (4, le 4 h.line),
   (5, le 4 items.length)] ++ items.map Item.argument

/-- The loop choosing the size of the reservation: aya-log-ebpf-macros/src/expand.rs 212-219.  `fuel`
bounds the doublings; eight suffice (64 · 2⁸ > 8192). -/
def capacityFor : Nat → Nat → Nat → Option Nat
  | 0, _, _ => none
  | fuel + 1, cap, size =>
    if cap < size then if 2 * cap > 8192 then none else capacityFor fuel (2 * cap) size
    else some cap

/-- Outcome of one log statement: nothing sent, or a record submitted to the ring buffer. -/
inductive Sent where
  | dropped
  | submitted (buf : Bytes)
deriving DecidableEq, Repr

/-- The statement generated by `log`: aya-log-ebpf-macros/src/expand.rs 174-246, with
`level_enabled` of ebpf/aya-log-ebpf/src/lib.rs 36-41.  `enabled` is the value of `AYA_LOG_LEVEL`;
`reserve n` is what `reserve_bytes` returns, a buffer of `n` bytes of any content, or `none` when the
ring is full.  The writes of 223-240 put the bytes at the front of the buffer one field after the
other, or discard the reservation when they do not fit. -/
def logStatement (enabled : Nat) (reserve : Nat → Option Bytes) (h : Header) (items : List Item) :
    Sent :=
  if h.level.byte.toNat ≤ enabled then
    match fields (recordFields h items) with
    | none => .dropped
    | some body =>
      if 2 + body.length < 65536 then
        match capacityFor 9 64 (2 + body.length) with
        | none => .dropped
        | some cap =>
          match reserve cap with
          | none => .dropped
          | some buf =>
            if 2 + body.length ≤ buf.length then
              .submitted (le 2 (2 + body.length) ++ body ++ buf.drop (2 + body.length))
            else .dropped
      else .dropped
  else .dropped

/-! ## Reading a record -/

/-- Texts of the Rust standard library used by the formatters of aya-log/src/lib.rs 191-301, and
UTF-8 validation.  Nothing is assumed about them. -/
structure Std where
  /-- decimal `Display` of an integer -/
  dec : Int → Bytes
  /-- `{:x}` of an unsigned number -/
  hexLower : Nat → Bytes
  /-- `{:X}` of an unsigned number -/
  hexUpper : Nat → Bytes
  /-- `{:02x}` of a byte -/
  byteLower : UInt8 → Bytes
  /-- `{:02X}` of a byte -/
  byteUpper : UInt8 → Bytes
  /-- `Display` of an `f32` given by its bits -/
  f32 : Nat → Bytes
  /-- `Display` of an `f64` given by its bits -/
  f64 : Nat → Bytes
  /-- `Display` of the `Ipv4Addr` with the given octets -/
  ipv4 : Bytes → Bytes
  /-- `Display` of the `Ipv6Addr` with the given octets -/
  ipv6 : Bytes → Bytes
  /-- `{:p}` of a pointer -/
  ptr : Nat → Bytes
  /-- whether the bytes are valid UTF-8 -/
  utf8 : Bytes → Bool

/-- Result of reading a record.  `ub`: the code reads a byte as an enumeration it is not a member of,
or reads the first byte of an empty value: undefined behaviour. -/
inductive Res (α : Type) where
  | ok (a : α)
  | err
  | ub
deriving DecidableEq, Repr

/-- `Some(v) → continue`, in the style of `?`. -/
def Res.bind {α β : Type} : Res α → (α → Res β) → Res β
  | .ok a, f => f a
  | .err, _ => .err
  | .ub, _ => .ub

/-- `ok_or(())?`. -/
def orErr {α : Type} : Option α → Res α
  | some a => .ok a
  | none => .err

/-- `try_read`: aya-log/src/lib.rs 803-821.  `kinds` is the number of members of the enumeration the
tag is read as; the members are `0 … kinds - 1`. -/
def tryRead (kinds : Nat) : Bytes → Res (Nat × Bytes × Bytes)
  | t :: l0 :: l1 :: rest =>
    if t.toNat < kinds then
      if rest.length < ofLe [l0, l1] then .err
      else .ok (t.toNat, rest.take (ofLe [l0, l1]), rest.drop (ofLe [l0, l1]))
    else .ub
  | _ => .err

/-- Reading a `Level` from the first byte of a value: aya-log/src/lib.rs 541-552. -/
def readLevel : Bytes → Res Level
  | [] => .ub
  | b :: _ =>
    if b = 1 then .ok .error else if b = 2 then .ok .warn else if b = 3 then .ok .info
    else if b = 4 then .ok .debug else if b = 5 then .ok .trace else .ub

/-- Reading a `DisplayHint` from the first byte of a value: aya-log/src/lib.rs 603-605. -/
def readHint : Bytes → Res Hint
  | [] => .ub
  | b :: _ =>
    if b = 1 then .ok .dflt else if b = 2 then .ok .lowerHex else if b = 3 then .ok .upperHex
    else if b = 4 then .ok .ip else if b = 5 then .ok .lowerMac else if b = 6 then .ok .upperMac
    else if b = 7 then .ok .pointer else .ub

/-- The variables filled by the header loop: aya-log/src/lib.rs 517-522. -/
structure Partial where
  target : Option Bytes := none
  level : Option Level := none
  module : Option Bytes := none
  file : Option Bytes := none
  line : Option Nat := none
  numArgs : Option Nat := none
deriving DecidableEq, Repr

/-- `str::from_utf8(value)?`. -/
def fromUtf8 (std : Std) (v : Bytes) : Res Bytes := if std.utf8 v then .ok v else .err

/-- `u32::from_ne_bytes(value.try_into()?)`. -/
def fromU32 (v : Bytes) : Res Nat := if v.length = 4 then .ok (ofLe v) else .err

/-- `replace` followed by the test that there was nothing before. -/
def setOnce {α : Type} (old : Option α) (new : α) : Res (Option α) :=
  if old.isSome then .err else .ok (some new)

/-- One field of the header: aya-log/src/lib.rs 533-589. -/
def headerField (std : Std) (p : Partial) (tag : Nat) (v : Bytes) : Res Partial :=
  match tag with
  | 0 => (fromUtf8 std v).bind fun s => (setOnce p.target s).bind fun x => .ok { p with target := x }
  | 1 => (readLevel v).bind fun l => (setOnce p.level l).bind fun x => .ok { p with level := x }
  | 2 => (fromUtf8 std v).bind fun s => (setOnce p.module s).bind fun x => .ok { p with module := x }
  | 3 => (fromUtf8 std v).bind fun s => (setOnce p.file s).bind fun x => .ok { p with file := x }
  | 4 => (fromU32 v).bind fun n => (setOnce p.line n).bind fun x => .ok { p with line := x }
  | _ => (fromU32 v).bind fun n => (setOnce p.numArgs n).bind fun x => .ok { p with numArgs := x }

/-- All six variables are set: aya-log/src/lib.rs 524-529. -/
def Partial.complete (p : Partial) : Bool :=
  p.target.isSome && p.level.isSome && p.module.isSome && p.file.isSome && p.line.isSome &&
    p.numArgs.isSome

/-- The header loop: aya-log/src/lib.rs 524-592.  A field has at least three bytes, so the length of
the buffer plus one is enough `fuel`. -/
def headerLoop (std : Std) : Nat → Partial → Bytes → Res (Partial × Bytes)
  | 0, _, _ => .err
  | fuel + 1, p, buf =>
    if p.complete then .ok (p, buf)
    else (tryRead 6 buf).bind fun r => (headerField std p r.1 r.2.1).bind fun p' =>
      headerLoop std fuel p' r.2.2

/-- The integer type of a kind: aya-log/src/lib.rs 606-705. -/
def intOfKind : Nat → Option IntTy
  | 1 => some .i8 | 2 => some .i16 | 3 => some .i32 | 4 => some .i64 | 5 => some .isize
  | 6 => some .u8 | 7 => some .u16 | 8 => some .u32 | 9 => some .u64 | 10 => some .usize
  | _ => none

/-- `from_ne_bytes` of an integer type. -/
def IntTy.ofBytes (t : IntTy) (v : Bytes) : Int :=
  if t.signed && 2 * ofLe v ≥ 256 ^ t.size then (ofLe v : Int) - 256 ^ t.size else ofLe v

/-- `Format` of the integer types; `u32` can also be shown as an address: aya-log/src/lib.rs 317-330
and 422-450.  A negative number is shown in hexadecimal by its two's complement.  `Ipv4Addr::from` of
a `u32` takes the most significant byte first. -/
def formatInt (std : Std) (t : IntTy) (n : Int) : Option Hint → Res Bytes
  | some .dflt | none => .ok (std.dec n)
  | some .lowerHex => .ok (std.hexLower (n % 256 ^ t.size).toNat)
  | some .upperHex => .ok (std.hexUpper (n % 256 ^ t.size).toNat)
  | some .ip =>
    if t = .u32 then .ok (std.ipv4 (le 4 n.toNat).reverse) else .err
  | _ => .err

/-- `Format` of the floating-point types: aya-log/src/lib.rs 452-472. -/
def formatFloat (shown : Bytes) : Option Hint → Res Bytes
  | some .dflt | none => .ok shown
  | _ => .err

/-- `Format` of `Ipv4Addr`, `Ipv6Addr` and `[u8; 4]`: aya-log/src/lib.rs 332-375. -/
def formatAddr (shown : Bytes) : Option Hint → Res Bytes
  | some .dflt | some .ip | none => .ok shown
  | _ => .err

/-- `Format` of `[u8; 16]` and `[u16; 8]`: aya-log/src/lib.rs 392-421. -/
def formatIp (shown : Bytes) : Option Hint → Res Bytes
  | some .ip => .ok shown
  | _ => .err

/-- The text of a MAC address: `LowerMacFormatter`, `UpperMacFormatter`, aya-log/src/lib.rs 267-285:
the bytes in hexadecimal with colons between them. -/
def macText (f : UInt8 → Bytes) : Bytes → Bytes
  | [] => []
  | [b] => f b
  | b :: r => f b ++ [58] ++ macText f r

/-- `Format` of `[u8; 6]`: aya-log/src/lib.rs 377-390. -/
def formatMac (std : Std) (v : Bytes) : Option Hint → Res Bytes
  | some .lowerMac => .ok (macText std.byteLower v)
  | some .upperMac => .ok (macText std.byteUpper v)
  | _ => .err

/-- `Format` of `&[u8]`: aya-log/src/lib.rs 307-315, with 215-245. -/
def formatBytes (std : Std) (v : Bytes) : Option Hint → Res Bytes
  | some .lowerHex => .ok (v.flatMap std.byteLower)
  | some .upperHex => .ok (v.flatMap std.byteUpper)
  | _ => .err

/-- `Format` of pointers: aya-log/src/lib.rs 474-490. -/
def formatPtr (std : Std) (a : Nat) : Option Hint → Res Bytes
  | some .pointer => .ok (std.ptr a)
  | _ => .err

/-- The big-endian octets of the little-endian `u16`s of an `ArrU16Len8` value: aya-log/src/lib.rs
758-767 with `Ipv6Addr::from([u16; 8])`. -/
def swapPairs : Bytes → Bytes
  | a :: b :: r => b :: a :: swapPairs r
  | _ => []

/-- One argument: aya-log/src/lib.rs 602-783.  The new `last_hint` and the text appended. -/
def argField (std : Std) (hint : Option Hint) (tag : Nat) (v : Bytes) :
    Res (Option Hint × Bytes) :=
  match intOfKind tag with
  | some t =>
    if v.length = t.size then (formatInt std t (t.ofBytes v) hint).bind fun s => .ok (none, s)
    else .err
  | none =>
    match tag with
    | 0 => (readHint v).bind fun h => .ok (some h, [])
    | 11 => if v.length = 4 then (formatFloat (std.f32 (ofLe v)) hint).bind fun s => .ok (none, s)
      else .err
    | 12 => if v.length = 8 then (formatFloat (std.f64 (ofLe v)) hint).bind fun s => .ok (none, s)
      else .err
    | 13 => if v.length = 4 then (formatAddr (std.ipv4 v) hint).bind fun s => .ok (none, s) else .err
    | 14 => if v.length = 16 then (formatAddr (std.ipv6 v) hint).bind fun s => .ok (none, s) else .err
    | 15 => if v.length = 4 then (formatAddr (std.ipv4 v) hint).bind fun s => .ok (none, s) else .err
    | 16 => if v.length = 6 then (formatMac std v hint).bind fun s => .ok (none, s) else .err
    | 17 => if v.length = 16 then (formatIp (std.ipv6 v) hint).bind fun s => .ok (none, s) else .err
    | 18 => if v.length = 16 then (formatIp (std.ipv6 (swapPairs v)) hint).bind fun s => .ok (none, s)
      else .err
    | 19 => (formatBytes std v hint).bind fun s => .ok (none, s)
    | 20 => if std.utf8 v then .ok (hint, v) else .ok (hint, [])
    | _ => if v.length = 8 then (formatPtr std (ofLe v) hint).bind fun s => .ok (none, s) else .err

/-- The argument loop: aya-log/src/lib.rs 599-787. -/
def argLoop (std : Std) : Nat → Option Hint → Bytes → Bytes → Res Bytes
  | 0, _, _, msg => .ok msg
  | n + 1, hint, buf, msg =>
    (tryRead 22 buf).bind fun r => (argField std hint r.1 r.2.1).bind fun a =>
      argLoop std n a.1 r.2.2 (msg ++ a.2)

/-- What is given to the logger: aya-log/src/lib.rs 789-798. -/
structure Record where
  target : Bytes
  level : Level
  module : Bytes
  file : Bytes
  line : Nat
  text : Bytes
deriving DecidableEq, Repr

/-- The body of `log_buf` once the header is read: aya-log/src/lib.rs 594-801. -/
def logArgs (std : Std) (r : Partial × Bytes) : Res Record :=
  (orErr r.1.numArgs).bind fun n =>
  (argLoop std n none r.2 []).bind fun msg =>
  (orErr r.1.target).bind fun target =>
  (orErr r.1.level).bind fun level =>
  (orErr r.1.module).bind fun m =>
  (orErr r.1.file).bind fun f =>
  (orErr r.1.line).bind fun l =>
  .ok ⟨target, level, m, f, l, msg⟩

/-- `log_buf`: aya-log/src/lib.rs 507-801. -/
def logBuf (std : Std) : Bytes → Res Record
  | l0 :: l1 :: rest =>
    if 2 ≤ ofLe [l0, l1] ∧ ofLe [l0, l1] ≤ rest.length + 2 then
      (headerLoop std (rest.length + 1) {} (rest.take (ofLe [l0, l1] - 2))).bind (logArgs std)
    else .err
  | _ => .err

/-- What a user sees of one record taken from the ring: `flush` unwraps the result,
aya-log/src/lib.rs 183-188. -/
inductive Shown where
  | logged (r : Record)
  | panic
  | ub
deriving DecidableEq, Repr

/-- One turn of `flush`: aya-log/src/lib.rs 183-188. -/
def flushOne (std : Std) (buf : Bytes) : Shown :=
  match logBuf std buf with
  | .ok r => .logged r
  | .err => .panic
  | .ub => .ub

end Verif.Log
