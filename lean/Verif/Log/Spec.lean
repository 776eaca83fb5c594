import Verif.Log.Model
/-!
# What a log statement means

Vocabulary for C42 – C45.  It uses the data types of the model (hints, values, headers, records and
the texts `Std` of the standard library) but none of its functions.
-/
namespace Verif.Log.Spec
open Verif.Log

/-! ## Format strings -/

/-- A format string is a sequence of pieces: an ordinary character, an escaped brace, or a
parameter. -/
inductive Piece where
  | chr (c : Char)
  /-- the two characters `{{` -/
  | openBrace
  /-- the two characters `}}` -/
  | closeBrace
  | param (h : Hint)
deriving DecidableEq, Repr

/-- How each hint is written between the braces. -/
def hintText : Hint → List Char
  | .dflt => []
  | .lowerHex => [':', 'x']
  | .upperHex => [':', 'X']
  | .ip => [':', 'i']
  | .lowerMac => [':', 'm', 'a', 'c']
  | .upperMac => [':', 'M', 'A', 'C']
  | .pointer => [':', 'p']

/-- The characters of a piece. -/
def Piece.written : Piece → List Char
  | .chr c => [c]
  | .openBrace => ['{', '{']
  | .closeBrace => ['}', '}']
  | .param h => '{' :: (hintText h ++ ['}'])

/-- Ordinary characters are not braces. -/
def Piece.Ordinary : Piece → Prop
  | .chr c => c ≠ '{' ∧ c ≠ '}'
  | _ => True

instance : DecidablePred Piece.Ordinary := fun p => by
  cases p <;> simp only [Piece.Ordinary] <;> infer_instance

/-- The format string made of some pieces. -/
def written (ps : List Piece) : List Char := ps.flatMap Piece.written

/-- Put a character in front of what follows: it joins a literal that is already there. -/
def addChar (c : Char) : List Fragment → List Fragment
  | .literal s :: r => .literal (c :: s) :: r
  | r => .literal [c] :: r

/-- The meaning of a format string: parameters in order, and between them the literal text, with
escaped braces standing for one brace. -/
def meaning : List Piece → List Fragment
  | [] => []
  | .chr c :: r => addChar c (meaning r)
  | .openBrace :: r => addChar '{' (meaning r)
  | .closeBrace :: r => addChar '}' (meaning r)
  | .param h :: r => .param h :: meaning r

/-- A format string in which single closing braces may also occur (`none`). -/
abbrev Loose := Option Piece

/-- The characters of a piece or of a single closing brace. -/
def looseWritten (qs : List Loose) : List Char :=
  qs.flatMap fun q => match q with
    | some p => p.written
    | none => ['}']

/-- The meaning, with a single closing brace standing for itself. -/
def looseMeaning : List Loose → List Fragment
  | [] => []
  | none :: r => addChar '}' (looseMeaning r)
  | some (.chr c) :: r => addChar c (looseMeaning r)
  | some .openBrace :: r => addChar '{' (looseMeaning r)
  | some .closeBrace :: r => addChar '}' (looseMeaning r)
  | some (.param h) :: r => .param h :: looseMeaning r

/-- Single closing braces occur only two by two, with nothing but escaped braces between the two, and
none is followed by another closing brace.  The flag says that one is waiting for its partner.  In
particular the `{{` between the two cannot be missing. -/
def Paired : Bool → List Loose → Prop
  | w, [] => w = false
  | w, none :: r => r.head? ≠ some none ∧ r.head? ≠ some (some .closeBrace) ∧ Paired (!w) r
  | w, some .openBrace :: r => Paired w r
  | w, some .closeBrace :: r => Paired w r
  | w, some (.chr c) :: r => w = false ∧ c ≠ '{' ∧ c ≠ '}' ∧ Paired false r
  | w, some (.param _) :: r => w = false ∧ Paired false r

/-! ## Texts of values -/

/-- `n` as an unsigned number of `bytes` bytes (two's complement). -/
def unsigned (bytes : Nat) (n : Int) : Nat := (n % (2 ^ (8 * bytes) : Nat)).toNat

/-- Bytes per integer type. -/
def width : IntTy → Nat
  | .i8 | .u8 => 1
  | .i16 | .u16 => 2
  | .i32 | .u32 => 4
  | .i64 | .u64 | .isize | .usize => 8

/-- Least value of an integer type. -/
def least : IntTy → Int
  | .i8 => -128
  | .i16 => -32768
  | .i32 => -2147483648
  | .i64 | .isize => -9223372036854775808
  | _ => 0

/-- Greatest value of an integer type. -/
def greatest : IntTy → Int
  | .i8 => 127
  | .i16 => 32767
  | .i32 => 2147483647
  | .i64 | .isize => 9223372036854775807
  | .u8 => 255
  | .u16 => 65535
  | .u32 => 4294967295
  | .u64 | .usize => 18446744073709551615

/-- The values of the Rust types. -/
def Valid (std : Std) : Val → Prop
  | .int t v => least t ≤ v ∧ v ≤ greatest t
  | .f32 b => b < 2 ^ 32
  | .f64 b => b < 2 ^ 64
  | .ipv4 o => o.length = 4
  | .ipv6 o => o.length = 16
  | .str s => std.utf8 s = true
  | .ptr a => a < 2 ^ 64
  | _ => True

/-- The text of a value under a hint, for the pairs that compile; `none` for the others.
* `{}` shows numbers, floats and addresses as usual and strings as they are;
* `{:x}` and `{:X}` show integers in hexadecimal, and byte strings two digits a byte;
* `{:i}` shows an address, given as such, as a `u32` (most significant byte first) or as octets;
* `{:mac}` and `{:MAC}` show six bytes with colons between them;
* `{:p}` shows a pointer. -/
def text (std : Std) : Hint → Val → Option Bytes
  | .dflt, .int _ v => some (std.dec v)
  | .dflt, .f32 b => some (std.f32 b)
  | .dflt, .f64 b => some (std.f64 b)
  | .dflt, .ipv4 o => some (std.ipv4 o)
  | .dflt, .ipv6 o => some (std.ipv6 o)
  | .dflt, .str s => some s
  | .lowerHex, .int t v => some (std.hexLower (unsigned (width t) v))
  | .upperHex, .int t v => some (std.hexUpper (unsigned (width t) v))
  | .lowerHex, .slice b => some (b.flatMap std.byteLower)
  | .upperHex, .slice b => some (b.flatMap std.byteUpper)
  | .lowerHex, .refArr b => some (b.flatMap std.byteLower)
  | .upperHex, .refArr b => some (b.flatMap std.byteUpper)
  | .ip, .ipv4 o => some (std.ipv4 o)
  | .ip, .ipv6 o => some (std.ipv6 o)
  | .ip, .int .u32 v =>
    some (std.ipv4 [UInt8.ofNat (v.toNat / 2 ^ 24), UInt8.ofNat (v.toNat / 2 ^ 16),
      UInt8.ofNat (v.toNat / 2 ^ 8), UInt8.ofNat v.toNat])
  | .ip, .arr b =>
    if b.length = 4 then some (std.ipv4 b) else if b.length = 16 then some (std.ipv6 b) else none
  | .lowerMac, .arr [a, b, c, d, e, f] =>
    some (std.byteLower a ++ [58] ++ std.byteLower b ++ [58] ++ std.byteLower c ++ [58] ++
      std.byteLower d ++ [58] ++ std.byteLower e ++ [58] ++ std.byteLower f)
  | .upperMac, .arr [a, b, c, d, e, f] =>
    some (std.byteUpper a ++ [58] ++ std.byteUpper b ++ [58] ++ std.byteUpper c ++ [58] ++
      std.byteUpper d ++ [58] ++ std.byteUpper e ++ [58] ++ std.byteUpper f)
  | .pointer, .ptr a => some (std.ptr a)
  | _, _ => none

/-- A `&[u8; N]` shown in hexadecimal whose length makes the record say "address" or "MAC": the pairs
user space cannot format (see `C43_hex_array_violated`). -/
def HexOfSpecialArray : Hint → Val → Prop
  | .lowerHex, .refArr b | .upperHex, .refArr b => b.length = 4 ∨ b.length = 6 ∨ b.length = 16
  | _, _ => False

instance (h : Hint) (v : Val) : Decidable (HexOfSpecialArray h v) := by
  cases h <;> cases v <;> simp only [HexOfSpecialArray] <;> infer_instance

/-- The message of a statement: its pieces with each parameter replaced by the text of the argument at
the same place, in order.  `none` if an argument is missing or is not shown under its hint. -/
def message (std : Std) (utf8 : Char → Bytes) : List Piece → List Val → Option Bytes
  | [], _ => some []
  | .chr c :: r, args => (message std utf8 r args).map (utf8 c ++ ·)
  | .openBrace :: r, args => (message std utf8 r args).map (utf8 '{' ++ ·)
  | .closeBrace :: r, args => (message std utf8 r args).map (utf8 '}' ++ ·)
  | .param h :: r, a :: args =>
    match text std h a, message std utf8 r args with
    | some t, some m => some (t ++ m)
    | _, _ => none
  | .param _ :: _, [] => none

/-- The hints a statement puts on its arguments, in order. -/
def hints : List Piece → List Hint
  | [] => []
  | .param h :: r => h :: hints r
  | _ :: r => hints r

/-! ## Records -/

/-- Bytes of the value of an argument. -/
def argSize : Val → Nat
  | .int t _ => width t
  | .f32 _ => 4
  | .f64 _ => 8
  | .ipv4 o | .ipv6 o => o.length
  | .arr b | .refArr b | .slice b => b.length
  | .str s => s.length
  | .ptr _ => 8

/-- Bytes taken by the values of a statement: every literal, hint and argument is a field of three bytes
and its value; a hint is one byte. -/
def fragmentsSize (utf8 : Char → Bytes) : List Fragment → List Val → Nat
  | .literal s :: r, args => 3 + (s.flatMap utf8).length + fragmentsSize utf8 r args
  | .param _ :: r, a :: args => (3 + 1) + (3 + argSize a) + fragmentsSize utf8 r args
  | _, _ => 0

/-- Bytes taken by the record of a statement: two for the size, the six fields of the header, and the
values. -/
def recordSize (utf8 : Char → Bytes) (h : Header) (ps : List Piece) (args : List Val) : Nat :=
  2 + (3 + h.target.length) + (3 + 1) + (3 + h.module.length) + (3 + h.file.length) + (3 + 4) + (3 + 4) +
    fragmentsSize utf8 (meaning ps) args

/-- The room asked for: the least of 64, 128, …, 8192 bytes that is enough. -/
def slot (n : Nat) : Nat :=
  if n ≤ 64 then 64 else if n ≤ 128 then 128 else if n ≤ 256 then 256 else if n ≤ 512 then 512
  else if n ≤ 1024 then 1024 else if n ≤ 2048 then 2048 else if n ≤ 4096 then 4096 else 8192

/-- The number of a level: 1 for errors up to 5 for traces. -/
def severity : Level → Nat
  | .error => 1
  | .warn => 2
  | .info => 3
  | .debug => 4
  | .trace => 5

/-- The bytes of a sequence of fields: a kind, the length of the value in two bytes, the value. -/
def encoded : List (UInt8 × Bytes) → Bytes
  | [] => []
  | (k, v) :: r => k :: UInt8.ofNat (v.length % 256) :: UInt8.ofNat (v.length / 256) :: (v ++ encoded r)

/-- The byte is the number of a level. -/
def IsLevel (b : UInt8) : Prop := 1 ≤ b.toNat ∧ b.toNat ≤ 5

/-- The byte is the number of a display hint. -/
def IsHint (b : UInt8) : Prop := 1 ≤ b.toNat ∧ b.toNat ≤ 7

/-- An argument field: a known kind, and a value of the size of that kind.  Kind 0 is a display hint,
19 a byte string and 20 a string of any length. -/
def GoodArg (kv : UInt8 × Bytes) : Prop :=
  match kv.1.toNat with
  | 0 => ∃ b r, kv.2 = b :: r ∧ IsHint b
  | 1 | 6 => kv.2.length = 1
  | 2 | 7 => kv.2.length = 2
  | 3 | 8 | 11 | 13 | 15 => kv.2.length = 4
  | 4 | 5 | 9 | 10 | 12 | 21 => kv.2.length = 8
  | 14 | 17 | 18 => kv.2.length = 16
  | 16 => kv.2.length = 6
  | 19 | 20 => True
  | _ => False

/-- A header: the six fields, in any order, each once.  A level may be followed by bytes that are not
looked at. -/
def GoodHeader (r : Record) (numArgs : Nat) (hdr : List (UInt8 × Bytes)) : Prop :=
  ∃ (lv : UInt8) (junk ln na : Bytes),
    lv.toNat = severity r.level ∧ ln.length = 4 ∧ Verif.Bytes.ofLe ln = r.line ∧
    na.length = 4 ∧ Verif.Bytes.ofLe na = numArgs ∧
    hdr.Perm [(0, r.target), (1, lv :: junk), (2, r.module), (3, r.file), (4, ln), (5, na)]

/-- Where a reader goes wrong: `rest` begins a field of an unknown kind (there are `kinds` of them), or of
kind `special` whose value does not begin with a good byte. -/
def Bad (kinds special : Nat) (good : UInt8 → Prop) (rest : Bytes) : Prop :=
  ∃ k l0 l1 more, rest = k :: l0 :: l1 :: more ∧
    (kinds ≤ k.toNat ∨ (k.toNat = special ∧
      ∀ b r, more.take (Verif.Bytes.ofLe [l0, l1]) = b :: r → ¬ good b))

end Verif.Log.Spec
