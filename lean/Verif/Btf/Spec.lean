import Verif.Btf.Model
/-!
# Specification vocabulary for BTF

Only the data types of the model are used here, none of its functions.
-/
namespace Verif.Btf.Spec
open Verif.Btf

/-- A 32-bit word. -/
def U32 (n : Nat) : Prop := n < 2 ^ 32

/-- `info` announces kind number `k` (bits 24-28), see the kernel's Documentation/bpf/btf.rst. -/
def Announces (info k : Nat) : Prop := info / 2 ^ 24 % 32 = k

/-- `info` announces `n` list entries (bits 0-15). -/
def Counts (info n : Nat) : Prop := info % 65536 = n

/-- Kind numbers of the three-word kinds in the kernel's BTF format. -/
def refKindNo : RefKind → Nat
  | .ptr => 2 | .typedef => 8 | .volatile => 9 | .const => 10 | .restrict => 11 | .func => 12 | .typeTag => 18

/-- A type whose `info` word agrees with its kind and its number of entries, all of whose words fit 32 bits. -/
def Coherent : BtfType → Prop
  | .unknown => False
  | .fwd n i => U32 n ∧ U32 i ∧ Announces i 7
  | .ref k n i t => U32 n ∧ U32 i ∧ U32 t ∧ Announces i (refKindNo k)
  | .int n i s d => U32 n ∧ U32 i ∧ U32 s ∧ U32 d ∧ Announces i 1
  | .float n i s => U32 n ∧ U32 i ∧ U32 s ∧ Announces i 16
  | .enum n i s vs => U32 n ∧ U32 i ∧ U32 s ∧ Announces i 6 ∧ Counts i vs.length ∧
      ∀ v ∈ vs, U32 v.name ∧ U32 v.value
  | .enum64 n i s vs => U32 n ∧ U32 i ∧ U32 s ∧ Announces i 19 ∧ Counts i vs.length ∧
      ∀ v ∈ vs, U32 v.name ∧ U32 v.low ∧ U32 v.high
  | .array n i e x l => U32 n ∧ U32 i ∧ U32 e ∧ U32 x ∧ U32 l ∧ Announces i 3
  | .struct n i s ms => U32 n ∧ U32 i ∧ U32 s ∧ Announces i 4 ∧ Counts i ms.length ∧
      ∀ m ∈ ms, U32 m.name ∧ U32 m.ty ∧ U32 m.offset
  | .union n i s ms _ => U32 n ∧ U32 i ∧ U32 s ∧ Announces i 5 ∧ Counts i ms.length ∧
      ∀ m ∈ ms, U32 m.name ∧ U32 m.ty ∧ U32 m.offset
  | .funcProto n i r ps => U32 n ∧ U32 i ∧ U32 r ∧ Announces i 13 ∧ Counts i ps.length ∧
      ∀ p ∈ ps, U32 p.name ∧ U32 p.ty
  | .var n i t l => U32 n ∧ U32 i ∧ U32 t ∧ l ≤ 3 ∧ Announces i 14
  | .dataSec n i s es => U32 n ∧ U32 i ∧ U32 s ∧ Announces i 15 ∧ Counts i es.length ∧
      ∀ e ∈ es, U32 e.ty ∧ U32 e.offset ∧ U32 e.size
  | .declTag n i t c => U32 n ∧ U32 i ∧ U32 t ∧ U32 c ∧ Announces i 17

/-- The type as the BTF format can express it: what aya remembers about a downgraded ENUM64 is not part of it. -/
def wire : BtfType → BtfType
  | .union n i s ms _ => .union n i s ms none
  | t => t

/-- Number of bytes of a type's record in the kernel's BTF format. -/
def recordSize : BtfType → Nat
  | .unknown => 12 | .fwd .. => 12 | .ref .. => 12 | .float .. => 12
  | .int .. => 12 + 4 | .var .. => 12 + 4 | .declTag .. => 12 + 4
  | .array .. => 12 + 12
  | .enum _ _ _ vs => 12 + vs.length * 8
  | .enum64 _ _ _ vs => 12 + vs.length * 12
  | .struct _ _ _ ms => 12 + ms.length * 12
  | .union _ _ _ ms _ => 12 + ms.length * 12
  | .funcProto _ _ _ ps => 12 + ps.length * 8
  | .dataSec _ _ _ es => 12 + es.length * 12

/-- The layout every BTF producer uses: a 24 byte header, the types right after it, the strings right after the
types. -/
def Canonical (b : Btf) : Prop :=
  U32 b.header.typeLen ∧ U32 b.header.strOff ∧ U32 b.header.strLen ∧
  b.header.magic < 2 ^ 16 ∧ b.header.version < 2 ^ 8 ∧ b.header.flags < 2 ^ 8 ∧
  b.header.hdrLen = 24 ∧ b.header.typeOff = 0 ∧
  b.header.typeLen = ((b.types.drop 1).map recordSize).sum ∧ b.header.strOff = b.header.typeLen ∧
  b.header.strLen = b.strings.length

/-- Operations of the BTF building API. -/
inductive Op where
  | str (s : List UInt8)
  | type (t : BtfType)

/-- Bytes an operation adds to the output. -/
def Op.bytes : Op → Nat
  | .str s => s.length + 1
  | .type t => recordSize t

/-! ## Type graphs -/

/-- The type referenced when looking through a typedef, qualifier or type tag. -/
def through : BtfType → Option Nat
  | .ref .typedef _ _ t => some t
  | .ref .const _ _ t => some t
  | .ref .volatile _ _ t => some t
  | .ref .restrict _ _ t => some t
  | .ref .typeTag _ _ t => some t
  | _ => none

/-- `b` is reached from `a` by looking through `k` typedefs, qualifiers or tags. -/
inductive Looks (ts : List BtfType) : Nat → Nat → Nat → Prop where
  | here (a : Nat) : Looks ts 0 a a
  | step {k a b c : Nat} {t : BtfType} : ts[a]? = some t → through t = some b → Looks ts k b c → Looks ts (k + 1) a c

/-- C `sizeof` of a type, on a 64-bit target. `d` counts the records looked at, `dims` the array dimensions. -/
inductive SizeOf (ts : List BtfType) : (id d dims n : Nat) → Prop where
  | int {id n i s x} : ts[id]? = some (.int n i s x) → SizeOf ts id 1 0 s
  | float {id n i s} : ts[id]? = some (.float n i s) → SizeOf ts id 1 0 s
  | enum {id n i s vs} : ts[id]? = some (.enum n i s vs) → SizeOf ts id 1 0 s
  | enum64 {id n i s vs} : ts[id]? = some (.enum64 n i s vs) → SizeOf ts id 1 0 s
  | struct {id n i s ms} : ts[id]? = some (.struct n i s ms) → SizeOf ts id 1 0 s
  | union {id n i s ms f} : ts[id]? = some (.union n i s ms f) → SizeOf ts id 1 0 s
  | dataSec {id n i s es} : ts[id]? = some (.dataSec n i s es) → SizeOf ts id 1 0 s
  | ptr {id n i t} : ts[id]? = some (.ref .ptr n i t) → SizeOf ts id 1 0 8
  | array {id n i e x len d dims s} : ts[id]? = some (.array n i e x len) → SizeOf ts e d dims s →
      SizeOf ts id (d + 1) (dims + 1) (len * s)
  | through {id t next d dims s} : ts[id]? = some t → Spec.through t = some next → SizeOf ts next d dims s →
      SizeOf ts id (d + 1) dims s
  | var {id n i t l d dims s} : ts[id]? = some (.var n i t l) → SizeOf ts t d dims s → SizeOf ts id (d + 1) dims s

/-- The C string at an offset of a string section: `s` contains no NUL and is followed by one. -/
def StringAt (strings : List UInt8) (offset : Nat) (s : List UInt8) : Prop :=
  0 ∉ s ∧ ∃ rest, strings.drop offset = s ++ 0 :: rest

end Verif.Btf.Spec
