import Verif.Btf.Spec
import Verif.Common.Insn
import Verif.Common.Str
/-!
# Specification vocabulary for CO-RE relocations

Uses the data types of BTF (`BtfType`, `Member`) and the vocabulary of `Verif.Btf.Spec`, none of the functions of the
model.
-/
namespace Verif.Core.Spec
open Verif.Btf Verif.Btf.Spec

/-! ## Memory and the code around a field access -/

/-- Bit `p` of little endian memory. -/
def bitAt (mem : Nat → UInt8) (p : Nat) : Nat := (mem (p / 8)).toNat / 2 ^ (p % 8) % 2

/-- The unsigned number held by the `n` bits from bit `p` on. -/
def bits (mem : Nat → UInt8) (p : Nat) : Nat → Nat
  | 0 => 0
  | n + 1 => bits mem p n + bitAt mem (p + n) * 2 ^ n

/-- The two's complement number held by the `n` bits from bit `p` on. -/
def signedBits (mem : Nat → UInt8) (p n : Nat) : Int :=
  if bitAt mem (p + n - 1) = 1 then (bits mem p n : Int) - 2 ^ n else bits mem p n

/-- A little endian load of `n` bytes at address `o`. -/
def load (mem : Nat → UInt8) (o : Nat) : Nat → Nat
  | 0 => 0
  | n + 1 => load mem o n + (mem (o + n)).toNat * 256 ^ n

/-- What the code generated for reading a field leaves in the register: load, shift left, shift right, the latter
arithmetically for a signed field. -/
def readField (signed : Bool) (mem : Nat → UInt8) (off size l r : Nat) : BitVec 64 :=
  let v := BitVec.ofNat 64 (load mem off size) <<< l
  if signed then v.sshiftRight r else v >>> r

/-! ## Members -/

/-- `ty` is a struct or union whose member `i` is `m`; `info` is its info word. -/
def HasMember (ty : BtfType) (i : Nat) (info : Nat) (m : Member) : Prop :=
  (∃ n s ms, ty = .struct n info s ms ∧ ms[i]? = some m) ∨ (∃ n s ms f, ty = .union n info s ms f ∧ ms[i]? = some m)

/-- Offset of a member in bits. With the kind flag (bit 31 of the info word) the upper 8 bits of the offset word hold
a bitfield width; see the kernel's Documentation/bpf/btf.rst. -/
def memberOffset (info : Nat) (m : Member) : Nat := if info < 2 ^ 31 then m.offset else m.offset % 2 ^ 24

/-- Width of a bitfield, zero for a plain member. -/
def memberWidth (info : Nat) (m : Member) : Nat := if info < 2 ^ 31 then 0 else m.offset / 2 ^ 24

/-- Whether the values of a type are signed: integers whose encoding (bits 24-27 of their last word) has bit 0 set, and
enums whose kind flag is set. -/
def isSigned : BtfType → Prop
  | .int _ _ _ data => data / 2 ^ 24 % 2 = 1
  | .enum _ info _ _ => 2 ^ 31 ≤ info
  | .enum64 _ info _ _ => 2 ^ 31 ≤ info
  | _ => False

/-- `a` leads to the type `r`, looking through at most 31 typedefs, qualifiers and tags, and `r` is none of these. -/
def Resolves (ts : List BtfType) (a r : Nat) (t : BtfType) : Prop :=
  ∃ k, k < 32 ∧ Looks ts k a r ∧ ts[r]? = some t ∧ through t = none

/-- The info words of structs and unions fit 32 bits. -/
def Words (ts : List BtfType) : Prop :=
  ∀ (id : Nat) (ty : BtfType) (i info : Nat) (m : Member), ts[id]? = some ty → HasMember ty i info m → info < 2 ^ 32

/-! ## Names -/

/-- `b` is the name `n` without its flavour: what precedes the first `___` (byte 95 is `_`), all of `n` if there is
none. -/
def Base (n b : List UInt8) : Prop :=
  (b = n ∨ ∃ r, n = b ++ 95 :: 95 :: 95 :: r) ∧ ∀ a r, n = a ++ 95 :: 95 :: 95 :: r → b.length ≤ a.length

/-! ## Access paths -/

/-- One step of an access path: the member of a name, declared with a type of the program's BTF, or an element of an
array (in the first step, of the array the object is in). -/
inductive Step where
  | field (name : List UInt8) (ty : Nat)
  | index (i : Nat)
  deriving DecidableEq

/-- The access string: the indexes in decimal, separated by colons. -/
def accessString (parts : List Nat) : List UInt8 :=
  (Str.joinWith ':' (parts.map (Str.render 10))).map (fun c => c.toNat.toUInt8)

/-- The path an access string spells in the program's own types: the first index selects the object, each further one an
element of an array or a member; members without a name are passed through. -/
inductive Spells (ts : List BtfType) (strings : List UInt8) : Bool → Nat → List Nat → List Step → Prop where
  | done (b : Bool) (id : Nat) : Spells ts strings b id [] []
  | root {id r i is ss} {t : BtfType} : Resolves ts id r t → Spells ts strings false r is ss →
      Spells ts strings true id (i :: is) (.index i :: ss)
  | elem {id r n k e x len r' t i is ss} : Resolves ts id r (.array n k e x len) → Resolves ts e r' t →
      (i < len ∨ len = 0) → Spells ts strings false r' is ss → Spells ts strings false id (i :: is) (.index i :: ss)
  | member {id r t i info m nm is ss} : Resolves ts id r t → HasMember t i info m → m.name ≠ 0 →
      StringAt strings m.name nm → Spells ts strings false m.ty is ss →
      Spells ts strings false id (i :: is) (.field nm m.ty :: ss)
  | anon {id r t i info m is ss} : Resolves ts id r t → HasMember t i info m → m.name = 0 →
      Spells ts strings false m.ty is ss → Spells ts strings false id (i :: is) ss

/-- The type `ty` has a member `m` called `name` at bit offset `off`, itself or inside a member without a name. `info` is
the info word of the struct or union `m` is declared in. -/
inductive FieldAt (ts : List BtfType) (strings : List UInt8) : BtfType → List UInt8 → Nat → Nat → Member → Prop where
  | direct {ty i info m name} : HasMember ty i info m → StringAt strings m.name name → name ≠ [] →
      FieldAt ts strings ty name (memberOffset info m) info m
  | inner {ty i info m r t name off info' m'} : HasMember ty i info m → StringAt strings m.name [] →
      Resolves ts m.ty r t → FieldAt ts strings t name off info' m' →
      FieldAt ts strings ty name (memberOffset info m + off) info' m'

/-- `sz` is the C size of type `id`, if it has one, less than 4 GiB, found within 32 records and of an array of at most
one dimension. -/
def Sized (ts : List BtfType) (id sz : Nat) : Prop :=
  ∀ d dims n, SizeOf ts id d dims n → dims ≤ 1 → d ≤ 32 → n < 2 ^ 32 → n = sz

/-- Types a member may have in the program and in the kernel for the two to be the same field: structs or unions of any
contents, forward declarations or enums of the same name up to flavour, integers that fill their bytes from bit 0, floats,
pointers, and arrays of such. -/
inductive Compat (lb tb : Btf) : Nat → Nat → Prop where
  | composite {l l' lt t t' tt} : Resolves lb.types l l' lt → Resolves tb.types t t' tt →
      (lt.kind = 4 ∨ lt.kind = 5) → (tt.kind = 4 ∨ tt.kind = 5) → Compat lb tb l t
  | named {l l' lt t t' tt ln tn b} : Resolves lb.types l l' lt → Resolves tb.types t t' tt →
      (lt.kind = 7 ∧ tt.kind = 7 ∨ (lt.kind = 6 ∨ lt.kind = 19) ∧ (tt.kind = 6 ∨ tt.kind = 19)) →
      StringAt lb.strings lt.name ln → StringAt tb.strings tt.name tn → Base ln b → Base tn b → Compat lb tb l t
  | int {l l' t t' n i s d n' i' s' d'} : Resolves lb.types l l' (.int n i s d) → Resolves tb.types t t' (.int n' i' s' d') →
      d / 2 ^ 16 % 256 = 0 → d' / 2 ^ 16 % 256 = 0 → Compat lb tb l t
  | float {l l' lt t t' tt} : Resolves lb.types l l' lt → Resolves tb.types t t' tt → lt.kind = 16 → tt.kind = 16 →
      Compat lb tb l t
  | ptr {l l' lt t t' tt} : Resolves lb.types l l' lt → Resolves tb.types t t' tt → lt.kind = 2 → tt.kind = 2 →
      Compat lb tb l t
  | array {l l' t t' n i e x len n' i' e' x' len'} : Resolves lb.types l l' (.array n i e x len) →
      Resolves tb.types t t' (.array n' i' e' x' len') → Compat lb tb e e' → Compat lb tb l t

/-- Two types are the same up to what may differ between the program's and the kernel's definition: of structs, unions,
enums, forward declarations and floats only the kind counts, integers fill their bytes from bit 0, and pointers, arrays and
function types agree part by part. -/
inductive SameType (lb tb : Btf) : Nat → Nat → Prop where
  | shape {l l' lt t t' tt} : Resolves lb.types l l' lt → Resolves tb.types t t' tt →
      lt.kind ∈ [0, 4, 5, 6, 7, 16, 19] →
      (lt.kind = tt.kind ∨ lt.kind = 6 ∧ tt.kind = 19 ∨ lt.kind = 19 ∧ tt.kind = 6) → SameType lb tb l t
  | int {l l' t t' n i s d n' i' s' d'} : Resolves lb.types l l' (.int n i s d) → Resolves tb.types t t' (.int n' i' s' d') →
      d / 2 ^ 16 % 256 = 0 → d' / 2 ^ 16 % 256 = 0 → SameType lb tb l t
  | ptr {l l' t t' n i x n' i' x'} : Resolves lb.types l l' (.ref .ptr n i x) → Resolves tb.types t t' (.ref .ptr n' i' x') →
      SameType lb tb x x' → SameType lb tb l t
  | array {l l' t t' n i e x len n' i' e' x' len'} : Resolves lb.types l l' (.array n i e x len) →
      Resolves tb.types t t' (.array n' i' e' x' len') → SameType lb tb e e' → SameType lb tb l t
  | func {l l' t t' n i ret ps n' i' ret' ps'} : Resolves lb.types l l' (.funcProto n i ret ps) →
      Resolves tb.types t t' (.funcProto n' i' ret' ps') → ps.length = ps'.length →
      (∀ (k : Nat) (p p' : Param), ps[k]? = some p → ps'[k]? = some p' → SameType lb tb p.ty p'.ty) →
      SameType lb tb ret ret' → SameType lb tb l t

/-- Enumerator `k` of a type, its name and its value as 64 bits: those of an enum of 32-bit values are extended according
to the sign flag. A union can carry the enumerators of the enum of 64-bit values it replaces. -/
inductive Enumerator (strings : List UInt8) : BtfType → Nat → List UInt8 → Nat → Prop where
  | signed {n i s vs k v nm} : vs[k]? = some v → StringAt strings v.name nm → i / 2 ^ 31 = 1 →
      Enumerator strings (.enum n i s vs) k nm ((BitVec.ofNat 32 v.value).signExtend 64).toNat
  | unsigned {n i s vs k v nm} : vs[k]? = some v → StringAt strings v.name nm → i / 2 ^ 31 ≠ 1 →
      Enumerator strings (.enum n i s vs) k nm v.value
  | wide {n i s vs k v nm} : vs[k]? = some v → StringAt strings v.name nm →
      Enumerator strings (.enum64 n i s vs) k nm (v.high * 2 ^ 32 + v.low)
  | replaced {n i s ms f k v nm} : f.variants[k]? = some v → StringAt strings v.name nm →
      Enumerator strings (.union n i s ms (some f)) k nm v.value

/-- Where a path leads in the kernel's types, from a type on: the bit offset and, if the last step is a member, that
member with the info word of its struct or union. -/
inductive PathAt (lb tb : Btf) : Bool → Nat → List Step → Nat → Option (Nat × Member) → Prop where
  | done (b : Bool) (id : Nat) : PathAt lb tb b id [] 0 none
  | root {id r t i ss off sz last} : Resolves tb.types id r t → Sized tb.types r sz → PathAt lb tb false r ss off last →
      PathAt lb tb true id (.index i :: ss) (i * sz * 8 + off) last
  | elem {id r n k e x len r' t i ss off sz last} : Resolves tb.types id r (.array n k e x len) →
      Resolves tb.types e r' t → (i < len ∨ len = 0) → Sized tb.types r' sz → PathAt lb tb false r' ss off last →
      PathAt lb tb false id (.index i :: ss) (i * sz * 8 + off) last
  | field {b id r t name lty info m ss o off last} : Resolves tb.types id r t →
      FieldAt tb.types tb.strings t name o info m → Compat lb tb lty m.ty → PathAt lb tb false m.ty ss off last →
      PathAt lb tb b id (.field name lty :: ss) (o + off) (if ss = [] then some (info, m) else last)

/-! ## Instructions -/

/-- The instruction class is the low three bits of the opcode: 0 is `BPF_LD`, 1-3 are the loads from and stores to
memory `BPF_LDX`, `BPF_ST`, `BPF_STX`, 4 and 7 the arithmetic `BPF_ALU` and `BPF_ALU64`. -/
def cls (i : Bpf.Insn) : Nat := i.code % 8

/-- Bytes accessed by a load or store: bits 3 and 4 of the opcode. -/
def accessBytes (i : Bpf.Insn) : Nat :=
  match i.code / 8 % 4 with
  | 0 => 4 | 1 => 2 | 2 => 1 | _ => 8

/-- The addressing mode: bits 5-7 of the opcode. -/
def mode (i : Bpf.Insn) : Nat := i.code / 32

/-- A 32-bit signed immediate holding the low 32 bits of `v`. -/
def Holds32 (imm : Int) (v : Nat) : Prop := -(2 ^ 31) ≤ imm ∧ imm < 2 ^ 31 ∧ (imm - v) % 2 ^ 32 = 0

/-- The instruction the verifier rejects when it is reached: a call of the nonexistent helper 0xBAD2310. -/
def poisoned : Bpf.Insn := { code := 0x85, dst := 0, src := 0, off := 0, imm := 195896080 }

/-- The types between which libbpf lets an access change its width: pointers, and unsigned integers. -/
def Resizable (l t : BtfType) : Prop :=
  (∃ n i x n' i' x', l = .ref .ptr n i x ∧ t = .ref .ptr n' i' x') ∨
  (∃ n i s d n' i' s' d', l = .int n i s d ∧ t = .int n' i' s' d' ∧ ¬ isSigned l ∧ ¬ isSigned t)

/-- The byte offset `off` lies in instruction `j` of a function that starts at `start`. -/
def InInsn (start off j : Nat) : Prop := start + 8 * j ≤ off ∧ off < start + 8 * j + 8

end Verif.Core.Spec
