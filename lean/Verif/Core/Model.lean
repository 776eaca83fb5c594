import Verif.Common.Insn
import Verif.Common.Str
import Verif.Btf.Model
import Verif.Linker.Model
/-!
# Model of CO-RE relocations, aya-obj/src/btf/relocation.rs and types.rs 1444-1589

`usize` is 64 bits; arithmetic wraps (release build). Names are byte strings (the code compares them after
`to_string_lossy`). The texts and names put into error values are not modelled, nor is the string lookup that builds
them. The host is little endian. The cache of candidates by local type id (relocation.rs:226, 330-339) is left out: a
cached list is what `find_candidates` returned for the same three arguments.
-/
namespace Verif.Core
open Verif.Btf Verif.Bpf

/-- `RelocationKind`, relocation.rs:154-169. -/
inductive RelKind where
  | fieldByteOffset | fieldByteSize | fieldExists | fieldSigned | fieldLShift | fieldRShift
  | typeIdLocal | typeIdTarget | typeExists | typeSize
  | enumExists | enumValue
  deriving DecidableEq, Repr

/-- `RelocationKind::try_from`, relocation.rs:171-192, with the numbers of
aya-obj/src/generated/btf_internal_bindings.rs:8-19. -/
def RelKind.ofWord : Nat → Option RelKind
  | 0 => some .fieldByteOffset | 1 => some .fieldByteSize | 2 => some .fieldExists | 3 => some .fieldSigned
  | 4 => some .fieldLShift | 5 => some .fieldRShift | 6 => some .typeIdLocal | 7 => some .typeIdTarget
  | 8 => some .typeExists | 9 => some .typeSize | 10 => some .enumExists | 11 => some .enumValue
  | _ => none

/-- `Relocation`, relocation.rs:194-201, without its number, which is used in messages only. -/
structure Relo where
  kind : RelKind
  insOff : Nat
  typeId : Nat
  accessOff : Nat
  deriving DecidableEq, Repr

/-- `RelocationError`, relocation.rs:38-145; `panic` and unbounded recursion are explicit. -/
inductive RFail where
  | btf (e : Fail)
  | functionNotFound
  | sectionNotFound
  | invalidAccessString
  | invalidAccessIndex (index max : Nat)
  | invalidInstructionIndex (index : Nat)
  | conflictingCandidates (names : List (List UInt8))
  | maximumNesting
  | invalidKindForType
  | invalidInstruction
  | missingTarget
  | panic
  | stackOverflow
  deriving DecidableEq, Repr

/-- Whether a failure ends the thread instead of being a returned error. -/
def RFail.crash : RFail → Bool
  | .panic => true
  | .stackOverflow => true
  | .btf .panic => true
  | .btf .undefinedBehaviour => true
  | _ => false

/-- `?` on a `Result<_, BtfError>`: `#[from] BtfError`, relocation.rs:142-144. -/
def lift {α : Type} : Except Fail α → Except RFail α
  | .ok a => .ok a
  | .error e => .error (.btf e)

/-- `Accessor`, relocation.rs:875-880. -/
structure Accessor where
  tyId : Nat
  index : Nat
  name : Option (List UInt8)
  deriving DecidableEq, Repr

/-- `AccessSpec`, relocation.rs:658-666. The BTF and the relocation it refers to are passed separately. -/
structure AccSpec where
  root : Nat
  parts : List Nat
  accessors : List Accessor
  bitOffset : Nat
  deriving DecidableEq, Repr

/-! ## Helpers of types.rs -/

/-- `BtfType::members`, types.rs:1420-1426. -/
def members : BtfType → Option (List Member)
  | .struct _ _ _ ms => some ms
  | .union _ _ _ ms _ => some ms
  | _ => none

/-- The `info` word of a struct or union. -/
def compInfo : BtfType → Nat
  | .struct _ i _ _ => i
  | .union _ i _ _ _ => i
  | _ => 0

/-- `member_bit_offset`, types.rs:634-643, 738-747. -/
def memberBitOffset (info : Nat) (m : Member) : Nat :=
  if info / 2 ^ 31 = 1 then m.offset % 2 ^ 24 else m.offset

/-- `member_bit_field_size`, types.rs:645-650, 749-754. -/
def memberBitSize (info : Nat) (m : Member) : Nat :=
  if info / 2 ^ 31 = 1 then m.offset / 2 ^ 24 else 0

/-- `Enum::is_signed`, `Enum64::is_signed`, types.rs:463-465, 560-562. -/
def infoSigned (info : Nat) : Bool := info / 2 ^ 31 == 1

/-- `Int::offset`, types.rs:383-385. -/
def intOffset (data : Nat) : Nat := data / 2 ^ 16 % 256

/-- `Int::encoding` as a number, types.rs:322-331, 379-381: an unlisted encoding becomes `Unknown`, which is 5. -/
def intEncoding (data : Nat) : Nat :=
  match data / 2 ^ 24 % 16 with
  | 0 => 0 | 1 => 1 | 2 => 2 | 4 => 4 | _ => 5

/-- `is_compatible`, types.rs:1444-1453. -/
def isCompatible (a b : BtfType) : Bool :=
  a.kind == b.kind || (a.kind == 6 && b.kind == 19) || (a.kind == 19 && b.kind == 6)

/-- `is_composite`, types.rs:1416-1418. -/
def isComposite (a : BtfType) : Bool := a.kind == 4 || a.kind == 5

/-- `flavorless_name`, relocation.rs:397-399, and the closure in types.rs:1561-1562: the part before the first `___`
(byte 95 is `_`). -/
def flavorless : List UInt8 → List UInt8
  | 95 :: 95 :: 95 :: _ => []
  | c :: cs => c :: flavorless cs
  | [] => []

/-- The body of the loop of `types_are_compatible`, types.rs:1479-1534, by number of rounds left; `rec` is the
recursive call on a parameter. -/
def typesLoop (lb tb : Btf) (rec : Nat → Nat → Except RFail Bool) : Nat → Nat → Nat → Except RFail Bool
  | 0, l, _ => .error (.btf (.maximumTypeDepthReached l))
  | n + 1, l, t => do
    let l ← lift (resolveType lb.types l)
    let t ← lift (resolveType tb.types t)
    let lt ← lift (typeById lb.types l)
    let tt ← lift (typeById tb.types t)
    if !isCompatible lt tt then .ok false
    else match lt with
      | .unknown | .struct .. | .union .. | .enum .. | .enum64 .. | .fwd .. | .float .. => .ok true
      | .int _ _ _ ld => match tt with
        | .int _ _ _ td => .ok (intOffset ld == 0 && intOffset td == 0)
        | _ => typesLoop lb tb rec n l t
      | .ref .ptr _ _ l' => match tt with
        | .ref .ptr _ _ t' => typesLoop lb tb rec n l' t'
        | _ => typesLoop lb tb rec n l t
      | .array _ _ l' _ _ => match tt with
        | .array _ _ t' _ _ => typesLoop lb tb rec n l' t'
        | _ => typesLoop lb tb rec n l t
      | .funcProto _ _ lr lps => match tt with
        | .funcProto _ _ tr tps =>
          if lps.length ≠ tps.length then .ok false
          else do
            let ok ← (lps.zip tps).foldlM (fun (ok : Bool) (p : Param × Param) =>
              if !ok then .ok false
              else do
                let l ← lift (resolveType lb.types p.1.ty)
                let t ← lift (resolveType tb.types p.2.ty)
                rec l t) true
            if ok then typesLoop lb tb rec n lr tr else .ok false
        | _ => typesLoop lb tb rec n l t
      | _ => .error .panic

/-- `types_are_compatible`, types.rs:1464-1538. `fuel` bounds the recursion depth; running out of it is a stack
overflow, see `typesCompatible`. -/
def typesFuel (lb tb : Btf) : Nat → Nat → Nat → Except RFail Bool
  | 0, _, _ => .error .stackOverflow
  | fuel + 1, l, t => do
    let lt ← lift (typeById lb.types l)
    let tt ← lift (typeById tb.types t)
    if !isCompatible lt tt then .ok false
    else typesLoop lb tb (typesFuel lb tb fuel) 32 l t

/-- `types_are_compatible`. A nesting deeper than there are pairs of types revisits a pair and never ends. -/
def typesCompatible (lb : Btf) (l : Nat) (tb : Btf) (t : Nat) : Except RFail Bool :=
  typesFuel lb tb (lb.types.length * tb.types.length + 1) l t

/-- The loop of `fields_are_compatible`, types.rs:1546-1586. -/
def fieldsLoop (lb tb : Btf) : Nat → Nat → Nat → Except RFail Bool
  | 0, l, _ => .error (.btf (.maximumTypeDepthReached l))
  | n + 1, l, t => do
    let l ← lift (resolveType lb.types l)
    let t ← lift (resolveType tb.types t)
    let lt ← lift (typeById lb.types l)
    let tt ← lift (typeById tb.types t)
    if isComposite lt && isComposite tt then .ok true
    else if !isCompatible lt tt then .ok false
    else match lt with
      | .fwd .. | .enum .. | .enum64 .. => do
        let ln ← lift (lb.stringAt lt.name)
        let tn ← lift (tb.stringAt tt.name)
        .ok (flavorless ln == flavorless tn)
      | .int _ _ _ ld => match tt with
        | .int _ _ _ td => .ok (intOffset ld == 0 && intOffset td == 0)
        | _ => fieldsLoop lb tb n l t
      | .float .. => .ok true
      | .ref .ptr .. => .ok true
      | .array _ _ l' _ _ => match tt with
        | .array _ _ t' _ _ => fieldsLoop lb tb n l' t'
        | _ => fieldsLoop lb tb n l t
      | _ => .error .panic

/-- `fields_are_compatible`, types.rs:1540-1589. -/
def fieldsCompatible (lb : Btf) (l : Nat) (tb : Btf) (t : Nat) : Except RFail Bool := fieldsLoop lb tb 32 l t

/-! ## The local access path -/

/-- `spec.split(':').map(str::parse::<usize>)`, relocation.rs:675-684. A byte above 127 is neither a digit, `+` nor
`:`, so reading bytes as characters parses the same strings. -/
def parseParts (s : List UInt8) : Option (List Nat) :=
  (Str.splitBy (· == ':') (s.map (fun b => Char.ofNat b.toNat))).mapM (Str.parseUInt 10 64)

/-- Whether an array of the local path counts as one of variable length, relocation.rs:822-831. -/
def localFlex (b : Btf) (accs : List Accessor) (index len : Nat) : Except RFail Bool :=
  if len = 0 then
    match accs.getLast? with
    | none => .error .panic
    | some p => do
      let pt ← lift (typeById b.types p.tyId)
      match pt with
      | .struct _ _ _ ms => .ok (decide (index = (ms.length + (2 ^ 64 - 1)) % 2 ^ 64))
      | _ => .ok false
  else .ok false

/-- One step of the loop of `AccessSpec::new`, relocation.rs:789-857, on the type reached, the accessors so far and
the bit offset. -/
def localStep (b : Btf) (tyId : Nat) (accs : List Accessor) (off index : Nat) :
    Except RFail (Nat × List Accessor × Nat) := do
  let tyId ← lift (resolveType b.types tyId)
  let ty ← lift (typeById b.types tyId)
  match ty with
  | .struct _ _ _ ms | .union _ _ _ ms _ =>
    match ms[index]? with
    | none => .error (.invalidAccessIndex index ms.length)
    | some m => do
      let off := (off + memberBitOffset (compInfo ty) m) % 2 ^ 64
      if m.name ≠ 0 then do
        let nm ← lift (b.stringAt m.name)
        .ok (m.ty, accs ++ [⟨tyId, index, some nm⟩], off)
      else .ok (m.ty, accs, off)
  | .array _ _ e _ len => do
    let eId ← lift (resolveType b.types e)
    let varLen ← localFlex b accs index len
    if varLen = false ∧ len ≤ index then .error (.invalidAccessIndex index len)
    else do
      let size ← lift (typeSize b.types eId)
      .ok (eId, accs ++ [⟨eId, index, none⟩], (off + index * size * 8) % 2 ^ 64)
  | _ => .error .invalidKindForType

/-- The loop of `AccessSpec::new`, relocation.rs:789-857. -/
def localWalk (b : Btf) : List Nat → Nat → List Accessor → Nat → Except RFail (List Accessor × Nat)
  | [], _, accs, off => .ok (accs, off)
  | i :: is, tyId, accs, off =>
    match localStep b tyId accs off i with
    | .error e => .error e
    | .ok (tyId', accs', off') => localWalk b is tyId' accs' off'

/-- The variant names of an enum, relocation.rs:718-746. -/
def variantNames : BtfType → Option (List Nat)
  | .enum _ _ _ vs => some (vs.map (·.name))
  | .enum64 _ _ _ vs => some (vs.map (·.name))
  | .union _ _ _ _ (some fb) => some (fb.variants.map (·.name))
  | _ => none

/-- `AccessSpec::new`, relocation.rs:669-872. -/
def specNew (b : Btf) (root : Nat) (access : List UInt8) (kind : RelKind) : Except RFail AccSpec :=
  match parseParts access with
  | none => .error .invalidAccessString
  | some parts => do
    let tyId ← lift (resolveType b.types root)
    let ty ← lift (typeById b.types tyId)
    match kind with
    | .typeIdLocal | .typeIdTarget | .typeExists | .typeSize =>
      if parts ≠ [0] then .error .invalidAccessString
      else .ok ⟨root, parts, [], 0⟩
    | .enumExists | .enumValue =>
      match variantNames ty with
      | none => .error .invalidKindForType
      | some names =>
        match parts with
        | [index] =>
          match names[index]? with
          | none => .error (.invalidAccessIndex index names.length)
          | some n => do
            let nm ← lift (b.stringAt n)
            .ok ⟨root, parts, [⟨tyId, index, some nm⟩], 0⟩
        | _ => .error .invalidAccessString
    | _ =>
      match parts with
      | [] => .error .panic
      | first :: rest => do
        let size ← lift (typeSize b.types tyId)
        let r ← localWalk b rest tyId [⟨tyId, first, none⟩] (first * size % 2 ^ 64)
        .ok ⟨root, parts, r.1, r.2⟩

/-! ## Candidates -/

/-- `Candidate`, relocation.rs:882-888. -/
structure Cand where
  name : List UInt8
  tyId : Nat
  deriving DecidableEq, Repr

/-- Whether the kind of a target type is looked at, relocation.rs:418-427. -/
def kindMatches (lt tt : BtfType) : Bool :=
  tt.kind == lt.kind ||
  ((match lt with | .union _ _ _ _ (some _) => true | _ => false) && tt.kind == 19)

/-- The loop of `find_candidates`, relocation.rs:424-439. -/
def candLoop (tb : Btf) (lt : BtfType) (name : List UInt8) : Nat → List BtfType → Except RFail (List Cand)
  | _, [] => .ok []
  | i, t :: ts =>
    if kindMatches lt t then
      match tb.stringAt t.name with
      | .error e => .error (.btf e)
      | .ok n =>
        match candLoop tb lt name (i + 1) ts with
        | .error e => .error e
        | .ok cs => if flavorless name = flavorless n then .ok (⟨n, i⟩ :: cs) else .ok cs
    else candLoop tb lt name (i + 1) ts

/-- `find_candidates`, relocation.rs:401-442. -/
def findCandidates (tb : Btf) (lt : BtfType) (name : List UInt8) : Except RFail (List Cand) :=
  candLoop tb lt name 0 tb.types

/-! ## Matching -/

/-- The result of `match_member`: the type of the matched member and the extended spec. -/
abbrev Hit := Option (Nat × AccSpec)

/-- The loop over the members of `match_member`, relocation.rs:609-653: `i` is the index of the first member of the
list, `rec` the recursive call on the type of an anonymous member. `lname` and `lty` are the name and type of the
local member. -/
def memberLoop (lb tb : Btf) (rec : Nat → Except RFail Hit) (lname : List UInt8) (lty : Nat) (info tId : Nat)
    (s : AccSpec) : Nat → List Member → Except RFail Hit
  | _, [] => .ok none
  | i, m :: ms =>
    if s.parts.length = 64 then .error .maximumNesting
    else
      match tb.stringAt m.name with
      | .error e => .error (.btf e)
      | .ok [] =>
        match rec m.ty with
        | .error e => .error e
        | .ok (some (r, s')) =>
          .ok (some (r, { s' with bitOffset := (s'.bitOffset + memberBitOffset info m) % 2 ^ 64
                                  parts := s'.parts ++ [i] }))
        | .ok none => memberLoop lb tb rec lname lty info tId s (i + 1) ms
      | .ok tname =>
        if lname = tname then
          match fieldsCompatible lb lty tb m.ty with
          | .error e => .error e
          | .ok false => .ok none
          | .ok true =>
            .ok (some (m.ty, { s with bitOffset := (s.bitOffset + memberBitOffset info m) % 2 ^ 64
                                      parts := s.parts ++ [i]
                                      accessors := s.accessors ++ [⟨tId, i, some tname⟩] }))
        else memberLoop lb tb rec lname lty info tId s (i + 1) ms

/-- `match_member` after the local member has been found, relocation.rs:600-656. -/
def matchMemberFuel (lb tb : Btf) (lname : List UInt8) (lty : Nat) (s : AccSpec) : Nat → Nat → Except RFail Hit
  | 0, _ => .error .stackOverflow
  | fuel + 1, tId => do
    let tId ← lift (resolveType tb.types tId)
    let tt ← lift (typeById tb.types tId)
    match members tt with
    | none => .ok none
    | some ms => memberLoop lb tb (matchMemberFuel lb tb lname lty s fuel) lname lty (compInfo tt) tId s 0 ms

/-- `match_member`, relocation.rs:582-656. The local member is looked up again (590-599); an anonymous nesting deeper
than there are types revisits a type and never ends. -/
def matchMember (lb tb : Btf) (a : Accessor) (tId : Nat) (s : AccSpec) : Except RFail Hit := do
  let lt ← lift (typeById lb.types a.tyId)
  match members lt with
  | none => .error .panic
  | some ms =>
    match ms[a.index]? with
    | none => .error .panic
    | some lm => do
      let lname ← lift (lb.stringAt lm.name)
      matchMemberFuel lb tb lname lm.ty s (tb.types.length + 1) tId

/-- Whether an array of the target counts as one of variable length, relocation.rs:540-549. -/
def targetFlex (tb : Btf) (s : AccSpec) (len : Nat) : Except RFail Bool :=
  if len = 0 then
    match s.accessors.getLast? with
    | none => .error .panic
    | some p => do
      let pt ← lift (typeById tb.types p.tyId)
      match pt with
      | .struct _ _ _ ms => .ok (decide (p.index = (ms.length + (2 ^ 64 - 1)) % 2 ^ 64))
      | _ => .ok false
  else .ok false

/-- The bounds check of an array step on the target, relocation.rs:534-557: the element type, or `none` for no
match. -/
def targetArray (tb : Btf) (tId index : Nat) (s : AccSpec) : Except RFail (Option Nat) := do
  let tt ← lift (typeById tb.types tId)
  match tt with
  | .array _ _ e _ len => do
    let varLen ← targetFlex tb s len
    if varLen = false ∧ len ≤ index then .ok none
    else do
      let e ← lift (resolveType tb.types e)
      .ok (some e)
  | _ => .ok none

/-- The type an unnamed accessor selects, relocation.rs:532-560. -/
def targetElem (tb : Btf) (first : Bool) (tId index : Nat) (s : AccSpec) : Except RFail (Option Nat) :=
  if first then .ok (some tId) else targetArray tb tId index s

/-- One round of the loop of `match_candidate` for fields, relocation.rs:514-576; `first` is `i == 0`. -/
def targetStep (lb tb : Btf) (first : Bool) (a : Accessor) (tId : Nat) (s : AccSpec) : Except RFail Hit := do
  let tId ← lift (resolveType tb.types tId)
  if a.name.isSome then matchMember lb tb a tId s
  else do
    let r ← targetElem tb first tId a.index s
    match r with
    | none => .ok none
    | some tId =>
      if s.parts.length = 64 then .error .maximumNesting
      else do
        let size ← lift (typeSize tb.types tId)
        .ok (some (tId, { s with parts := s.parts ++ [a.index]
                                 accessors := s.accessors ++ [⟨tId, a.index, none⟩]
                                 bitOffset := (s.bitOffset + a.index * size * 8) % 2 ^ 64 }))

/-- The loop of `match_candidate` for fields, relocation.rs:513-577. -/
def targetWalk (lb tb : Btf) : Bool → List Accessor → Nat → AccSpec → Except RFail (Option AccSpec)
  | _, [], _, s => .ok (some s)
  | first, a :: as, tId, s =>
    match targetStep lb tb first a tId s with
    | .error e => .error e
    | .ok none => .ok none
    | .ok (some (tId', s')) => targetWalk lb tb false as tId' s'

/-- `match_enum`, relocation.rs:475-493: the index of the first variant of the given name. -/
def enumLoop (tb : Btf) (name : List UInt8) : Nat → List Nat → Except RFail (Option Nat)
  | _, [] => .ok none
  | i, n :: ns =>
    match tb.stringAt n with
    | .error e => .error (.btf e)
    | .ok s => if flavorless name = flavorless s then .ok (some i) else enumLoop tb name (i + 1) ns

/-- The arm of `match_candidate` for enumerators, relocation.rs:463-512. -/
def matchEnum (tb : Btf) (l : AccSpec) (c : Cand) : Except RFail (Option AccSpec) := do
  let tId ← lift (resolveType tb.types c.tyId)
  let tt ← lift (typeById tb.types tId)
  match variantNames tt with
  | none => .ok none
  | some names =>
    match l.accessors with
    | ⟨_, _, some lname⟩ :: _ => do
      let i ← enumLoop tb lname 0 names
      .ok (i.map (fun i => ⟨c.tyId, [i], [⟨tId, i, none⟩], 0⟩))
    | _ => .error .panic

/-- `match_candidate`, relocation.rs:444-580. -/
def matchCandidate (lb tb : Btf) (kind : RelKind) (l : AccSpec) (c : Cand) : Except RFail (Option AccSpec) :=
  match kind with
  | .typeIdLocal | .typeIdTarget | .typeExists | .typeSize => do
    let ok ← typesCompatible lb l.root tb c.tyId
    .ok (if ok then some ⟨c.tyId, [], [], 0⟩ else none)
  | .enumExists | .enumValue => matchEnum tb l c
  | _ => targetWalk lb tb true l.accessors c.tyId ⟨c.tyId, [], [], 0⟩

/-! ## Values -/

/-- `ComputedRelocationValue`, relocation.rs:896-901. -/
structure CVal where
  value : Nat
  size : Nat
  tyId : Option Nat
  deriving DecidableEq, Repr

/-- `ComputedRelocation`, relocation.rs:890-894. -/
structure Comp where
  loc : CVal
  target : Option CVal
  deriving DecidableEq, Repr

/-- The loop choosing the load of a bitfield, relocation.rs:1192-1199, on `u32`s: the byte offset and size. Four
rounds reach a size of 8 from any size. -/
def loadLoop (bitOff bitSize : Nat) : Nat → Nat → Except RFail (Nat × Nat)
  | 0, _ => .error (.btf .invalidTypeInfo)
  | n + 1, byteSize =>
    let byteOff := bitOff / 8 / byteSize * byteSize
    if (bitOff + bitSize + (2 ^ 32 - byteOff * 8 % 2 ^ 32)) % 2 ^ 32 > byteSize * 8 % 2 ^ 32 then
      if byteSize ≥ 8 then .error (.btf .invalidTypeInfo) else loadLoop bitOff bitSize n (byteSize * 2)
    else .ok (byteOff, byteSize)

/-- Byte offset, byte size, bit size and whether it is a bitfield, relocation.rs:1182-1204. A bitfield of a type of
size zero divides by zero. -/
def fieldLayout (b : Btf) (bitOffset info : Nat) (m : Member) (mId : Nat) (mty : BtfType) :
    Except RFail (Nat × Nat × Nat × Bool) :=
  let bitOff := bitOffset % 2 ^ 32
  let bitSize := memberBitSize info m
  if bitSize > 0 then
    match mty.size with
    | none => .error .panic
    | some byteSize =>
      if byteSize = 0 then .error .panic
      else match loadLoop bitOff bitSize 4 byteSize with
        | .error e => .error e
        | .ok (o, s) => .ok (o, s, bitSize, true)
  else
    match typeSize b.types mId with
    | .error e => .error (.btf e)
    | .ok s => .ok (bitOff / 8, s % 2 ^ 32, s * 8 % 2 ^ 32, false)

/-- The value of a field relocation once the layout is known, relocation.rs:1206-1256. -/
def fieldValue (kind : RelKind) (bitOffset : Nat) (mId : Nat) (mty : BtfType) (byteOff byteSize bitSize : Nat)
    (isBitfield : Bool) : Except RFail CVal :=
  let bitOff := bitOffset % 2 ^ 32
  match kind with
  | .fieldByteOffset => .ok (if isBitfield then ⟨byteOff, 0, none⟩ else ⟨byteOff, byteSize, some mId⟩)
  | .fieldByteSize => .ok ⟨byteSize, 0, none⟩
  | .fieldSigned =>
    .ok ⟨match mty with
      | .enum _ i _ _ => if infoSigned i then 1 else 0
      | .enum64 _ i _ _ => if infoSigned i then 1 else 0
      | .int _ _ _ d => intEncoding d % 2
      | _ => 0, 0, none⟩
  | .fieldLShift =>
    .ok ⟨(64 + (2 ^ 64 - (bitOff + bitSize + (2 ^ 32 - byteOff * 8 % 2 ^ 32)) % 2 ^ 32)) % 2 ^ 64, 0, none⟩
  | .fieldRShift => .ok ⟨(64 + (2 ^ 64 - bitSize)) % 2 ^ 64, 0, none⟩
  | _ => .error .panic

/-- `compute_field_relocation`, relocation.rs:1128-1267. -/
def computeField (b : Btf) (kind : RelKind) : Option AccSpec → Except RFail CVal
  | spec =>
    if kind = .fieldExists then .ok ⟨if spec.isSome then 1 else 0, 0, none⟩
    else match spec with
      | none => .error .missingTarget
      | some s =>
        match s.accessors.getLast? with
        | none => .error .panic
        | some ⟨tyId, _, none⟩ =>
          match kind with
          | .fieldByteOffset => do
            let size ← lift (typeSize b.types tyId)
            .ok ⟨s.bitOffset / 8, size % 2 ^ 32, some tyId⟩
          | .fieldByteSize => do
            let size ← lift (typeSize b.types tyId)
            .ok ⟨size, 0, some tyId⟩
          | _ => do
            let _ ← lift (typeById b.types tyId)
            .error .invalidKindForType
        | some ⟨tyId, index, some _⟩ => do
          let ty ← lift (typeById b.types tyId)
          match members ty with
          | none => .error .invalidKindForType
          | some ms =>
            match ms[index]? with
            | none => .error .panic
            | some m => do
              let mId ← lift (resolveType b.types m.ty)
              let mty ← lift (typeById b.types mId)
              let r ← fieldLayout b s.bitOffset (compInfo ty) m mId mty
              fieldValue kind s.bitOffset mId mty r.1 r.2.1 r.2.2.1 r.2.2.2

/-- `x as i32 as u64` of a `u32`. -/
def sext32 (v : Nat) : Nat := if v < 2 ^ 31 then v else v + (2 ^ 64 - 2 ^ 32)

/-- The value of variant `index` of an enum type, relocation.rs:1083-1111. -/
def variantValue (ty : BtfType) (index : Nat) : Except RFail Nat :=
  match ty with
  | .enum _ i _ vs =>
    match vs[index]? with
    | none => .error .panic
    | some v => .ok (if infoSigned i then sext32 v.value else v.value)
  | .enum64 _ _ _ vs =>
    match vs[index]? with
    | none => .error .panic
    | some v => .ok (v.high * 2 ^ 32 + v.low)
  | .union _ _ _ _ (some fb) =>
    match fb.variants[index]? with
    | none => .error .panic
    | some v => .ok v.value
  | _ => .error .panic

/-- `compute_enum_relocation`, relocation.rs:1075-1126. -/
def computeEnum (b : Btf) (kind : RelKind) (spec : Option AccSpec) : Except RFail CVal :=
  if kind = .enumExists then .ok ⟨if spec.isSome then 1 else 0, 0, none⟩
  else match spec with
    | none => .error .missingTarget
    | some s =>
      match s.accessors with
      | [] => .error .panic
      | a :: _ => do
        let ty ← lift (typeById b.types a.tyId)
        let v ← variantValue ty a.index
        .ok ⟨v, 0, none⟩

/-- `compute_type_relocation`, relocation.rs:1269-1297. -/
def computeType (tb : Btf) (kind : RelKind) (localRoot : Nat) (spec : Option AccSpec) : Except RFail CVal :=
  match kind, spec with
  | .typeIdLocal, _ => .ok ⟨localRoot, 0, none⟩
  | .typeIdTarget, some s => .ok ⟨s.root, 0, none⟩
  | .typeExists, spec => .ok ⟨if spec.isSome then 1 else 0, 0, none⟩
  | .typeSize, some s => do
    let size ← lift (typeSize tb.types s.root)
    .ok ⟨size, 0, none⟩
  | _, _ => .error .missingTarget

/-- `.ok()`: an error becomes `None`, a panic stays a panic. -/
def dropError (r : Except RFail CVal) : Except RFail (Option CVal) :=
  match r with
  | .ok v => .ok (some v)
  | .error e => if e.crash then .error e else .ok none

/-- `ComputedRelocation::new`, relocation.rs:912-941. -/
def compNew (lb tb : Btf) (kind : RelKind) (l : AccSpec) (t : Option AccSpec) : Except RFail Comp :=
  match kind with
  | .typeIdLocal | .typeIdTarget | .typeExists | .typeSize => do
    let lv ← computeType tb kind l.root t
    let tv ← dropError (computeType tb kind l.root t)
    .ok ⟨lv, tv⟩
  | .enumExists | .enumValue => do
    let lv ← computeEnum lb kind (some l)
    let tv ← dropError (computeEnum tb kind t)
    .ok ⟨lv, tv⟩
  | _ => do
    let lv ← computeField lb kind (some l)
    let tv ← dropError (computeField tb kind t)
    .ok ⟨lv, tv⟩

/-! ## Patching -/

/-- `poison_insn`, relocation.rs:903-909 (`BPF_JMP | BPF_CALL` is `0x85`). -/
def poison : Insn := ⟨0x85, 0, 0, 0, 0xBAD2310⟩

/-- The width bits for a size, relocation.rs:1036-1048. -/
def widthBits : Nat → Option Nat
  | 8 => some 24 | 4 => some 0 | 2 => some 8 | 1 => some 16 | _ => none

/-- `unsigned`, relocation.rs:1015. -/
def intUnsigned (data : Nat) : Bool := data / 2 ^ 24 % 2 == 0

/-- The types between which an access may change its width, relocation.rs:1016-1020. -/
def mayResize (l t : BtfType) : Bool :=
  match l, t with
  | .ref .ptr .., .ref .ptr .. => true
  | .int _ _ _ ld, .int _ _ _ td => intUnsigned ld && intUnsigned td
  | _, _ => false

/-- The patched load or store, relocation.rs:999-1050. -/
def patchMem (lb tb : Btf) (loc target : CVal) (ins : Insn) : Except RFail Insn :=
  if target.value > 2 ^ 15 - 1 then .error .invalidInstruction
  else if loc.size = target.size then .ok { ins with off := target.value }
  else match loc.tyId, target.tyId with
    | some l, some t => do
      let lt ← lift (typeById lb.types l)
      let tt ← lift (typeById tb.types t)
      if mayResize lt tt then
        match widthBits target.size with
        | some w => .ok { ins with off := target.value, code := (ins.code &&& 0xE0) ||| w ||| (ins.code &&& 7) }
        | none => .error .invalidInstruction
      else .error .invalidInstruction
    | none, _ => .error .panic
    | some l, none => do
      let _ ← lift (typeById lb.types l)
      .error .panic

/-- `ComputedRelocation::apply`, relocation.rs:943-1073, on the instructions of the function and the index of the
relocated one. -/
def apply (lb tb : Btf) (c : Comp) (insns : List Insn) (i : Nat) : Except RFail (List Insn) :=
  match insns[i]? with
  | none => .error (.invalidInstructionIndex i)
  | some ins =>
    match c.target with
    | none =>
      if ins.code = 0x18 then
        if i + 1 < insns.length then .ok ((insns.set i poison).set (i + 1) poison)
        else .error (.invalidInstructionIndex (i + 1))
      else .ok (insns.set i poison)
    | some target =>
      match ins.code % 8 with
      | 4 | 7 =>
        if ins.src ≠ 0 then .error .invalidInstruction
        else .ok (insns.set i { ins with imm := toI32 target.value })
      | 1 | 2 | 3 =>
        match patchMem lb tb c.loc target ins with
        | .error e => .error e
        | .ok ins' => .ok (insns.set i ins')
      | 0 =>
        match insns[i + 1]? with
        | none => .error (.invalidInstructionIndex (i + 1))
        | some next =>
          .ok ((insns.set i { ins with imm := toI32 target.value }).set (i + 1)
            { next with imm := toI32 (target.value / 2 ^ 32 : Nat) })
      | _ => .error .invalidInstruction

/-! ## Choosing and the loop over the relocations -/

/-- One candidate that matched: name, spec, computed relocation (relocation.rs:341-347). -/
structure Match where
  name : List UInt8
  spec : AccSpec
  comp : Comp
  deriving DecidableEq, Repr

/-- The loop collecting the matches, relocation.rs:341-348. -/
def collect (lb tb : Btf) (kind : RelKind) (l : AccSpec) : List Cand → Except RFail (List Match)
  | [] => .ok []
  | c :: cs =>
    match matchCandidate lb tb kind l c with
    | .error e => .error e
    | .ok none => collect lb tb kind l cs
    | .ok (some t) =>
      match compNew lb tb kind l (some t) with
      | .error e => .error e
      | .ok comp =>
        match collect lb tb kind l cs with
        | .error e => .error e
        | .ok ms => .ok (⟨c.name, t, comp⟩ :: ms)

/-- Whether a further match conflicts with the first one, relocation.rs:365-376. -/
def conflicts (first m : Match) : Bool :=
  if m.spec.bitOffset ≠ first.spec.bitOffset then true
  else match m.comp.target, first.comp.target with
    | some a, some b => a.value != b.value
    | _, _ => false

/-- The choice among the matches, relocation.rs:353-387. `none` stands for `ComputedRelocation::new(rel, _, None)`. -/
def choose : List Match → Except RFail (Option Comp)
  | [] => .ok none
  | m :: ms =>
    match (ms.filter (conflicts m)).map (·.name) with
    | [] => .ok (some m.comp)
    | names => .error (.conflictingCandidates names)

/-- The relocation computed for one record, relocation.rs:318-387. -/
def compute (lb tb : Btf) (r : Relo) : Except RFail Comp := do
  let lt ← lift (typeById lb.types r.typeId)
  let lname ← lift (lb.stringAt lt.name)
  let access ← lift (lb.stringAt r.accessOff)
  let l ← specNew lb r.typeId access r.kind
  let ms ←
    if r.kind = .typeIdLocal then .ok []
    else do
      let cs ← findCandidates tb lt lname
      collect lb tb r.kind l cs
  let c ← choose ms
  match c with
  | some c => .ok c
  | none => compNew lb tb r.kind l none

/-- `is_relocation_inside_function`, relocation.rs:265-279. -/
def inside (sec : Nat) (f : Linker.Func) (r : Relo) : Bool :=
  sec == f.sectionIndex && decide (f.sectionOffset / 8 ≤ r.insOff / 8) &&
  decide (r.insOff / 8 < f.sectionOffset / 8 + f.insns.length)

/-- The function of a relocation, relocation.rs:281-293, 306-310: the last one used if the relocation lies inside it,
else the first function in the order of the map that is stored under the section and contains it. The functions are
listed in the order of their keys `(section, address)`; `key` is the section part. -/
def pick (sec : Nat) (fs : List (Nat × Linker.Func)) (last : Option Nat) (r : Relo) : Option Nat :=
  let search := fs.findIdx? (fun f => f.1 == sec && inside sec f.2 r)
  match last with
  | some i => match fs[i]? with
    | some f => if inside sec f.2 r then some i else search
    | none => search
  | none => search

/-- The instruction index, relocation.rs:313, 952. -/
def insIndex (f : Linker.Func) (r : Relo) : Nat := (r.insOff + (2 ^ 64 - f.sectionOffset)) % 2 ^ 64 / 8

/-- One round of `relocate_btf_functions`, relocation.rs:305-392. -/
def relocateOne (lb tb : Btf) (sec : Nat) (r : Relo) (fs : List (Nat × Linker.Func)) (last : Option Nat) :
    Except RFail (List (Nat × Linker.Func) × Nat) :=
  match pick sec fs last r with
  | none => .error .functionNotFound
  | some k =>
    match fs[k]? with
    | none => .error .functionNotFound
    | some (key, f) =>
      if insIndex f r ≥ f.insns.length then .error (.invalidInstructionIndex (insIndex f r))
      else
        match compute lb tb r with
        | .error e => .error e
        | .ok c =>
          match apply lb tb c f.insns (insIndex f r) with
          | .error e => .error e
          | .ok insns => .ok (fs.set k (key, { f with insns := insns }), k)

/-- `relocate_btf_functions`, relocation.rs:295-395. -/
def relocateSection (lb tb : Btf) (sec : Nat) :
    List Relo → List (Nat × Linker.Func) → Option Nat → Except RFail (List (Nat × Linker.Func))
  | [], fs, _ => .ok fs
  | r :: rs, fs, last =>
    match relocateOne lb tb sec r fs last with
    | .error e => .error e
    | .ok (fs', k) => relocateSection lb tb sec rs fs' (some k)

/-- `Object::relocate_btf`, relocation.rs:220-262, for an object with BTF: `secs` are the records of `.BTF.ext` by
section name offset, `infos` maps section names to indexes. -/
def relocateBtf (lb tb : Btf) (infos : List UInt8 → Option Nat) :
    List (Nat × List Relo) → List (Nat × Linker.Func) → Except RFail (List (Nat × Linker.Func))
  | [], fs => .ok fs
  | (nameOff, relos) :: rest, fs =>
    match lb.stringAt nameOff with
    | .error e => .error (.btf e)
    | .ok name =>
      match infos name with
      | none => .error .sectionNotFound
      | some sec =>
        match relocateSection lb tb sec relos fs none with
        | .error e => .error e
        | .ok fs' => relocateBtf lb tb infos rest fs'

end Verif.Core
