import Verif.Common.Bytes
/-!
# Model of BTF: types, serialisation, parsing and queries

aya-obj/src/btf/types.rs and aya-obj/src/btf/btf.rs. All words are natural numbers standing for `u32`;
arithmetic wraps at `2 ^ 32` (release build). Byte order is little endian (the host's); the `Endianness`
argument, which only affects one word of INT types (types.rs:1211), is fixed to little endian.
`Restrict` (types.rs:109-114) has no `repr(C)`; it is given the layout of the other kinds.
-/
namespace Verif.Btf
open Verif.Bytes

/-- The kinds whose record is three words `name, info, type`: `Const`, `Volatile`, `Restrict`, `Ptr`, `Typedef`,
`Func`, `TypeTag` (types.rs:56-192, 222-310). -/
inductive RefKind where
  | const | volatile | restrict | ptr | typedef | func | typeTag
  deriving DecidableEq, Repr

/-- `BtfEnum`, types.rs:396-401. -/
structure Variant where
  name : Nat
  value : Nat
  deriving DecidableEq, Repr

/-- `BtfEnum64`, types.rs:475-481. -/
structure Variant64 where
  name : Nat
  low : Nat
  high : Nat
  deriving DecidableEq, Repr

/-- `BtfMember`, types.rs:567-573. -/
structure Member where
  name : Nat
  ty : Nat
  offset : Nat
  deriving DecidableEq, Repr

/-- `BtfParam`, types.rs:822-827. -/
structure Param where
  name : Nat
  ty : Nat
  deriving DecidableEq, Repr

/-- `DataSecEntry`, types.rs:948-954. -/
structure SecEntry where
  ty : Nat
  offset : Nat
  size : Nat
  deriving DecidableEq, Repr

/-- `Enum64Fallback`, types.rs:654-668: signedness and `(name, value)` of the variants. -/
structure Fallback where
  signed : Bool
  variants : List Variant
  deriving DecidableEq, Repr

/-- `BtfType`, types.rs:11-32, with the fields of the structs it wraps. The always-zero third word of `Fwd` and
`Array` (`_unused`) is not a field. -/
inductive BtfType where
  | unknown
  | fwd (name info : Nat)
  | ref (kind : RefKind) (name info ty : Nat)
  | int (name info size data : Nat)
  | float (name info size : Nat)
  | enum (name info size : Nat) (variants : List Variant)
  | enum64 (name info size : Nat) (variants : List Variant64)
  | array (name info element index len : Nat)
  | struct (name info size : Nat) (members : List Member)
  | union (name info size : Nat) (members : List Member) (fallback : Option Fallback)
  | funcProto (name info ret : Nat) (params : List Param)
  | var (name info ty linkage : Nat)
  | dataSec (name info size : Nat) (entries : List SecEntry)
  | declTag (name info ty component : Nat)
  deriving DecidableEq, Repr

/-- Failures: the `BtfError` variants as far as modelled (btf.rs:33-178), a panic, and reading an enum from
memory that holds none of its values. -/
inductive Fail where
  | invalidHeader
  | invalidTypeInfo
  | invalidTypeKind (kind : Nat)
  | invalidStringOffset (offset : Nat)
  | unknownBtfType (id : Nat)
  | unexpectedBtfType (id : Nat)
  | maximumTypeDepthReached (id : Nat)
  | unknownBtfTypeName (name : List UInt8)
  | unknownSectionSize (name : List UInt8)
  | symbolOffsetNotFound (name : List UInt8)
  | invalidDatasec
  | panic
  | undefinedBehaviour
  deriving DecidableEq, Repr

/-! ## Kinds -/

/-- `BtfKind` as the number in the record, types.rs:1064-1085. -/
def RefKind.num : RefKind → Nat
  | .ptr => 2 | .typedef => 8 | .volatile => 9 | .const => 10 | .restrict => 11 | .func => 12 | .typeTag => 18

/-- `BtfType::kind` as a number, types.rs:1391-1414. -/
def BtfType.kind : BtfType → Nat
  | .unknown => 0 | .int .. => 1 | .array .. => 3 | .struct .. => 4 | .union .. => 5 | .enum .. => 6
  | .fwd .. => 7 | .funcProto .. => 13 | .var .. => 14 | .dataSec .. => 15 | .float .. => 16
  | .declTag .. => 17 | .enum64 .. => 19 | .ref k .. => k.num

/-- `BtfType::type_info_size`, types.rs:1341-1364. -/
def BtfType.infoSize : BtfType → Nat
  | .unknown => 12 | .fwd .. => 12 | .ref .. => 12 | .float .. => 12
  | .int .. => 16 | .var .. => 16 | .declTag .. => 16
  | .array .. => 24
  | .enum _ _ _ vs => 12 + 8 * vs.length
  | .enum64 _ _ _ vs => 12 + 12 * vs.length
  | .struct _ _ _ ms => 12 + 12 * ms.length
  | .union _ _ _ ms _ => 12 + 12 * ms.length
  | .funcProto _ _ _ ps => 12 + 8 * ps.length
  | .dataSec _ _ _ es => 12 + 12 * es.length

/-- `BtfType::name_offset`, types.rs:1366-1388. -/
def BtfType.name : BtfType → Nat
  | .unknown => 0
  | .fwd n .. => n | .ref _ n .. => n | .int n .. => n | .float n .. => n | .enum n .. => n | .enum64 n .. => n
  | .array n .. => n | .struct n .. => n | .union n .. => n | .funcProto n .. => n | .var n .. => n
  | .dataSec n .. => n | .declTag n .. => n

/-- `BtfType::size`, types.rs:1311-1323. -/
def BtfType.size : BtfType → Option Nat
  | .int _ _ s _ => some s | .float _ _ s => some s | .enum _ _ s _ => some s | .enum64 _ _ s _ => some s
  | .struct _ _ s _ => some s | .union _ _ s _ _ => some s | .dataSec _ _ s _ => some s
  | .ref .ptr .. => some 8
  | _ => none

/-- `BtfType::btf_type`, types.rs:1325-1339. -/
def BtfType.btfType : BtfType → Option Nat
  | .ref .func .. => none
  | .ref _ _ _ t => some t
  | .funcProto _ _ r _ => some r
  | .var _ _ t _ => some t
  | .declTag _ _ t _ => some t
  | _ => none

/-! ## Serialisation -/

/-- Three words. -/
def head (a b c : Nat) : List UInt8 := le 4 a ++ le 4 b ++ le 4 c

/-- `BtfType::to_bytes`, types.rs:1286-1309 and the `to_bytes` of each struct. -/
def BtfType.toBytes : BtfType → List UInt8
  | .unknown => []
  | .fwd n i => head n i 0
  | .ref _ n i t => head n i t
  | .int n i s d => head n i s ++ le 4 d
  | .float n i s => head n i s
  | .enum n i s vs => head n i s ++ vs.flatMap (fun v => le 4 v.name ++ le 4 v.value)
  | .enum64 n i s vs => head n i s ++ vs.flatMap (fun v => le 4 v.name ++ le 4 v.low ++ le 4 v.high)
  | .array n i e x l => head n i 0 ++ (le 4 e ++ le 4 x ++ le 4 l)
  | .struct n i s ms => head n i s ++ ms.flatMap (fun m => le 4 m.name ++ le 4 m.ty ++ le 4 m.offset)
  | .union n i s ms _ => head n i s ++ ms.flatMap (fun m => le 4 m.name ++ le 4 m.ty ++ le 4 m.offset)
  | .funcProto n i r ps => head n i r ++ ps.flatMap (fun p => le 4 p.name ++ le 4 p.ty)
  | .var n i t l => head n i t ++ le 4 l
  | .dataSec n i s es => head n i s ++ es.flatMap (fun e => le 4 e.ty ++ le 4 e.offset ++ le 4 e.size)
  | .declTag n i t c => head n i t ++ le 4 c

/-! ## Parsing -/

/-- The `k`-th word of `d`. -/
def word (d : List UInt8) (k : Nat) : Nat := ofLe ((d.drop (4 * k)).take 4)

/-- `read_array` of a type of `w` words, types.rs:1153-1163: the first `len` groups of words. -/
def readRows (w : Nat) : Nat → List UInt8 → List (List UInt8)
  | 0, _ => []
  | n + 1, d => d.take (4 * w) :: readRows w n (d.drop (4 * w))

/-- The bound check of `read_array`, types.rs:1154-1156, then the rows. -/
def readArray (w len : Nat) (d : List UInt8) : Except Fail (List (List UInt8)) :=
  if 4 * w * len > d.length then .error .invalidTypeInfo else .ok (readRows w len d)

/-- `type_vlen`, types.rs:1460-1462. -/
def vlen (info : Nat) : Nat := info % 65536

/-- `(info >> 24) & 0x1F`, types.rs:1456-1458. -/
def infoKind (info : Nat) : Nat := info / 2 ^ 24 % 32

/-- `BtfType::read` after the first three words `n`, `i`, `x` have been read, types.rs:1170-1283. -/
def BtfType.readBody (n i x : Nat) (d : List UInt8) : Except Fail BtfType :=
    match infoKind i with
    | 0 => .ok .unknown
    | 7 => .ok (.fwd n i)
    | 10 => .ok (.ref .const n i x)
    | 9 => .ok (.ref .volatile n i x)
    | 11 => .ok (.ref .restrict n i x)
    | 2 => .ok (.ref .ptr n i x)
    | 8 => .ok (.ref .typedef n i x)
    | 12 => .ok (.ref .func n i x)
    | 18 => .ok (.ref .typeTag n i x)
    | 1 => if d.length < 4 then .error .invalidTypeInfo else .ok (.int n i x (word d 0))
    | 16 => .ok (.float n i x)
    | 6 => match readArray 2 (vlen i) d with
      | .error e => .error e
      | .ok rows => .ok (.enum n i x (rows.map (fun r => ⟨word r 0, word r 1⟩)))
    | 19 => match readArray 3 (vlen i) d with
      | .error e => .error e
      | .ok rows => .ok (.enum64 n i x (rows.map (fun r => ⟨word r 0, word r 1, word r 2⟩)))
    | 3 => if d.length < 12 then .error .invalidTypeInfo else .ok (.array n i (word d 0) (word d 1) (word d 2))
    | 4 => match readArray 3 (vlen i) d with
      | .error e => .error e
      | .ok rows => .ok (.struct n i x (rows.map (fun r => ⟨word r 0, word r 1, word r 2⟩)))
    | 5 => match readArray 3 (vlen i) d with
      | .error e => .error e
      | .ok rows => .ok (.union n i x (rows.map (fun r => ⟨word r 0, word r 1, word r 2⟩)) none)
    | 13 => match readArray 2 (vlen i) d with
      | .error e => .error e
      | .ok rows => .ok (.funcProto n i x (rows.map (fun r => ⟨word r 0, word r 1⟩)))
    | 14 =>
      if d.length < 4 then .error .invalidTypeInfo
      else if word d 0 > 3 then .error .undefinedBehaviour
      else .ok (.var n i x (word d 0))
    | 15 => match readArray 3 (vlen i) d with
      | .error e => .error e
      | .ok rows => .ok (.dataSec n i x (rows.map (fun r => ⟨word r 0, word r 1, word r 2⟩)))
    | 17 => if d.length < 4 then .error .invalidTypeInfo else .ok (.declTag n i x (word d 0))
    | k => .error (.invalidTypeKind k)

/-- `BtfType::read`, types.rs:1166-1284. -/
def BtfType.read (data : List UInt8) : Except Fail BtfType :=
  if data.length < 12 then .error .invalidTypeInfo
  else BtfType.readBody (word data 0) (word data 1) (word data 2) (data.drop 12)

/-- `btf_header`, aya-obj/src/generated/btf_internal_bindings.rs. -/
structure Header where
  magic : Nat
  version : Nat
  flags : Nat
  hdrLen : Nat
  typeOff : Nat
  typeLen : Nat
  strOff : Nat
  strLen : Nat
  deriving DecidableEq, Repr

/-- The 24 bytes of the header in memory. -/
def Header.toBytes (h : Header) : List UInt8 :=
  le 2 h.magic ++ (le 1 h.version ++ (le 1 h.flags ++ (le 4 h.hdrLen ++ (le 4 h.typeOff ++ (le 4 h.typeLen ++
  (le 4 h.strOff ++ le 4 h.strLen))))))

/-- `read_btf_header`, btf.rs:968-971: `ptr::read_unaligned`. -/
def Header.read (d : List UInt8) : Header :=
  { magic := ofLe (d.take 2), version := ofLe ((d.drop 2).take 1), flags := ofLe ((d.drop 3).take 1)
    hdrLen := word d 1, typeOff := word d 2, typeLen := word d 3, strOff := word d 4, strLen := word d 5 }

/-- `Btf`, btf.rs:235-243. `types` includes the leading `Unknown` entry (btf.rs:1237-1243). -/
structure Btf where
  header : Header
  strings : List UInt8
  types : List BtfType
  deriving DecidableEq, Repr

/-- `Btf::to_bytes`, btf.rs:458-465 with `BtfTypes::to_bytes` (1246-1253). -/
def Btf.toBytes (b : Btf) : List UInt8 :=
  b.header.toBytes ++ ((b.types.drop 1).flatMap BtfType.toBytes ++ b.strings)

/-- The loop of `read_type_info`, btf.rs:362-369; a type longer than the remaining data makes the slice panic.
`fuel` is at least the number of bytes. -/
def readTypes : Nat → List UInt8 → Except Fail (List BtfType)
  | 0, _ => .ok []
  | fuel + 1, d =>
    if d.isEmpty then .ok []
    else match BtfType.read d with
      | .error e => .error e
      | .ok t =>
        if d.length < t.infoSize then .error .panic
        else match readTypes fuel (d.drop t.infoSize) with
          | .error e => .error e
          | .ok ts => .ok (t :: ts)

/-- `Btf::parse`, btf.rs:321-345, with `read_type_info` (347-371). Sums are of `u32` values in `usize` and do not
wrap. -/
def Btf.parse (data : List UInt8) : Except Fail Btf :=
  if data.length < 24 then .error .invalidHeader
  else
    let h := Header.read data
    let strOff := h.hdrLen + h.strOff
    if strOff + h.strLen > data.length then .error .invalidHeader
    else
      let base := h.hdrLen + h.typeOff
      if base + h.typeLen > data.length then .error .invalidTypeInfo
      else match readTypes h.typeLen ((data.drop base).take h.typeLen) with
        | .error e => .error e
        | .ok ts => .ok ⟨h, (data.drop strOff).take h.strLen, .unknown :: ts⟩

/-! ## Building -/

/-- `Btf::new`, btf.rs:257-275. -/
def Btf.new : Btf := ⟨⟨0xeb9f, 1, 0, 24, 0, 0, 0, 0⟩, [0], [.unknown]⟩

/-- `Btf::add_string`, btf.rs:287-293: the BTF with the string and the string's offset. -/
def Btf.addString (b : Btf) (s : List UInt8) : Btf × Nat :=
  let strings := b.strings ++ s ++ [0]
  ({ b with strings := strings, header := { b.header with strLen := strings.length % 2 ^ 32 } },
   b.strings.length % 2 ^ 32)

/-- `add_type`, btf.rs:245-252. -/
def Btf.addType (b : Btf) (t : BtfType) : Btf × Nat :=
  ({ b with types := b.types ++ [t]
            header := { b.header with typeLen := (b.header.typeLen + t.infoSize) % 2 ^ 32
                                      strOff := (b.header.strOff + t.infoSize) % 2 ^ 32 } },
   b.types.length % 2 ^ 32)

/-- The `new` functions of the type structs, types.rs:77 (Const), 151 (Ptr), 182 (Typedef), 212 (Float), 262 (Func),
302 (TypeTag), 367 (Int), 448 (Enum), 546 (Enum64), 624 (Struct), 681 (Union), 871 (FuncProto), 937 (Var),
1005 (DataSec), 1051 (DeclTag). -/
def mkConst (t : Nat) : BtfType := .ref .const 0 (10 * 2 ^ 24) t
def mkPtr (n t : Nat) : BtfType := .ref .ptr n (2 * 2 ^ 24) t
def mkTypedef (n t : Nat) : BtfType := .ref .typedef n (8 * 2 ^ 24) t
def mkFloat (n s : Nat) : BtfType := .float n (16 * 2 ^ 24) s
def mkFunc (n proto linkage : Nat) : BtfType := .ref .func n (12 * 2 ^ 24 + linkage % 65536) proto
def mkTypeTag (n t : Nat) : BtfType := .ref .typeTag n (18 * 2 ^ 24) t
def mkInt (n s encoding offset : Nat) : BtfType :=
  .int n (1 * 2 ^ 24) s (encoding % 16 * 2 ^ 24 + offset % 256 * 2 ^ 16 + s * 8 % 256)
def mkEnum (n : Nat) (signed : Bool) (vs : List Variant) : BtfType :=
  .enum n ((if signed then 2 ^ 31 else 0) + 6 * 2 ^ 24 + vs.length % 65536) 4 vs
def mkEnum64 (n : Nat) (signed : Bool) (vs : List Variant64) : BtfType :=
  .enum64 n ((if signed then 2 ^ 31 else 0) + 19 * 2 ^ 24 + vs.length % 65536) 8 vs
def mkStruct (n : Nat) (ms : List Member) (s : Nat) : BtfType := .struct n (4 * 2 ^ 24 + ms.length % 65536) s ms
def mkUnion (n s : Nat) (ms : List Member) (fb : Option Fallback) : BtfType :=
  .union n (5 * 2 ^ 24 + ms.length % 65536) s ms fb
def mkFuncProto (ps : List Param) (r : Nat) : BtfType := .funcProto 0 (13 * 2 ^ 24 + ps.length % 65536) r ps
def mkVar (n t linkage : Nat) : BtfType := .var n (14 * 2 ^ 24) t linkage
def mkDataSec (n : Nat) (es : List SecEntry) (s : Nat) : BtfType := .dataSec n (15 * 2 ^ 24 + es.length % 65536) s es
def mkDeclTag (n t component : Nat) : BtfType := .declTag n (17 * 2 ^ 24) t component

/-! ## Queries -/

/-- `CStr::from_bytes_until_nul`: the bytes before the first NUL. -/
def untilNul : List UInt8 → Option (List UInt8)
  | [] => none
  | c :: cs => if c = 0 then some [] else (untilNul cs).map (c :: ·)

/-- `Btf::string_at`, btf.rs:373-393. The sums are `u32` and wrap. The result is the bytes of the C string (the code
converts them with `to_string_lossy`). -/
def Btf.stringAt (b : Btf) (offset : Nat) : Except Fail (List UInt8) :=
  let strOff := (b.header.strOff + b.header.hdrLen) % 2 ^ 32
  if offset ≥ (strOff + b.header.strLen) % 2 ^ 32 then .error (.invalidStringOffset offset)
  else if offset > b.strings.length then .error .panic
  else match untilNul (b.strings.drop offset) with
    | none => .error (.invalidStringOffset offset)
    | some s => .ok s

/-- `BtfTypes::type_by_id`, btf.rs:1263-1267. -/
def typeById (ts : List BtfType) (id : Nat) : Except Fail BtfType :=
  match ts[id]? with
  | some t => .ok t
  | none => .error (.unknownBtfType id)

/-- The loop of `BtfTypes::resolve_type`, btf.rs:1269-1298. -/
def resolveLoop (ts : List BtfType) (root : Nat) : Nat → Nat → Except Fail Nat
  | 0, _ => .error (.maximumTypeDepthReached root)
  | fuel + 1, id =>
    match typeById ts id with
    | .error e => .error e
    | .ok (.ref .volatile _ _ t) => resolveLoop ts root fuel t
    | .ok (.ref .const _ _ t) => resolveLoop ts root fuel t
    | .ok (.ref .restrict _ _ t) => resolveLoop ts root fuel t
    | .ok (.ref .typedef _ _ t) => resolveLoop ts root fuel t
    | .ok (.ref .typeTag _ _ t) => resolveLoop ts root fuel t
    | .ok _ => .ok id

/-- `resolve_type`; `MAX_RESOLVE_DEPTH` is 32 (btf.rs:26). -/
def resolveType (ts : List BtfType) (id : Nat) : Except Fail Nat := resolveLoop ts id 32 id

/-- The loop of `Btf::type_size`, btf.rs:427-455. -/
def sizeLoop (ts : List BtfType) (root : Nat) : Nat → Nat → Nat → Except Fail Nat
  | 0, _, _ => .error (.maximumTypeDepthReached root)
  | fuel + 1, id, elems =>
    match typeById ts id with
    | .error e => .error e
    | .ok (.array _ _ e _ len) => sizeLoop ts root fuel e len
    | .ok t =>
      match t.size with
      | some s => .ok (s * elems % 2 ^ 32)
      | none =>
        match t.btfType with
        | some next => sizeLoop ts root fuel next elems
        | none => .error (.unexpectedBtfType id)

def typeSize (ts : List BtfType) (id : Nat) : Except Fail Nat := sizeLoop ts id 32 id 1

/-- The loop of `Btf::id_by_type_name_kind`, btf.rs:412-425. -/
def idLoop (b : Btf) (name : List UInt8) (kind : Nat) : Nat → List BtfType → Except Fail Nat
  | _, [] => .error (.unknownBtfTypeName name)
  | i, t :: ts =>
    if t.kind ≠ kind then idLoop b name kind (i + 1) ts
    else match b.stringAt t.name with
      | .error e => .error e
      | .ok s => if s = name then .ok i else idLoop b name kind (i + 1) ts

def Btf.idByTypeNameKind (b : Btf) (name : List UInt8) (kind : Nat) : Except Fail Nat := idLoop b name kind 0 b.types

end Verif.Btf
