import Verif.Obj.Model
import Verif.Btf.Model
/-!
# Model of reading maps from an object: BTF map definitions, `maps` and data sections

aya-obj/src/obj.rs. Names are byte strings: `Btf::string_at` turns bytes that are not UTF-8 into replacement characters,
which is not modelled (the keywords compared with are ASCII, so their comparison is not affected). Diagnostic messages
and the name carried by errors are left out.
-/
namespace Verif.ObjMaps
open Verif.Btf

/-- `ParseError` and `BtfError` as far as reading maps gives them. -/
inductive MFail where
  | btf (e : Btf.Fail)
  | innerMapCannotBePinned
  | multiLevelMapInMapNotSupported
  | invalidValuesSpec
  | noBtf
  | noSymbolsForSection
  | symbolNotFound
  | mapSymbolNameNotFound
  | mapDef (e : Obj.MapDefFail)
  | panic
  deriving DecidableEq, Repr

/-- `BtfMapDef`, aya-obj/src/maps.rs:61-73. `PinningType` is `None` (false) or `ByName` (true). -/
structure BtfDef where
  mapType : Nat := 0
  keySize : Nat := 0
  valueSize : Nat := 0
  maxEntries : Nat := 0
  mapFlags : Nat := 0
  mapExtra : Nat := 0
  pinByName : Bool := false
  keyTypeId : Nat := 0
  valueTypeId : Nat := 0
  deriving DecidableEq, Repr

/-- The definition under construction and the one of the inner map, obj.rs:1262-1263. -/
structure Acc where
  outer : BtfDef := {}
  inner : Option BtfDef := none
  deriving DecidableEq, Repr

def lift {α : Type} : Except Btf.Fail α → Except MFail α
  | .ok a => .ok a
  | .error e => .error (.btf e)

/-- `UnexpectedBtfType { type_id: other.btf_type().unwrap_or(0) }`. -/
def unexpected (t : BtfType) : Btf.Fail := .unexpectedBtfType (t.btfType.getD 0)

/-- The pointer of `get_map_field`, obj.rs:1138-1145. -/
def asPtr : BtfType → Except Btf.Fail Nat
  | .ref .ptr _ _ t => .ok t
  | other => .error (unexpected other)

/-- The array of `get_map_field`, obj.rs:1146-1153: element type and length. -/
def asArray : BtfType → Except Btf.Fail (Nat × Nat)
  | .array _ _ e _ len => .ok (e, len)
  | other => .error (unexpected other)

/-- `BtfType::Struct(s) => s`, obj.rs:1239-1246. -/
def asStruct : BtfType → Except Btf.Fail (List Member)
  | .struct _ _ _ ms => .ok ms
  | other => .error (unexpected other)

/-- `get_map_field`, obj.rs:1137-1155. -/
def getMapField (ts : List BtfType) (id : Nat) : Except MFail Nat := do
  let t ← lift (typeById ts id)
  let p ← lift (asPtr t)
  let a ← lift (typeById ts p)
  let r ← lift (asArray a)
  .ok r.2

/-- Pointee and size for `key` and `value`, obj.rs:1270-1280 and 1284-1294. -/
def pointee (ts : List BtfType) (id : Nat) : Except MFail (Nat × Nat) := do
  let t ← lift (typeById ts id)
  match t with
  | .ref .ptr _ _ p => do
    let n ← lift (typeSize ts p)
    .ok (p, n)
  | _ => .error (.btf (.unexpectedBtfType id))

/-- Members of the inner map's struct, obj.rs:1326-1357: a zero-length array of pointers to it. -/
def innerMembers (ts : List BtfType) (id : Nat) : Except MFail (List Member) := do
  let t ← lift (typeById ts id)
  let arr ← lift (asArray t)
  if arr.2 ≠ 0 then .error .invalidValuesSpec
  else do
    let e ← lift (resolveType ts arr.1)
    let et ← lift (typeById ts e)
    let p ← lift (asPtr et)
    let r ← lift (resolveType ts p)
    let rt ← lift (typeById ts r)
    lift (asStruct rt)

/-- The arms of the `match` on the member's name, obj.rs:1266-1366. -/
inductive Key where
  | type | key | keySize | value | valueSize | maxEntries | flags | extra | pinning | values | other
  deriving DecidableEq, Repr

def keyOf (s : List UInt8) : Key :=
  if s = "type".toUTF8.toList then .type
  else if s = "key".toUTF8.toList then .key
  else if s = "key_size".toUTF8.toList then .keySize
  else if s = "value".toUTF8.toList then .value
  else if s = "value_size".toUTF8.toList then .valueSize
  else if s = "max_entries".toUTF8.toList then .maxEntries
  else if s = "map_flags".toUTF8.toList then .flags
  else if s = "map_extra".toUTF8.toList then .extra
  else if s = "pinning".toUTF8.toList then .pinning
  else if s = "values".toUTF8.toList then .values
  else .other

/-- `PinningType::try_from(..).unwrap_or(None)`, obj.rs:1314-1317, maps.rs:100-110. -/
def pinning (n : Nat) : Bool := n == 1

/-- One arm, obj.rs:1267-1365. `nested` parses the struct of an inner map; it is `none` inside an inner map
(`is_inner`). -/
def arm (ts : List BtfType) (nested : Option (List Member → Except MFail Acc)) (acc : Acc) (ty : Nat) :
    Key → Except MFail Acc
  | .type => do
    let n ← getMapField ts ty
    .ok { acc with outer := { acc.outer with mapType := n } }
  | .key => do
    let r ← pointee ts ty
    .ok { acc with outer := { acc.outer with keySize := r.2, keyTypeId := r.1 } }
  | .keySize => do
    let n ← getMapField ts ty
    .ok { acc with outer := { acc.outer with keySize := n } }
  | .value => do
    let r ← pointee ts ty
    .ok { acc with outer := { acc.outer with valueSize := r.2, valueTypeId := r.1 } }
  | .valueSize => do
    let n ← getMapField ts ty
    .ok { acc with outer := { acc.outer with valueSize := n } }
  | .maxEntries => do
    let n ← getMapField ts ty
    .ok { acc with outer := { acc.outer with maxEntries := n } }
  | .flags => do
    let n ← getMapField ts ty
    .ok { acc with outer := { acc.outer with mapFlags := n } }
  | .extra => do
    let n ← getMapField ts ty
    .ok { acc with outer := { acc.outer with mapExtra := n } }
  | .pinning =>
    match nested with
    | none => .error .innerMapCannotBePinned
    | some _ => do
      let n ← getMapField ts ty
      .ok { acc with outer := { acc.outer with pinByName := pinning n } }
  | .values =>
    match nested with
    | none => .error .multiLevelMapInMapNotSupported
    | some parse => do
      let ms ← innerMembers ts ty
      let r ← parse ms
      .ok { outer := { acc.outer with valueSize := 4 }, inner := some r.outer }
  | .other => .ok acc

/-- One round of the loop, obj.rs:1265-1366. -/
def memberStep (b : Btf) (nested : Option (List Member → Except MFail Acc)) (acc : Acc) (m : Member) : Except MFail Acc := do
  let s ← lift (b.stringAt m.name)
  arm b.types nested acc m.ty (keyOf s)

/-- The loop, obj.rs:1265-1367. -/
def members (b : Btf) (nested : Option (List Member → Except MFail Acc)) : Acc → List Member → Except MFail Acc
  | acc, [] => .ok acc
  | acc, m :: ms => do
    let acc' ← memberStep b nested acc m
    members b nested acc' ms

/-- `parse_btf_map_struct` with `is_inner = true`, obj.rs:1256-1369. -/
def parseInner (b : Btf) (ms : List Member) : Except MFail Acc := members b none {} ms

/-- `parse_btf_map_struct` with `is_inner = false`, obj.rs:1256-1369. -/
def parseStruct (b : Btf) (ms : List Member) : Except MFail Acc := members b (some (parseInner b)) {} ms

/-- `BtfType::Var(var) => var`, obj.rs:1228-1235: name and type. -/
def asVar : BtfType → Except Btf.Fail (Nat × Nat)
  | .var n _ t _ => .ok (n, t)
  | other => .error (unexpected other)

/-- `parse_btf_map_def`, obj.rs:1224-1250. -/
def parseBtfMapDef (b : Btf) (ty : Nat) : Except MFail (List UInt8 × Acc) := do
  let t ← lift (typeById b.types ty)
  let v ← lift (asVar t)
  let name ← lift (b.stringAt v.1)
  let root ← lift (resolveType b.types v.2)
  let rt ← lift (typeById b.types root)
  let ms ← lift (asStruct rt)
  let acc ← parseStruct b ms
  .ok (name, acc)

/-! ## Sections -/

/-- Section kinds that hold maps; `EbpfSectionKind`, obj.rs:988-1013. -/
inductive Kind where
  | data | rodata | bss | maps | btfMaps
  deriving DecidableEq, Repr

/-- `Section`, obj.rs:1044-1052, as far as maps go. `size` is the ELF size; for `.bss` there are no bytes. -/
structure Sec where
  index : Nat
  name : List UInt8
  kind : Kind
  size : Nat
  data : List UInt8
  deriving DecidableEq, Repr

/-- `Symbol`, aya-obj/src/relocation.rs:111-120. -/
structure MSym where
  index : Nat
  sec : Option Nat
  name : Option (List UInt8)
  address : Nat
  size : Nat
  deriving DecidableEq, Repr

/-- `Map`, aya-obj/src/maps.rs:139-360 (`LegacyMap`, `BtfMap`). A `LegacyMap` read from an object has no inner definition,
a `BtfMap` no data. -/
inductive OMap where
  | legacy (sectionIndex : Nat) (kind : Kind) (symbolIndex : Option Nat) (d : Obj.MapDef) (data : List UInt8)
  | btf (sectionIndex symbolIndex : Nat) (d : BtfDef) (inner : Option BtfDef)
  deriving DecidableEq, Repr

/-- `HashMap::insert`, with the map as an association list without repeated names. -/
def insert (maps : List (List UInt8 × OMap)) (name : List UInt8) (m : OMap) : List (List UInt8 × OMap) :=
  (name, m) :: maps.filter (fun p => p.1 ≠ name)

/-- `HashMap::get`. -/
def lookup (maps : List (List UInt8 × OMap)) (name : List UInt8) : Option OMap :=
  (maps.find? (fun p => p.1 = name)).map Prod.snd

/-- `parse_data_map_section`, obj.rs:1159-1203. `BPF_MAP_TYPE_ARRAY` is 2, `BPF_F_RDONLY_PROG` 128; `as u32` keeps the low
32 bits. -/
def parseDataMap (s : Sec) : OMap :=
  .legacy s.index s.kind none
    { mapType := 2, keySize := 4, valueSize := s.size % 2 ^ 32, maxEntries := 1,
      mapFlags := if s.kind = .rodata then 128 else 0, id := 0, pinning := 0 }
    (if s.kind = .bss then List.replicate s.size 0 else s.data)

/-- Symbols of a section in symbol order, obj.rs:446-452. -/
def symsOf (syms : List MSym) (i : Nat) : List MSym := syms.filter (fun s => s.sec = some i)

/-- The `HashMap` from names to symbol indices, obj.rs:715-726; a later symbol replaces an earlier one of that name. -/
def symIndex (syms : List MSym) (name : List UInt8) : Option Nat :=
  (syms.reverse.find? (fun s => s.name = some name)).map (·.index)

/-- One entry of the section's DATASEC, obj.rs:733-750. -/
def btfMapStep (b : Btf) (syms : List MSym) (s : Sec) (maps : List (List UInt8 × OMap)) (e : SecEntry) :
    Except MFail (List (List UInt8 × OMap)) := do
  let r ← parseBtfMapDef b e.ty
  match symIndex syms r.1 with
  | none => .error .symbolNotFound
  | some i => .ok (insert maps r.1 (.btf s.index i r.2.outer r.2.inner))

def btfEntries (b : Btf) (syms : List MSym) (s : Sec) :
    List (List UInt8 × OMap) → List SecEntry → Except MFail (List (List UInt8 × OMap))
  | maps, [] => .ok maps
  | maps, e :: es => do
    let maps' ← btfMapStep b syms s maps e
    btfEntries b syms s maps' es

/-- A DATASEC counts if it is named like the section, obj.rs:731-751. -/
def entriesOf (b : Btf) (syms : List MSym) (s : Sec) (maps : List (List UInt8 × OMap)) (name : List UInt8)
    (es : List SecEntry) : Except MFail (List (List UInt8 × OMap)) :=
  if name = s.name then btfEntries b syms s maps es else .ok maps

/-- The loop over all types, obj.rs:728-753. -/
def btfTypes (b : Btf) (syms : List MSym) (s : Sec) :
    List (List UInt8 × OMap) → List BtfType → Except MFail (List (List UInt8 × OMap))
  | maps, [] => .ok maps
  | maps, .dataSec n _ _ es :: ts => do
    let name ← lift (b.stringAt n)
    let maps' ← entriesOf b syms s maps name es
    btfTypes b syms s maps' ts
  | maps, _ :: ts => btfTypes b syms s maps ts

/-- `parse_btf_maps`, obj.rs:710-755. -/
def parseBtfMaps (btf : Option Btf) (syms : List MSym) (maps : List (List UInt8 × OMap)) (s : Sec) :
    Except MFail (List (List UInt8 × OMap)) :=
  match btf with
  | none => .error .noBtf
  | some b => if symsOf syms s.index = [] then .error .noSymbolsForSection else btfTypes b (symsOf syms s.index) s maps b.types

/-- One symbol of a `maps` section, obj.rs:768-795. The range panics if it is inverted (the sum wraps) or leaves the
section. -/
def legacyStep (s : Sec) (maps : List (List UInt8 × OMap)) (sym : MSym) : Except MFail (List (List UInt8 × OMap)) :=
  match Obj.slice s.data sym.address ((sym.address + sym.size) % 2 ^ 64) with
  | none => .error .panic
  | some d =>
    match sym.name with
    | none => .error .mapSymbolNameNotFound
    | some n =>
      match Obj.parseMapDef d with
      | .error e => .error (.mapDef e)
      | .ok def_ => .ok (insert maps n (.legacy s.index s.kind (some sym.index) def_ []))

def legacySyms (s : Sec) : List (List UInt8 × OMap) → List MSym → Except MFail (List (List UInt8 × OMap))
  | maps, [] => .ok maps
  | maps, y :: ys => do
    let maps' ← legacyStep s maps y
    legacySyms s maps' ys

/-- The `Maps` arm of `parse_section` with `parse_maps_section`, obj.rs:760-803 and 817-838. -/
def parseMapsSection (syms : List MSym) (maps : List (List UInt8 × OMap)) (s : Sec) : Except MFail (List (List UInt8 × OMap)) :=
  if symsOf syms s.index = [] then .error .noSymbolsForSection else legacySyms s maps (symsOf syms s.index)

/-- `parse_section` for sections holding maps, obj.rs:805-838. -/
def parseSection (btf : Option Btf) (syms : List MSym) (maps : List (List UInt8 × OMap)) (s : Sec) :
    Except MFail (List (List UInt8 × OMap)) :=
  match s.kind with
  | .data => .ok (insert maps s.name (parseDataMap s))
  | .rodata => .ok (insert maps s.name (parseDataMap s))
  | .bss => .ok (insert maps s.name (parseDataMap s))
  | .btfMaps => parseBtfMaps btf syms maps s
  | .maps => parseMapsSection syms maps s

/-- The loop of `Object::parse` over the sections, obj.rs:471-479, as far as maps go; `btf` is the result of reading
`.BTF` before. -/
def parseSections (btf : Option Btf) (syms : List MSym) :
    List (List UInt8 × OMap) → List Sec → Except MFail (List (List UInt8 × OMap))
  | maps, [] => .ok maps
  | maps, s :: ss => do
    let maps' ← parseSection btf syms maps s
    parseSections btf syms maps' ss

end Verif.ObjMaps
