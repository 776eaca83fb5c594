import Verif.Common.Bytes
import Verif.Common.Insn
/-!
# Model of object parsing: code, legacy map definitions, globals

aya-obj/src/obj.rs. Byte order is little endian (the host's; `ptr::read_unaligned` of `repr(C)` structs).
`HashMap` iteration order is the order of the list standing for the map, so a theorem about every list is a
theorem about every iteration order.
-/
namespace Verif.Obj
open Verif.Bytes Verif.Bpf

/-- `ParseError` as far as modelled (aya-obj/src/obj.rs:912-978). -/
inductive ParseErr where
  | invalidProgramCode
  | invalidMapDefinition
  | invalidGlobalData (name : String)
  | mapNotFound (index : Nat)
  | symbolNotFound (name : String)
  | symbolTableConflict (address : Nat)
  | unknownSymbol (address : Nat)
  | invalidSymbol (index : Nat)
  deriving DecidableEq, Repr

/-- An operation fails with an error value or panics. -/
inductive Fail where
  | err (e : ParseErr)
  | panic
  deriving DecidableEq, Repr

/-! ## Instructions -/

/-- Two's complement reading of an unsigned number of `bits` bits. -/
def signed (bits n : Nat) : Int := if n < 2 ^ (bits - 1) then (n : Int) else (n : Int) - 2 ^ bits

/-- `ptr::read_unaligned` of a `bpf_insn` from eight bytes. The register byte is a C bit field: destination in
the low, source in the high nibble. -/
def decodeInsn (d : List UInt8) : Insn :=
  { code := (d.getD 0 0).toNat
    dst := (d.getD 1 0).toNat % 16
    src := (d.getD 1 0).toNat / 16
    off := signed 16 (ofLe ((d.drop 2).take 2))
    imm := signed 32 (ofLe ((d.drop 4).take 4)) }

/-- `chunks_exact(n)`; `fuel` bounds the number of chunks. -/
def chunksExact (n : Nat) : Nat → List UInt8 → List (List UInt8)
  | 0, _ => []
  | fuel + 1, d => if d.length < n then [] else d.take n :: chunksExact n fuel (d.drop n)

/-- `copy_instructions`, aya-obj/src/obj.rs:1415-1424. -/
def copyInstructions (data : List UInt8) : Except ParseErr (List Insn) :=
  if data.length % 8 ≠ 0 then .error .invalidProgramCode
  else .ok ((chunksExact 8 data.length data).map decodeInsn)

/-! ## Helper calls -/

/-- `insn_is_helper_call`, aya-obj/src/obj.rs:872-878. -/
def insnIsHelperCall (ins : Insn) : Bool :=
  (ins.code &&& 0x07) == 5 && (ins.code &&& 0xF0) == 0x80 && (ins.code &&& 0x08) == 0 &&
  ins.src == 0 && ins.dst == 0

/-- The legacy helper of aya-obj/src/obj.rs:895-901. -/
def fallback (imm : Int) : Option Int :=
  if imm = 113 ∨ imm = 112 then some 4
  else if imm = 115 ∨ imm = 114 then some 45
  else none

/-- The `LazyCell` holding the result of the feature check, and how often the check has run. -/
structure Lazy where
  cell : Option Bool
  runs : Nat
  deriving DecidableEq, Repr

/-- `probe_read_kernel_supported()` through the cell, aya-obj/src/obj.rs:863-864. -/
def Lazy.force (supported : Bool) (l : Lazy) : Bool × Lazy :=
  match l.cell with
  | some b => (b, l)
  | none => (supported, ⟨some supported, l.runs + 1⟩)

/-- `Function::sanitize`, aya-obj/src/obj.rs:880-907. -/
def sanitize (supported : Bool) : Lazy → List Insn → List Insn × Lazy
  | l, [] => ([], l)
  | l, ins :: rest =>
    if insnIsHelperCall ins then
      match fallback ins.imm with
      | some imm =>
        let (b, l') := l.force supported
        let (rest', l'') := sanitize supported l' rest
        ((if !b then { ins with imm := imm } else ins) :: rest', l'')
      | none =>
        let (rest', l'') := sanitize supported l rest
        (ins :: rest', l'')
    else
      let (rest', l'') := sanitize supported l rest
      (ins :: rest', l'')

/-- `Object::sanitize_functions`, aya-obj/src/obj.rs:858-869. -/
def sanitizeFunctions (supported : Bool) : Lazy → List (List Insn) → List (List Insn) × Lazy
  | l, [] => ([], l)
  | l, f :: fs =>
    let (f', l') := sanitize supported l f
    let (fs', l'') := sanitizeFunctions supported l' fs
    (f' :: fs', l'')

/-! ## Legacy map definitions -/

/-- Why a definition is not read. `undefinedBehaviour`: the memory is not a valid value of the Rust type. -/
inductive MapDefFail where
  | err (e : ParseErr)
  | undefinedBehaviour
  deriving DecidableEq, Repr

/-- `bpf_map_def`, aya-obj/src/maps.rs:113-132. `pinning` is an enum with values 0 and 1 (maps.rs:83-91). -/
structure MapDef where
  mapType : Nat
  keySize : Nat
  valueSize : Nat
  maxEntries : Nat
  mapFlags : Nat
  id : Nat
  pinning : Nat
  deriving DecidableEq, Repr

/-- The `k`-th `u32` of the struct's memory. -/
def u32At (d : List UInt8) (k : Nat) : Nat := ofLe ((d.drop (4 * k)).take 4)

/-- The struct whose 28 bytes of memory are `d`. Reading an enum from memory that holds none of its values is
undefined behaviour. -/
def readMapDef (d : List UInt8) : Except MapDefFail MapDef :=
  if u32At d 6 ≤ 1 then .ok ⟨u32At d 0, u32At d 1, u32At d 2, u32At d 3, u32At d 4, u32At d 5, u32At d 6⟩
  else .error .undefinedBehaviour

/-- `parse_map_def`, aya-obj/src/obj.rs:1205-1223. `MINIMUM_MAP_SIZE` is 20, the struct has 28 bytes and its
default is all zero. -/
def parseMapDef (data : List UInt8) : Except MapDefFail MapDef :=
  if data.length < 20 then .error (.err .invalidMapDefinition)
  else if data.length < 28 then readMapDef (data ++ List.replicate (28 - data.length) 0)
  else readMapDef (data.take 28)

/-! ## Global variables -/

/-- `Symbol`, aya-obj/src/relocation.rs:111-120 (the kind is only compared with `Text`). -/
structure Sym where
  index : Nat
  sectionIndex : Option Nat
  name : Option String
  address : Nat
  size : Nat
  isDefinition : Bool := true
  isText : Bool := false
  deriving DecidableEq, Repr

/-- A map of the object: the section it comes from and its initial contents. -/
structure DataMap where
  name : String
  sectionIndex : Nat
  data : List UInt8
  deriving DecidableEq, Repr

/-- One entry of the `globals` argument: `(name, (data, must_exist))`. -/
structure Global where
  name : String
  data : List UInt8
  mustExist : Bool
  deriving DecidableEq, Repr

/-- `symbols.get(name)` where `symbols` is collected from the symbol table: the last symbol with that name in
iteration order. aya-obj/src/obj.rs:514-519. -/
def symbolByName (syms : List Sym) (name : String) : Option Sym :=
  (syms.filter (fun s => s.name == some name)).getLast?

/-- `Vec::splice(start..end, data)`. -/
def splice (d : List UInt8) (start stop : Nat) (new : List UInt8) : List UInt8 :=
  d.take start ++ new ++ d.drop stop

/-- Find the first map of the symbol's section and patch it, aya-obj/src/obj.rs:530-549. `none`: no such map. -/
def patchFirst (g : Global) (s : Sym) : List DataMap → Option (Except ParseErr (List DataMap))
  | [] => none
  | m :: ms =>
    if s.sectionIndex = some m.sectionIndex then
      let start := s.address
      let stop := (start + s.size) % 2 ^ 64
      if start > stop ∨ stop > m.data.length then some (.error (.invalidGlobalData g.name))
      else some (.ok ({ m with data := splice m.data start stop g.data } :: ms))
    else
      match patchFirst g s ms with
      | some (.ok ms') => some (.ok (m :: ms'))
      | other => other

/-- One iteration of the loop, aya-obj/src/obj.rs:521-554. -/
def patchOne (syms : List Sym) (maps : List DataMap) (g : Global) : Except ParseErr (List DataMap) :=
  match symbolByName syms g.name with
  | some s =>
    if g.data.length ≠ s.size then .error (.invalidGlobalData g.name)
    else match patchFirst g s maps with
      | some r => r
      | none => .error (.mapNotFound (s.sectionIndex.getD 0))
  | none => if g.mustExist then .error (.symbolNotFound g.name) else .ok maps

/-- `Object::patch_map_data`, aya-obj/src/obj.rs:510-556. -/
def patchMapData (syms : List Sym) : List DataMap → List Global → Except ParseErr (List DataMap)
  | maps, [] => .ok maps
  | maps, g :: gs =>
    match patchOne syms maps g with
    | .ok maps' => patchMapData syms maps' gs
    | .error e => .error e

/-! ## Functions -/

/-- `Function`, aya-obj/src/obj.rs:91-110, without debug info. -/
structure Func where
  name : String
  address : Nat
  sectionOffset : Nat
  instructions : List Insn
  deriving DecidableEq, Repr

/-- `section.data[start..end]`; `none` is the panic. -/
def slice (d : List UInt8) (start stop : Nat) : Option (List UInt8) :=
  if start ≤ stop ∧ stop ≤ d.length then some ((d.drop start).take (stop - start)) else none

/-- `parse_program`, aya-obj/src/obj.rs:600-637. `usize`/`u64` sums wrap (release build). -/
def parseProgram (data : List UInt8) (name : String) (s : Sym) : Except Fail Func :=
  match slice data s.address ((s.address + s.size) % 2 ^ 64) with
  | none => .error .panic
  | some code =>
    match copyInstructions code with
    | .error e => .error (.err e)
    | .ok is => .ok ⟨name, s.address, s.address, is⟩

/-- The symbols `parse_text_section` collects, aya-obj/src/obj.rs:642-655. -/
def textSymbols (syms : List Sym) (section_ : Nat) : List Sym :=
  syms.filter (fun s => s.isDefinition && s.isText && s.sectionIndex == some section_)

/-- Two collected symbols at one address, aya-obj/src/obj.rs:647-652; the address reported is that of the later
one. -/
def firstConflict : List Nat → List Sym → Option Nat
  | _, [] => none
  | seen, s :: rest => if s.address ∈ seen then some s.address else firstConflict (s.address :: seen) rest

/-- The loop of `parse_text_section`, aya-obj/src/obj.rs:657-693, from `offset`. A symbol without a name makes
`unwrap` panic. `fuel` is at least the number of remaining bytes. -/
def textLoop (base : Nat) (data : List UInt8) (syms : List Sym) : Nat → Nat → Except Fail (List Func)
  | 0, _ => .ok []
  | fuel + 1, offset =>
    if offset < data.length then
      let address := (base + offset) % 2 ^ 64
      match syms.find? (fun s => s.address == address) with
      | none => .error (.err (.unknownSymbol address))
      | some s =>
        if s.size = 0 then .error (.err (.invalidSymbol s.index))
        else match s.name with
          | none => .error .panic
          | some name =>
            match slice data offset ((offset + s.size) % 2 ^ 64) with
            | none => .error .panic
            | some code =>
              match copyInstructions code with
              | .error e => .error (.err e)
              | .ok is =>
                match textLoop base data syms fuel (offset + s.size) with
                | .error e => .error e
                | .ok fs => .ok (⟨name, address, offset, is⟩ :: fs)
    else .ok []

/-- `parse_text_section`, aya-obj/src/obj.rs:639-693 (the functions; relocations are stored unchanged). -/
def parseTextSection (syms : List Sym) (section_ base : Nat) (data : List UInt8) : Except Fail (List Func) :=
  match firstConflict [] (textSymbols syms section_) with
  | some a => .error (.err (.symbolTableConflict a))
  | none => textLoop base data (textSymbols syms section_) data.length 0

end Verif.Obj
