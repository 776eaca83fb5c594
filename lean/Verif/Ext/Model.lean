import Verif.Core.Model
import Verif.Linker.Model
import Verif.Common.Bytes
/-!
# Model of `.BTF.ext`: function, line and CO-RE relocation records

aya-obj/src/btf/btf.rs, aya-obj/src/btf/info.rs, aya/src/sys/bpf.rs. Little endian. `usize` has 64 bits and sections are
smaller than 4 GiB, so that `u32` sums that were checked as `usize` sums do not wrap. Names are byte strings.
-/
namespace Verif.Ext
open Verif.Bytes Verif.Btf Verif.Core

/-- Errors and panics. -/
inductive EFail where
  | invalidHeader
  | invalidInfo
  | invalidRelocationInfo
  | invalidRelocationKind (kind : Nat)
  | panic
  deriving DecidableEq, Repr

/-- `btf_ext_header`, aya-obj/src/generated/btf_internal_bindings.rs:32-43, without magic, version and flags. -/
structure Header where
  hdrLen : Nat
  funcOff : Nat
  funcLen : Nat
  lineOff : Nat
  lineLen : Nat
  coreOff : Nat
  coreLen : Nat
  deriving DecidableEq, Repr

def word (d : List UInt8) (at_ : Nat) : Nat := ofLe ((d.drop at_).take 4)

/-- Reading the header, btf.rs:989-1033: as many bytes as both sides know, the rest zero. -/
def readHeader (data : List UInt8) : Except EFail Header :=
  if data.length < 8 then .error .invalidHeader
  else if data.length < word data 4 then .error .invalidHeader
  else
    let h := data.take (min (word data 4) 32) ++ List.replicate 32 0
    .ok ⟨word h 4, word h 8, word h 12, word h 16, word h 20, word h 24, word h 28⟩

/-- `data.get(offset..offset + len)`. -/
def range (data : List UInt8) (offset len : Nat) : Option (List UInt8) :=
  if offset + len ≤ data.length then some ((data.drop offset).take len) else none

/-- `split_first_chunk::<4>` and `read_u32`. -/
def split4 (d : List UInt8) : Option (Nat × List UInt8) :=
  if 4 ≤ d.length then some (ofLe (d.take 4), d.drop 4) else none

/-- The closure `rec_size`, btf.rs:1046-1068. -/
def recSize (data : List UInt8) (hdr off len : Nat) : Except EFail Nat :=
  match range data (hdr + off) len with
  | none => .error .invalidInfo
  | some d =>
    if len = 0 then .ok 0
    else match split4 d with
      | none => .error .invalidInfo
      | some (n, _) => .ok n

/-- `info_data`, btf.rs:1141-1150. -/
def infoData (data : List UInt8) (hdr off len : Nat) : Except EFail (List UInt8) :=
  match range data (hdr + off) len with
  | none => .error .panic
  | some d => if 0 < len then (if 4 ≤ d.length then .ok (d.drop 4) else .error .panic) else .ok d

/-- `SecInfo`, aya-obj/src/btf/types.rs. -/
structure SecInfo where
  name : Nat
  num : Nat
  data : List UInt8
  deriving DecidableEq, Repr

/-- `SecInfoIter`, btf.rs:1179-1229; `fuel` bounds the number of rounds, each takes at least eight bytes. -/
def secInfos (rec : Nat) : Nat → List UInt8 → List SecInfo
  | 0, _ => []
  | fuel + 1, d =>
    match split4 d with
    | none => []
    | some (name, r) =>
      match split4 r with
      | none => []
      | some (num, r) =>
        if rec * num ≤ r.length then
          if rec * num = 0 then secInfos rec fuel (r.drop (rec * num))
          else ⟨name, num, r.take (rec * num)⟩ :: secInfos rec fuel (r.drop (rec * num))
        else []

/-- `chunks(n)`; `fuel` bounds the number of chunks. -/
def chunks (n : Nat) : Nat → List UInt8 → List (List UInt8)
  | 0, _ => []
  | fuel + 1, d => if d = [] then [] else d.take n :: chunks n fuel (d.drop n)

/-- One record of `FuncSecInfo::parse`, info.rs:45-62. -/
def funcRec (d : List UInt8) : Except EFail Linker.FuncInfo :=
  if d.length < 8 then .error .panic else .ok ⟨word d 0 / 8, word d 4⟩

/-- One record of `LineSecInfo::parse`, info.rs:131-159. -/
def lineRec (d : List UInt8) : Except EFail Linker.LineInfo :=
  if d.length < 16 then .error .panic else .ok ⟨word d 0 / 8, word d 4, word d 8, word d 12⟩

/-- `Relocation::parse`, relocation.rs:201-215; `bpf_core_relo` is 16 bytes: instruction, type, access string, kind. -/
def coreRec (d : List UInt8) : Except EFail Relo :=
  if d.length < 16 then .error .invalidRelocationInfo
  else match RelKind.ofWord (word d 12) with
    | none => .error (.invalidRelocationKind (word d 12))
    | some k => .ok ⟨k, word d 0, word d 4, word d 8⟩

/-- `map` stopping at the first failure. -/
def mapAll {α β : Type} (f : α → Except EFail β) : List α → Except EFail (List β)
  | [] => .ok []
  | a :: as => do
    let b ← f a
    let bs ← mapAll f as
    .ok (b :: bs)

/-- The name of a section, btf.rs:1085-1089: `string_at(..).ok().map(..).unwrap()`. -/
def secName (b : Btf) (off : Nat) : Except EFail (List UInt8) :=
  match b.stringAt off with
  | .ok s => .ok s
  | .error _ => .error .panic

/-- The closure of the function and line records, btf.rs:1084-1098 and 1105-1119. -/
def named {ρ : Type} (b : Btf) (rec : Nat) (parse : List UInt8 → Except EFail ρ) (s : SecInfo) :
    Except EFail (List UInt8 × List ρ) := do
  let name ← secName b s.name
  let rs ← mapAll parse (chunks rec s.data.length s.data)
  .ok (name, rs)

/-- The closure of the relocation records, btf.rs:1126-1134. -/
def relocs (rec : Nat) (s : SecInfo) : Except EFail (Nat × List Relo) := do
  let rs ← mapAll coreRec (chunks rec s.data.length s.data)
  .ok (s.name, rs)

/-- `BtfExt`, btf.rs:972-984. The `HashMap`s are lists in which the last entry of a name counts. -/
structure Ext where
  funcRec : Nat
  lineRec : Nat
  coreRec : Nat
  funcs : List (List UInt8 × List Linker.FuncInfo)
  lines : List (List UInt8 × List Linker.LineInfo)
  relocs : List (Nat × List Relo)
  deriving DecidableEq, Repr

/-- `BtfExt::parse`, btf.rs:988-1139. -/
def parse (b : Btf) (data : List UInt8) : Except EFail Ext := do
  let h ← readHeader data
  let fr ← recSize data h.hdrLen h.funcOff h.funcLen
  let lr ← recSize data h.hdrLen h.lineOff h.lineLen
  let cr ← recSize data h.hdrLen h.coreOff h.coreLen
  let fd ← infoData data h.hdrLen h.funcOff h.funcLen
  let fs ← mapAll (named b fr funcRec) (secInfos fr fd.length fd)
  let ld ← infoData data h.hdrLen h.lineOff h.lineLen
  let ls ← mapAll (named b lr lineRec) (secInfos lr ld.length ld)
  let cd ← infoData data h.hdrLen h.coreOff h.coreLen
  let rs ← mapAll (relocs cr) (secInfos cr cd.length cd)
  .ok ⟨fr, lr, cr, fs, ls, rs⟩

/-- `FuncInfo::get` and `LineInfo::get`, info.rs:103-108 and 193-198. -/
def get {ρ : Type} (m : List (List UInt8 × List ρ)) (name : List UInt8) : List ρ :=
  match m.reverse.find? (fun p => p.1 = name) with
  | some p => p.2
  | none => []

/-- `func_info_bytes`, info.rs:71-78: the records in memory. -/
def funcBytes (rs : List Linker.FuncInfo) : List UInt8 := rs.flatMap fun r => le 4 r.insnOff ++ le 4 r.typeId

/-- `line_info_bytes`, info.rs:168-175. -/
def lineBytes (rs : List Linker.LineInfo) : List UInt8 :=
  rs.flatMap fun r => le 4 r.insnOff ++ le 4 r.fileNameOff ++ le 4 r.lineOff ++ le 4 r.lineCol

/-- Buffer, count and record size handed to the kernel. -/
structure Given where
  buf : List UInt8
  cnt : Nat
  recSize : Nat
  deriving DecidableEq, Repr

/-- The function records of `bpf_load_program`, aya/src/sys/bpf.rs:189-206, when the program's BTF is loaded; `none` if
there are none in the object. -/
def giveFuncs (recSize : Nat) (rs : List Linker.FuncInfo) : Option Given :=
  if 0 < recSize then some ⟨funcBytes rs, rs.length, recSize⟩ else none

def giveLines (recSize : Nat) (rs : List Linker.LineInfo) : Option Given :=
  if 0 < recSize then some ⟨lineBytes rs, rs.length, recSize⟩ else none

end Verif.Ext
