import Verif.Ext.Model
import Verif.Btf.Spec
/-!
# Specification vocabulary for `.BTF.ext`

After the kernel's Documentation/bpf/btf.rst, section 4.1. Only data types of the model are used, none of its functions.
-/
namespace Verif.Ext.Spec
open Verif.Bytes Verif.Btf Verif.Btf.Spec Verif.Core Verif.Ext

/-- The words after magic, version and flags. -/
def fields (h : Header) : List Nat := [h.hdrLen, h.funcOff, h.funcLen, h.lineOff, h.lineLen, h.coreOff, h.coreLen]

/-- The bytes begin with header `h`. Words beyond the announced header length count as zero; a longer header may contain
words unknown here. -/
def HeaderIs (data : List UInt8) (h : Header) : Prop :=
  h.hdrLen % 4 = 0 ∧ 8 ≤ h.hdrLen ∧ h.hdrLen ≤ data.length ∧ ∀ i n : Nat, (fields h)[i]? = some n →
    n = if 4 + 4 * i + 4 ≤ h.hdrLen then ofLe ((data.drop (4 + 4 * i)).take 4) else 0

/-- A part of the section, behind the header. -/
def Part (data : List UInt8) (hdr off len : Nat) (bytes : List UInt8) : Prop :=
  hdr + off ≤ data.length ∧ bytes.length = len ∧ ∃ rest, data.drop (hdr + off) = bytes ++ rest

/-- A function record: offset in bytes, type id, and whatever newer compilers add. -/
structure FRec where
  off : Nat
  type : Nat
  extra : List UInt8

def FRec.bytes (r : FRec) : List UInt8 := le 4 r.off ++ le 4 r.type ++ r.extra
def FRec.Ok (r : FRec) : Prop := r.off < 2 ^ 32 ∧ r.type < 2 ^ 32

/-- A line record. -/
structure LRec where
  off : Nat
  file : Nat
  line : Nat
  col : Nat
  extra : List UInt8

def LRec.bytes (r : LRec) : List UInt8 := le 4 r.off ++ le 4 r.file ++ le 4 r.line ++ le 4 r.col ++ r.extra
def LRec.Ok (r : LRec) : Prop := r.off < 2 ^ 32 ∧ r.file < 2 ^ 32 ∧ r.line < 2 ^ 32 ∧ r.col < 2 ^ 32

/-- Numbers of `enum bpf_core_relo_kind` in the kernel's include/uapi/linux/bpf.h. -/
def kindNo : RelKind → Nat
  | .fieldByteOffset => 0 | .fieldByteSize => 1 | .fieldExists => 2 | .fieldSigned => 3 | .fieldLShift => 4
  | .fieldRShift => 5 | .typeIdLocal => 6 | .typeIdTarget => 7 | .typeExists => 8 | .typeSize => 9 | .enumExists => 10
  | .enumValue => 11

/-- A CO-RE relocation record. -/
structure CRec where
  relo : Relo
  extra : List UInt8

def CRec.bytes (r : CRec) : List UInt8 :=
  le 4 r.relo.insOff ++ le 4 r.relo.typeId ++ le 4 r.relo.accessOff ++ le 4 (kindNo r.relo.kind) ++ r.extra
def CRec.Ok (r : CRec) : Prop := r.relo.insOff < 2 ^ 32 ∧ r.relo.typeId < 2 ^ 32 ∧ r.relo.accessOff < 2 ^ 32

/-- The records of some sections: name offset and records. -/
abbrev Secs (ρ : Type) := List (Nat × List ρ)

/-- A non-empty part: record size, then per section its name, the number of records, the records. -/
def partBytes {ρ : Type} (bytes : ρ → List UInt8) (rec : Nat) (secs : Secs ρ) : List UInt8 :=
  le 4 rec ++ secs.flatMap fun p => le 4 p.1 ++ le 4 p.2.length ++ p.2.flatMap bytes

/-- A part is missing (length zero) or holds records of one size, with counts and names of 32 bits. -/
def Holds {ρ : Type} (bytes : ρ → List UInt8) (Ok : ρ → Prop) (data : List UInt8) (hdr off len rec : Nat) (secs : Secs ρ) : Prop :=
  (len = 0 ∧ rec = 0 ∧ secs = [] ∧ hdr + off ≤ data.length) ∨
  (0 < rec ∧ rec < 2 ^ 32 ∧ Part data hdr off len (partBytes bytes rec secs) ∧
    ∀ p ∈ secs, p.1 < 2 ^ 32 ∧ p.2.length < 2 ^ 32 ∧ ∀ r ∈ p.2, Ok r ∧ (bytes r).length = rec)

/-- `rs` are the records of the section called `name`: that of the only section of that name, none if there is none. -/
def RecordsOf {ρ : Type} (b : Btf) (secs : Secs ρ) (name : List UInt8) (rs : List ρ) : Prop :=
  (∃ p ∈ secs, StringAt b.strings p.1 name ∧ p.2 = rs ∧ ∀ q ∈ secs, StringAt b.strings q.1 name → q.2 = rs) ∨
  (rs = [] ∧ ∀ p ∈ secs, ¬ StringAt b.strings p.1 name)

/-- Instruction offsets in instructions rather than bytes. -/
def FRec.info (r : FRec) : Linker.FuncInfo := ⟨r.off / 8, r.type⟩
def LRec.info (r : LRec) : Linker.LineInfo := ⟨r.off / 8, r.file, r.line, r.col⟩

/-- The `i`-th record the kernel reads: `recSize` bytes at a multiple of `recSize`, all inside the buffer. -/
def KernelSees (g : Given) (i : Nat) (record : List UInt8) : Prop :=
  i < g.cnt ∧ (i + 1) * g.recSize ≤ g.buf.length ∧ record = (g.buf.drop (i * g.recSize)).take g.recSize

end Verif.Ext.Spec
