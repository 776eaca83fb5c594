import Verif.Obj.Model
/-!
# Vocabulary for C23-C26 and C55

Instruction encoding as documented by the kernel (Documentation/bpf/standardization/instruction-set.rst),
helper numbers of include/uapi/linux/bpf.h.
-/
namespace Verif.Obj.Spec
open Verif.Bytes Verif.Bpf Verif.Obj

/-- The eight bytes of an instruction on a little-endian machine. -/
def encode (i : Insn) : List UInt8 :=
  [UInt8.ofNat i.code, UInt8.ofNat (i.src * 16 + i.dst)] ++
  le 2 (i.off % 2 ^ 16).toNat ++ le 4 (i.imm % 2 ^ 32).toNat

/-- The bytes of a sequence of instructions. -/
def encodeAll (is : List Insn) : List UInt8 := is.flatMap encode

/-- A call of helper `n`: opcode 0x85 with both registers zero. -/
def CallsHelper (i : Insn) (n : Int) : Prop := i.code = 0x85 ∧ i.src = 0 ∧ i.dst = 0 ∧ i.imm = n

/-- `new` helpers and the older helper each one extends: `probe_read_user` and `probe_read_kernel` /
`probe_read`; `probe_read_user_str` and `probe_read_kernel_str` / `probe_read_str`. -/
inductive Downgrade : Int → Int → Prop
  | user : Downgrade 112 4
  | kernel : Downgrade 113 4
  | userStr : Downgrade 114 45
  | kernelStr : Downgrade 115 45

/-- `i` calls a helper that old kernels do not have. -/
def CallsNew (i : Insn) : Prop := ∃ n o, Downgrade n o ∧ CallsHelper i n

/-- The bytes of a legacy map definition: seven little-endian 32-bit numbers. -/
def encodeDef (d : MapDef) : List UInt8 :=
  le 4 d.mapType ++ le 4 d.keySize ++ le 4 d.valueSize ++ le 4 d.maxEntries ++ le 4 d.mapFlags ++
  le 4 d.id ++ le 4 d.pinning

/-- The first five fields only. -/
def encodeShort (d : MapDef) : List UInt8 :=
  le 4 d.mapType ++ le 4 d.keySize ++ le 4 d.valueSize ++ le 4 d.maxEntries ++ le 4 d.mapFlags

/-- The fields fit, and the pinning is one of the two defined values. -/
def DefWF (d : MapDef) : Prop :=
  d.mapType < 2 ^ 32 ∧ d.keySize < 2 ^ 32 ∧ d.valueSize < 2 ^ 32 ∧ d.maxEntries < 2 ^ 32 ∧
  d.mapFlags < 2 ^ 32 ∧ d.id < 2 ^ 32 ∧ d.pinning ≤ 1

/-- Symbol `s` is the variable that global `g` overrides. -/
def IsVar (syms : List Sym) (g : Global) (s : Sym) : Prop := s ∈ syms ∧ s.name = some g.name

/-- Byte `i` of the data of section `sec` belongs to variable `s`. -/
def Covers (s : Sym) (sec i : Nat) : Prop :=
  s.sectionIndex = some sec ∧ s.address ≤ i ∧ i < s.address + s.size

/-- Variable `s` lies within the data of map `m`. -/
def Inside (s : Sym) (m : DataMap) : Prop :=
  s.sectionIndex = some m.sectionIndex ∧ s.address + s.size ≤ m.data.length

/-- Addresses and sizes are 64-bit numbers. -/
def SymsU64 (syms : List Sym) : Prop := ∀ s ∈ syms, s.address < 2 ^ 64 ∧ s.size < 2 ^ 64

/-- No two maps come from the same section (true of `.data`, `.rodata` and `.bss` sections). -/
def OneMapPerSection (maps : List DataMap) : Prop :=
  ∀ (j k : Nat) (m m' : DataMap), maps[j]? = some m → maps[k]? = some m' → m.sectionIndex = m'.sectionIndex → j = k

/-- Each overridden name belongs to one symbol. -/
def UniqueVars (syms : List Sym) (gs : List Global) : Prop :=
  ∀ g ∈ gs, ∀ s s', IsVar syms g s → IsVar syms g s' → s = s'

/-- Different overridden variables share no byte. -/
def DisjointVars (syms : List Sym) (gs : List Global) : Prop :=
  ∀ g ∈ gs, ∀ g' ∈ gs, g.name ≠ g'.name → ∀ s s', IsVar syms g s → IsVar syms g' s' →
    ∀ sec i, ¬ (Covers s sec i ∧ Covers s' sec i)

/-- `s` is the symbol of a function defined in section `sec`. -/
def IsFunction (syms : List Sym) (sec : Nat) (s : Sym) : Prop :=
  s ∈ syms ∧ s.isDefinition = true ∧ s.isText = true ∧ s.sectionIndex = some sec

/-- From byte `off` of the section on, the functions of the section follow each other without gap up to byte `len`;
each has a name and whole instructions. -/
inductive Tiles (syms : List Sym) (sec base len : Nat) : Nat → Prop
  | done : Tiles syms sec base len len
  | next (off : Nat) (s : Sym) (hs : IsFunction syms sec s) (ha : s.address = base + off) (hpos : 0 < s.size)
      (h8 : s.size % 8 = 0) (hn : s.name.isSome = true) (hfit : off + s.size ≤ len)
      (rest : Tiles syms sec base len (off + s.size)) : Tiles syms sec base len off

/-- No two functions of the section start at one address. -/
def NoConflict (syms : List Sym) (sec : Nat) : Prop :=
  (syms.filter (fun s => s.isDefinition && s.isText && s.sectionIndex == some sec)).Pairwise
    (fun s s' => s.address ≠ s'.address)

/-- A function symbol names a function and does not reach beyond the section. -/
def Fits (base len : Nat) (s : Sym) : Prop :=
  s.name.isSome = true ∧ base ≤ s.address ∧ s.address + s.size ≤ base + len

end Verif.Obj.Spec
