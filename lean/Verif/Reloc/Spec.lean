import Verif.Reloc.Model
/-!
# Vocabulary for C10-C12: which instruction refers to which map or extern, and what it must become
-/
namespace Verif.Reloc.Spec
open Verif.Bpf Verif.Reloc

/-- Relocation `rel` is for instruction `i` of the function that starts `so` bytes into its section. -/
def At (so : Nat) (rel : Rel) (i : Nat) : Prop := rel.offset = so + 8 * i

/-- `x` is the `i32` with the same low 32 bits as `v`. -/
def IsI32 (x v : Int) : Prop := -(2 ^ 31) ≤ x ∧ x < 2 ^ 31 ∧ ∃ k, x = v + k * 2 ^ 32

/-- The symbol of `rel` names map `m`: `m` is defined by that symbol or, for symbols that define no map
(variables in a global data section), `m` is the map of the section the symbol is in. -/
inductive NamesMap (maps : List MapRef) (s symbolIndex : Nat) (m : MapRef) : Prop
  | symbol (hm : m ∈ maps) (hi : m.symbolIndex = some symbolIndex)
  | data (hno : ∀ m' ∈ maps, m'.symbolIndex ≠ some symbolIndex) (hm : m ∈ maps) (hs : m.sectionIndex = s)

/-- `ins`, relocated by `rel` against `sym`, refers to map `m`. Calls and references to text sections are
no map references. -/
def MapReference (maps : List MapRef) (syms : Nat → Option Sym) (text : Nat → Bool) (rel : Rel) (ins : Insn)
    (sym : Sym) (m : MapRef) : Prop :=
  ∃ s, syms rel.symbolIndex = some sym ∧ sym.sectionIndex = some s ∧ ins.isCall = false ∧ text s = false ∧
    NamesMap maps s rel.symbolIndex m

/-- Every symbol referred to names at most one map. Several maps may be defined in one section; what is excluded is that
code refers to such a section by a symbol that is not the symbol of a map, or that two maps have one symbol. -/
def Unambiguous (maps : List MapRef) (syms : Nat → Option Sym) (rels : List Rel) : Prop :=
  ∀ rel ∈ rels, ∀ sym s, syms rel.symbolIndex = some sym → sym.sectionIndex = some s →
    ∀ m1 m2, NamesMap maps s rel.symbolIndex m1 → NamesMap maps s rel.symbolIndex m2 → m1 = m2

/-- No relocation is for the second half of a load of a global variable. -/
def PairsIntact (maps : List MapRef) (syms : Nat → Option Sym) (text : Nat → Bool) (so : Nat)
    (rels : List Rel) (orig : List Insn) : Prop :=
  ∀ r1 ∈ rels, ∀ i ins sym m, At so r1 i → orig[i]? = some ins →
    MapReference maps syms text r1 ins sym m → m.hasData = true → ∀ r2 ∈ rels, ¬ At so r2 (i + 1)

/-- What instruction `i` must be after map relocation. -/
inductive MapResult (maps : List MapRef) (syms : Nat → Option Sym) (text : Nat → Bool) (so : Nat)
    (rels : List Rel) (orig : List Insn) (i : Nat) (ins out : Insn) : Prop
  /-- a map reference: the descriptor of that map, marked as plain map (1) or global data (2) -/
  | reference (rel sym m) (hr : rel ∈ rels) (ha : At so rel i) (h : MapReference maps syms text rel ins sym m)
      (himm : out.imm = m.fd) (hsrc : out.src = if m.hasData then 2 else 1)
      (hrest : out.code = ins.code ∧ out.dst = ins.dst ∧ out.off = ins.off)
  /-- second half of a load of a global variable: the offset of the variable in the map value -/
  | offset (rel j prev sym m) (hr : rel ∈ rels) (hj : i = j + 1) (ha : At so rel j) (hp : orig[j]? = some prev)
      (h : MapReference maps syms text rel prev sym m) (hd : m.hasData = true)
      (himm : IsI32 out.imm (prev.imm + sym.address))
      (hrest : out.code = ins.code ∧ out.dst = ins.dst ∧ out.src = ins.src ∧ out.off = ins.off)
  | same (hno : ∀ rel ∈ rels, At so rel i → ∀ sym m, ¬ MapReference maps syms text rel ins sym m)
      (hno' : ∀ rel ∈ rels, ∀ j prev, i = j + 1 → At so rel j → orig[j]? = some prev →
        ∀ sym m, MapReference maps syms text rel prev sym m → m.hasData = false)
      (h : out = ins)

/-- Relocation `rel` is against the extern `e`. -/
def AgainstExtern (externs : Name → Option Extern) (syms : Nat → Option Sym) (rel : Rel) (e : Extern) : Prop :=
  ∃ sym name, syms rel.symbolIndex = some sym ∧ sym.sectionIndex = none ∧ sym.isDefinition = false ∧
    sym.kind = .unknown ∧ sym.name = some name ∧ externs name = some e

/-- What a reference to extern `e` must become: `out`, and for a 64-bit load the immediate of the second
half. Codes: 0x85 call, 0x18 64-bit load. Source register 2: kernel function call, 3: BTF id, 0: plain. -/
inductive ExternForm (e : Extern) (symbolIndex : Nat) (ins out : Insn) : Option Int → Prop
  /-- call of a kernel function that was found -/
  | kfunc (id : Nat) (hc : ins.code = 0x85) (hr : e.isResolved = true) (hid : e.btfId = some id)
      (h : out.code = 0x85 ∧ out.dst = ins.dst ∧ out.src = 2 ∧ out.off = 0 ∧ IsI32 out.imm id) :
      ExternForm e symbolIndex ins out none
  /-- call of a weak kernel function that was not found: call of helper 2002000000 + symbol index -/
  | poison (hc : ins.code = 0x85) (hr : e.isResolved = false) (hw : e.isWeak = true)
      (h : out.code = 0x85 ∧ out.dst = 0 ∧ out.src = 0 ∧ out.off = 0 ∧ IsI32 out.imm (2002000000 + symbolIndex)) :
      ExternForm e symbolIndex ins out none
  /-- variable known to kernel BTF -/
  | typed (id : Nat) (hc : ins.code = 0x18) (hid : e.btfId = some id)
      (h : out.code = 0x18 ∧ out.dst = ins.dst ∧ out.src = 3 ∧ out.off = ins.off ∧ IsI32 out.imm id) :
      ExternForm e symbolIndex ins out (some 0)
  /-- variable known by address only: low and high half of the address -/
  | address (a : Nat) (lo hi : Int) (hc : ins.code = 0x18) (hid : e.btfId = none) (ha : e.ksymAddr = some a)
      (hlo : IsI32 lo (a % 2 ^ 32)) (hhi : IsI32 hi (a / 2 ^ 32))
      (h : out.code = 0x18 ∧ out.dst = ins.dst ∧ out.src = 0 ∧ out.off = ins.off ∧ out.imm = lo) :
      ExternForm e symbolIndex ins out (some hi)
  /-- weak variable that was not found -/
  | null (hc : ins.code = 0x18) (hid : e.btfId = none) (ha : e.ksymAddr = none) (hw : e.isWeak = true)
      (h : out.code = 0x18 ∧ out.dst = ins.dst ∧ out.src = 0 ∧ out.off = ins.off ∧ out.imm = 0) :
      ExternForm e symbolIndex ins out (some 0)

/-- What instruction `i` must be after extern relocation. -/
inductive ExternResult (externs : Name → Option Extern) (syms : Nat → Option Sym) (so : Nat)
    (rels : List Rel) (orig : List Insn) (i : Nat) (ins out : Insn) : Prop
  | reference (rel e n) (hr : rel ∈ rels) (ha : At so rel i) (he : AgainstExtern externs syms rel e)
      (h : ExternForm e rel.symbolIndex ins out n)
  | second (rel e j prev out1) (n : Int) (hr : rel ∈ rels) (hj : i = j + 1) (ha : At so rel j)
      (hp : orig[j]? = some prev) (he : AgainstExtern externs syms rel e)
      (h : ExternForm e rel.symbolIndex prev out1 (some n)) (hout : out = { ins with imm := n })
  | same (hno : ∀ rel ∈ rels, At so rel i → ∀ e, ¬ AgainstExtern externs syms rel e)
      (hno' : ∀ rel ∈ rels, ∀ j prev, i = j + 1 → At so rel j → orig[j]? = some prev →
        ∀ e, AgainstExtern externs syms rel e → prev.code = 0x85)
      (h : out = ins)

/-- Extern `e` cannot be used by `ins`: it is strong and was not found. -/
def Missing (e : Extern) (ins : Insn) : Prop :=
  e.isWeak = false ∧
  ((ins.code = 0x85 ∧ e.isResolved = false) ∨ (ins.code = 0x18 ∧ e.btfId = none ∧ e.ksymAddr = none))

end Verif.Reloc.Spec
