import Verif.Common.Insn
/-!
# Model of map and extern relocation, `aya-obj/src/relocation.rs` 134-197, 237-459

`i32` additions wrap (release build); offsets are `usize` and taken as unbounded naturals. The tables
are hash maps in the code; here the relocations of a section are a list in the order in which the hash
map is iterated, the symbol and extern tables are functions.
-/
namespace Verif.Reloc
open Verif.Bpf

/-- Symbol names, as lists of characters. -/
abbrev Name := List Char

/-- `object::SymbolKind`, as far as it is distinguished. -/
inductive SymKind where
  | text | section | unknown | other
  deriving DecidableEq, Repr

/-- `Symbol`, aya-obj/src/relocation.rs:110-120. -/
structure Sym where
  sectionIndex : Option Nat
  name : Option Name
  address : Nat
  isDefinition : Bool
  kind : SymKind
  deriving DecidableEq, Repr

/-- `Symbol::is_extern`, aya-obj/src/relocation.rs:124-129. -/
def Sym.isExtern (s : Sym) : Bool :=
  s.sectionIndex.isNone && s.name.isSome && !s.isDefinition && s.kind == .unknown

/-- `Relocation`, aya-obj/src/relocation.rs:101-108 (the size is not used here). -/
structure Rel where
  offset : Nat
  symbolIndex : Nat
  deriving DecidableEq, Repr

/-- What `relocate_maps` is told about a map: descriptor, section, symbol, and whether it has initial
data (global data sections do). -/
structure MapRef where
  fd : Int
  sectionIndex : Nat
  symbolIndex : Option Nat
  hasData : Bool
  deriving DecidableEq, Repr

inductive Err where
  | invalidOffset | unknownSymbol | sectionNotFound | externNotFound | unresolvable
  /-- slice index out of bounds, lines 452 -/
  | panicIndex
  /-- `expect("resolved extern must have kernel_btf_id")`, line 290 -/
  | panicNoBtfId
  deriving DecidableEq, Repr

/-- `maps_by_section.get(&s)` after inserting the maps in order (later ones win),
aya-obj/src/relocation.rs:140-147. -/
def bySection (maps : List MapRef) (s : Nat) : Option MapRef :=
  maps.reverse.find? (fun m => m.sectionIndex == s)

/-- `maps_by_symbol.get(&i)`, aya-obj/src/relocation.rs:140-147. -/
def bySymbol (maps : List MapRef) (i : Nat) : Option MapRef :=
  maps.reverse.find? (fun m => m.symbolIndex == some i)

/-- The end of an iteration of `relocate_maps`, aya-obj/src/relocation.rs:448-454. -/
def writeMap (insns : List Insn) (idx : Nat) (ins : Insn) (m : MapRef) (sym : Sym) : Except Err (List Insn) :=
  if m.hasData then
    match insns[idx + 1]? with
    | none => .error .panicIndex
    | some next =>
      .ok ((insns.set idx { ins with src := 2, imm := m.fd }).set (idx + 1)
        { next with imm := toI32 (ins.imm + toI32 sym.address) })
  else .ok (insns.set idx { ins with src := 1, imm := m.fd })

/-- One iteration of `relocate_maps`, aya-obj/src/relocation.rs:379-455. -/
def mapStep (maps : List MapRef) (syms : Nat → Option Sym) (textSections : Nat → Bool) (sectionOffset : Nat)
    (insns : List Insn) (rel : Rel) : Except Err (List Insn) :=
  if rel.offset < sectionOffset ∨ sectionOffset + insns.length * insSize ≤ rel.offset then .ok insns
  else if (rel.offset - sectionOffset) % insSize ≠ 0 then .error .invalidOffset
  else
    match syms rel.symbolIndex with
    | none => .error .unknownSymbol
    | some sym =>
      match sym.sectionIndex with
      | none => .ok insns
      | some s =>
        match insns[(rel.offset - sectionOffset) / insSize]? with
        | none => .error .panicIndex
        | some ins =>
          if ins.isCall || textSections s then .ok insns
          else
            match bySymbol maps rel.symbolIndex with
            | some m => writeMap insns ((rel.offset - sectionOffset) / insSize) ins m sym
            | none =>
              match bySection maps s with
              | some m => writeMap insns ((rel.offset - sectionOffset) / insSize) ins m sym
              | none => .error .sectionNotFound

/-- The loop of `relocate_maps` over the relocations of the function's section. -/
def relocateMaps (maps : List MapRef) (syms : Nat → Option Sym) (textSections : Nat → Bool)
    (sectionOffset : Nat) : List Rel → List Insn → Except Err (List Insn)
  | [], insns => .ok insns
  | rel :: rels, insns =>
    match mapStep maps syms textSections sectionOffset insns rel with
    | .error e => .error e
    | .ok insns => relocateMaps maps syms textSections sectionOffset rels insns

/-- `ExternDesc`, aya-obj/src/extern_types.rs:367-416 (fields used here). -/
structure Extern where
  isResolved : Bool
  isWeak : Bool
  btfId : Option Nat
  ksymAddr : Option Nat
  deriving DecidableEq, Repr

/-- `poison_kfunc_call`, aya-obj/src/relocation.rs:357-365. -/
def poisonCall (extIdx : Nat) : Insn :=
  { code := 0x85, dst := 0, src := 0, off := 0, imm := toI32 (2002000000 + toI32 extIdx) }

/-- The new first instruction and the immediate of the second one, aya-obj/src/relocation.rs:277-337. -/
def externPatch (e : Extern) (symbolIndex : Nat) (ins : Insn) : Except Err (Insn × Option Int) :=
  if ins.code = 0x85 then
    if e.isResolved then
      match e.btfId with
      | none => .error .panicNoBtfId
      | some id => .ok ({ ins with src := 2, imm := toI32 id, off := 0 }, none)
    else if e.isWeak then .ok (poisonCall symbolIndex, none)
    else .error .unresolvable
  else if ins.code ≠ 0x18 then .error .invalidOffset
  else
    match e.btfId, e.ksymAddr with
    | some id, _ => .ok ({ ins with src := 3, imm := toI32 id }, some 0)
    | none, some addr => .ok ({ ins with src := 0, imm := toI32 (addr % 2 ^ 32) }, some (toI32 (addr / 2 ^ 32)))
    | none, none => if e.isWeak then .ok ({ ins with src := 0, imm := 0 }, some 0) else .error .unresolvable

/-- One iteration of `patch_extern_relocations`, aya-obj/src/relocation.rs:247-350. -/
def externStep (externs : Name → Option Extern) (syms : Nat → Option Sym) (sectionOffset : Nat)
    (insns : List Insn) (rel : Rel) : Except Err (List Insn) :=
  if rel.offset < sectionOffset ∨ sectionOffset + insns.length * insSize ≤ rel.offset then .ok insns
  else if (rel.offset - sectionOffset) % insSize ≠ 0 then .error .invalidOffset
  else
    match syms rel.symbolIndex with
    | none => .error .unknownSymbol
    | some sym =>
      if sym.isExtern = false then .ok insns
      else
        match sym.name with
        | none => .error .externNotFound
        | some name =>
          match externs name with
          | none => .error .externNotFound
          | some e =>
            match insns[(rel.offset - sectionOffset) / insSize]? with
            | none => .error .panicIndex
            | some ins =>
              match externPatch e rel.symbolIndex ins with
              | .error e => .error e
              | .ok (ins', none) => .ok (insns.set ((rel.offset - sectionOffset) / insSize) ins')
              | .ok (ins', some imm) =>
                match insns[(rel.offset - sectionOffset) / insSize + 1]? with
                | none => .error .invalidOffset
                | some next =>
                  .ok ((insns.set ((rel.offset - sectionOffset) / insSize) ins').set
                    ((rel.offset - sectionOffset) / insSize + 1) { next with imm := imm })

/-- The loop of `patch_extern_relocations`. -/
def relocateExterns (externs : Name → Option Extern) (syms : Nat → Option Sym) (sectionOffset : Nat) :
    List Rel → List Insn → Except Err (List Insn)
  | [], insns => .ok insns
  | rel :: rels, insns =>
    match externStep externs syms sectionOffset insns rel with
    | .error e => .error e
    | .ok insns => relocateExterns externs syms sectionOffset rels insns

end Verif.Reloc
