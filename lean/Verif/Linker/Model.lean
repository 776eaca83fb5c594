import Verif.Common.Insn
/-!
# Model of the function linker, `aya-obj/src/relocation.rs` 200-234, 461-666

`u64` arithmetic on addresses wraps (release build). Instruction indexes and `imm + 1` are taken as
unbounded integers: programs longer than 2^31 instructions and a call with `imm = i32::MAX` are not
modelled. Recursion is by fuel; `C07_terminates` shows the fuel used by `link` always suffices.
-/
namespace Verif.Linker
open Verif.Bpf

/-- `object::SymbolKind`, as far as the linker distinguishes kinds. -/
inductive SymKind where
  | text | section | unknown | other
  deriving DecidableEq, Repr

/-- `Symbol`, aya-obj/src/relocation.rs:110-120 (fields used by the linker). -/
structure Sym where
  sectionIndex : Option Nat
  hasName : Bool
  address : Nat
  isDefinition : Bool
  kind : SymKind
  deriving DecidableEq, Repr

/-- `Symbol::is_extern`, aya-obj/src/relocation.rs:124-129. -/
def Sym.isExtern (s : Sym) : Bool :=
  s.sectionIndex.isNone && s.hasName && !s.isDefinition && s.kind == .unknown

/-- `Relocation`, aya-obj/src/relocation.rs:101-108; the offset is the key it is stored under. -/
structure Rel where
  size : Nat
  symbolIndex : Nat
  deriving DecidableEq, Repr

/-- A func-info record (aya-obj/src/btf/info.rs, `bpf_func_info`). -/
structure FuncInfo where
  insnOff : Nat
  typeId : Nat
  deriving DecidableEq, Repr

/-- A line-info record (`bpf_line_info`). -/
structure LineInfo where
  insnOff : Nat
  fileNameOff : Nat
  lineOff : Nat
  lineCol : Nat
  deriving DecidableEq, Repr

/-- `Function`, aya-obj/src/obj.rs (fields used by the linker). -/
structure Func where
  address : Nat
  sectionIndex : Nat
  sectionOffset : Nat
  insns : List Insn
  funcInfo : List FuncInfo
  lineInfo : List LineInfo
  deriving DecidableEq, Repr

/-- What the linker borrows from the `Object`: the functions by (section, address), the relocations
by section and offset, the symbols, the text sections. -/
structure Obj where
  funcs : List ((Nat × Nat) × Func)
  relocs : Nat → Nat → Option Rel
  syms : Nat → Option Sym
  textSections : Nat → Bool

/-- `self.functions.get(&key)`. -/
def Obj.get (o : Obj) (key : Nat × Nat) : Option Func :=
  (o.funcs.find? (fun p => p.1 == key)).map Prod.snd

inductive Err where
  | unknownFunction
  | unknownProgram
  /-- `todo!()`, line 581 -/
  | todoPanic
  /-- `unwrap()` on a symbol without section, line 583 -/
  | unwrapPanic
  | fuel
  | oob
  deriving DecidableEq, Repr

/-- The relocation that applies to instruction `i` of `f`, aya-obj/src/relocation.rs:544-566. -/
def textRel (o : Obj) (f : Func) (i : Nat) : Option (Rel × Sym) :=
  match o.relocs f.sectionIndex (f.sectionOffset + i * insSize) with
  | none => none
  | some rel =>
    match o.syms rel.symbolIndex with
    | none => none
    | some sym =>
      if sym.isExtern then none
      else if sym.kind = .text ∨ (sym.sectionIndex.any o.textSections) then some (rel, sym)
      else none

def wrap64 (x : Int) : Nat := (x % 2 ^ 64).toNat

/-- The callee of instruction `i` of `f` (`ins`), aya-obj/src/relocation.rs:541-595: `none` when the
instruction is neither a call nor a reference to a function. -/
def resolve (o : Obj) (f : Func) (i : Nat) (ins : Insn) : Except Err (Option (Nat × Nat)) :=
  match textRel o f i with
  | some (rel, sym) =>
    let address : Option Nat :=
      match sym.kind with
      | .text => some sym.address
      | .section =>
        if rel.size = 32 then some (wrap64 (sym.address + (ins.imm + 1) * insSize))
        else if rel.size = 64 then some (wrap64 (sym.address + ins.imm))
        else none
      | _ => none
    match address with
    | none => .error .todoPanic
    | some a =>
      match sym.sectionIndex with
      | none => .error .unwrapPanic
      | some s => .ok (some (s, a))
  | none =>
    if ins.isCall then
      .ok (some (f.sectionIndex, wrap64 (f.sectionOffset + i * insSize + (ins.imm + 1) * insSize)))
    else .ok none

/-- The program being linked and `linked_functions` (address to instruction index). -/
structure St where
  insns : List Insn
  funcInfo : List FuncInfo
  lineInfo : List LineInfo
  linked : List (Nat × Nat)
  deriving DecidableEq, Repr

/-- `self.linked_functions.get(&fun.address)`. -/
def St.find (st : St) (address : Nat) : Option Nat :=
  (st.linked.find? (fun p => p.1 == address)).map Prod.snd

/-- Rebased func infos, aya-obj/src/relocation.rs:641-646. -/
def rebaseFunc (f : Func) (start : Nat) : List FuncInfo :=
  f.funcInfo.map (fun i => { i with insnOff := start })

/-- Rebased line infos, aya-obj/src/relocation.rs:650-660. The subtraction is of `u32`s; a record
before the first one wraps. -/
def rebaseLine (f : Func) (start : Nat) : List LineInfo :=
  match f.lineInfo with
  | [] => []
  | first :: _ =>
    f.lineInfo.map (fun i => { i with insnOff := wrap32 (start + ((i.insnOff : Int) - first.insnOff)) })
where wrap32 (x : Int) : Nat := (x % 2 ^ 32).toNat

/-- Append a function to the program, aya-obj/src/relocation.rs:506-518. -/
def St.append (st : St) (f : Func) : St :=
  { insns := st.insns ++ f.insns
    funcInfo := st.funcInfo ++ rebaseFunc f st.insns.length
    lineInfo := st.lineInfo ++ rebaseLine f st.insns.length
    linked := (f.address, st.insns.length) :: st.linked }

/-- `link_function`, aya-obj/src/relocation.rs:496-524; `rec` is `relocate`. -/
def linkFunction (rec : St → Func → Except Err St) (st : St) (f : Func) : Except Err (St × Nat) :=
  match st.find f.address with
  | some i => .ok (st, i)
  | none =>
    match rec (st.append f) f with
    | .error e => .error e
    | .ok st' => .ok (st', st.insns.length)

/-- The patched instruction, aya-obj/src/relocation.rs:617-627 (BPF_PSEUDO_FUNC = 4). -/
def patch (ins : Insn) (isCall : Bool) (callee index : Nat) : Insn :=
  { ins with
    imm := (callee : Int) - index - 1
    src := if isCall then ins.src else 4 }

/-- One iteration of the loop of `relocate`, aya-obj/src/relocation.rs:539-628. -/
def relocInsn (o : Obj) (rec : St → Func → Except Err St) (f : Func) (start : Nat) (st : St)
    (i : Nat) : Except Err St :=
  match st.insns[start + i]? with
  | none => .error .oob
  | some ins =>
    match resolve o f i ins with
    | .error e => .error e
    | .ok none => .ok st
    | .ok (some key) =>
      match o.get key with
      | none => .error .unknownFunction
      | some callee =>
        match linkFunction rec st callee with
        | .error e => .error e
        | .ok (st', idx) =>
          .ok { st' with
            insns := st'.insns.modify (start + i) (fun cur => patch cur ins.isCall idx (start + i)) }

/-- The loop of `relocate` over the instructions from `i` on. -/
def relocLoop (o : Obj) (rec : St → Func → Except Err St) (f : Func) (start : Nat) :
    List Nat → St → Except Err St
  | [], st => .ok st
  | i :: is, st =>
    match relocInsn o rec f start st i with
    | .error e => .error e
    | .ok st => relocLoop o rec f start is st

/-- `relocate`, aya-obj/src/relocation.rs:526-638. -/
def relocate (o : Obj) : Nat → St → Func → Except Err St
  | 0, _, _ => .error .fuel
  | fuel + 1, st, f =>
    relocLoop o (relocate o fuel) f (st.insns.length - f.insns.length) (List.range f.insns.length) st

/-- `link`, aya-obj/src/relocation.rs:485-494. -/
def link (o : Obj) (f : Func) : Except Err Func :=
  match relocate o (o.funcs.length + 1) ⟨f.insns, f.funcInfo, f.lineInfo, []⟩ f with
  | .error e => .error e
  | .ok st => .ok { f with insns := st.insns, funcInfo := st.funcInfo, lineInfo := st.lineInfo }

/-- `self.functions.insert(key, func)` for a key already present. -/
def Obj.insert (o : Obj) (key : Nat × Nat) (f : Func) : Obj :=
  { o with funcs := o.funcs.map (fun p => if p.1 = key then (p.1, f) else p) }

/-- `Object::relocate_calls`, aya-obj/src/relocation.rs:200-234: the keys are those of the programs in
the order in which the hash map is iterated. -/
def relocateCalls : List (Nat × Nat) → Obj → Except Err Obj
  | [], o => .ok o
  | key :: keys, o =>
    match o.get key with
    | none => .error .unknownProgram
    | some f =>
      match link o f with
      | .error e => .error e
      | .ok f' => relocateCalls keys (o.insert key f')

/-- The func-info part of `get_func_and_line_info`, aya-obj/src/obj.rs:1437-1444, on the records of the
function's section; `offset` is in bytes. `rewrite` is set for programs, clear for `.text` functions. -/
def extractFunc (recs : List FuncInfo) (offset : Nat) (rewrite : Bool) : List FuncInfo :=
  recs.filterMap (fun r =>
    if r.insnOff = offset / insSize then some (if rewrite then { r with insnOff := 0 } else r) else none)

/-- The line-info part of `get_func_and_line_info`, aya-obj/src/obj.rs:1446-1459; `size` is the size of
the symbol in bytes. -/
def extractLine (recs : List LineInfo) (offset size : Nat) (rewrite : Bool) : List LineInfo :=
  recs.filterMap (fun r =>
    if r.insnOff < offset / insSize then none
    else if r.insnOff - offset / insSize < size / insSize then
      some (if rewrite then { r with insnOff := r.insnOff - offset / insSize } else r)
    else none)

end Verif.Linker
