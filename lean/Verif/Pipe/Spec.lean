import Verif.Pipe.Model
import Verif.Linker.Spec
import Verif.Reloc.Spec
import Verif.Obj.Spec
/-!
# What the code of a loaded program must be
-/
namespace Verif.Pipe.Spec
open Verif.Bpf Verif.Pipe
open Verif.Linker (Func)
open Verif.Linker.Spec (layout)
open Verif.Reloc (Name Sym MapRef Extern)

/-- Relocation `rel` is for instruction `i` of `f`. -/
def At (o : Object) (f : Func) (i : Nat) (rel : Rel) : Prop :=
  rel ∈ o.rels f.sectionIndex ∧ rel.offset = f.sectionOffset + 8 * i

/-- The symbol is to be found in the kernel. -/
def Undefined (s : Sym) : Prop := s.sectionIndex = none ∧ s.isDefinition = false ∧ s.kind = .unknown ∧ s.name ≠ none

/-- Instruction `i` of `f` is relocated against the extern `e`. -/
def ExternRef (o : Object) (f : Func) (i : Nat) (rel : Rel) (e : Extern) : Prop :=
  At o f i rel ∧ ∃ sym name x, o.syms rel.symbolIndex = some sym ∧ Undefined sym ∧ sym.name = some name ∧
    o.externs = some x ∧ x name = some e

/-- Instruction `i` of `f`, which is `ins`, refers to the function at `key`: as the ELF rules say (`Linker.Spec.Names`),
unless it is relocated against an undefined symbol. -/
def Refers (o : Object) (f : Func) (i : Nat) (ins : Insn) (key : Nat × Nat) : Prop :=
  Linker.Spec.Names o.linker f i ins key ∧
  ∀ rel sym, At o f i rel → o.syms rel.symbolIndex = some sym → ¬ Undefined sym

/-- Instruction `i` of `f` refers to map `m`, through symbol `sym`. -/
def MapRefers (o : Object) (maps : List MapRef) (f : Func) (i : Nat) (ins : Insn) (sym : Sym) (m : MapRef) : Prop :=
  ∃ rel, At o f i rel ∧ Reloc.Spec.MapReference maps o.syms o.text rel.plain ins sym m

def Calls (o : Object) (f g : Func) : Prop :=
  ∃ i ins key, f.insns[i]? = some ins ∧ Refers o f i ins key ∧ get o.funcs key = some g

/-- `g` is reachable from `f` by one or more references. -/
inductive Reaches (o : Object) : Func → Func → Prop
  | one (f g) (h : Calls o f g) : Reaches o f g
  | more (f g h') (h1 : Reaches o f g) (h2 : Calls o g h') : Reaches o f h'

/-- What instruction `i` of `g`, `ins`, is in the loaded program, where it stands at index `n` and the functions at
`copies`. -/
inductive Final (o : Object) (maps : List MapRef) (supported : Bool) (copies : List (Func × Nat)) (g : Func) (i n : Nat)
    (ins out : Insn) : Prop
  /-- a call of, or a pointer to, a function: the copy of that function -/
  | function (key h t) (hr : Refers o g i ins key) (hg : get o.funcs key = some h) (hc : (h, t) ∈ copies)
      (himm : (n : Int) + 1 + out.imm = t) (hsrc : out.src = if ins.isCall then ins.src else 4)
      (hrest : out.code = ins.code ∧ out.dst = ins.dst ∧ out.off = ins.off)
  /-- a reference to a map: its descriptor -/
  | map (sym m) (h : MapRefers o maps g i ins sym m)
      (hout : out = { ins with imm := m.fd, src := if m.hasData then 2 else 1 })
  /-- second half of a load of a global variable: its offset -/
  | offset (j prev sym m) (hj : i = j + 1) (hp : g.insns[j]? = some prev) (h : MapRefers o maps g j prev sym m)
      (hd : m.hasData = true) (himm : Reloc.Spec.IsI32 out.imm (prev.imm + sym.address))
      (hrest : out.code = ins.code ∧ out.dst = ins.dst ∧ out.src = ins.src ∧ out.off = ins.off)
  /-- a reference to something in the kernel -/
  | extern (rel e k) (h : ExternRef o g i rel e) (hf : Reloc.Spec.ExternForm e rel.symbolIndex ins out k)
  | externSecond (rel e j prev out1) (k : Int) (hj : i = j + 1) (hp : g.insns[j]? = some prev)
      (h : ExternRef o g j rel e) (hf : Reloc.Spec.ExternForm e rel.symbolIndex prev out1 (some k))
      (hout : out = { ins with imm := k })
  /-- a call of a helper the kernel does not have: the helper it extends -/
  | helper (a b) (hs : supported = false) (hd : Obj.Spec.Downgrade a b) (hc : Obj.Spec.CallsHelper ins a)
      (hout : out = { ins with imm := b })
  /-- anything else: unchanged -/
  | same (h1 : ∀ key, ¬ Refers o g i ins key) (h2 : ∀ sym m, ¬ MapRefers o maps g i ins sym m)
      (h3 : ∀ rel e, ¬ ExternRef o g i rel e) (h4 : Obj.Spec.CallsNew ins → supported = true) (hout : out = ins)

/-- `f'` is the loaded form of `f`: its code followed by one copy of every function it reaches. -/
structure Loaded (o : Object) (maps : List MapRef) (supported : Bool) (f : Func) (fs : List Func) (f' : Func) : Prop where
  reachable : ∀ g, g ∈ fs ↔ Reaches o f g
  once : fs.Nodup
  size : f'.insns.length = f.insns.length + (fs.map (fun g => g.insns.length)).sum
  code : ∀ g s, (g, s) ∈ layout 0 (f :: fs) → ∀ (i : Nat) ins, g.insns[i]? = some ins →
    ∃ out, f'.insns[s + i]? = some out ∧ Final o maps supported (layout f.insns.length fs) g i (s + i) ins out

/-- What compilers emit and the parser keeps: at most one relocation per offset; 64-bit loads take two slots, the second
without code and relocation; data is referred to by such loads; functions are stored under their section and address. -/
structure WellFormed (o : Object) : Prop where
  offsets : ∀ s, ((o.rels s).map Rel.offset).Nodup
  keys : ∀ k f, get o.funcs k = some f → k = (f.sectionIndex, f.address)
  insns : ∀ k f, get o.funcs k = some f → ∀ ins ∈ f.insns, ins.WF
  pairs : ∀ k f, get o.funcs k = some f → ∀ (i : Nat) ins, f.insns[i]? = some ins → ins.code = 0x18 →
    ∃ next, f.insns[i + 1]? = some next ∧ next.code = 0 ∧ ∀ rel, ¬ At o f (i + 1) rel
  loads : ∀ k f, get o.funcs k = some f → ∀ (i : Nat) ins, f.insns[i]? = some ins → ∀ rel sym s, At o f i rel →
    o.syms rel.symbolIndex = some sym → sym.sectionIndex = some s → o.text s = false → ins.isCall = false →
    ins.code = 0x18
  symbols : ∀ s rel, rel ∈ o.rels s → rel.symbolIndex < 100000000

/-- Every symbol the code refers to names at most one map. -/
def Unambiguous (o : Object) (maps : List MapRef) : Prop :=
  ∀ s, Reloc.Spec.Unambiguous maps o.syms ((o.rels s).map Rel.plain)

/-- The kernel symbols used are in the table of externs. Without BTF there is no such table. -/
def ExternsKnown (o : Object) : Prop :=
  ∀ s rel sym, rel ∈ o.rels s → o.syms rel.symbolIndex = some sym → Undefined sym →
    ∃ x name e, o.externs = some x ∧ sym.name = some name ∧ x name = some e

/-- No function refers to a program, and the functions a program reaches have distinct addresses. -/
structure Separate (o : Object) : Prop where
  programs : ∀ k g, get o.funcs k = some g → ∀ (i : Nat) ins key, g.insns[i]? = some ins → Refers o g i ins key →
    key ∉ o.programs
  once : o.programs.Nodup
  addresses : ∀ k f, k ∈ o.programs → get o.funcs k = some f → ∀ g1 g2, Reaches o f g1 → Reaches o f g2 →
    g1.address = g2.address → g1 = g2

end Verif.Pipe.Spec
