import Verif.Linker.Model
/-!
# Vocabulary for C06-C09: which function an instruction names, reachability, layout of the result
-/
namespace Verif.Linker.Spec
open Verif.Bpf Verif.Linker

/-- There is a relocation to a function symbol or to a text section at instruction `i` of `f`. -/
def TextReloc (o : Obj) (f : Func) (i : Nat) (rel : Rel) (sym : Sym) : Prop :=
  o.relocs f.sectionIndex (f.sectionOffset + 8 * i) = some rel ∧ o.syms rel.symbolIndex = some sym ∧
  ¬ sym.isExtern ∧ (sym.kind = .text ∨ ∃ s, sym.sectionIndex = some s ∧ o.textSections s)

/-- `Names o f i ins key`: in the object file, instruction `i` of `f`, which is `ins`, refers to the
function at (section, address) `key`. ELF/BPF rules: a relocation against a function symbol names
that symbol's address; against a section symbol, a 32-bit (call) relocation names the section start
plus `imm + 1` instructions and a 64-bit one the section start plus `imm` bytes; a call without
relocation is relative to the next instruction. Addresses are 64-bit. -/
inductive Names (o : Obj) (f : Func) (i : Nat) (ins : Insn) : Nat × Nat → Prop
  | function (rel sym s) (h : TextReloc o f i rel sym) (hk : sym.kind = .text)
      (hs : sym.sectionIndex = some s) : Names o f i ins (s, sym.address)
  | sectionCall (rel sym s) (a : Nat) (h : TextReloc o f i rel sym)
      (hk : sym.kind = .section) (hs : sym.sectionIndex = some s) (hsz : rel.size = 32)
      (ha : a < 2 ^ 64)
      (hv : (a : Int) = (sym.address + 8 * (ins.imm + 1)) % 2 ^ 64) : Names o f i ins (s, a)
  | sectionRef (rel sym s) (a : Nat) (h : TextReloc o f i rel sym)
      (hk : sym.kind = .section) (hs : sym.sectionIndex = some s) (hsz : rel.size = 64)
      (ha : a < 2 ^ 64)
      (hv : (a : Int) = (sym.address + ins.imm) % 2 ^ 64) : Names o f i ins (s, a)
  | relative (a : Nat) (h : ∀ rel sym, ¬ TextReloc o f i rel sym)
      (hc : ins.isCall = true) (ha : a < 2 ^ 64)
      (hv : (a : Int) = (f.sectionOffset + 8 * i + 8 * (ins.imm + 1)) % 2 ^ 64) :
      Names o f i ins (f.sectionIndex, a)

/-- Function `f` refers to function `g`. -/
def Calls (o : Obj) (f g : Func) : Prop :=
  ∃ i ins key, f.insns[i]? = some ins ∧ Names o f i ins key ∧ o.get key = some g

/-- `g` is reachable from `f` by one or more references. -/
inductive Reaches (o : Obj) : Func → Func → Prop
  | one (f g) (h : Calls o f g) : Reaches o f g
  | more (f g h') (h1 : Reaches o f g) (h2 : Calls o g h') : Reaches o f h'

/-- The functions laid out one after the other from instruction `base` on, with their starts. -/
def layout : Nat → List Func → List (Func × Nat)
  | _, [] => []
  | base, f :: fs => (f, base) :: layout (base + f.insns.length) fs

/-- No two functions reachable from `f` have the same address. The addresses are section relative, so
this is a real restriction as soon as there are two text sections. -/
def AddressesDistinct (o : Obj) (f : Func) : Prop :=
  ∀ g1 g2, Reaches o f g1 → Reaches o f g2 → g1.address = g2.address → g1 = g2

/-- `out` (at index `n` of the linked program) is the right rendering of instruction `i` of `f`, given
where the copies of functions are (`copies`): unchanged if it names no function; otherwise its target
`n + 1 + imm` is the start of the copy of the function it names, a reference that is not a call is
marked as function pointer (source register 4), and nothing else differs. -/
def Rendered (o : Obj) (copies : List (Func × Nat)) (f : Func) (i n : Nat) (ins out : Insn) : Prop :=
  ((∀ key, ¬ Names o f i ins key) ∧ out = ins) ∨
  ∃ key g t, Names o f i ins key ∧ o.get key = some g ∧ (g, t) ∈ copies ∧
    (n : Int) + 1 + out.imm = t ∧
    out.src = (if ins.isCall then ins.src else 4) ∧
    out.code = ins.code ∧ out.dst = ins.dst ∧ out.off = ins.off

/-- `f'` is `f` followed by one copy of each function in `fs`, which are exactly the functions reachable
from `f`, with every reference redirected to the copy of the function it names. -/
structure LinkedAs (o : Obj) (f : Func) (fs : List Func) (f' : Func) : Prop where
  reachable : ∀ g, g ∈ fs ↔ Reaches o f g
  once : fs.Nodup
  size : f'.insns.length = f.insns.length + (fs.map (fun g => g.insns.length)).sum
  code : ∀ g s, (g, s) ∈ layout 0 (f :: fs) → ∀ i ins, g.insns[i]? = some ins →
    ∃ out, f'.insns[s + i]? = some out ∧
      Rendered o (layout f.insns.length fs) g i (s + i) ins out

/-- The line info of `.text` function `g` is as compilers emit it: section relative, in increasing
order, inside the function, with a record for its first instruction. -/
structure LinesWellFormed (g : Func) : Prop where
  entry : ∀ l ∈ g.lineInfo.head?, l.insnOff = g.sectionOffset / 8
  inside : ∀ l ∈ g.lineInfo, g.sectionOffset / 8 ≤ l.insnOff ∧
    l.insnOff < g.sectionOffset / 8 + g.insns.length

end Verif.Linker.Spec
