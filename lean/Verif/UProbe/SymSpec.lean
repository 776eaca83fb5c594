import Verif.UProbe.SymModel
/-!
# What the offset of an attach point is

Stated over object files, without the resolver.
-/
namespace Verif.UProbe.Spec
open Verif.UProbe (Obj Symbol Sect Kind Fs Location Point)

/-- A loadable segment of a program (`PT_LOAD`): `filesz` bytes from file offset `off` on are mapped at `vaddr`. -/
structure Segment where
  vaddr : Nat
  off : Nat
  filesz : Nat
deriving DecidableEq, Repr

/-- The loader maps the byte at file offset `off` at virtual address `a`. -/
def Mapped (segs : List Segment) (a off : Nat) : Prop :=
  ∃ g ∈ segs, g.vaddr ≤ a ∧ a < g.vaddr + g.filesz ∧ off = g.off + (a - g.vaddr)

/-- No address is mapped twice. -/
def Disjoint (segs : List Segment) : Prop :=
  ∀ g ∈ segs, ∀ h ∈ segs, ∀ a, g.vaddr ≤ a → a < g.vaddr + g.filesz → h.vaddr ≤ a → a < h.vaddr + h.filesz → g = h

/-- The section's bytes are in the file, and a segment maps them at the section's address. -/
def Laid (segs : List Segment) (s : Sect) : Prop :=
  s.nobits = false ∧ ∃ g ∈ segs, g.vaddr ≤ s.addr ∧ s.addr + s.size ≤ g.vaddr + g.filesz ∧
    s.off = g.off + (s.addr - g.vaddr) ∧ s.off + s.size ≤ 2 ^ 64

/-- A program or shared library. -/
def Loadable (o : Obj) : Prop := o.kind = .executable ∨ o.kind = .dynamic

/-- `sym` is the first symbol with that name, dynamic symbols first. -/
def First (o : Obj) (name : List Char) (sym : Symbol) : Prop :=
  ∃ before after, o.dynsyms ++ o.syms = before ++ sym :: after ∧ sym.name = some name ∧
    ∀ b ∈ before, b.name ≠ some name

/-- No symbol has that name. -/
def Absent (o : Obj) (name : List Char) : Prop := ∀ s ∈ o.dynsyms ++ o.syms, s.name ≠ some name

/-- The file offset that belongs to a symbol by the section it is in. -/
def At (o : Obj) (sym : Symbol) (off : Nat) : Prop :=
  (Loadable o → ∃ i s, sym.sect = some i ∧ o.sections[i]? = some s ∧ s.nobits = false ∧
    (off : Int) = ((sym.addr : Int) - s.addr + s.off) % 2 ^ 64) ∧
  (¬ Loadable o → off = sym.addr)

/-- `p` is the path of the file that `main` refers to as `f`: an absolute path as it is, any other from the directory of
`main`. -/
def RefersTo (fs : Fs) (main f p : List Char) : Prop :=
  ((∃ r, f = '/' :: r) ∧ p = f) ∨
  ((¬ ∃ r, f = '/' :: r) ∧
    (((fs.parent main = none ∨ fs.parent main = some []) ∧ p = f) ∨
     ∃ d, fs.parent main = some d ∧ d ≠ [] ∧
       ((∃ e, d = e ++ ['/']) ∧ p = d ++ f ∨ (¬ ∃ e, d = e ++ ['/']) ∧ p = d ++ ['/'] ++ f)))

/-- `dbg` is the debug file of `o`: linked to by name, readable, and not known to be of another build. -/
def DebugOf (fs : Fs) (path : List Char) (o dbg : Obj) : Prop :=
  ∃ f p, o.debuglink = some (some f) ∧ RefersTo fs path f p ∧ fs.file p = .ok dbg ∧
    ∀ a b, o.buildId = some a → dbg.buildId = some b → a = b

/-- The offset of a named function in the file at `path`, or, if it has no such symbol, in its debug file. -/
def SymbolAt (fs : Fs) (path name : List Char) (off : Nat) : Prop :=
  ∃ o, fs.file path = .ok o ∧
    ((∃ sym, First o name sym ∧ At o sym off) ∨
     (Absent o name ∧ ∃ dbg, DebugOf fs path o dbg ∧ ∃ sym, First dbg name sym ∧ At dbg sym off))

/-- The offset of a location. -/
def OffsetOf (fs : Fs) (path : List Char) (l : Location) (off : Nat) : Prop :=
  match l with
  | .symbol s => SymbolAt fs path s off
  | .symbolOffset s a => ∃ base, SymbolAt fs path s base ∧ off = (base + a) % 2 ^ 64
  | .absolute n => off = n

/-- The lists have the same length and their elements are related in order. -/
inductive Each {α β : Type} (R : α → β → Prop) : List α → List β → Prop where
  | nil : Each R [] []
  | cons {a : α} {b : β} {as : List α} {bs : List β} : R a b → Each R as bs → Each R (a :: as) (b :: bs)

/-- The cookies of points: none if no point has one, otherwise one for each, zero for those without. -/
def cookiesOf (ps : List Point) : Option (List Nat) :=
  if ps.any (fun p => p.cookie.isSome) then some (ps.map (fun p => p.cookie.getD 0)) else none

end Verif.UProbe.Spec
