import Verif.Externs.Model
import Verif.Core.Types
import Verif.Btf.Lookup

/-!
# Kernel symbols an object asks for: vocabulary

Only the data types of the model and the vocabulary of BTF (strings, chains of typedefs, sameness of types) are used.
-/
namespace Verif.Externs.Spec
open Verif.Btf Verif.Btf.Spec Verif.Core.Spec

/-- `b'` has all types and strings of `b`, at the same places. -/
def Extends (b b' : Btf) : Prop := b.types <+: b'.types ∧ b.strings <+: b'.strings

/-- Type `d` is a section called `.ksyms` with entries `es`. -/
def IsKsyms (b : Btf) (d : Nat) (es : List SecEntry) : Prop :=
  ∃ n i s, b.types[d]? = some (.dataSec n i s es) ∧ StringAt b.strings n ".ksyms".toUTF8.toList

/-- The entry is a function (`isFunc`) or a variable called `name`, of type `ty`. -/
def Declares (b : Btf) (e : SecEntry) (name : Name) (isFunc : Bool) (ty : Nat) : Prop :=
  isFunc = true ∧ (∃ n i, b.types[e.ty]? = some (.ref .func n i ty) ∧ StringAt b.strings n name) ∨
  isFunc = false ∧ (∃ n i l, b.types[e.ty]? = some (.var n i ty l) ∧ StringAt b.strings n name)

/-- `x` describes the entry: its id; weak as the symbol of that name is; not resolved; of the type behind typedefs and
qualifiers, except for variables of type void (id 0), which have no type. -/
def Describes (b : Btf) (syms : List Sym) (e : SecEntry) (name : Name) (x : Ext) : Prop :=
  ∃ (isFunc : Bool) (ty r : Nat) (t : BtfType), Declares b e name isFunc ty ∧ Resolves b.types ty r t ∧
    (∃ s ∈ syms, s.name = some name ∧ x.isWeak = s.isWeak) ∧ x.btfId = e.ty ∧
    x.typeId = (if isFunc = false ∧ r = 0 then none else some r) ∧ x.isResolved = false ∧ x.kernelId = none

/-- Type `id` of the kernel is its first of the kind and name. -/
def First (kb : Btf) (kind : Nat) (name : Name) (id : Nat) (ty : BtfType) : Prop :=
  kb.types[id]? = some ty ∧ Match kb name kind ty ∧
    ∀ (j : Nat) (u : BtfType), j < id → kb.types[j]? = some u → ¬ Match kb name kind u

/-- `ty` is a function or variable of type `t`. -/
def TypeOf (ty : BtfType) (t : Nat) : Prop :=
  (∃ n i, ty = .ref .func n i t) ∨ ∃ n i l, ty = .var n i t l

/-- The types are the same and, before looking through typedefs and qualifiers, of one kind. -/
def Fits (lb kb : Btf) (l t : Nat) : Prop :=
  ∃ lt tt : BtfType, lb.types[l]? = some lt ∧ kb.types[t]? = some tt ∧
    (lt.kind = tt.kind ∨ lt.kind = 6 ∧ tt.kind = 19 ∨ lt.kind = 19 ∧ tt.kind = 6) ∧ SameType lb kb l t

/-- The name and the kind number to look for: functions (12) without the flavour, variables (14) by their full name. -/
def Wanted (lb : Btf) (name : Name) (x : Ext) (kind : Nat) (w : Name) : Prop :=
  (∃ n i t, lb.types[x.btfId]? = some (.ref .func n i t)) ∧ kind = 12 ∧ Base name w ∨
  (∃ n i t l, lb.types[x.btfId]? = some (.var n i t l)) ∧ kind = 14 ∧ w = name

/-- Functions and variables of the kernel have names. -/
def Named (kb : Btf) : Prop :=
  kb.header.hdrLen + kb.header.strOff + kb.header.strLen < 2 ^ 32 ∧ kb.header.strLen = kb.strings.length ∧
  ∀ t ∈ kb.types, t.kind = 12 ∨ t.kind = 14 → ∃ s, StringAt kb.strings t.name s

end Verif.Externs.Spec
