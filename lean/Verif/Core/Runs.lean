import Verif.Core.Frame
/-! # Concrete CO-RE relocations: cases meeting the hypotheses of C19, and its violations -/
namespace Verif.Core
open Verif.Btf Verif.Btf.Spec Verif.Core.Spec Verif.Bpf

/-- BTF with the given strings (each a type's or member's name, preceded by the empty one) and types. -/
def btfOf (strings : String) (types : List BtfType) : Btf :=
  let s := strings.toUTF8.toList.map (fun c => if c = 44 then 0 else c)
  { header := ⟨0xeb9f, 1, 0, 24, 0, 1000, 1000, s.length⟩, strings := s, types := .unknown :: types }

/-- `struct task { int a; unsigned pid; }`, strings: task at 1, a at 6, pid at 8, "0:1" at 12, "sec" at 16. -/
def localTask : Btf :=
  btfOf ",task,a,pid,0:1,sec," [mkInt 0 4 1 0, mkInt 0 4 0 0, mkStruct 1 [⟨6, 1, 0⟩, ⟨8, 2, 32⟩] 8]

/-- The kernel's `struct task { int a; int b; unsigned long pid; }`. -/
def kernelTask : Btf :=
  btfOf ",task,a,pid,b," [mkInt 0 4 1 0, mkInt 0 8 0 0, mkStruct 1 [⟨6, 1, 0⟩, ⟨12, 1, 32⟩, ⟨8, 2, 64⟩] 16]

/-- A kernel where `pid` is a bitfield of 12 bits: `struct task { int a; unsigned pid:12; }`. -/
def kernelBits : Btf :=
  btfOf ",task,a,pid,b," [mkInt 0 4 1 0, mkInt 0 4 0 0,
    .struct 1 (2 ^ 31 + 4 * 2 ^ 24 + 2) 8 [⟨6, 1, 0⟩, ⟨8, 2, 12 * 2 ^ 24 + 32⟩]]

/-- `r1 = *(u32 *)(r2 + 4); r3 = 4; r4 = 4 ll; exit`. -/
def prog : List Insn :=
  [⟨0x61, 1, 2, 4, 0⟩, ⟨0xb7, 3, 0, 0, 4⟩, ⟨0x18, 4, 0, 0, 4⟩, ⟨0, 0, 0, 0, 0⟩, ⟨0x95, 0, 0, 0, 0⟩]

def func : Linker.Func := ⟨0, 5, 16, prog, [], []⟩

def infos (n : List UInt8) : Option Nat := if n = "sec".toUTF8.toList then some 5 else none

def relos : List Relo :=
  [⟨.fieldByteOffset, 16, 3, 12⟩, ⟨.fieldByteOffset, 24, 3, 12⟩, ⟨.fieldByteOffset, 32, 3, 12⟩]

/-- The load gets offset 8 and becomes an 8 byte load, the immediates become 8. -/
example : relocateBtf localTask kernelTask infos [(16, relos)] [(5, func)] =
    .ok [(5, { func with insns :=
      [⟨0x79, 1, 2, 8, 0⟩, ⟨0xb7, 3, 0, 0, 8⟩, ⟨0x18, 4, 0, 0, 8⟩, ⟨0, 0, 0, 0, 0⟩, ⟨0x95, 0, 0, 0, 0⟩] })] := by
  decide +kernel

/-- Without any `struct task` in the kernel all three are poisoned. -/
example : relocateBtf localTask (btfOf "," []) infos [(16, relos)] [(5, func)] =
    .ok [(5, { func with insns := [poison, poison, poison, poison, ⟨0x95, 0, 0, 0, 0⟩] })] := by
  decide +kernel

/-- The hypotheses of `C19_only_relocated` and `C19_patch` hold for this object. -/
example : FuncsOk [(5, func)] ∧ (∀ s ∈ [(16, relos)], ∀ r ∈ s.2, r.insOff < 2 ^ 32) := by
  constructor
  · intro p hp
    simp only [List.mem_singleton] at hp
    subst hp
    exact ⟨by unfold CodesOk; decide, by decide⟩
  · decide

/-- **C19 violated**: a load of a plain member that is a bitfield in the kernel does not fail with an error, the loader
panics. -/
theorem C19_bitfield_violated :
    relocateBtf localTask kernelBits infos [(16, [⟨.fieldByteOffset, 16, 3, 12⟩])] [(5, func)] = .error .panic := by
  decide +kernel

/-- **C19 violated**: a relocation of another instruction of class LD, here a packet load `r0 = *(u32 *)skb[4]`, also
overwrites the immediate of the unrelated next instruction. -/
theorem C19_next_violated :
    relocateBtf localTask kernelTask infos [(16, [⟨.fieldByteOffset, 16, 3, 12⟩])]
      [(5, { func with insns := [⟨0x20, 0, 0, 0, 4⟩, ⟨0xb7, 3, 0, 0, 7⟩] })] =
    .ok [(5, { func with insns := [⟨0x20, 0, 0, 0, 8⟩, ⟨0xb7, 3, 0, 0, 0⟩] })] := by
  decide +kernel

/-- **C19 violated**: a value above 32 bits is cut to its low half in the immediate of an arithmetic instruction instead
of being refused, for every instruction `r = imm` and every value. -/
theorem C19_truncated_violated (lb tb : Btf) (loc : CVal) (v dst : Nat) (off imm : Int) :
    apply lb tb ⟨loc, some ⟨2 ^ 32 + v, 0, none⟩⟩ [⟨0xb7, dst, 0, off, imm⟩] 0 =
      apply lb tb ⟨loc, some ⟨v, 0, none⟩⟩ [⟨0xb7, dst, 0, off, imm⟩] 0 := by
  simp only [apply, List.getElem?_cons_zero, Nat.reduceMod, ne_eq, not_true_eq_false, if_false, List.set_cons_zero,
    Except.ok.injEq, List.cons.injEq, Insn.mk.injEq, and_true, true_and]
  unfold toI32
  simp only [Int.reducePow, Nat.reducePow]
  omega

end Verif.Core
