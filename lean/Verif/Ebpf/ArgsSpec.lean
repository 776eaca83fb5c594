import Verif.Ebpf.ArgsModel
/-!
# Vocabulary for C79: calling conventions and the kernel's register frame

What the kernel hands to a probe is its `struct pt_regs`: the registers at the probed instruction, one machine word each, in the order of
arch/*/include/asm/ptrace.h. Which registers carry the arguments is fixed by the C calling convention of the architecture.
-/
namespace Verif.Ebpf.Args.Spec
open Verif.Ebpf.Args

private def numbered (p : String) (a b : Nat) : List String := (List.range (b - a)).map (fun i => p ++ toString (a + i))

/-- Bytes of a machine word of the kernel. -/
def wordSize : Arch → Nat
  | .arm | .mips => 4
  | _ => 8

/-- The words of the kernel's `struct pt_regs`, in order, up to the general registers. -/
def frame : Arch → List String
  | .aarch64 => numbered "x" 0 31 ++ ["sp", "pc", "pstate"]
  | .arm => numbered "r" 0 16 ++ ["cpsr", "orig_r0"]
  | .loongarch64 => ["zero", "ra", "tp", "sp"] ++ numbered "a" 0 8 ++ numbered "t" 0 9 ++ ["r21", "fp"] ++ numbered "s" 0 9
  | .mips => numbered "pad" 0 8 ++ ["zero", "at"] ++ numbered "v" 0 2 ++ numbered "a" 0 4 ++ numbered "t" 0 8 ++ numbered "s" 0 8
  | .mips64 => ["zero", "at"] ++ numbered "v" 0 2 ++ numbered "a" 0 8 ++ numbered "t" 0 4 ++ numbered "s" 0 8
  | .powerpc64 => numbered "r" 0 32 ++ ["nip", "msr"]
  | .riscv64 => ["epc", "ra", "sp", "gp", "tp"] ++ numbered "t" 0 3 ++ numbered "s" 0 2 ++ numbered "a" 0 8 ++ numbered "s" 2 12 ++
      numbered "t" 3 7
  | .s390x => ["args", "psw.mask", "psw.addr"] ++ numbered "r" 0 16
  | .x86_64 => ["r15", "r14", "r13", "r12", "bp", "bx", "r11", "r10", "r9", "r8", "ax", "cx", "dx", "si", "di", "orig_ax", "ip", "cs",
      "flags", "sp", "ss"]

/-- The registers that carry the first integer and pointer arguments of a C function. -/
def params : Arch → List String
  | .aarch64 => ["x0", "x1", "x2", "x3", "x4", "x5", "x6", "x7"]
  | .arm => ["r0", "r1", "r2", "r3"]
  | .loongarch64 => ["a0", "a1", "a2", "a3", "a4", "a5", "a6", "a7"]
  | .mips => ["a0", "a1", "a2", "a3"]
  | .mips64 => ["a0", "a1", "a2", "a3", "a4", "a5", "a6", "a7"]
  | .powerpc64 => ["r3", "r4", "r5", "r6", "r7", "r8", "r9", "r10"]
  | .riscv64 => ["a0", "a1", "a2", "a3", "a4", "a5", "a6", "a7"]
  | .s390x => ["r2", "r3", "r4", "r5", "r6"]
  | .x86_64 => ["di", "si", "dx", "cx", "r8", "r9"]

/-- The register that carries an integer or pointer result. -/
def result : Arch → String
  | .aarch64 => "x0"
  | .arm => "r0"
  | .loongarch64 => "a0"
  | .mips => "v0"
  | .mips64 => "v0"
  | .powerpc64 => "r3"
  | .riscv64 => "a0"
  | .s390x => "r2"
  | .x86_64 => "ax"

/-- Byte `k` of a word of `w` bytes holding `v`. -/
def byteOf (big : Bool) (w v k : Nat) : UInt8 :=
  UInt8.ofNat (v / 256 ^ (if big then w - 1 - k else k) % 256)

/-- The memory at the context is an array of words of `w` bytes with these values. -/
def Words (big : Bool) (w : Nat) (vals : List Nat) (mem : Nat → UInt8) : Prop :=
  ∀ (i v k : Nat), vals[i]? = some v → k < w → mem (w * i + k) = byteOf big w v k

/-- The memory at the context is the register frame of a machine whose registers hold `regs`. -/
def Frame (arch : Arch) (big : Bool) (regs : String → Nat) (mem : Nat → UInt8) : Prop :=
  Words big (wordSize arch) ((frame arch).map regs) mem

/-- `x` is a value of the type. -/
def InRange (t : Ty) (x : Int) : Prop :=
  if t.signed then -(2 ^ (t.bits - 1) : Int) ≤ x ∧ x < 2 ^ (t.bits - 1) else 0 ≤ x ∧ x < 2 ^ t.bits

/-- A register carries the value `x` of a type of at most 64 bits: its low bits are those of `x`, the others are unspecified. -/
def Carries (t : Ty) (r : Nat) (x : Int) : Prop := InRange t x ∧ ((r : Int) - x) % 2 ^ t.bits = 0

/-- The types of one register. -/
def OneWord (t : Ty) : Prop := t.bits = 8 ∨ t.bits = 16 ∨ t.bits = 32 ∨ t.bits = 64

end Verif.Ebpf.Args.Spec
