import Verif.Common.Except
/-! BPF instructions (`bpf_insn`, aya-obj/src/generated). -/
namespace Verif.Bpf

/-- `struct bpf_insn { code: u8, dst_reg:4, src_reg:4, off: i16, imm: i32 }`. -/
structure Insn where
  code : Nat
  dst : Nat
  src : Nat
  off : Int
  imm : Int
  deriving DecidableEq, Repr, Inhabited

/-- The bounds of the Rust fields. -/
def Insn.WF (i : Insn) : Prop :=
  i.code < 256 ∧ i.dst < 16 ∧ i.src < 16 ∧
  -(2 ^ 15) ≤ i.off ∧ i.off < 2 ^ 15 ∧ -(2 ^ 31) ≤ i.imm ∧ i.imm < 2 ^ 31

instance (i : Insn) : Decidable i.WF := by unfold Insn.WF; infer_instance

/-- `INS_SIZE`, aya-obj/src/relocation.rs. -/
def insSize : Nat := 8

/-- `insn_is_call`, aya-obj/src/relocation.rs:668-679 (BPF_JMP = 5, BPF_CALL = 0x80, BPF_K = 0,
BPF_PSEUDO_CALL = 1). -/
def Insn.isCall (ins : Insn) : Bool :=
  (ins.code &&& 0x07) == 5 && (ins.code &&& 0xF0) == 0x80 && (ins.code &&& 0x08) == 0 &&
  ins.src == 1 && ins.dst == 0 && ins.off == 0

/-- `x as i32` for an integer of any width. -/
def toI32 (x : Int) : Int := (x + 2 ^ 31) % 2 ^ 32 - 2 ^ 31

end Verif.Bpf
