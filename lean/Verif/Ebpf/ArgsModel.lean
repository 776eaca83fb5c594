import Verif.Common.Bytes
/-!
# Model of the eBPF side: arguments and results of traced functions

`ebpf/aya-ebpf/src/args.rs`, the context types built on it (`programs/{probe,retprobe,fentry,fexit,lsm,
tp_btf,raw_tracepoint}.rs`) and the register structures of the generated bindings.

The context is the memory behind the `ctx` pointer, as bytes. A `u64` is a natural number below `2^64`.
Machine words are read in the byte order of the machine.
-/
namespace Verif.Ebpf.Args
open Verif.Bytes

/-- `bpf_target_arch`, aya-build/src/lib.rs and ebpf/aya-ebpf-bindings/src/lib.rs:33-78. -/
inductive Arch where
  | aarch64 | arm | loongarch64 | mips | mips64 | powerpc64 | riscv64 | s390x | x86_64
  deriving DecidableEq, Repr

/-- Eight bytes read as a native word: the bytes in order, most significant first on big-endian machines. -/
def word (big : Bool) (bs : List UInt8) : Nat := ofLe (if big then bs.reverse else bs)

/-- `n` bytes of memory from `a`. -/
def bytesAt (mem : Nat → UInt8) (a n : Nat) : List UInt8 := (List.range n).map (fun i => mem (a + i))

/-- The register structure used as `pt_regs` (ebpf/aya-ebpf/src/bindings.rs:1-16): its fields in declaration order with the
number of words of each. Every word is a `__u64`, `c_ulong` or `c_long`, all of eight bytes for the eBPF target
(ebpf/aya-ebpf-cty/src/lib.rs:91-94). From ebpf/aya-ebpf-bindings/src/*/bindings.rs: aarch64 2880-2885, armv7 2892-2894,
loongarch64 2880-2886, mips 2893-2901, mips64 2876-2884, powerpc64 2875-2889, riscv64 2880-2913, s390x 2901-2911 (`psw_t` is two
words), x86_64 2875-2897. -/
def fields : Arch → List (String × Nat)
  | .aarch64 => [("regs", 31), ("sp", 1), ("pc", 1), ("pstate", 1)]
  | .arm => [("uregs", 18)]
  | .loongarch64 => [("regs", 32), ("orig_a0", 1), ("csr_era", 1), ("csr_badv", 1), ("reserved", 10)]
  | .mips | .mips64 => [("regs", 32), ("lo", 1), ("hi", 1), ("cp0_epc", 1), ("cp0_badvaddr", 1), ("cp0_status", 1), ("cp0_cause", 1)]
  | .powerpc64 => [("gpr", 32), ("nip", 1), ("msr", 1), ("orig_gpr3", 1), ("ctr", 1), ("link", 1), ("xer", 1), ("ccr", 1), ("softe", 1),
      ("trap", 1), ("dar", 1), ("dsisr", 1), ("result", 1)]
  | .riscv64 => ["pc", "ra", "sp", "gp", "tp", "t0", "t1", "t2", "s0", "s1", "a0", "a1", "a2", "a3", "a4", "a5", "a6", "a7",
      "s2", "s3", "s4", "s5", "s6", "s7", "s8", "s9", "s10", "s11", "t3", "t4", "t5", "t6"].map (·, 1)
  | .s390x => [("args", 1), ("psw", 2), ("gprs", 16)]
  | .x86_64 => ["r15", "r14", "r13", "r12", "rbp", "rbx", "r11", "r10", "r9", "r8", "rax", "rcx", "rdx", "rsi", "rdi", "orig_rax",
      "rip", "cs", "eflags", "rsp", "ss"].map (·, 1)

/-- `#[repr(C)]` with words only: a field begins where the ones before it end. In words. -/
def fieldOff : List (String × Nat) → String → Nat
  | [], _ => 0
  | (n, k) :: rest, f => if n = f then 0 else k + fieldOff rest f

/-- `PtRegsLayout::arg_reg`, ebpf/aya-ebpf/src/args.rs: aarch64 66-74, arm 87-95, loongarch64 108-116, mips 129-137, powerpc64 150-158,
riscv64 171-187, s390x 199-207, x86_64 220-233. The field and the element of it. -/
def argReg : Arch → Nat → Option (String × Nat)
  | .aarch64, i => if i ≤ 7 then some ("regs", i) else none
  | .arm, i => if i ≤ 6 then some ("uregs", i) else none
  | .loongarch64, i => if i ≤ 7 then some ("regs", 4 + i) else none
  | .mips, i | .mips64, i => if i ≤ 7 then some ("regs", 4 + i) else none
  | .powerpc64, i => if i ≤ 7 then some ("gpr", 3 + i) else none
  | .riscv64, i =>
    match i with
    | 0 => some ("a0", 0) | 1 => some ("a1", 0) | 2 => some ("a2", 0) | 3 => some ("a3", 0)
    | 4 => some ("a4", 0) | 5 => some ("a5", 0) | 6 => some ("a6", 0) | 7 => some ("a7", 0)
    | _ => none
  | .s390x, i => if i ≤ 4 then some ("gprs", 2 + i) else none
  | .x86_64, i =>
    match i with
    | 0 => some ("rdi", 0) | 1 => some ("rsi", 0) | 2 => some ("rdx", 0) | 3 => some ("rcx", 0)
    | 4 => some ("r8", 0) | 5 => some ("r9", 0)
    | _ => none

/-- `PtRegsLayout::rc_reg`, args.rs: aarch64 76-80, arm 97-101, loongarch64 118-122, mips 139-143, powerpc64 160-164, riscv64 189-193,
s390x 209-213, x86_64 235-239. -/
def rcReg : Arch → String × Nat
  | .aarch64 => ("regs", 0)
  | .arm => ("uregs", 0)
  | .loongarch64 => ("regs", 4)
  | .mips | .mips64 => ("regs", 2)
  | .powerpc64 => ("gpr", 3)
  | .riscv64 => ("a0", 0)
  | .s390x => ("gprs", 2)
  | .x86_64 => ("rax", 0)

/-- Reading a register through the structure. -/
def readReg (arch : Arch) (big : Bool) (mem : Nat → UInt8) (r : String × Nat) : Nat :=
  word big (bytesAt mem (8 * (fieldOff (fields arch) r.1 + r.2)) 8)

/-- The types that implement `Argument`, args.rs:23-38: integers of 8, 16, 32, 64 and 128 bits, signed or not. `usize`, `isize` and
pointers are 64-bit on the eBPF target. -/
structure Ty where
  bits : Nat
  signed : Bool
  deriving DecidableEq, Repr

/-- `value as Self`, args.rs:16-18: a `u64` cast to the type. -/
def fromRegister (t : Ty) (v : Nat) : Int :=
  let m := v % 2 ^ t.bits
  if t.signed ∧ 2 ^ (t.bits - 1) ≤ m then (m : Int) - 2 ^ t.bits else m

/-- `arg`, args.rs:244-255, and `ProbeContext::arg` (programs/probe.rs). `(*reg) as u64` keeps the bits. -/
def arg (arch : Arch) (big : Bool) (mem : Nat → UInt8) (t : Ty) (n : Nat) : Option Int :=
  (argReg arch n).map (fun r => fromRegister t (readReg arch big mem r))

/-- `ret`, args.rs:257-267, and `RetProbeContext::ret` (programs/retprobe.rs). -/
def ret (arch : Arch) (big : Bool) (mem : Nat → UInt8) (t : Ty) : Int :=
  fromRegister t (readReg arch big mem (rcReg arch))

/-- `btf_arg`, args.rs:47-53: `arg` of `FEntryContext`, `FExitContext`, `LsmContext`, `BtfTracePointContext`. -/
def btfArg (big : Bool) (mem : Nat → UInt8) (t : Ty) (n : Nat) : Int :=
  fromRegister t (word big (bytesAt mem (8 * n) 8))

/-- `raw_tracepoint_arg`, args.rs:292-308, and `RawTracePointContext::arg`. -/
def rawTracepointArg (big : Bool) (mem : Nat → UInt8) (t : Ty) (n : Nat) : Int :=
  fromRegister t (word big (bytesAt mem (8 * n) 8))

/-- `FExitContext::ret`, programs/fexit.rs: the helper's status and the word it stored (`0` before the call). -/
def fexitRet (t : Ty) (helper : Nat × Int) : Except Int Int :=
  if helper.2 = 0 then .ok (fromRegister t helper.1) else .error helper.2

/-- `EbpfContext::{pid,tgid,uid,gid}`, ebpf/aya-ebpf/src/lib.rs:69-83: the low and high halves of the helper's result. -/
def lowHalf (v : Nat) : Nat := v % 2 ^ 32
def highHalf (v : Nat) : Nat := (v / 2 ^ 32) % 2 ^ 32

def pid (pidTgid : Nat) : Nat := lowHalf pidTgid
def tgid (pidTgid : Nat) : Nat := highHalf pidTgid
def uid (uidGid : Nat) : Nat := lowHalf uidGid
def gid (uidGid : Nat) : Nat := highHalf uidGid

end Verif.Ebpf.Args
