import Verif.Common.Bytes
import Verif.Common.Except

/-!
# The helper wrappers of eBPF programs

Model of `/repo/ebpf/aya-ebpf/src/helpers.rs`: reading and writing memory of other address spaces
(`bpf_probe_read`, `bpf_probe_read_buf` and their user and kernel variants, 88-248, and
`bpf_probe_write_user`, 592-596), `bpf_get_current_comm` (617-623), `bpf_printk!` (713-826) and
`bpf_strncmp` (838-846). What a helper of the kernel does is a parameter: the functions of
`/repo/ebpf/aya-ebpf-bindings/src/x86_64/helpers.rs` jump to the helper with a given number. A value of a
type `T` is the list of its bytes. Text is a list of characters, one for each byte.
-/
namespace Verif.Helpers

abbrev Bytes := List UInt8

/-! ## Memory -/

/-- A helper that copies memory into the program: its number, the number of bytes asked for and the address;
it gives its return value and what it left in the buffer.
`/repo/ebpf/aya-ebpf-bindings/src/x86_64/helpers.rs:36-47, 1156-1179`. -/
abbrev ReadHelper := Nat → BitVec 32 → BitVec 64 → Int × Bytes

/-- `ret as i32`, ret a `c_long` of 64 bits. -/
def asI32 (ret : Int) : Int := (BitVec.ofInt 32 ret).toInt

/-- `bpf_probe_read::<T>`, helpers.rs:88-98. `size` is `size_of::<T>()`. -/
def probeRead (call : ReadHelper) (size : Nat) (src : BitVec 64) : Except Int Bytes :=
  let r := call 4 (BitVec.ofNat 32 size) src
  if r.1 ≥ 0 then .ok r.2 else .error (asI32 r.1)

/-- `bpf_probe_read_user::<T>`, helpers.rs:150-160. -/
def probeReadUser (call : ReadHelper) (size : Nat) (src : BitVec 64) : Except Int Bytes :=
  let r := call 112 (BitVec.ofNat 32 size) src
  if r.1 = 0 then .ok r.2 else .error (asI32 r.1)

/-- `bpf_probe_read_kernel::<T>`, helpers.rs:211-221. -/
def probeReadKernel (call : ReadHelper) (size : Nat) (src : BitVec 64) : Except Int Bytes :=
  let r := call 113 (BitVec.ofNat 32 size) src
  if r.1 = 0 then .ok r.2 else .error (asI32 r.1)

/-- `bpf_probe_read_buf`, helpers.rs:122-126: the result and what is in `dst` afterwards. -/
def probeReadBuf (call : ReadHelper) (src : BitVec 64) (dst : Bytes) : Except Int Unit × Bytes :=
  let r := call 4 (BitVec.ofNat 32 dst.length) src
  (if r.1 = 0 then .ok () else .error (asI32 r.1), r.2)

/-- `bpf_probe_read_user_buf`, helpers.rs:182-187. -/
def probeReadUserBuf (call : ReadHelper) (src : BitVec 64) (dst : Bytes) : Except Int Unit × Bytes :=
  let r := call 112 (BitVec.ofNat 32 dst.length) src
  (if r.1 = 0 then .ok () else .error (asI32 r.1), r.2)

/-- `bpf_probe_read_kernel_buf`, helpers.rs:243-248. -/
def probeReadKernelBuf (call : ReadHelper) (src : BitVec 64) (dst : Bytes) : Except Int Unit × Bytes :=
  let r := call 113 (BitVec.ofNat 32 dst.length) src
  (if r.1 = 0 then .ok () else .error (asI32 r.1), r.2)

/-- A helper that writes memory of a process: its number, the address, the bytes at the source pointer and
how many of them; it gives its return value and the memory afterwards.
`/repo/ebpf/aya-ebpf-bindings/src/x86_64/helpers.rs:332-343`. -/
abbrev WriteHelper (M : Type) := Nat → BitVec 64 → Bytes → BitVec 32 → M → Int × M

/-- `bpf_probe_write_user::<T>`, helpers.rs:592-596. `value` is what `src` points to. -/
def probeWriteUser {M : Type} (call : WriteHelper M) (dst : BitVec 64) (value : Bytes) (m : M) :
    Except Int Unit × M :=
  let r := call 36 dst value (BitVec.ofNat 32 value.length) m
  (if r.1 = 0 then .ok () else .error (asI32 r.1), r.2)

/-! ## The name of the task -/

/-- `bpf_get_current_comm`, helpers.rs:598, 617-623. The helper is given the length of the buffer and what is in
it, and gives its return value and the buffer afterwards. -/
def getCurrentComm (call : Nat → BitVec 32 → Bytes → Int × Bytes) : Except Int Bytes :=
  let comm := List.replicate 16 (0 : UInt8)
  let r := call 16 (BitVec.ofNat 32 comm.length) comm
  if r.1 = 0 then .ok r.2 else .error (asI32 r.1)

/-! ## Messages -/

/-- The types a `PrintkArg` is made of, helpers.rs:761-789. -/
inductive Arg
  | char (c : BitVec 32)
  | u8 (x : BitVec 8)
  | u16 (x : BitVec 16)
  | u32 (x : BitVec 32)
  | u64 (x : BitVec 64)
  | usize (x : BitVec 64)
  | i8 (x : BitVec 8)
  | i16 (x : BitVec 16)
  | i32 (x : BitVec 32)
  | i64 (x : BitVec 64)
  | isize (x : BitVec 64)
  | ptr (x : BitVec 64)
deriving DecidableEq, Repr

/-- `PrintkArg::from`, helpers.rs:749-789: unsigned integers, characters and pointers become a `u64`, signed
integers an `i64` and then a `u64` with the same bits. -/
def Arg.promote : Arg → BitVec 64
  | .char c => c.setWidth 64
  | .u8 x => x.setWidth 64
  | .u16 x => x.setWidth 64
  | .u32 x => x.setWidth 64
  | .u64 x => x
  | .usize x => x
  | .i8 x => x.signExtend 64
  | .i16 x => x.signExtend 64
  | .i32 x => x.signExtend 64
  | .i64 x => x
  | .isize x => x
  | .ptr x => x

/-- The two helpers that print, `R` being what they do and return: number 6 gets its arguments in registers,
number 177 in memory, with the number of bytes. Both get the memory at the format pointer and its size.
helpers.rs:806-807 and `/repo/ebpf/aya-ebpf-bindings/src/x86_64/helpers.rs:1781-1794`. -/
structure PrintHelpers (R : Type) where
  registers : Nat → List Char → BitVec 32 → List (BitVec 64) → R
  memory : Nat → List Char → BitVec 32 → Bytes → BitVec 32 → R

/-- `bpf_printk_impl`, helpers.rs:798-826. `fmt` is the memory at `fmt_ptr`, of `FMT_LEN` bytes. -/
def printkImpl {R : Type} (K : PrintHelpers R) (fmt : List Char) (args : List (BitVec 64)) : R :=
  let fmtSize := BitVec.ofNat 32 fmt.length
  match args with
  | [] => K.registers 6 fmt fmtSize []
  | [a] => K.registers 6 fmt fmtSize [a]
  | [a, b] => K.registers 6 fmt fmtSize [a, b]
  | [a, b, c] => K.registers 6 fmt fmtSize [a, b, c]
  | _ =>
    K.memory 177 fmt fmtSize (args.flatMap (fun a => Verif.Bytes.le 8 a.toNat))
      (BitVec.ofNat 32 (args.length * 8))

/-- `bpf_printk!`, helpers.rs:713-723: the format is a `CStr`, taken with its NUL, and the arguments are
promoted. -/
def printk {R : Type} (K : PrintHelpers R) (fmt : List Char) (args : List Arg) : R :=
  printkImpl K (fmt ++ ['\x00']) (args.map Arg.promote)

/-! ## Strings -/

/-- `bpf_strncmp`, helpers.rs:838-846. `s2` is the `CStr` without its NUL; the helper is given the number of bytes
of `s1` and the memory at both pointers. -/
def strncmp (call : Nat → Bytes → BitVec 32 → Bytes → Int) (s1 s2 : Bytes) : Ordering :=
  compare (call 182 s1 (BitVec.ofNat 32 s1.length) (s2 ++ [0])) 0

end Verif.Helpers
