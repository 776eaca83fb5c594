/-!
# Model of the eBPF side: reading strings and packets

`ebpf/aya-ebpf/src/helpers.rs` (string helpers), `ebpf/aya-ebpf/src/lib.rs:153-178` (`check_bounds_signed`) and
`ebpf/aya-ebpf/src/programs/sk_buff.rs` (`load`, `load_bytes`, `store`).

Kernel helpers are parameters: they get the buffer they may write and return the status and the buffer. `usize` and `c_long` have 64 bits on
the eBPF target.
-/
namespace Verif.Ebpf.Read

abbrev Buf := List UInt8

/-- `n as u32`. -/
def u32 (n : Nat) : Nat := n % 2 ^ 32

/-- The instructions of `check_bounds_signed`, lib.rs:162-164. -/
inductive Ins where
  | jslt (off : Nat) | jsgt (off : Nat) | one
  deriving DecidableEq, Repr

/-- The assembly of lib.rs:162-164. -/
def boundsCode : List Ins := [.jslt 2, .jsgt 1, .one]

/-- Running the instructions: a taken branch skips as many instructions as it says. The register `i` comes and goes as `r`. -/
def exec (value lower upper : Int) : Nat → List Ins → Nat → Nat
  | 0, _, r => r
  | _, [], r => r
  | fuel + 1, .jslt off :: rest, r => exec value lower upper fuel (if value < lower then rest.drop off else rest) r
  | fuel + 1, .jsgt off :: rest, r => exec value lower upper fuel (if value > upper then rest.drop off else rest) r
  | fuel + 1, .one :: rest, _ => exec value lower upper fuel rest 1

/-- `check_bounds_signed`, lib.rs:153-171. -/
def checkBoundsSigned (value lower upper : Int) : Bool := exec value lower upper boundsCode.length boundsCode 0 == 1

/-- `read_str_bytes`, helpers.rs:415-430. `dest.get(..len)` is `None` beyond the end. -/
def readStrBytes (len : Int) (dest : Buf) : Except Int Buf :=
  if !checkBoundsSigned len 0 dest.length then .error (-1)
  else if len < 0 then .error (-1)
  else
    let n := len.toNat - 1
    if n ≤ dest.length then .ok (dest.take n) else .error (-1)

/-- `bpf_probe_read_user_str_bytes`, helpers.rs:407-413, and `bpf_probe_read_kernel_str_bytes`, helpers.rs:553-567: the helper is called with the
buffer and its length. The result and the buffer. -/
def strBytes (helper : Buf → Nat → Int × Buf) (dest : Buf) : Except Int Buf × Buf :=
  let r := helper dest (u32 dest.length)
  (readStrBytes r.1 r.2, r.2)

/-- `bpf_probe_read_str`, helpers.rs:281-288, `bpf_probe_read_user_str`, 316-323, and `bpf_probe_read_kernel_str`, 458-469 (deprecated). -/
def str (helper : Buf → Nat → Int × Buf) (dest : Buf) : Except Int Nat × Buf :=
  let r := helper dest (u32 dest.length)
  (if r.1 < 0 then .error (-1) else .ok (min r.1.toNat dest.length), r.2)

/-- `SkBuff::load`, sk_buff.rs:69-84, for a type of `size` bytes: the bytes of the value. The helper gets the offset and the buffer. -/
def load (helper : Nat → Buf → Nat → Int × Buf) (offset size : Nat) (uninit : Buf) : Except Int Buf :=
  let r := helper (u32 offset) uninit (u32 size)
  if r.1 = 0 then .ok r.2 else .error r.1

/-- `SkBuff::load_bytes`, sk_buff.rs:96-110. `len` is the field `len` of the context. The helper writes the first `len_u32` bytes of `dst`. -/
def loadBytes (helper : Nat → Buf → Nat → Int × Buf) (len offset : Nat) (dst : Buf) : Except Int Nat × Buf :=
  if len < offset then (.error (-1), dst)
  else
    let n := min (len - offset) dst.length
    if n ≥ 2 ^ 32 then (.error (-1), dst)
    else
      let r := helper (u32 offset) (dst.take n) n
      (if r.1 = 0 then .ok n else .error r.1, r.2 ++ dst.drop n)

/-- `SkBuff::store`, sk_buff.rs:113-124: the helper gets the offset, the bytes, their number and the flags and changes the packet. -/
def store (helper : Buf → Nat → Buf → Nat → Nat → Int × Buf) (pkt : Buf) (offset : Nat) (v : Buf) (flags : Nat) : Except Int Unit × Buf :=
  let r := helper pkt (u32 offset) v (u32 v.length) flags
  (if r.1 = 0 then .ok () else .error r.1, r.2)

end Verif.Ebpf.Read
