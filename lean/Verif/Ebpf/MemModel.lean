/-!
# Model of the eBPF side: the memory functions the compiler calls

`ebpf/aya-ebpf/src/lib.rs:94-136` (`mod intrinsics`). Memory is a function from 64-bit addresses to bytes. Address arithmetic with `ptr.add`
must not wrap in Rust, so sums are sums of natural numbers.
-/
namespace Verif.Ebpf.Mem

abbrev Memory := Nat → UInt8

/-- `*p = b`. -/
def store (m : Memory) (p : Nat) (b : UInt8) : Memory := fun a => if a = p then b else m a

/-- The body of the loops of `copy_forward` and `copy_backward`, lib.rs:126,133. -/
def copyByte (dest src : Nat) (m : Memory) (i : Nat) : Memory := store m (dest + i) (m (src + i))

/-- `copy_forward`, lib.rs:124-128. -/
def copyForward (m : Memory) (dest src n : Nat) : Memory := (List.range n).foldl (copyByte dest src) m

/-- `copy_backward`, lib.rs:131-135. -/
def copyBackward (m : Memory) (dest src n : Nat) : Memory := (List.range n).reverse.foldl (copyByte dest src) m

/-- `memset`, lib.rs:98-104. `c as u8` of a 32-bit integer. -/
def memset (m : Memory) (s : Nat) (c : Int) (n : Nat) : Memory :=
  (List.range n).foldl (fun m i => store m (s + i) (UInt8.ofNat (c % 256).toNat)) m

/-- `memcpy`, lib.rs:107-109. -/
def memcpy (m : Memory) (dest src n : Nat) : Memory := copyForward m dest src n

/-- `wrapping_sub` of 64-bit addresses, lib.rs:113. -/
def wrappingSub (a b : Nat) : Nat := (a + 2 ^ 64 - b) % 2 ^ 64

/-- `memmove`, lib.rs:112-121. -/
def memmove (m : Memory) (dest src n : Nat) : Memory :=
  if wrappingSub dest src ≥ n then copyForward m dest src n else copyBackward m dest src n

end Verif.Ebpf.Mem
