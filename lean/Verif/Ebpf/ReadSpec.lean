import Verif.Ebpf.ReadModel
/-!
# Vocabulary for C81: strings in memory, and the kernel's helpers

`mm/maccess.c` (`strncpy_from_user_nofault`, `strncpy_from_kernel_nofault`), `kernel/trace/bpf_trace.c` (`bpf_probe_read_{user,kernel}_str`) and
`net/core/filter.c` (`bpf_skb_load_bytes`, `bpf_skb_store_bytes`).
-/
namespace Verif.Ebpf.Read.Spec
open Verif.Ebpf.Read

/-- Memory: addresses that cannot be read have no byte. -/
abbrev Memory := Nat → Option UInt8

/-- The bytes `s` can be read at `a`. -/
def At (mem : Memory) (a : Nat) (s : Buf) : Prop := ∀ (i : Nat) (b : UInt8), s[i]? = some b → mem (a + i) = some b

/-- A string without its terminator. -/
def NoNul (s : Buf) : Prop := ∀ b ∈ s, b ≠ 0

/-- The string at `a` is `s`: its bytes and a terminator. -/
def StringAt (mem : Memory) (a : Nat) (s : Buf) : Prop := NoNul s ∧ At mem a (s ++ [0])

/-- At `a` there are `n` bytes without a terminator. -/
def LongAt (mem : Memory) (a n : Nat) (s : Buf) : Prop := s.length = n ∧ NoNul s ∧ At mem a s

/-- Reading at `a` meets an unreadable byte before a terminator and within `n` bytes. -/
def Faults (mem : Memory) (a n : Nat) : Prop :=
  ∃ k, k < n ∧ mem (a + k) = none ∧ ∀ i, i < k → ∃ b, mem (a + i) = some b ∧ b ≠ 0

/-- The string helpers of the kernel. A string shorter than the buffer is copied with its terminator, a longer one is cut; the result counts
the terminator, except that for user memory (`user`) the empty string counts as `0`. What is left in the buffer after the terminator is not
specified. An unreadable byte is an error. -/
def StrHelper (mem : Memory) (user : Bool) (src : Nat) (helper : Buf → Nat → Int × Buf) : Prop :=
  ∀ (dest : Buf) (size : Nat), size = dest.length →
    (helper dest size).2.length = dest.length ∧
    (size = 0 → (helper dest size).1 = 0) ∧
    (∀ s, StringAt mem src s → s.length < size →
      (helper dest size).1 = (if user && s.isEmpty then 0 else (s.length : Int) + 1) ∧ (helper dest size).2.take (s.length + 1) = s ++ [0]) ∧
    (∀ s, 0 < size → LongAt mem src size s →
      (helper dest size).1 = (size : Int) ∧ (helper dest size).2 = s.take (size - 1) ++ [0]) ∧
    (Faults mem src size → (helper dest size).1 < 0)

/-- `bpf_skb_load_bytes` on a packet: bytes inside the packet are copied, everything else is `-EFAULT`. -/
def skbLoad (pkt : Buf) (offset : Nat) (to : Buf) (len : Nat) : Int × Buf :=
  if offset ≤ 2147483647 ∧ offset + len ≤ pkt.length then (0, (pkt.drop offset).take len) else (-14, List.replicate to.length 0)

/-- `pkt` with the bytes at `offset` replaced by `v`. -/
def patched (pkt : Buf) (offset : Nat) (v : Buf) : Buf := pkt.take offset ++ v ++ pkt.drop (offset + v.length)

/-- `bpf_skb_store_bytes`: if it succeeds the bytes inside the packet are replaced; if it fails nothing changes. It fails at least outside the
packet and for unknown flags, and may fail for want of memory. -/
def SkbStore (helper : Buf → Nat → Buf → Nat → Nat → Int × Buf) : Prop :=
  ∀ pkt offset v len flags, len = v.length →
    ((helper pkt offset v len flags).1 = 0 →
      offset ≤ 2147483647 ∧ offset + len ≤ pkt.length ∧ (helper pkt offset v len flags).2 = patched pkt offset v) ∧
    ((helper pkt offset v len flags).1 ≠ 0 → (helper pkt offset v len flags).2 = pkt)

end Verif.Ebpf.Read.Spec
