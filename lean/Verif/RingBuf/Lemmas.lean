import Verif.RingBuf.Model
import Verif.RingBuf.Spec
/-! Helper lemmas for the ring buffer: memory and the system invariant. -/
set_option linter.unusedSimpArgs false
set_option linter.unusedVariables false
namespace Verif.RingBuf
open Verif.Bytes

/-! ## The kernel's constants agree with the consumer's -/

theorem kHdrSz_eq : kHdrSz = hdrSz := rfl
theorem kBusyBit_eq : kBusyBit = busyBit := rfl
theorem kDiscardBit_eq : kDiscardBit = discardBit := rfl
theorem kRoundUp8_eq (n : Nat) : kRoundUp8 n = nextMultipleOf8 n := by
  unfold kRoundUp8 nextMultipleOf8
  split <;> omega
theorem kBytes_eq (mem : Nat → UInt8) (size p n : Nat) : kBytes mem size p n = readBytes mem size p n := rfl

/-! ## Ring memory -/

theorem ring_dist (size p d : Nat) (hd : d < size) :
    ((p + d) % size + (size - p % size)) % size = d := by
  have hs : 0 < size := by omega
  have hp : p % size < size := Nat.mod_lt _ hs
  have h1 : ((p + d) % size + (size - p % size)) % size = (p + d + (size - p % size)) % size := by
    rw [Nat.mod_add_mod]
  rw [h1]
  have h2 : p + d + (size - p % size) = d + size * (p / size + 1) := by
    have := Nat.div_add_mod p size
    rw [Nat.mul_add, Nat.mul_one]
    omega
  rw [h2, Nat.add_mul_mod_self_left, Nat.mod_eq_of_lt hd]

theorem writeBytes_in (mem : Nat → UInt8) (size p : Nat) (bs : List UInt8) (d : Nat)
    (hd : d < bs.length) (hb : bs.length ≤ size) :
    byteAt (writeBytes mem size p bs) size (p + d) = bs[d] := by
  simp only [byteAt, writeBytes]
  rw [ring_dist size p d (by omega)]
  simp [hd]

/-- Positions after the written range, within one lap. -/
theorem writeBytes_after (mem : Nat → UInt8) (size p : Nat) (bs : List UInt8) (q : Nat)
    (h1 : p + bs.length ≤ q) (h2 : q < p + size) :
    byteAt (writeBytes mem size p bs) size q = byteAt mem size q := by
  simp only [byteAt, writeBytes]
  have : q = p + (q - p) := by omega
  rw [show (q % size + (size - p % size)) % size = q - p by
    conv => lhs; rw [this]
    exact ring_dist size p (q - p) (by omega)]
  have : ¬ q - p < bs.length := by omega
  simp [List.getElem?_eq_none (Nat.le_of_not_lt this)]

/-- Positions before the written range, within one lap. -/
theorem writeBytes_before (mem : Nat → UInt8) (size p : Nat) (bs : List UInt8) (q : Nat)
    (h1 : q < p) (h2 : p + bs.length ≤ q + size) :
    byteAt (writeBytes mem size p bs) size q = byteAt mem size q := by
  simp only [byteAt, writeBytes]
  have hq : q % size = (q + size) % size := by simp
  have : q + size = p + (q + size - p) := by omega
  rw [show (q % size + (size - p % size)) % size = q + size - p by
    rw [hq]
    conv => lhs; rw [this]
    exact ring_dist size p (q + size - p) (by omega)]
  have : ¬ q + size - p < bs.length := by omega
  simp [List.getElem?_eq_none (Nat.le_of_not_lt this)]

@[simp] theorem readBytes_length (mem : Nat → UInt8) (size x n : Nat) :
    (readBytes mem size x n).length = n := by simp [readBytes]

theorem readBytes_congr (m1 m2 : Nat → UInt8) (size x n : Nat)
    (h : ∀ q, x ≤ q → q < x + n → byteAt m1 size q = byteAt m2 size q) :
    readBytes m1 size x n = readBytes m2 size x n := by
  simp only [readBytes]
  apply List.map_congr_left
  intro j hj
  exact h (x + j) (by omega) (by have := List.mem_range.mp hj; omega)

theorem readBytes_eq (mem : Nat → UInt8) (size x : Nat) (bs : List UInt8)
    (h : ∀ d, (hd : d < bs.length) → byteAt mem size (x + d) = bs[d]) :
    readBytes mem size x bs.length = bs := by
  apply List.ext_getElem
  · simp
  · intro i h1 h2
    simp only [readBytes, List.getElem_map, List.getElem_range]
    exact h i h2

theorem readBytes_mod (mem : Nat → UInt8) (size x n : Nat) :
    readBytes mem size (x % size) n = readBytes mem size x n := by
  simp only [readBytes, byteAt, Nat.mod_add_mod]

theorem readBytes_mod_add (mem : Nat → UInt8) (size x k n : Nat) :
    readBytes mem size (x % size + k) n = readBytes mem size (x + k) n := by
  simp only [readBytes, byteAt, Nat.add_assoc, Nat.mod_add_mod]

/-! ## Header word -/

theorem header_bits (r : Rec) (m : Nat) (hm : m ≤ 30) (hl : r.len < 2 ^ m) :
    ofLe (le 4 r.header) = r.header ∧
    (r.header &&& busyBit ≠ 0 ↔ r.status = .busy) ∧
    (r.status ≠ .busy → r.header &&& (2 ^ m - 1) = r.len) ∧
    (r.status ≠ .busy → (r.header &&& discardBit ≠ 0 ↔ (r.status = .pending true ∨ r.status = .done true))) := by
  have hle : 2 ^ m ≤ 2 ^ 30 := Nat.pow_le_pow_right (by omega) hm
  have hlen : r.len < 2 ^ 30 := by omega
  have hb : r.header < 2 ^ 32 := by
    simp only [Rec.header, kBusyBit_eq, kDiscardBit_eq, busyBit, discardBit]
    split <;> (try split) <;> omega
  have andpow := and_two_pow_ne_zero
  have dvd : 2 ^ 30 % 2 ^ m = 0 := by
    have : 2 ^ 30 = 2 ^ m * 2 ^ (30 - m) := by rw [← Nat.pow_add]; congr 1; omega
    rw [this]; simp
  refine ⟨ofLe_le_of_lt 4 _ (by simpa using hb), ?_, ?_, ?_⟩
  · simp only [busyBit]
    rw [andpow]
    simp only [Rec.header, kBusyBit_eq, kDiscardBit_eq, busyBit, discardBit]
    cases hst : r.status <;> simp
    · omega
    all_goals (split <;> omega)
  · intro hnb
    rw [Nat.and_two_pow_sub_one_eq_mod]
    simp only [Rec.header, kBusyBit_eq, kDiscardBit_eq, discardBit]
    cases hst : r.status with
    | busy => exact absurd hst hnb
    | pending d =>
      cases d
      · simp [Nat.mod_eq_of_lt hl]
      · simp [Nat.add_mod, dvd, Nat.mod_eq_of_lt hl]
    | done d =>
      cases d
      · simp [Nat.mod_eq_of_lt hl]
      · simp [Nat.add_mod, dvd, Nat.mod_eq_of_lt hl]
  · intro hnb
    simp only [discardBit]
    rw [andpow]
    simp only [Rec.header, kBusyBit_eq, kDiscardBit_eq, discardBit]
    cases hst : r.status with
    | busy => exact absurd hst hnb
    | pending d => cases d <;> simp <;> omega
    | done d => cases d <;> simp <;> omega

end Verif.RingBuf
