import Verif.Ebpf.MemModel
/-!
# C80: copying and filling memory in eBPF programs

Specification: C11 7.24.2. `Moved m m' dest src n` says that `m'` is `m` with the `n` bytes at `dest` replaced by the bytes that were at `src`.
-/
set_option linter.unusedVariables false
namespace Verif.Ebpf.Mem
namespace Spec

/-- `n` bytes from `p` are addresses. -/
def Valid (p n : Nat) : Prop := p + n ≤ 2 ^ 64

/-- The bytes at `dest` become what was at `src`; all others stay. -/
def Moved (m m' : Memory) (dest src n : Nat) : Prop :=
  (∀ i, i < n → m' (dest + i) = m (src + i)) ∧ ∀ a, (a < dest ∨ dest + n ≤ a) → m' a = m a

/-- The two areas have no byte in common. -/
def Disjoint (p q n : Nat) : Prop := ∀ i j, i < n → j < n → p + i ≠ q + j

/-- The bytes at `p` become `b`; all others stay. -/
def Filled (m m' : Memory) (p : Nat) (b : UInt8) (n : Nat) : Prop :=
  (∀ i, i < n → m' (p + i) = b) ∧ ∀ a, (a < p ∨ p + n ≤ a) → m' a = m a

end Spec
open Spec

/-- Forward copying is right unless the target begins inside the source, after its beginning. -/
theorem forward_spec (m : Memory) (dest src n : Nat) (h : dest ≤ src ∨ src + n ≤ dest) : Moved m (copyForward m dest src n) dest src n := by
  suffices ∀ k, k ≤ n → ∀ a, copyForward m dest src k a = if dest ≤ a ∧ a < dest + k then m (src + (a - dest)) else m a by
    constructor
    · intro i hi
      rw [this n (Nat.le_refl _), if_pos (by omega)]
      congr 1; omega
    · intro a ha
      rw [this n (Nat.le_refl _), if_neg (by omega)]
  intro k
  induction k with
  | zero => intro _ a; rw [if_neg (by omega)]; rfl
  | succ k ih =>
    intro hk a
    have ih := ih (by omega)
    unfold copyForward at ih ⊢
    rw [List.range_succ, List.foldl_append]
    show store _ (dest + k) _ a = _
    unfold store
    by_cases ha : a = dest + k
    · rw [if_pos ha, ih, if_neg (by omega), if_pos (by omega)]
      congr 1; omega
    · rw [if_neg ha, ih]
      by_cases hb : dest ≤ a ∧ a < dest + k
      · rw [if_pos hb, if_pos (by omega)]
      · rw [if_neg hb, if_neg (by omega)]

/-- Backward copying is right if the target does not begin before the source. -/
theorem backward_spec (m : Memory) (dest src n : Nat) (h : src ≤ dest) : Moved m (copyBackward m dest src n) dest src n := by
  suffices ∀ (n : Nat) (m : Memory) (a : Nat),
      copyBackward m dest src n a = if dest ≤ a ∧ a < dest + n then m (src + (a - dest)) else m a by
    constructor
    · intro i hi
      rw [this, if_pos (by omega)]
      congr 1; omega
    · intro a ha
      rw [this, if_neg (by omega)]
  intro n
  induction n with
  | zero => intro m a; rw [if_neg (by omega)]; rfl
  | succ k ih =>
    intro m a
    unfold copyBackward at ih ⊢
    rw [List.range_succ, List.reverse_append, List.foldl_append]
    show (List.range k).reverse.foldl (copyByte dest src) (copyByte dest src m k) a = _
    rw [ih]
    unfold copyByte store
    by_cases hb : dest ≤ a ∧ a < dest + k
    · rw [if_pos hb, if_neg (by omega), if_pos (by omega)]
    · rw [if_neg hb]
      by_cases ha : a = dest + k
      · rw [if_pos ha, if_pos (by omega)]
        congr 1; omega
      · rw [if_neg ha, if_neg (by omega)]

/-- **C80.** `memmove` moves the bytes, however source and target overlap. -/
theorem C80_memmove (m : Memory) (dest src n : Nat) (hd : Valid dest n) (hs : Valid src n) : Moved m (memmove m dest src n) dest src n := by
  unfold Valid at hd hs
  simp only [show (2 : Nat) ^ 64 = 18446744073709551616 from rfl] at hd hs
  unfold memmove
  have hw : wrappingSub dest src = (dest + 18446744073709551616 - src) % 18446744073709551616 := rfl
  by_cases hn : n = 0
  · subst hn
    rw [if_pos (Nat.zero_le _)]
    exact forward_spec m dest src 0 (by omega)
  by_cases h : wrappingSub dest src ≥ n
  · rw [if_pos h]
    exact forward_spec m dest src n (by omega)
  · rw [if_neg h]
    exact backward_spec m dest src n (by omega)

/-- **C80.** `memcpy` copies between areas without a byte in common. -/
theorem C80_memcpy (m : Memory) (dest src n : Nat) (h : Disjoint dest src n) : Moved m (memcpy m dest src n) dest src n := by
  apply forward_spec
  by_cases hn : n = 0
  · omega
  · rcases Nat.lt_or_ge src dest with hlt | hge
    · right
      apply Nat.le_of_not_lt
      intro hc
      exact h 0 (dest - src) (by omega) (by omega) (by omega)
    · exact .inl hge

/-- **C80.** `memset` fills the area with the low byte of its argument. -/
theorem C80_memset (m : Memory) (s n : Nat) (c : Int) : Filled m (memset m s c n) s (UInt8.ofNat (c % 256).toNat) n := by
  suffices ∀ k a, memset m s c k a = if s ≤ a ∧ a < s + k then UInt8.ofNat (c % 256).toNat else m a by
    exact ⟨fun i hi => by rw [this, if_pos (by omega)], fun a ha => by rw [this, if_neg (by omega)]⟩
  intro k
  induction k with
  | zero => intro a; rw [if_neg (by omega)]; rfl
  | succ k ih =>
    intro a
    unfold memset at ih ⊢
    rw [List.range_succ, List.foldl_append]
    show (if a = s + k then _ else (List.range k).foldl (fun m i => store m (s + i) (UInt8.ofNat (c % 256).toNat)) m a) = _
    by_cases ha : a = s + k
    · rw [if_pos ha, if_pos (by omega)]
    · rw [if_neg ha, ih]
      by_cases hb : s ≤ a ∧ a < s + k
      · rw [if_pos hb, if_pos (by omega)]
      · rw [if_neg hb, if_neg (by omega)]

/-- Overlapping areas in either direction, and areas that touch. -/
example : Moved (fun a => UInt8.ofNat a) (memmove (fun a => UInt8.ofNat a) 3 1 5) 3 1 5 ∧
    Moved (fun a => UInt8.ofNat a) (memmove (fun a => UInt8.ofNat a) 1 3 5) 1 3 5 :=
  ⟨C80_memmove _ 3 1 5 (by unfold Valid; decide) (by unfold Valid; decide), C80_memmove _ 1 3 5 (by unfold Valid; decide) (by unfold Valid; decide)⟩
example : (List.range 9).map (memmove (fun a => UInt8.ofNat a) 3 1 5) = [0, 1, 2, 1, 2, 3, 4, 5, 8] := by decide +kernel
/-- `memcpy` would not do: it repeats the first bytes. -/
example : (List.range 9).map (memcpy (fun a => UInt8.ofNat a) 3 1 5) = [0, 1, 2, 1, 2, 1, 2, 1, 8] := by decide +kernel
example : Disjoint 10 20 5 := by intro i j hi hj; omega
example : (List.range 5).map (memset (fun _ => 0) 1 (-1) 3) = [0, 255, 255, 255, 0] := by decide +kernel

end Verif.Ebpf.Mem
