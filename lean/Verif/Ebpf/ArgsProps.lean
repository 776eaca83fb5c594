import Verif.Ebpf.ArgsSpec
import Verif.Common.Except
/-!
# C79: a probe sees the arguments and the result of the probed function
-/
set_option linter.unusedSimpArgs false
set_option linter.unusedVariables false
namespace Verif.Ebpf.Args
open Verif.Bytes Spec

theorem le_eq_map (k n : Nat) : le k n = (List.range k).map (fun j => UInt8.ofNat (n / 256 ^ j % 256)) := by
  induction k generalizing n with
  | zero => rfl
  | succ k ih =>
    rw [List.range_succ_eq_map, List.map_cons, List.map_map]
    simp only [le, ih, Nat.pow_zero, Nat.div_one, List.cons.injEq, true_and]
    apply List.map_congr_left
    intro j _
    simp only [Function.comp, Nat.pow_succ]
    rw [Nat.div_div_eq_div_mul, Nat.mul_comm]

/-- A native word in memory reads back. -/
theorem word_read (big : Bool) (v : Nat) (f : Nat → UInt8) (a : Nat) (hv : v < 18446744073709551616)
    (h : ∀ k, k < 8 → f (a + k) = byteOf big 8 v k) : word big (bytesAt f a 8) = v := by
  have hm : bytesAt f a 8 = (List.range 8).map (byteOf big 8 v) := by
    apply List.map_congr_left
    intro k hk
    exact h k (List.mem_range.mp hk)
  have hl : word big ((List.range 8).map (byteOf big 8 v)) = ofLe (le 8 v) := by
    rw [le_eq_map]
    cases big <;> rfl
  rw [hm, hl]
  exact ofLe_le_of_lt 8 v hv

theorem fromRegister_carries (t : Ty) (v : Nat) (x : Int) (ht : OneWord t) (h : Carries t v x) : fromRegister t v = x := by
  obtain ⟨b, s⟩ := t
  obtain ⟨hr, hc⟩ := h
  unfold fromRegister
  rcases ht with ht | ht | ht | ht <;> simp only at ht <;> subst ht <;> cases s <;>
    simp [InRange] at hr hc ⊢ <;> (try split) <;> omega

theorem frame_word (arch : Arch) (big : Bool) (regs : String → Nat) (mem : Nat → UInt8) (hw : wordSize arch = 8)
    (hf : Frame arch big regs mem) (i : Nat) (r : String) (hi : (frame arch)[i]? = some r) (hr : regs r < 18446744073709551616) :
    word big (bytesAt mem (8 * i) 8) = regs r := by
  apply word_read big (regs r) mem (8 * i) hr
  intro k hk
  have := hf i (regs r) k (by rw [List.getElem?_map, hi]; rfl) (by rw [hw]; exact hk)
  rwa [hw] at this

theorem params_small (arch : Arch) (n : Nat) (r : String) (h : (params arch)[n]? = some r) : n < 8 := by
  have : (params arch).length ≤ 8 := by cases arch <;> decide
  have := (List.getElem?_eq_some_iff.mp h).1
  omega

/-- Where the register of argument `n` is read, the kernel has put that register. -/
def placed (arch : Arch) (n : Nat) : Bool :=
  match (params arch)[n]? with
  | none => true
  | some r =>
    match argReg arch n with
    | none => false
    | some fr => decide ((frame arch)[fieldOff (fields arch) fr.1 + fr.2]? = some r)

theorem placed_all (arch : Arch) (hw : wordSize arch = 8) : ∀ n, n < 8 → placed arch n = true := by
  cases arch <;> first | (exact absurd hw (by decide)) | decide +kernel

theorem placed_rc (arch : Arch) (hw : wordSize arch = 8) :
    (frame arch)[fieldOff (fields arch) (rcReg arch).1 + (rcReg arch).2]? = some (result arch) := by
  cases arch <;> first | (exact absurd hw (by decide)) | decide +kernel

theorem argReg_end (arch : Arch) (hw : wordSize arch = 8) (n : Nat) (h : (params arch).length ≤ n) : argReg arch n = none := by
  cases arch <;> simp [params, wordSize] at h hw <;> obtain ⟨m, rfl⟩ := Nat.exists_eq_add_of_le h <;> unfold argReg <;>
    simp [Nat.add_comm]

/-- **C79.** On a 64-bit machine, `arg(n)` in a probe is the value of the function's argument `n`, for each argument passed in a register,
whatever the unused high bits of the register and whatever the other registers hold. -/
theorem C79_argument_partial (arch : Arch) (big : Bool) (regs : String → Nat) (mem : Nat → UInt8) (t : Ty) (n : Nat) (r : String) (x : Int)
    (hw : wordSize arch = 8) (hb : ∀ r, regs r < 2 ^ 64) (hf : Frame arch big regs mem) (hn : (params arch)[n]? = some r)
    (ht : OneWord t) (hx : Carries t (regs r) x) : arg arch big mem t n = some x := by
  have hp := placed_all arch hw n (params_small arch n r hn)
  unfold placed at hp
  rw [hn] at hp
  simp only at hp
  cases hr : argReg arch n with
  | none => rw [hr] at hp; cases hp
  | some fr =>
    rw [hr] at hp
    simp only [decide_eq_true_eq] at hp
    unfold arg
    rw [hr]
    show some (fromRegister t (word big (bytesAt mem (8 * _) 8))) = some x
    rw [frame_word arch big regs mem hw hf _ r hp (hb r), fromRegister_carries t _ x ht hx]

/-- **C79.** Beyond the arguments passed in registers `arg(n)` is `None`, never another register. -/
theorem C79_no_argument_partial (arch : Arch) (big : Bool) (mem : Nat → UInt8) (t : Ty) (n : Nat) (hw : wordSize arch = 8)
    (hn : (params arch).length ≤ n) : arg arch big mem t n = none := by
  unfold arg
  rw [argReg_end arch hw n hn]
  rfl

/-- **C79.** On a 64-bit machine, `ret()` in a return probe is the function's result. -/
theorem C79_result_partial (arch : Arch) (big : Bool) (regs : String → Nat) (mem : Nat → UInt8) (t : Ty) (x : Int)
    (hw : wordSize arch = 8) (hb : ∀ r, regs r < 2 ^ 64) (hf : Frame arch big regs mem)
    (ht : OneWord t) (hx : Carries t (regs (result arch)) x) : ret arch big mem t = x := by
  show fromRegister t (word big (bytesAt mem (8 * _) 8)) = x
  rw [frame_word arch big regs mem hw hf _ _ (placed_rc arch hw) (hb _), fromRegister_carries t _ x ht hx]

/-- **C79.** In programs attached through BTF (function entry and exit, security hooks, trace points) and in raw trace points, `arg(n)` is the
value of argument `n`. -/
theorem C79_btf_argument_partial (big : Bool) (vals : List Nat) (mem : Nat → UInt8) (t : Ty) (n v : Nat) (x : Int) (hb : ∀ v ∈ vals, v < 2 ^ 64)
    (hm : Words big 8 vals mem) (hn : vals[n]? = some v) (ht : OneWord t) (hx : Carries t v x) :
    btfArg big mem t n = x ∧ rawTracepointArg big mem t n = x := by
  have hw : word big (bytesAt mem (8 * n) 8) = v :=
    word_read big v mem (8 * n) (hb v (List.mem_of_getElem? hn)) (fun k hk => hm n v k hn hk)
  unfold btfArg rawTracepointArg
  rw [hw, fromRegister_carries t v x ht hx]
  exact ⟨rfl, rfl⟩

/-- **C79.** The result seen at function exit is the value the kernel stored, and a failure is reported. -/
theorem C79_exit_result_partial (t : Ty) (v : Nat) (status x : Int) (ht : OneWord t) (hx : Carries t v x) :
    (status = 0 → fexitRet t (v, status) = .ok x) ∧ (status ≠ 0 → fexitRet t (v, status) = .error status) := by
  unfold fexitRet
  constructor
  · intro h
    simp only [h, if_true, fromRegister_carries t v x ht hx]
  · intro h
    simp only [if_neg h]

/-- **C79.** `pid`, `tgid`, `uid` and `gid` are the halves the kernel packed. -/
theorem C79_ids (a b : Nat) (ha : a < 2 ^ 32) (hb : b < 2 ^ 32) :
    tgid (a * 2 ^ 32 + b) = a ∧ pid (a * 2 ^ 32 + b) = b ∧ gid (a * 2 ^ 32 + b) = a ∧ uid (a * 2 ^ 32 + b) = b := by
  unfold tgid pid gid uid highHalf lowHalf
  simp only [show (2 : Nat) ^ 32 = 4294967296 from rfl] at ha hb ⊢
  omega

/-! ## Non-vacuity -/

/-- The memory of words with these values. -/
def memOf (big : Bool) (w : Nat) (vals : List Nat) : Nat → UInt8 :=
  fun a => byteOf big w ((vals[a / w]?).getD 0) (a % w)

theorem memOf_words (big : Bool) (w : Nat) (vals : List Nat) : Words big w vals (memOf big w vals) := by
  intro i v k hv hk
  unfold memOf
  rw [Nat.mul_add_div (by omega), Nat.div_eq_of_lt hk, Nat.add_zero, hv, Nat.mul_add_mod, Nat.mod_eq_of_lt hk]
  rfl

/-- x86-64: `f(-5 as i32, 7)`; the high half of `di` is rubbish. -/
private def regs0 : String → Nat := fun r => if r = "di" then 0xdeadbeeffffffffb else if r = "si" then 7 else if r = "ax" then 200 else 99

example : arg .x86_64 false (memOf false 8 ((frame .x86_64).map regs0)) ⟨32, true⟩ 0 = some (-5) :=
  C79_argument_partial .x86_64 false regs0 _ _ 0 "di" (-5) rfl
    (by intro r; unfold regs0; split; decide; split; decide; split <;> decide)
    (memOf_words false 8 _) rfl (.inr (.inr (.inl rfl))) (by unfold Carries InRange regs0; decide)
example : ret .s390x true (memOf true 8 ((frame .s390x).map (fun r => if r = "r2" then 300 else 1))) ⟨16, false⟩ = 300 := by decide +kernel

/-! ## What fails -/

/-- Arguments `10, 11, 12, 13` of a function on a 32-bit ARM machine. -/
def armRegs : String → Nat := fun r =>
  if r = "r0" then 10 else if r = "r1" then 11 else if r = "r2" then 12 else if r = "r3" then 13 else 77

/-- **C79, counterexample.** On 32-bit ARM the kernel's registers are four bytes wide, but the structure used to read them has eight-byte
words: the second argument of every function reads as the third, for every content of the registers. -/
theorem C79_arm_violated (regs : String → Nat) (mem : Nat → UInt8) (hb : ∀ r, regs r < 2 ^ 32) (hf : Frame .arm false regs mem) :
    arg .arm false mem ⟨32, false⟩ 1 = some (regs "r2" : Int) ∧ (params .arm)[1]? = some "r1" := by
  refine ⟨?_, rfl⟩
  have h2 : ∀ k, k < 4 → mem (8 + k) = byteOf false 4 (regs "r2") k := fun k hk => by
    have := hf 2 (regs "r2") k (by rw [List.getElem?_map]; rfl) hk
    exact this
  have h3 : ∀ k, k < 4 → mem (12 + k) = byteOf false 4 (regs "r3") k := fun k hk => by
    have := hf 3 (regs "r3") k (by rw [List.getElem?_map]; rfl) hk
    exact this
  have hr2 := hb "r2"
  have hr3 := hb "r3"
  simp only [show (2 : Nat) ^ 32 = 4294967296 from rfl] at hr2 hr3
  have hw : word false (bytesAt mem 8 8) = regs "r2" + 4294967296 * regs "r3" := by
    apply word_read false _ mem 8 (by omega)
    intro k hk
    rcases Nat.lt_or_ge k 4 with h4 | h4
    · rw [h2 k h4]
      have hk' : k = 0 ∨ k = 1 ∨ k = 2 ∨ k = 3 := by omega
      unfold byteOf
      rcases hk' with rfl | rfl | rfl | rfl <;> (simp only [Bool.false_eq_true, if_false]; congr 1; omega)
    · have := h3 (k - 4) (by omega)
      rw [show 12 + (k - 4) = 8 + k by omega] at this
      rw [this]
      have hk' : k = 4 ∨ k = 5 ∨ k = 6 ∨ k = 7 := by omega
      unfold byteOf
      rcases hk' with rfl | rfl | rfl | rfl <;> (simp only [Bool.false_eq_true, if_false]; congr 1; omega)
  show some (fromRegister ⟨32, false⟩ (word false (bytesAt mem 8 8))) = _
  rw [hw]
  unfold fromRegister
  simp
  omega

example : arg .arm false (memOf false 4 ((frame .arm).map armRegs)) ⟨32, false⟩ 1 = some 12 :=
  (C79_arm_violated armRegs _ (by intro r; unfold armRegs; split; decide; split; decide; split; decide; split <;> decide)
    (memOf_words false 4 _)).1

/-- **C79, counterexample.** On 32-bit ARM `arg(4)` is not `None` although only four arguments are passed in registers. -/
theorem C79_arm_count_violated (mem : Nat → UInt8) (t : Ty) :
    (∃ x, arg .arm false mem t 4 = some x) ∧ (params .arm).length ≤ 4 := ⟨⟨_, rfl⟩, by decide⟩

/-- **C79, counterexample.** On a 32-bit MIPS machine the first argument is not what was passed. -/
theorem C79_mips_violated : ∃ (regs : String → Nat) (mem : Nat → UInt8), (∀ r, regs r < 2 ^ 32) ∧ Frame .mips true regs mem ∧
    (params .mips)[0]? = some "a0" ∧ regs "a0" = 5 ∧ arg .mips true mem ⟨32, false⟩ 0 ≠ some 5 := by
  refine ⟨fun r => if r = "a0" then 5 else 6, memOf true 4 ((frame .mips).map (fun r => if r = "a0" then 5 else 6)),
    by intro r; show (if r = "a0" then 5 else 6) < 2 ^ 32; split <;> decide, memOf_words true 4 _, rfl, rfl, by decide +kernel⟩

/-- **C79, counterexample.** `arg` and `ret` accept 128-bit types but read one register: a 128-bit result that does not fit in 64 bits, or is negative,
is never returned. -/
theorem C79_wide_violated (arch : Arch) (big : Bool) (mem : Nat → UInt8) (s : Bool) :
    0 ≤ ret arch big mem ⟨128, s⟩ ∧ ret arch big mem ⟨128, s⟩ < 2 ^ 64 := by
  have hlt : readReg arch big mem (rcReg arch) < 18446744073709551616 := by
    unfold readReg word
    have h := ofLe_lt (if big = true then (bytesAt mem (8 * (fieldOff (fields arch) (rcReg arch).1 + (rcReg arch).2)) 8).reverse
      else bytesAt mem (8 * (fieldOff (fields arch) (rcReg arch).1 + (rcReg arch).2)) 8)
    have hlen : (if big = true then (bytesAt mem (8 * (fieldOff (fields arch) (rcReg arch).1 + (rcReg arch).2)) 8).reverse
      else bytesAt mem (8 * (fieldOff (fields arch) (rcReg arch).1 + (rcReg arch).2)) 8).length = 8 := by
      cases big <;> simp [bytesAt]
    rw [hlen] at h
    exact h
  unfold ret fromRegister
  generalize readReg arch big mem (rcReg arch) = v at hlt
  cases s <;> simp <;> (try split) <;> omega

end Verif.Ebpf.Args
