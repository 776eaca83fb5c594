import Verif.Core.Basic
/-! # C18: a relocated field access reads the field -/
set_option linter.unusedSimpArgs false
set_option linter.unusedVariables false
namespace Verif.Core
open Verif.Btf Verif.Btf.Spec Verif.Core.Spec

/-! ## Bits of memory -/

theorem bitAt_lt (mem : Nat → UInt8) (p : Nat) : bitAt mem p < 2 := Nat.mod_lt _ (by omega)

theorem bits_lt (mem : Nat → UInt8) (p n : Nat) : bits mem p n < 2 ^ n := by
  induction n with
  | zero => simp [bits]
  | succ n ih =>
    have := bitAt_lt mem (p + n)
    simp only [bits, Nat.pow_succ]
    have : bitAt mem (p + n) * 2 ^ n ≤ 1 * 2 ^ n := Nat.mul_le_mul_right _ (by omega)
    omega

theorem bits_add (mem : Nat → UInt8) (p m n : Nat) :
    bits mem p (m + n) = bits mem p m + bits mem (p + m) n * 2 ^ m := by
  induction n with
  | zero => simp [bits]
  | succ n ih =>
    rw [← Nat.add_assoc]
    simp only [bits]
    rw [ih, Nat.add_mul, Nat.mul_assoc, ← Nat.pow_add, Nat.add_assoc, Nat.add_assoc p m n, Nat.add_comm n m]

/-- A stretch of bits cut out of a longer one. -/
theorem bits_cut (mem : Nat → UInt8) (p k n r : Nat) :
    bits mem p (k + n + r) / 2 ^ k % 2 ^ n = bits mem (p + k) n := by
  rw [Nat.add_assoc, bits_add mem p k (n + r), Nat.add_mul_div_right _ _ (Nat.two_pow_pos k),
    Nat.div_eq_of_lt (bits_lt mem p k), Nat.zero_add, bits_add, Nat.add_mul_mod_self_right,
    Nat.mod_eq_of_lt (bits_lt _ _ _)]

theorem byte_bits (b : UInt8) : b.toNat = b.toNat % 2 + b.toNat / 2 % 2 * 2 + b.toNat / 4 % 2 * 4 + b.toNat / 8 % 2 * 8
    + b.toNat / 16 % 2 * 16 + b.toNat / 32 % 2 * 32 + b.toNat / 64 % 2 * 64 + b.toNat / 128 % 2 * 128 := by
  have : b.toNat < 256 := b.toNat_lt
  omega

theorem bits_byte (mem : Nat → UInt8) (o : Nat) : bits mem (8 * o) 8 = (mem o).toNat := by
  have h : ∀ k, k < 8 → bitAt mem (8 * o + k) = (mem o).toNat / 2 ^ k % 2 := by
    intro k hk
    unfold bitAt
    rw [show (8 * o + k) / 8 = o by omega, show (8 * o + k) % 8 = k by omega]
  simp only [bits]
  rw [h 0 (by omega), h 1 (by omega), h 2 (by omega), h 3 (by omega), h 4 (by omega), h 5 (by omega), h 6 (by omega),
    h 7 (by omega)]
  have := byte_bits (mem o)
  simp only [Nat.reducePow, Nat.div_one, Nat.mul_one] at this ⊢
  omega

theorem load_bits (mem : Nat → UInt8) (o n : Nat) : load mem o n = bits mem (8 * o) (8 * n) := by
  induction n with
  | zero => rfl
  | succ n ih =>
    rw [Nat.mul_add, bits_add, ← ih, load, ← Nat.mul_add, Nat.mul_one, bits_byte,
      show (256 : Nat) = 2 ^ 8 by rfl, ← Nat.pow_mul]

/-! ## Shifts -/

theorem shift_unsigned (v k n : Nat) (hn : k + n ≤ 64) :
    (v * 2 ^ (64 - (k + n)) % 2 ^ 64) / 2 ^ (64 - n) = v / 2 ^ k % 2 ^ n := by
  have e1 : (2 : Nat) ^ 64 = 2 ^ (64 - (k + n)) * 2 ^ (k + n) := by rw [← Nat.pow_add]; congr 1; omega
  have e2 : (2 : Nat) ^ (64 - n) = 2 ^ (64 - (k + n)) * 2 ^ k := by rw [← Nat.pow_add]; congr 1; omega
  rw [e1, e2, Nat.mul_comm v, Nat.mul_mod_mul_left, Nat.mul_div_mul_left _ _ (Nat.two_pow_pos _),
    Nat.pow_add, Nat.mod_mul_right_div_self]

theorem shl_toNat (v l : Nat) (hv : v < 2 ^ 64) : (BitVec.ofNat 64 v <<< l).toNat = v * 2 ^ l % 2 ^ 64 := by
  rw [BitVec.toNat_shiftLeft, BitVec.toNat_ofNat, Nat.mod_eq_of_lt hv, Nat.shiftLeft_eq]

theorem read_unsigned (mem : Nat → UInt8) (off size k n : Nat) (hs : k + n ≤ 8 * size) (hsz : size ≤ 8) :
    readField false mem off size (64 - (k + n)) (64 - n) = BitVec.ofNat 64 (bits mem (8 * off + k) n) := by
  have hb : load mem off size < 2 ^ 64 := by
    rw [load_bits]
    exact Nat.lt_of_lt_of_le (bits_lt _ _ _) (Nat.pow_le_pow_right (by omega) (by omega))
  apply BitVec.eq_of_toNat_eq
  simp only [readField, Bool.false_eq_true, if_false]
  rw [BitVec.toNat_ushiftRight, shl_toNat _ _ hb, Nat.shiftRight_eq_div_pow, shift_unsigned _ _ _ (by omega), load_bits,
    show 8 * size = k + n + (8 * size - (k + n)) by omega, bits_cut, BitVec.toNat_ofNat, Nat.mod_eq_of_lt]
  exact Nat.lt_of_lt_of_le (bits_lt _ _ _) (Nat.pow_le_pow_right (by omega) (by omega))

theorem bits_top (mem : Nat → UInt8) (p n : Nat) (hn : 0 < n) :
    (bitAt mem (p + n - 1) = 1 → 2 ^ (n - 1) ≤ bits mem p n) ∧
    (bitAt mem (p + n - 1) ≠ 1 → bits mem p n < 2 ^ (n - 1)) := by
  obtain ⟨m, rfl⟩ : ∃ m, n = m + 1 := ⟨n - 1, by omega⟩
  have h1 := bits_lt mem p m
  have h2 := bitAt_lt mem (p + m)
  simp only [Nat.add_sub_cancel, bits, show p + (m + 1) - 1 = p + m by omega]
  constructor
  · intro h
    rw [h]
    omega
  · intro h
    rw [show bitAt mem (p + m) = 0 by omega]
    omega

theorem read_signed (mem : Nat → UInt8) (off size k n : Nat) (hs : k + n ≤ 8 * size) (hsz : size ≤ 8) (hn : 0 < n) :
    readField true mem off size (64 - (k + n)) (64 - n) = BitVec.ofInt 64 (signedBits mem (8 * off + k) n) := by
  have hb : load mem off size < 2 ^ 64 := by
    rw [load_bits]
    exact Nat.lt_of_lt_of_le (bits_lt _ _ _) (Nat.pow_le_pow_right (by omega) (by omega))
  have hu := read_unsigned mem off size k n hs hsz
  simp only [readField, Bool.false_eq_true, if_false, if_true] at hu ⊢
  have hnat := congrArg BitVec.toNat hu
  rw [BitVec.toNat_ushiftRight, Nat.shiftRight_eq_div_pow, BitVec.toNat_ofNat] at hnat
  generalize hw : BitVec.ofNat 64 (load mem off size) <<< (64 - (k + n)) = w at hnat ⊢
  have hbn := bits_lt mem (8 * off + k) n
  obtain ⟨ht1, ht2⟩ := bits_top mem (8 * off + k) n hn
  generalize hf : bits mem (8 * off + k) n = f at hnat hbn ht1 ht2
  have hf64 : f < 2 ^ 64 := Nat.lt_of_lt_of_le hbn (Nat.pow_le_pow_right (by omega) (by omega))
  rw [Nat.mod_eq_of_lt hf64] at hnat
  have e64 : (2 : Nat) ^ 64 = 2 ^ (64 - n) * 2 ^ n := by rw [← Nat.pow_add]; congr 1; omega
  have e63 : (2 : Nat) ^ 63 = 2 ^ (64 - n) * 2 ^ (n - 1) := by rw [← Nat.pow_add]; congr 1; omega
  have hpos := Nat.two_pow_pos (64 - n)
  have hlt := w.isLt
  have hint : w.toInt / ((2 ^ (64 - n) : Nat) : Int) = signedBits mem (8 * off + k) n := by
    rw [BitVec.toInt_eq_toNat_cond]
    unfold signedBits
    rw [hf]
    by_cases h : bitAt mem (8 * off + k + n - 1) = 1
    · have h1 := ht1 h
      have h63 : 2 ^ 63 ≤ w.toNat := by
        rw [e63]
        have := (Nat.le_div_iff_mul_le hpos).mp (hnat ▸ h1)
        rw [Nat.mul_comm]; exact this
      rw [if_neg (by omega), if_pos h]
      have he : ((2 ^ 64 : Nat) : Int) = ((2 ^ n : Nat) : Int) * ((2 ^ (64 - n) : Nat) : Int) := by
        rw [e64, Int.natCast_mul, Int.mul_comm]
      rw [he, Int.sub_mul_ediv_right _ _ (by omega), ← Int.natCast_ediv, hnat, Int.natCast_pow]
      rfl
    · have h1 := ht2 h
      have h63 : w.toNat < 2 ^ 63 := by
        rw [e63]
        have := (Nat.div_lt_iff_lt_mul hpos).mp (hnat ▸ h1)
        rw [Nat.mul_comm]; exact this
      rw [if_pos (by omega), if_neg h, ← Int.natCast_ediv, hnat]
  rw [BitVec.sshiftRight, Int.shiftRight_eq_div_pow, hint]

/-! ## The layout -/

theorem wrap_sub (p w o : Nat) (h : p + w < 2 ^ 32) (ho : o * 8 ≤ p) :
    (p + w + (2 ^ 32 - o * 8 % 2 ^ 32)) % 2 ^ 32 = p + w - o * 8 := by
  rw [Nat.mod_eq_of_lt (a := o * 8) (by omega)]
  omega

theorem loadLoop_ok (p w : Nat) (h : p + w < 2 ^ 32) : ∀ (n sz o s : Nat), sz = 1 ∨ sz = 2 ∨ sz = 4 ∨ sz = 8 →
    loadLoop p w n sz = .ok (o, s) →
    (s = 1 ∨ s = 2 ∨ s = 4 ∨ s = 8) ∧ o % s = 0 ∧ o * 8 ≤ p ∧ p + w ≤ o * 8 + s * 8 := by
  intro n
  induction n with
  | zero => intro sz o s _ h; cases h
  | succ n ih =>
    intro sz o s hsz hl
    have ho : p / 8 / sz * sz * 8 ≤ p := by rcases hsz with rfl | rfl | rfl | rfl <;> omega
    simp only [loadLoop] at hl
    rw [wrap_sub p w _ h ho, Nat.mod_eq_of_lt (a := sz * 8) (by rcases hsz with rfl | rfl | rfl | rfl <;> omega)] at hl
    split at hl
    · split at hl
      · cases hl
      · refine ih (sz * 2) o s ?_ hl
        rcases hsz with rfl | rfl | rfl | rfl <;> simp_all
    · rename_i hfit
      cases hl
      refine ⟨hsz, Nat.mul_mod_left _ _, ho, ?_⟩
      rcases hsz with rfl | rfl | rfl | rfl <;> omega

theorem loadLoop_fits (p w : Nat) (h : p + w < 2 ^ 32) (hw : 0 < w) (hfit : p / 64 = (p + w - 1) / 64) :
    ∀ (n sz : Nat), (sz = 1 ∧ n = 4) ∨ (sz = 2 ∧ n = 3) ∨ (sz = 4 ∧ n = 2) ∨ (sz = 8 ∧ n = 1) →
    ∃ o s, loadLoop p w n sz = .ok (o, s) := by
  intro n
  induction n with
  | zero => intro sz h; omega
  | succ n ih =>
    intro sz hsz
    have ho : p / 8 / sz * sz * 8 ≤ p := by
      rcases hsz with ⟨rfl, _⟩ | ⟨rfl, _⟩ | ⟨rfl, _⟩ | ⟨rfl, _⟩ <;> omega
    simp only [loadLoop]
    rw [wrap_sub p w _ h ho, Nat.mod_eq_of_lt (a := sz * 8) (by omega)]
    split
    · split
      · rename_i h8
        rcases hsz with ⟨rfl, _⟩ | ⟨rfl, _⟩ | ⟨rfl, _⟩ | ⟨rfl, _⟩ <;> omega
      · exact ih (sz * 2) (by omega)
    · exact ⟨_, _, rfl⟩

theorem loadLoop_rejects (p w : Nat) (h : p + w < 2 ^ 32) (hw : 0 < w) (hfit : p / 64 ≠ (p + w - 1) / 64)
    (n sz : Nat) (hsz : sz = 1 ∨ sz = 2 ∨ sz = 4 ∨ sz = 8) (o s : Nat) : loadLoop p w n sz ≠ .ok (o, s) := by
  intro hl
  obtain ⟨h1, h2, h3, h4⟩ := loadLoop_ok p w h n sz o s hsz hl
  rcases h1 with rfl | rfl | rfl | rfl <;> omega

theorem loadLoop_more {p w n sz : Nat} {r : Nat × Nat} (h : loadLoop p w n sz = .ok r) : loadLoop p w (n + 1) sz = .ok r := by
  induction n generalizing sz with
  | zero => cases h
  | succ n ih =>
    rw [loadLoop] at h ⊢
    split
    · rename_i h1
      rw [if_pos h1] at h
      split
      · rename_i h2
        rw [if_pos h2] at h
        cases h
      · rename_i h2
        rw [if_neg h2] at h
        exact ih h
    · rename_i h1
      rw [if_neg h1] at h
      exact h

theorem loadLoop_error {p w n sz : Nat} {e : RFail} (h : loadLoop p w n sz = .error e) : e = .btf .invalidTypeInfo := by
  induction n generalizing sz with
  | zero => cases h; rfl
  | succ n ih =>
    rw [loadLoop] at h
    split at h
    · split at h
      · cases h; rfl
      · exact ih h
    · cases h

/-- The computation for a named member, with the lookups done. -/
theorem computeField_named {b : Btf} {kind : RelKind} {s : AccSpec} {tyId i mId info : Nat} {ty mty : BtfType}
    {m : Member} {nm : List UInt8} (hl : s.accessors.getLast? = some ⟨tyId, i, some nm⟩)
    (hty : b.types[tyId]? = some ty) (hm : HasMember ty i info m) (hr : Resolves b.types m.ty mId mty)
    (hk : kind ≠ .fieldExists) :
    computeField b kind (some s) = (fieldLayout b s.bitOffset info m mId mty >>= fun r =>
      fieldValue kind s.bitOffset mId mty r.1 r.2.1 r.2.2.1 r.2.2.2) := by
  obtain ⟨ms, h1, h2, h3⟩ := hasMember_members hm
  have h4 := resolve_of hr
  obtain ⟨_, _, _, h5, _⟩ := hr
  unfold computeField
  rw [if_neg hk]
  simp only [hl, typeById_ok.mpr hty, lift_okk, ok_bind, h1, h2, h4, typeById_ok.mpr h5, h3]

/-- Layout of a member: byte offset and size of the load, and position and width of the field in it. -/
theorem layout_ok {b : Btf} {p info mId sz d dims n : Nat} {m : Member} {mty : BtfType} {r : Nat × Nat × Nat × Bool}
    (hi : info < 2 ^ 32) (ht : b.types[mId]? = some mty) (hthr : through mty = none)
    (hsz : SizeOf b.types mId d dims sz) (hdims : dims ≤ 1) (hd : d ≤ 32) (hsz8 : sz = 1 ∨ sz = 2 ∨ sz = 4 ∨ sz = 8)
    (hp : p + 256 ≤ 2 ^ 32) (ho : m.offset < 2 ^ 32) (hn : n = if memberWidth info m = 0 then 8 * sz else memberWidth info m)
    (hal : memberWidth info m = 0 → p % 8 = 0)
    (h : fieldLayout b p info m mId mty = .ok r) :
    (r.2.1 = 1 ∨ r.2.1 = 2 ∨ r.2.1 = 4 ∨ r.2.1 = 8) ∧ r.1 * 8 ≤ p ∧ p + n ≤ r.1 * 8 + r.2.1 * 8 ∧ r.2.2.1 = n ∧
    (r.1 % r.2.1 = 0 ∨ memberWidth info m = 0) := by
  have hp32 : p % 2 ^ 32 = p := Nat.mod_eq_of_lt (by omega)
  have hw : memberWidth info m < 256 := by unfold memberWidth; split <;> omega
  unfold fieldLayout at h
  simp only [hp32, memberBitSize_eq hi] at h
  split at h
  · rename_i hpos
    rw [if_neg (by omega)] at hn
    cases hs : mty.size with
    | none => rw [hs] at h; cases h
    | some s =>
      have := sizeOf_size hsz ht hthr hs
      subst this
      rw [hs] at h
      simp only [show ¬ (s = 0) by omega, if_false] at h
      cases hl : loadLoop p (memberWidth info m) 4 s with
      | error e => rw [hl] at h; cases h
      | ok os =>
        obtain ⟨o, s'⟩ := os
        rw [hl] at h
        cases h
        obtain ⟨h1, h2, h3, h4⟩ := loadLoop_ok p _ (by omega) _ _ _ _ hsz8 hl
        exact ⟨h1, h3, by simpa [hn] using h4, hn.symm, .inl h2⟩
  · rename_i hz
    have hz' : memberWidth info m = 0 := by omega
    rw [if_pos hz'] at hn
    rw [C16_size_partial b.types mId d dims sz hsz hdims hd (by omega)] at h
    cases h
    have := hal hz'
    simp only [Nat.mod_eq_of_lt (show sz < 2 ^ 32 by omega)]
    refine ⟨hsz8, by omega, by omega, by omega, .inr hz'⟩

/-- **C18.** Take a member of a struct or union with the relocated position `p` in bits: a bitfield, or a plain member
at a whole byte, whose declared type has a size of 1, 2, 4 or 8 bytes. If the loader computes the byte offset, byte size
and the two shifts, then the size is one of the widths a BPF load has, a bitfield's load is aligned to its size, both
shifts are below 64, and whatever memory holds, loading that many bytes at that offset, shifting left and shifting right
leaves exactly the field, zero extended by a logical and sign extended by an arithmetic shift. What is missing: positions
of 2^32 bits and more (`C18_far_violated`), declared types of other sizes, for which no load instruction exists, and types
of two or more array dimensions (see C16). -/
theorem C18_field_partial (b : Btf) (s : AccSpec) (tyId i info mId sz d dims n : Nat) (ty mty : BtfType) (m : Member)
    (nm : List UInt8) (vo vs vl vr : CVal)
    (hl : s.accessors.getLast? = some ⟨tyId, i, some nm⟩) (hty : b.types[tyId]? = some ty)
    (hm : HasMember ty i info m) (hi : info < 2 ^ 32) (ho : m.offset < 2 ^ 32) (hr : Resolves b.types m.ty mId mty)
    (hsz : SizeOf b.types mId d dims sz) (hdims : dims ≤ 1) (hd : d ≤ 32) (hsz8 : sz = 1 ∨ sz = 2 ∨ sz = 4 ∨ sz = 8)
    (hp : s.bitOffset + 256 ≤ 2 ^ 32) (hn : n = if memberWidth info m = 0 then 8 * sz else memberWidth info m)
    (hal : memberWidth info m = 0 → s.bitOffset % 8 = 0)
    (h1 : computeField b .fieldByteOffset (some s) = .ok vo) (h2 : computeField b .fieldByteSize (some s) = .ok vs)
    (h3 : computeField b .fieldLShift (some s) = .ok vl) (h4 : computeField b .fieldRShift (some s) = .ok vr) :
    (vs.value = 1 ∨ vs.value = 2 ∨ vs.value = 4 ∨ vs.value = 8) ∧
    (memberWidth info m ≠ 0 → vo.value % vs.value = 0) ∧ vl.value < 64 ∧ vr.value < 64 ∧
    ∀ mem : Nat → UInt8,
      readField false mem vo.value vs.value vl.value vr.value = BitVec.ofNat 64 (bits mem s.bitOffset n) ∧
      readField true mem vo.value vs.value vl.value vr.value = BitVec.ofInt 64 (signedBits mem s.bitOffset n) := by
  rw [computeField_named hl hty hm hr (by decide)] at h1 h2 h3 h4
  obtain ⟨r, hr1, h1⟩ := bind_ok.mp h1
  rw [hr1] at h2 h3 h4
  obtain ⟨_, _, _, hmt, hmn⟩ := hr
  obtain ⟨g1, g2, g3, g4, g5⟩ := layout_ok hi hmt hmn hsz hdims hd hsz8 hp ho hn hal hr1
  obtain ⟨o, z, w, bf⟩ := r
  simp only at g1 g2 g3 g4 g5 h1
  subst g4
  have hp32 : s.bitOffset % 2 ^ 32 = s.bitOffset := Nat.mod_eq_of_lt (by omega)
  have hw : memberWidth info m < 256 := by unfold memberWidth; split <;> omega
  have hn0 : 0 < w := by rw [hn]; split <;> omega
  have e1 : vo.value = o := by
    simp only [fieldValue] at h1
    split at h1 <;> (cases h1; rfl)
  have e2 : vs.value = z := by cases h2; rfl
  have hw64 : w ≤ 64 := by omega
  have e4 : vr.value = 64 - w := by
    cases h4
    show (64 + (2 ^ 64 - w)) % 2 ^ 64 = 64 - w
    omega
  have e3 : vl.value = 64 - (s.bitOffset - o * 8 + w) := by
    cases h3
    show (64 + (2 ^ 64 - (s.bitOffset % 2 ^ 32 + w + (2 ^ 32 - o * 8 % 2 ^ 32)) % 2 ^ 32)) % 2 ^ 64 = _
    rw [hp32, wrap_sub _ _ _ (by omega) g2]
    omega
  rw [e1, e2, e3, e4]
  refine ⟨g1, fun h => g5.resolve_right h, by omega, by omega, fun mem => ?_⟩
  have hu := read_unsigned mem o z (s.bitOffset - o * 8) w (by omega) (by omega)
  have hs := read_signed mem o z (s.bitOffset - o * 8) w (by omega) (by omega) hn0
  rw [show 8 * o + (s.bitOffset - o * 8) = s.bitOffset by omega] at hu hs
  exact ⟨hu, hs⟩

/-- **C18.** For a bitfield of a type of 1, 2, 4 or 8 bytes each of the four values is computed exactly if the field does
not cross an 8 byte boundary; otherwise the error says that the type information is invalid. -/
theorem C18_accepted (b : Btf) (s : AccSpec) (kind : RelKind) (tyId i info mId sz : Nat) (ty mty : BtfType) (m : Member)
    (nm : List UInt8) (hk : kind ∈ [RelKind.fieldByteOffset, .fieldByteSize, .fieldSigned, .fieldLShift, .fieldRShift])
    (hl : s.accessors.getLast? = some ⟨tyId, i, some nm⟩) (hty : b.types[tyId]? = some ty)
    (hm : HasMember ty i info m) (hi : info < 2 ^ 32) (ho : m.offset < 2 ^ 32) (hr : Resolves b.types m.ty mId mty)
    (hsz : mty.size = some sz) (hsz8 : sz = 1 ∨ sz = 2 ∨ sz = 4 ∨ sz = 8)
    (hp : s.bitOffset + 256 ≤ 2 ^ 32) (hw : memberWidth info m ≠ 0) :
    (s.bitOffset / 64 = (s.bitOffset + memberWidth info m - 1) / 64 → ∃ v, computeField b kind (some s) = .ok v) ∧
    (s.bitOffset / 64 ≠ (s.bitOffset + memberWidth info m - 1) / 64 →
      computeField b kind (some s) = .error (.btf .invalidTypeInfo)) := by
  have hw8 : memberWidth info m < 256 := by unfold memberWidth; split <;> omega
  have hp32 : s.bitOffset % 2 ^ 32 = s.bitOffset := Nat.mod_eq_of_lt (by omega)
  have hlay : fieldLayout b s.bitOffset info m mId mty =
      (match loadLoop s.bitOffset (memberWidth info m) 4 sz with
        | .error e => .error e
        | .ok (o, z) => .ok (o, z, memberWidth info m, true)) := by
    unfold fieldLayout
    simp only [hp32, memberBitSize_eq hi, hsz]
    rw [if_pos (by omega), if_neg (by omega)]
    cases loadLoop s.bitOffset (memberWidth info m) 4 sz <;> rfl
  rw [computeField_named hl hty hm hr (by rintro rfl; simp at hk), hlay]
  constructor
  · intro hfit
    have : ∃ o z, loadLoop s.bitOffset (memberWidth info m) 4 sz = .ok (o, z) := by
      rcases hsz8 with rfl | rfl | rfl | rfl
      · exact loadLoop_fits _ _ (by omega) (by omega) hfit 4 1 (by omega)
      · obtain ⟨o, z, h⟩ := loadLoop_fits _ _ (by omega) (by omega) hfit 3 2 (by omega)
        exact ⟨o, z, loadLoop_more h⟩
      · obtain ⟨o, z, h⟩ := loadLoop_fits _ _ (by omega) (by omega) hfit 2 4 (by omega)
        exact ⟨o, z, loadLoop_more (loadLoop_more h)⟩
      · obtain ⟨o, z, h⟩ := loadLoop_fits _ _ (by omega) (by omega) hfit 1 8 (by omega)
        exact ⟨o, z, loadLoop_more (loadLoop_more (loadLoop_more h))⟩
    obtain ⟨o, z, h⟩ := this
    rw [h]
    simp only [ok_bind]
    simp only [List.mem_cons, List.not_mem_nil, or_false] at hk
    rcases hk with rfl | rfl | rfl | rfl | rfl <;> exact ⟨_, rfl⟩
  · intro hfit
    cases h : loadLoop s.bitOffset (memberWidth info m) 4 sz with
    | ok os => exact absurd h (loadLoop_rejects _ _ (by omega) (by omega) hfit 4 sz hsz8 os.1 os.2)
    | error e =>
      rw [loadLoop_error h]
      rfl

/-- **C18.** The relocated "is signed" flag is 1 for a signed integer or enum, else 0. Encodings that combine several of
the flags without the sign flag, which no compiler emits, are excluded (`C18_signed_violated`). -/
theorem C18_signed_partial (b : Btf) (s : AccSpec) (tyId i info mId : Nat) (ty mty : BtfType) (m : Member)
    (nm : List UInt8) (v : CVal)
    (hl : s.accessors.getLast? = some ⟨tyId, i, some nm⟩) (hty : b.types[tyId]? = some ty)
    (hm : HasMember ty i info m) (hr : Resolves b.types m.ty mId mty)
    (hinfo : ∀ n i s, (∀ vs, mty = .enum n i s vs → i < 2 ^ 32) ∧ (∀ vs, mty = .enum64 n i s vs → i < 2 ^ 32))
    (henc : ∀ n i s d, mty = .int n i s d → d / 2 ^ 24 % 2 = 1 ∨ d / 2 ^ 24 % 16 = 0 ∨ d / 2 ^ 24 % 16 = 2 ∨ d / 2 ^ 24 % 16 = 4)
    (h : computeField b .fieldSigned (some s) = .ok v) :
    (isSigned mty → v.value = 1) ∧ (¬ isSigned mty → v.value = 0) := by
  rw [computeField_named hl hty hm hr (by decide)] at h
  obtain ⟨r, _, h⟩ := bind_ok.mp h
  simp only [fieldValue] at h
  cases h
  cases mty with
  | int n i s d =>
    have he := henc n i s d rfl
    simp only [isSigned, intEncoding]
    rcases he with he | he | he | he
    · refine ⟨fun _ => ?_, fun h => absurd he h⟩
      split <;> first | rfl | omega
    · rw [he]; exact ⟨fun h => by omega, fun _ => rfl⟩
    · rw [he]; exact ⟨fun h => by omega, fun _ => rfl⟩
    · rw [he]; exact ⟨fun h => by omega, fun _ => rfl⟩
  | enum n i s vs =>
    have := (hinfo n i s).1 vs rfl
    simp only [isSigned]
    refine ⟨fun h => if_pos ?_, fun h => if_neg ?_⟩
    · unfold infoSigned; rw [show i / 2 ^ 31 = 1 by omega]; rfl
    · unfold infoSigned; rw [show i / 2 ^ 31 = 0 by omega]; decide
  | enum64 n i s vs =>
    have := (hinfo n i s).2 vs rfl
    simp only [isSigned]
    refine ⟨fun h => if_pos ?_, fun h => if_neg ?_⟩
    · unfold infoSigned; rw [show i / 2 ^ 31 = 1 by omega]; rfl
    · unfold infoSigned; rw [show i / 2 ^ 31 = 0 by omega]; decide
  | _ => exact ⟨fun h => absurd h (by simp [isSigned]), fun _ => rfl⟩

/-! ## Concrete cases -/

/-- `struct { unsigned a:3; unsigned b:7 (at bit 29); int c (at byte 8); }`. -/
def fieldBtf : Btf :=
  { header := ⟨0xeb9f, 1, 0, 24, 0, 100, 100, 7⟩, strings := [0, 97, 0, 98, 0, 99, 0]
    types := [.unknown, mkInt 0 4 0 0, mkInt 0 4 1 0,
      .struct 0 (2 ^ 31 + 4 * 2 ^ 24 + 3) 16 [⟨1, 1, 3 * 2 ^ 24⟩, ⟨3, 1, 7 * 2 ^ 24 + 29⟩, ⟨5, 2, 64⟩]] }

def accB : AccSpec := ⟨3, [0, 1], [⟨3, 0, none⟩, ⟨3, 1, some [98]⟩], 29⟩
def accC : AccSpec := ⟨3, [0, 2], [⟨3, 0, none⟩, ⟨3, 2, some [99]⟩], 64⟩

/-- The bitfield `b` crosses a 4 byte boundary: an 8 byte load at 0, shifted left by 28 and right by 57. -/
example : (computeField fieldBtf .fieldByteOffset (some accB)).toOption.map (·.value) = some 0 ∧
    (computeField fieldBtf .fieldByteSize (some accB)).toOption.map (·.value) = some 8 ∧
    (computeField fieldBtf .fieldLShift (some accB)).toOption.map (·.value) = some 28 ∧
    (computeField fieldBtf .fieldRShift (some accB)).toOption.map (·.value) = some 57 ∧
    (computeField fieldBtf .fieldSigned (some accB)).toOption.map (·.value) = some 0 ∧
    (computeField fieldBtf .fieldSigned (some accC)).toOption.map (·.value) = some 1 ∧
    (computeField fieldBtf .fieldLShift (some accC)).toOption.map (·.value) = some 32 := by decide +kernel

/-- The hypotheses of `C18_field_partial` hold for `b`. -/
example : HasMember (fieldBtf.types.getD 3 .unknown) 1 (2 ^ 31 + 4 * 2 ^ 24 + 3) ⟨3, 1, 7 * 2 ^ 24 + 29⟩ ∧
    Resolves fieldBtf.types 1 1 (mkInt 0 4 0 0) ∧ SizeOf fieldBtf.types 1 1 0 4 ∧
    memberWidth (2 ^ 31 + 4 * 2 ^ 24 + 3) ⟨3, 1, 7 * 2 ^ 24 + 29⟩ = 7 :=
  ⟨.inl ⟨0, 16, _, rfl, rfl⟩, ⟨0, by omega, .here _, rfl, rfl⟩,
   .int (n := 0) (i := 1 * 2 ^ 24) (x := 32) rfl, by decide⟩

/-- Reading `b` out of memory holding `0xE0` in byte 3 and `0x05` in byte 4: bits 29-35 are 0101111b. -/
example : let mem : Nat → UInt8 := fun a => if a = 3 then 0xE0 else if a = 4 then 0x05 else 0xAA
    readField false mem 0 8 28 57 = BitVec.ofNat 64 0x2F ∧ bits mem 29 7 = 0x2F := by decide +kernel

/-- **C18 violated**: the position is cut to 32 bits. A field 2^32 bits (512 MiB) into an object, reached through an array
index, is read at offset 0. -/
theorem C18_far_violated :
    computeField fieldBtf .fieldByteOffset (some { accC with bitOffset := 2 ^ 32 }) = .ok ⟨0, 4, some 2⟩ := by
  decide +kernel

/-- **C18 violated**: an integer encoding with several flags, none of them the sign flag, is taken as signed. -/
theorem C18_signed_violated :
    ¬ isSigned (.int 0 (1 * 2 ^ 24) 4 (6 * 2 ^ 24 + 32)) ∧
    computeField { fieldBtf with types := fieldBtf.types.set 2 (.int 0 (1 * 2 ^ 24) 4 (6 * 2 ^ 24 + 32)) }
      .fieldSigned (some accC) = .ok ⟨1, 0, none⟩ := by
  refine ⟨?_, by decide +kernel⟩
  simp [isSigned]

end Verif.Core
