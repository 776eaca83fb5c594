import Verif.Helpers.Model
import Verif.Helpers.Spec

set_option linter.unusedSimpArgs false
set_option linter.unusedVariables false

/-!
# Helper wrappers: lemmas
-/
namespace Verif.Helpers
open Spec

/-- The number an argument is. -/
def Spec.valueOf : Arg → Int
  | .char c => c.toNat
  | .u8 x => x.toNat
  | .u16 x => x.toNat
  | .u32 x => x.toNat
  | .u64 x => x.toNat
  | .usize x => x.toNat
  | .i8 x => x.toInt
  | .i16 x => x.toInt
  | .i32 x => x.toInt
  | .i64 x => x.toInt
  | .isize x => x.toInt
  | .ptr x => x.toNat

theorem promote_value (a : Arg) : a.promote = BitVec.ofInt 64 (valueOf a) := by
  cases a <;> simp only [Arg.promote, valueOf]
  case i8 x => apply BitVec.eq_of_toInt_eq; rw [BitVec.toInt_signExtend_of_le (by omega), BitVec.toInt_ofInt]
               have h1 := BitVec.le_toInt x; have h2 := BitVec.toInt_lt (x := x)
               rw [Int.bmod_eq_of_le] <;> omega
  case i16 x => apply BitVec.eq_of_toInt_eq; rw [BitVec.toInt_signExtend_of_le (by omega), BitVec.toInt_ofInt]
                have h1 := BitVec.le_toInt x; have h2 := BitVec.toInt_lt (x := x)
                rw [Int.bmod_eq_of_le] <;> omega
  case i32 x => apply BitVec.eq_of_toInt_eq; rw [BitVec.toInt_signExtend_of_le (by omega), BitVec.toInt_ofInt]
                have h1 := BitVec.le_toInt x; have h2 := BitVec.toInt_lt (x := x)
                rw [Int.bmod_eq_of_le] <;> omega
  case i64 x => simp
  case isize x => simp
  all_goals
    rename_i x
    have := x.isLt
    apply BitVec.eq_of_toNat_eq
    simp only [BitVec.toNat_setWidth, BitVec.toNat_ofInt]
    omega

theorem low_signed (v : Int) (h1 : -2 ^ 31 ≤ v) (h2 : v < 2 ^ 31) :
    ((BitVec.ofInt 64 v).setWidth 32).toInt = v := by
  have e : (BitVec.ofInt 64 v).setWidth 32 = BitVec.ofInt 32 v := by
    apply BitVec.eq_of_toNat_eq
    simp only [BitVec.toNat_setWidth, BitVec.toNat_ofInt]
    omega
  rw [e, BitVec.toInt_ofInt, Int.bmod_eq_of_le] <;> omega

theorem all_signed (v : Int) (h1 : -2 ^ 63 ≤ v) (h2 : v < 2 ^ 63) : (BitVec.ofInt 64 v).toInt = v := by
  rw [BitVec.toInt_ofInt, Int.bmod_eq_of_le] <;> omega

theorem low_unsigned (v : Int) (h1 : 0 ≤ v) (h2 : v < 2 ^ 32) :
    (((BitVec.ofInt 64 v).setWidth 32).toNat : Int) = v := by
  simp only [BitVec.toNat_setWidth, BitVec.toNat_ofInt]
  omega

theorem all_unsigned (v : Int) (h1 : 0 ≤ v) (h2 : v < 2 ^ 64) : ((BitVec.ofInt 64 v).toNat : Int) = v := by
  simp only [BitVec.toNat_ofInt]
  omega

theorem low_byte (v : Int) (h1 : 0 ≤ v) (h2 : v < 128) :
    (((BitVec.ofInt 64 v).setWidth 8).toNat : Int) = v := by
  simp only [BitVec.toNat_setWidth, BitVec.toNat_ofInt]
  omega

theorem taken_value (d : Dir) (v : Int) (h : covers d v) : taken d (BitVec.ofInt 64 v) = v := by
  obtain ⟨fs, w, s, c⟩ := d
  cases c <;> cases s <;> simp only [covers, taken] at h ⊢
  all_goals first
    | exact low_signed v h.1 h.2
    | exact all_signed v h.1 h.2
    | exact low_unsigned v h.1 h.2
    | exact all_unsigned v h.1 h.2
    | exact low_byte v h.1 h.2

/-! ## Reading what was written -/

theorem readFlags_map (fs : List Flag) (c : Char) (r : List Char)
    (h : c ≠ '0' ∧ c ≠ '+' ∧ c ≠ '-' ∧ c ≠ ' ') :
    readFlags (fs.map Flag.char ++ c :: r) = (fs, c :: r) := by
  induction fs with
  | nil => simp [readFlags, h.1, h.2.1, h.2.2.1, h.2.2.2]
  | cons f fs ih =>
    cases f <;> simp [readFlags, Flag.char, ih]

theorem digitChar_dec (n : Nat) (h : n < 10) :
    '0' ≤ Str.digitChar n ∧ Str.digitChar n ≤ '9' ∧ (Str.digitChar n).toNat - 48 = n ∧
      (n ≠ 0 → Str.digitChar n ≠ '0') ∧ Str.digitChar n ≠ '+' ∧ Str.digitChar n ≠ '-' ∧ Str.digitChar n ≠ ' ' ∧
      Str.digitChar n ≠ '%' := by
  have key : ∀ d : Fin 10, '0' ≤ Str.digitChar d.1 ∧ Str.digitChar d.1 ≤ '9' ∧ (Str.digitChar d.1).toNat - 48 = d.1 ∧
      (d.1 ≠ 0 → Str.digitChar d.1 ≠ '0') ∧ Str.digitChar d.1 ≠ '+' ∧ Str.digitChar d.1 ≠ '-' ∧
      Str.digitChar d.1 ≠ ' ' ∧ Str.digitChar d.1 ≠ '%' := by
    decide +kernel
  exact key ⟨n, h⟩

theorem readWidth_render (n acc : Nat) (r : List Char) :
    readWidth acc (Str.render 10 n ++ r) = readWidth (acc * 10 ^ (Str.render 10 n).length + n) r := by
  induction n using Nat.strongRecOn generalizing r with
  | _ n ih =>
    rw [Str.render]
    split
    · rename_i h
      have d := digitChar_dec (n % 10) (Nat.mod_lt _ (by omega))
      rw [List.append_assoc, ih (n / 10) (Nat.div_lt_self (by omega) (by omega))]
      simp only [List.singleton_append, readWidth, d.1, d.2.1, d.2.2.1, and_self, if_true, List.length_append,
        List.length_singleton, Nat.pow_succ]
      congr 1
      have := Nat.div_add_mod n 10
      rw [Nat.add_mul, Nat.mul_assoc]
      omega
    · rename_i h
      have hn : n < 10 := by omega
      have d := digitChar_dec n hn
      simp [readWidth, d.1, d.2.1, d.2.2.1]

theorem readWidth_stop (acc : Nat) (c : Char) (r : List Char) (h : ¬('0' ≤ c ∧ c ≤ '9')) :
    readWidth acc (c :: r) = (acc, c :: r) := by
  simp [readWidth, h]

theorem render_head (n : Nat) (h : n ≠ 0) :
    ∃ (k : Nat) (r : List Char), k < 10 ∧ k ≠ 0 ∧ Str.render 10 n = Str.digitChar k :: r := by
  induction n using Nat.strongRecOn with
  | _ n ih =>
    rw [Str.render]
    split
    · rename_i h'
      obtain ⟨k, r, hk, hk0, e⟩ := ih (n / 10) (Nat.div_lt_self (by omega) (by omega)) (by omega)
      exact ⟨k, r ++ [Str.digitChar (n % 10)], hk, hk0, by rw [e]; rfl⟩
    · exact ⟨n, [], by omega, h, rfl⟩

/-- The rest after the width begins with a letter. -/
theorem tail_head (d : Dir) (rest : List Char) :
    ∃ (c : Char) (r : List Char), d.size.text ++ (d.conv.text ++ rest) = c :: r ∧
      (c ≠ '0' ∧ c ≠ '+' ∧ c ≠ '-' ∧ c ≠ ' ') ∧ ¬('0' ≤ c ∧ c ≤ '9') ∧ c ≠ '%' := by
  obtain ⟨fs, w, s, c⟩ := d
  cases s <;> cases c <;> exact ⟨_, _, rfl, by decide, by decide, by decide⟩

theorem readConv_text (d : Dir) (hok : Piece.ok (.dir d) = true) (rest : List Char) :
    readConv d.flags d.width (d.size.text ++ (d.conv.text ++ rest)) = some (d, rest) := by
  obtain ⟨fs, w, s, c⟩ := d
  cases s <;> cases c <;> first
    | rfl
    | (simp only [Piece.ok] at hok; exact absurd hok (by decide))

theorem readDir_text (d : Dir) (hok : Piece.ok (.dir d) = true) (rest : List Char) :
    readDir (d.text.tail ++ rest) = some (d, rest) := by
  obtain ⟨c, r, e, hc, hd, hp⟩ := tail_head d rest
  have hw := readConv_text d hok rest
  simp only [Dir.text, List.tail_cons, List.append_assoc]
  rw [readDir]
  by_cases h0 : d.width = 0
  · simp only [h0, if_true, List.nil_append]
    rw [e, readFlags_map _ _ _ hc, readWidth_stop _ _ _ hd, ← e, ← h0]
    exact hw
  · simp only [h0, if_false]
    obtain ⟨k, r', hk, hk0, er⟩ := render_head d.width h0
    have dk := digitChar_dec k hk
    have ef : readFlags (d.flags.map Flag.char ++ (Str.render 10 d.width ++ (d.size.text ++ (d.conv.text ++ rest)))) =
        (d.flags, Str.render 10 d.width ++ (d.size.text ++ (d.conv.text ++ rest))) := by
      rw [er]
      exact readFlags_map _ _ _ ⟨dk.2.2.2.1 hk0, dk.2.2.2.2.1, dk.2.2.2.2.2.1, dk.2.2.2.2.2.2.1⟩
    rw [ef]
    simp only [readWidth_render, Nat.zero_mul, Nat.zero_add]
    rw [e, readWidth_stop _ _ _ hd, ← e]
    exact hw

theorem dir_head (d : Dir) (rest : List Char) : (d.text.tail ++ rest).head? ≠ some '%' := by
  obtain ⟨c, r, e, hc, hd, hp⟩ := tail_head d rest
  simp only [Dir.text, List.tail_cons, List.append_assoc]
  cases hf : d.flags with
  | cons f fs => cases f <;> simp [Flag.char]
  | nil =>
    simp only [List.map_nil, List.nil_append]
    by_cases h0 : d.width = 0
    · simp only [h0, if_true, List.nil_append]
      rw [e]
      simpa using hp
    · simp only [h0, if_false]
      obtain ⟨k, r', hk, hk0, er⟩ := render_head d.width h0
      have dk := digitChar_dec k hk
      rw [er]
      simpa using dk.2.2.2.2.2.2.2

theorem print_says (ps : List Piece) (vs : List Int) (t : List Char) (h : Says ps vs t)
    (hok : ∀ p ∈ ps, Piece.ok p = true) :
    ∀ (extra : List (BitVec 64)) (fuel : Nat), (formatText ps).length < fuel →
      print fuel (formatText ps) (vs.map (BitVec.ofInt 64) ++ extra) = some t := by
  induction h with
  | done =>
    intro extra fuel hf
    cases fuel with
    | zero => simp [formatText] at hf
    | succ n => simp [formatText, print]
  | @lit c ps vs t hs ih =>
    intro extra fuel hf
    have h1 := hok (.lit c) (by simp)
    simp only [Piece.ok, Bool.and_eq_true, bne_iff_ne, ne_eq] at h1
    cases fuel with
    | zero => simp at hf
    | succ n =>
      have := ih (fun p hp => hok p (by simp [hp])) extra n (by simp [formatText, Piece.text] at hf ⊢; omega)
      simp only [formatText, List.flatMap_cons, Piece.text, List.singleton_append] at this ⊢
      simp [print, h1.1, h1.2, this]
  | @percent ps vs t hs ih =>
    intro extra fuel hf
    cases fuel with
    | zero => simp at hf
    | succ n =>
      have := ih (fun p hp => hok p (by simp [hp])) extra n (by simp [formatText, Piece.text] at hf ⊢; omega)
      simp only [formatText, List.flatMap_cons, Piece.text] at this ⊢
      simp [print, this]
  | @dir d v ps vs t hc hs ih =>
    intro extra fuel hf
    cases fuel with
    | zero => simp at hf
    | succ n =>
      have := ih (fun p hp => hok p (by simp [hp])) extra n (by
        simp [formatText, Piece.text, Dir.text] at hf ⊢; omega)
      have et : formatText (.dir d :: ps) = '%' :: (d.text.tail ++ formatText ps) := by
        simp [formatText, Piece.text, Dir.text]
      rw [et]
      simp only [print, if_true, if_neg (dir_head d _), readDir_text d (hok _ (by simp)) (formatText ps),
        List.map_cons, List.cons_append, this, taken_value d v hc, Option.map_some]

theorem takeWhile_nul (l : List Char) (h : '\x00' ∉ l) : (l ++ ['\x00']).takeWhile (· != '\x00') = l := by
  induction l with
  | nil => simp
  | cons c l ih =>
    simp only [List.mem_cons, not_or] at h
    have : (c != '\x00') = true := by simpa [bne_iff_ne] using fun e => h.1 e.symm
    simp [List.takeWhile_cons, this, ih h.2]

theorem render_plain (n : Nat) : ∀ c ∈ Str.render 10 n, c ≠ '\x00' := by
  intro c hc
  obtain ⟨d, hd, rfl⟩ := Str.mem_render 10 n (by omega) (by omega) c hc
  have key : ∀ d : Fin 10, Str.digitChar d.1 ≠ '\x00' := by decide +kernel
  exact key ⟨d, hd⟩

theorem no_nul (ps : List Piece) (hok : ∀ p ∈ ps, Piece.ok p = true) : '\x00' ∉ formatText ps := by
  intro h
  obtain ⟨p, hp, hc⟩ := List.mem_flatMap.mp h
  have ho := hok p hp
  cases p with
  | lit c =>
    simp only [Piece.text, List.mem_singleton] at hc
    subst hc
    exact absurd ho (by decide)
  | percent => simp [Piece.text] at hc
  | dir d =>
    obtain ⟨fs, w, s, c⟩ := d
    simp only [Piece.text, Dir.text, List.mem_cons, List.mem_append, List.mem_map] at hc
    rcases hc with hc | ((hc | hc) | hc) | hc
    · exact absurd hc (by decide)
    · obtain ⟨f, _, hf⟩ := hc
      cases f <;> exact absurd hf (by decide)
    · split at hc
      · simp at hc
      · exact render_plain w _ hc rfl
    · cases s <;> simp [Size.text] at hc
    · cases c <;> simp [Conv.text] at hc

theorem words_le (as : List (BitVec 64)) :
    words as.length (as.flatMap (fun a => Verif.Bytes.le 8 a.toNat)) = as := by
  induction as with
  | nil => rfl
  | cons a as ih =>
    have hl : (Verif.Bytes.le 8 a.toNat).length = 8 := Verif.Bytes.le_length 8 _
    simp only [List.flatMap_cons, List.length_cons, words]
    rw [List.take_append_of_le_length (by omega), List.take_of_length_le (by omega),
      List.drop_append_of_le_length (by omega), List.drop_of_length_le (by omega), List.nil_append, ih,
      Verif.Bytes.ofLe_le_of_lt 8 _ (by have := a.isLt; omega)]
    simp

end Verif.Helpers
