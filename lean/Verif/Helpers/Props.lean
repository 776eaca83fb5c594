import Verif.Helpers.Lemmas

set_option linter.unusedSimpArgs false
set_option linter.unusedVariables false

/-!
# C96: what helpers give and show is what there is
-/
namespace Verif.Helpers
open Spec

/-- The printing helpers of Linux; `junk` is what is in registers a program left alone. -/
def linux (junk : Nat → BitVec 64) : PrintHelpers (Except Int (List Char)) :=
  { registers := printRegisters junk, memory := printMemory }

theorem emit_says (ps : List Piece) (vs : List Int) (t : List Char) (h : Says ps vs t)
    (hok : ∀ p ∈ ps, Piece.ok p = true) (hl : (formatText ps).length + 1 < 2 ^ 32) (extra : List (BitVec 64)) :
    emit (formatText ps ++ ['\x00']) (BitVec.ofNat 32 (formatText ps ++ ['\x00']).length)
      (vs.map (BitVec.ofInt 64) ++ extra) = .ok (t.take 1023) := by
  have hz : (BitVec.ofNat 32 (formatText ps ++ ['\x00']).length).toNat = (formatText ps ++ ['\x00']).length := by
    simp only [BitVec.toNat_ofNat, List.length_append, List.length_singleton]
    exact Nat.mod_eq_of_lt hl
  rw [emit, hz, cstr, List.take_length, if_pos (by simp), takeWhile_nul _ (no_nul ps hok)]
  simp only [print_says ps vs t h hok extra _ (Nat.lt_succ_self _)]

/-- **C96 (messages).** A message printed with up to twelve arguments of any types is the format with each directive
showing the number that the argument is (cut to what fits in a line of the trace, 1023 characters). -/
theorem C96_printed (junk : Nat → BitVec 64) (ps : List Piece) (args : List Arg) (t : List Char)
    (h : Says ps (args.map valueOf) t) (hok : ∀ p ∈ ps, Piece.ok p = true) (hn : args.length ≤ 12)
    (hl : (formatText ps).length + 1 < 2 ^ 32) :
    printk (linux junk) (formatText ps) args = .ok (t.take 1023) := by
  have hp : args.map Arg.promote = (args.map valueOf).map (BitVec.ofInt 64) := by
    simp [promote_value]
  have key := emit_says ps (args.map valueOf) t h hok hl
  rw [← hp] at key
  rw [printk]
  match args, hn with
  | [], _ => simpa [printkImpl, linux, printRegisters] using key [junk 0, junk 1, junk 2]
  | [a], _ => simpa [printkImpl, linux, printRegisters] using key [junk 1, junk 2]
  | [a, b], _ => simpa [printkImpl, linux, printRegisters] using key [junk 2]
  | [a, b, c], _ => simpa [printkImpl, linux, printRegisters] using key []
  | a :: b :: c :: d :: rest, hn =>
    have hlen : (a :: b :: c :: d :: rest).length ≤ 12 := hn
    have e : printkImpl (linux junk) (formatText ps ++ ['\x00']) ((a :: b :: c :: d :: rest).map Arg.promote) =
        printMemory 177 (formatText ps ++ ['\x00']) (BitVec.ofNat 32 (formatText ps ++ ['\x00']).length)
          (((a :: b :: c :: d :: rest).map Arg.promote).flatMap (fun a => Verif.Bytes.le 8 a.toNat))
          (BitVec.ofNat 32 (((a :: b :: c :: d :: rest).map Arg.promote).length * 8)) := rfl
    rw [e]
    have hz : (BitVec.ofNat 32 (((a :: b :: c :: d :: rest).map Arg.promote).length * 8)).toNat =
        ((a :: b :: c :: d :: rest).map Arg.promote).length * 8 := by
      simp only [BitVec.toNat_ofNat, List.length_map]
      omega
    rw [printMemory, hz, if_neg (by simp), if_neg (by simp only [List.length_map]; omega),
      Nat.mul_div_cancel _ (by omega : 0 < 8), words_le]
    have := key []
    rw [List.append_nil] at this
    exact this

/-- The message of the documentation. -/
example : printk (linux fun _ => 7) "hi there! dec: %d, hex: 0x%08X".toList [.i32 42, .i32 0x1234] =
    .ok "hi there! dec: 42, hex: 0x00001234".toList := by decide +kernel

/-- A case of the hypotheses: negative numbers, widths, five arguments. -/
example : printk (linux fun _ => 7) "%d|%5u|%-4x|%lld|%c%%".toList
      [.i8 (-1), .u16 65535, .u32 0xabc, .i64 (-9000000000), .char 65] =
    .ok "-1|65535|abc |-9000000000|A%".toList := by decide +kernel

example : Says [.dir ⟨[.zero], 4, .int, .d⟩, .lit ' ', .dir ⟨[], 0, .long, .u⟩]
    ([Arg.i16 (-7), .u64 (BitVec.ofNat 64 (2 ^ 63))].map valueOf) "-007 9223372036854775808".toList := by
  have h := Says.dir ⟨[.zero], 4, .int, .d⟩ (-7) (by simp [covers])
    (Says.lit ' ' (Says.dir ⟨[], 0, .long, .u⟩ 9223372036854775808 (by simp [covers]) Says.done))
  have e1 : shown ⟨[.zero], 4, .int, .d⟩ (-7) = "-007".toList := by decide +kernel
  have e2 : shown ⟨[], 0, .long, .u⟩ 9223372036854775808 = "9223372036854775808".toList := by decide +kernel
  rw [e1, e2] at h
  exact h

/-- **C96 (too many arguments).** With more than twelve arguments nothing is printed and the caller is told. -/
theorem C96_too_many (junk : Nat → BitVec 64) (fmt : List Char) (args : List Arg) (h : 12 < args.length)
    (hl : args.length * 8 < 2 ^ 32) : printk (linux junk) fmt args = .error (-22) := by
  match args, h with
  | a :: b :: c :: d :: rest, h =>
    have e : printk (linux junk) fmt (a :: b :: c :: d :: rest) =
        printMemory 177 (fmt ++ ['\x00']) (BitVec.ofNat 32 (fmt ++ ['\x00']).length)
          (((a :: b :: c :: d :: rest).map Arg.promote).flatMap (fun a => Verif.Bytes.le 8 a.toNat))
          (BitVec.ofNat 32 (((a :: b :: c :: d :: rest).map Arg.promote).length * 8)) := rfl
    have hz : (BitVec.ofNat 32 (((a :: b :: c :: d :: rest).map Arg.promote).length * 8)).toNat =
        ((a :: b :: c :: d :: rest).map Arg.promote).length * 8 := by
      simp only [BitVec.toNat_ofNat, List.length_map]
      exact Nat.mod_eq_of_lt hl
    rw [e, printMemory, hz, if_neg (by simp), if_pos (by simp only [List.length_map]; omega)]

example : printk (linux fun _ => 0) ['h', 'i'] (List.replicate 13 (.u8 1)) = .error (-22) :=
  C96_too_many _ _ _ (by simp) (by simp)

/-- **C96 (formats), violated.** The macro is documented to take the format strings of `printk`, but `%o` and `%hd`, which
those have, are refused, whatever the argument. -/
theorem C96_formats_violated (junk : Nat → BitVec 64) (a : Arg) :
    printk (linux junk) ['%', 'o'] [a] = .error (-22) ∧ printk (linux junk) ['%', 'h', 'd'] [a] = .error (-22) :=
  ⟨rfl, rfl⟩

/-- **C96 (missing arguments), violated.** With fewer arguments than directives nobody is told: the message shows
what was left in a register. -/
theorem C96_missing_violated (junk : Nat → BitVec 64) (h : ∀ n, junk n = 4242) :
    printk (linux junk) ['%', 'u', ' ', '%', 'u'] [.u32 1] = .ok ['1', ' ', '4', '2', '4', '2'] := by
  have : junk = fun _ => 4242 := funext h
  subst this
  decide +kernel

/-! ## Strings -/

theorem dictionary_kstrncmp (s1 s2 : List UInt8) (h2 : (0 : UInt8) ∉ s2) :
    compare (kstrncmp s1 s1.length (s2 ++ [0])) 0 = dictionary (stringIn s1) (s2.take s1.length) := by
  induction s1 generalizing s2 with
  | nil => simp [kstrncmp, stringIn, dictionary]
  | cons a s1 ih =>
    cases s2 with
    | nil =>
      simp only [List.nil_append, List.length_cons, kstrncmp, List.take_nil]
      by_cases ha : a = 0
      · subst ha
        simp [stringIn, dictionary]
      · have h0 : ¬ a.toNat < (0 : UInt8).toNat := by simp
        have hb : (a != 0) = true := by simpa [bne_iff_ne] using ha
        rw [if_pos ha, if_neg h0]
        simp only [stringIn, List.takeWhile_cons, hb, if_true, dictionary]
        rfl
    | cons b s2 =>
      simp only [List.mem_cons, not_or] at h2
      have hb0 : b ≠ 0 := fun e => h2.1 e.symm
      have hbn : 0 < b.toNat := by
        have := UInt8.toNat_inj (a := b) (b := 0)
        rcases Nat.eq_zero_or_pos b.toNat with e | e
        · exact absurd (this.mp e) hb0
        · exact e
      simp only [List.cons_append, List.length_cons, kstrncmp, List.take_succ_cons]
      by_cases hab : a = b
      · subst hab
        have hb : (a != 0) = true := by simpa [bne_iff_ne] using hb0
        rw [if_neg (by simp), if_neg hb0, ih s2 h2.2]
        simp only [stringIn, List.takeWhile_cons, hb, if_true, dictionary, Nat.lt_irrefl, if_false]
      · rw [if_pos hab]
        by_cases ha : a = 0
        · subst ha
          have hz : (0 : UInt8).toNat < b.toNat := by simpa using hbn
          rw [if_pos hz]
          simp [stringIn, dictionary]; rfl
        · have hb : (a != 0) = true := by simpa [bne_iff_ne] using ha
          simp only [stringIn, List.takeWhile_cons, hb, if_true, dictionary]
          by_cases hlt : a.toNat < b.toNat
          · simp only [hlt, if_true]; rfl
          · have hgt : b.toNat < a.toNat := by
              have : a.toNat ≠ b.toNat := fun e => hab (UInt8.toNat_inj.mp e)
              omega
            simp only [hlt, if_false, hgt, if_true]; rfl

/-- **C96 (strings compared, as far as it holds).** The string in a byte array is compared, as in a dictionary, with as much
of the other string as the array has bytes. -/
theorem C96_compare_partial (s1 s2 : List UInt8) (h2 : (0 : UInt8) ∉ s2) (hl : s1.length < 2 ^ 32) :
    strncmp strncmpHelper s1 s2 = dictionary (stringIn s1) (s2.take s1.length) := by
  rw [strncmp, strncmpHelper, if_neg (by simp)]
  have : (BitVec.ofNat 32 s1.length).toNat = s1.length := by
    simp only [BitVec.toNat_ofNat]
    exact Nat.mod_eq_of_lt hl
  rw [this]
  exact dictionary_kstrncmp s1 s2 h2

theorem dictionary_take (s1 s2 : List UInt8) (n : Nat) (h : s1.length < n) :
    dictionary s1 (s2.take n) = dictionary s1 s2 := by
  induction s1 generalizing s2 n with
  | nil => cases s2 <;> cases n <;> simp [dictionary] at h ⊢
  | cons a s1 ih =>
    cases n with
    | zero => simp at h
    | succ n =>
      cases s2 with
      | nil => simp
      | cons b s2 =>
        simp only [List.take_succ_cons, dictionary]
        rw [ih s2 n (by simpa using h)]

/-- **C96 (terminated strings compared).** When the array has its NUL, the strings are compared as in a
dictionary. -/
theorem C96_compare_terminated (s1 s2 : List UInt8) (h1 : (0 : UInt8) ∈ s1) (h2 : (0 : UInt8) ∉ s2)
    (hl : s1.length < 2 ^ 32) : strncmp strncmpHelper s1 s2 = dictionary (stringIn s1) s2 := by
  rw [C96_compare_partial s1 s2 h2 hl]
  apply dictionary_take
  clear hl h2
  induction s1 with
  | nil => simp at h1
  | cons a s1 ih =>
    simp only [stringIn, List.takeWhile_cons]
    by_cases ha : a = 0
    · subst ha; simp
    · have hb : (a != 0) = true := by simpa [bne_iff_ne] using ha
      rw [if_pos hb]
      simp only [List.length_cons, Nat.succ_lt_succ_iff]
      exact ih ((List.mem_cons.mp h1).resolve_left (fun e => ha e.symm))

example : strncmp strncmpHelper [102, 111, 111, 0] [102, 111, 111, 98] = .lt := by decide +kernel
example : strncmp strncmpHelper [102, 111, 111, 0, 9] [102, 111, 111] = .eq := by decide +kernel

/-- **C96 (strings compared), violated.** An array without a NUL, which the function is documented to take, is said to be
equal to every longer string that begins with it: `b"foo"` to `c"foobar"`. -/
theorem C96_compare_violated :
    strncmp strncmpHelper [102, 111, 111] [102, 111, 111, 98, 97, 114] = .eq ∧
      dictionary (stringIn [102, 111, 111]) [102, 111, 111, 98, 97, 114] = .lt := by decide +kernel

/-! ## The name of the task -/

theorem takeWhile_pad (l : List UInt8) (n : Nat) (h : (0 : UInt8) ∉ l) :
    stringIn (l ++ List.replicate n 0) = l := by
  induction l with
  | nil => cases n <;> simp [stringIn, List.replicate_succ]
  | cons a l ih =>
    simp only [List.mem_cons, not_or] at h
    have : (a != 0) = true := by simpa [bne_iff_ne] using fun e => h.1 e.symm
    have e := ih h.2
    simp only [stringIn] at e
    simp [stringIn, List.takeWhile_cons, this, e]

/-- **C96 (the name of the task).** Sixteen bytes with the name of the task, cut to fifteen bytes, and a NUL; an error
when there is no task. -/
theorem C96_command (task : Option (List UInt8)) (h : ∀ n, task = some n → (0 : UInt8) ∉ n) :
    (∀ n, task = some n → ∃ b, getCurrentComm (commHelper task) = .ok b ∧ b.length = 16 ∧
      stringIn b = n.take 15 ∧ b.getLast? = some 0) ∧
    (task = none → getCurrentComm (commHelper task) = .error (-22)) := by
  constructor
  · intro n hn
    subst hn
    have hz : (BitVec.ofNat 32 (List.replicate 16 (0 : UInt8)).length).toNat = 16 := by decide
    refine ⟨padded n 16, ?_, ?_, ?_, ?_⟩
    · simp only [getCurrentComm, commHelper, ne_eq, not_true, if_false, hz, if_true]
    · simp only [padded, List.length_append, List.length_take, List.length_replicate]
      omega
    · rw [padded, takeWhile_pad _ _ (fun hc => h n rfl (List.mem_of_mem_take hc))]
    · rw [padded]
      have : 0 < 16 - (n.take (16 - 1)).length := by
        simp only [List.length_take]; omega
      obtain ⟨k, hk⟩ : ∃ k, 16 - (n.take (16 - 1)).length = k + 1 := ⟨_, (Nat.succ_pred_eq_of_pos this).symm⟩
      rw [hk, List.replicate_succ', ← List.append_assoc, List.getLast?_append]
      simp
  · intro hn
    subst hn
    rfl

example : getCurrentComm (commHelper (some [115, 104])) = .ok ([115, 104] ++ List.replicate 14 0) := by decide +kernel

/-! ## Memory -/

theorem bytesAt_length (m : Mem) (a n : Nat) (bs : List UInt8) (h : bytesAt m a n = some bs) : bs.length = n := by
  induction n generalizing a bs with
  | zero => simp [bytesAt] at h; simp [← h]
  | succ n ih =>
    simp only [bytesAt] at h
    split at h
    · rename_i b r h1 h2
      simp only [Option.some.injEq] at h
      subst h
      simp [ih _ _ h2]
    · simp at h

/-- Where a read is to be made, and the wrapper that makes it. -/
inductive Space | either | user | kernel

def readTyped : Space → ReadHelper → Nat → BitVec 64 → Except Int Bytes
  | .either => probeRead
  | .user => probeReadUser
  | .kernel => probeReadKernel

def readBuf : Space → ReadHelper → BitVec 64 → Bytes → Except Int Unit × Bytes
  | .either => probeReadBuf
  | .user => probeReadUserBuf
  | .kernel => probeReadKernelBuf

/-- The memory meant. -/
def meant (user kernel : Mem) (split : Nat) (src : BitVec 64) : Space → Mem
  | .either => if src.toNat < split then user else kernel
  | .user => user
  | .kernel => kernel

theorem asI32_fault : asI32 (-14) = -14 := by decide

/-- **C96 (reads).** A read gives the bytes that are at the address, all of them, in the memory meant, or, when one of
them cannot be read, the error `-EFAULT`. -/
theorem C96_read (sp : Space) (user kernel : Mem) (split : Nat) (src : BitVec 64) (size : Nat)
    (hs : size < 2 ^ 32) :
    (∀ bs, bytesAt (meant user kernel split src sp) src.toNat size = some bs →
      readTyped sp (readHelper user kernel split) size src = .ok bs ∧
      (∀ dst, dst.length = size → readBuf sp (readHelper user kernel split) src dst = (.ok (), bs))) ∧
    (bytesAt (meant user kernel split src sp) src.toNat size = none →
      readTyped sp (readHelper user kernel split) size src = .error (-14) ∧
      (∀ dst, dst.length = size → (readBuf sp (readHelper user kernel split) src dst).1 = .error (-14) ∧
        (readBuf sp (readHelper user kernel split) src dst).2.length = size)) := by
  have hz : (BitVec.ofNat 32 size).toNat = size := by
    simp only [BitVec.toNat_ofNat]
    exact Nat.mod_eq_of_lt hs
  constructor
  · intro bs h
    cases sp <;>
      simp only [meant, readTyped, readBuf, probeRead, probeReadUser, probeReadKernel, probeReadBuf, probeReadUserBuf,
        probeReadKernelBuf, readHelper, seen, hz] at h ⊢
    · by_cases hlt : src.toNat < split
      · simp only [hlt, if_true] at h
        refine ⟨by simp [h, hlt], fun dst hd => ?_⟩
        subst hd
        simp [h, hlt, hz]
      · simp only [hlt, if_false] at h
        refine ⟨by simp [h, hlt], fun dst hd => ?_⟩
        subst hd
        simp [h, hlt, hz]
    · refine ⟨by simp [h], fun dst hd => ?_⟩
      subst hd
      simp [h, hz]
    · refine ⟨by simp [h], fun dst hd => ?_⟩
      subst hd
      simp [h, hz]
  · intro h
    cases sp <;>
      simp only [meant, readTyped, readBuf, probeRead, probeReadUser, probeReadKernel, probeReadBuf, probeReadUserBuf,
        probeReadKernelBuf, readHelper, seen, hz] at h ⊢
    · by_cases hlt : src.toNat < split
      · simp only [hlt, if_true] at h
        refine ⟨by simp [h, hlt, asI32_fault], fun dst hd => ?_⟩
        subst hd
        simp [h, hlt, hz, asI32_fault]
      · simp only [hlt, if_false] at h
        refine ⟨by simp [h, hlt, asI32_fault], fun dst hd => ?_⟩
        subst hd
        simp [h, hlt, hz, asI32_fault]
    · refine ⟨by simp [h, asI32_fault], fun dst hd => ?_⟩
      subst hd
      simp [h, hz, asI32_fault]
    · refine ⟨by simp [h, asI32_fault], fun dst hd => ?_⟩
      subst hd
      simp [h, hz, asI32_fault]

example : readTyped .user (readHelper (fun a => if a < 100 then some 7 else none) (fun _ => none) 1000) 4 96 =
    .ok [7, 7, 7, 7] := by decide +kernel
example : readTyped .user (readHelper (fun a => if a < 100 then some 7 else none) (fun _ => none) 1000) 4 97 =
    .error (-14) := by decide +kernel

theorem store_spec (w : Nat → Bool) (bs : List UInt8) (a : Nat) (m : Mem) :
    ((∀ i, i < bs.length → w (a + i) = true) →
      (store w a bs m).1 = true ∧
      ∀ x, (store w a bs m).2 x = if a ≤ x ∧ x < a + bs.length then bs[x - a]? else m x) ∧
    ((∃ i, i < bs.length ∧ w (a + i) = false) → (store w a bs m).1 = false) ∧
    (∀ x, ¬(a ≤ x ∧ x < a + bs.length) → (store w a bs m).2 x = m x) := by
  induction bs generalizing a m with
  | nil => refine ⟨fun _ => ⟨rfl, fun x => by simp [store]; omega⟩, fun h => by simp at h, fun x _ => rfl⟩
  | cons b bs ih =>
    have IH := ih (a + 1) (fun x => if x = a then some b else m x)
    by_cases hw : w a = true
    · simp only [store, hw, if_true]
      refine ⟨fun h => ?_, fun h => ?_, fun x hx => ?_⟩
      · have h1 := IH.1 (fun i hi => by
          have := h (i + 1) (by simpa using hi)
          rwa [show a + (i + 1) = a + 1 + i by omega] at this)
        refine ⟨h1.1, fun x => ?_⟩
        rw [h1.2 x]
        by_cases hxa : x = a
        · subst hxa
          rw [if_neg (by omega), if_pos rfl, if_pos (by simp)]
          simp
        · by_cases hin : a + 1 ≤ x ∧ x < a + 1 + bs.length
          · rw [if_pos hin, if_pos (by simp only [List.length_cons]; omega)]
            rw [show x - a = (x - (a + 1)) + 1 by omega, List.getElem?_cons_succ]
          · rw [if_neg hin, if_neg hxa, if_neg (by simp only [List.length_cons]; omega)]
      · obtain ⟨i, hi, hwi⟩ := h
        cases i with
        | zero => simp [hw] at hwi
        | succ i =>
          exact IH.2.1 ⟨i, by simpa using hi, by rwa [show a + 1 + i = a + (i + 1) by omega]⟩
      · rw [IH.2.2 x (by simp only [List.length_cons] at hx; omega)]
        rw [if_neg (by intro e; subst e; exact hx ⟨Nat.le_refl _, by simp⟩)]
    · have hw' : w a = false := by simpa using hw
      simp only [store, hw', if_false, Bool.false_eq_true]
      exact ⟨fun h => absurd (h 0 (by simp)) (by simpa using hw), fun _ => trivial, fun _ _ => trivial⟩

/-- **C96 (writes).** A write to the memory of a process puts all bytes of the value there when all can be written, and
is an error otherwise; in no case is another byte touched. -/
theorem C96_write (w : Nat → Bool) (dst : BitVec 64) (value : List UInt8) (m : Mem) (hs : value.length < 2 ^ 32) :
    ((∀ i, i < value.length → w (dst.toNat + i) = true) →
      (probeWriteUser (writeHelper w) dst value m).1 = .ok () ∧
      ∀ i, i < value.length → (probeWriteUser (writeHelper w) dst value m).2 (dst.toNat + i) = value[i]?) ∧
    ((∃ i, i < value.length ∧ w (dst.toNat + i) = false) →
      (probeWriteUser (writeHelper w) dst value m).1 = .error (-14)) ∧
    (∀ x, ¬(dst.toNat ≤ x ∧ x < dst.toNat + value.length) →
      (probeWriteUser (writeHelper w) dst value m).2 x = m x) := by
  have hz : (BitVec.ofNat 32 value.length).toNat = value.length := by
    simp only [BitVec.toNat_ofNat]
    exact Nat.mod_eq_of_lt hs
  have key := store_spec w value dst.toNat m
  simp only [probeWriteUser, writeHelper, if_true, hz, List.take_length]
  refine ⟨fun h => ?_, fun h => ?_, fun x hx => key.2.2 x hx⟩
  · obtain ⟨h1, h2⟩ := key.1 h
    refine ⟨by simp [h1], fun i hi => ?_⟩
    rw [h2, if_pos (by omega)]
    simp
  · simp [key.2.1 h, asI32_fault]

example : (probeWriteUser (writeHelper (fun a => a < 10)) 8 [1, 2] (fun _ => some 0)).1 = .ok () ∧
    (probeWriteUser (writeHelper (fun a => a < 10)) 8 [1, 2] (fun _ => some 0)).2 9 = some 2 ∧
    (probeWriteUser (writeHelper (fun a => a < 10)) 9 [1, 2] (fun _ => some 0)).1 = .error (-14) := by
  decide +kernel

end Verif.Helpers
