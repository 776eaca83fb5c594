import Verif.Ebpf.ReadSpec
import Verif.Common.Except
/-!
# C81: strings and packet bytes read by eBPF programs
-/
set_option linter.unusedSimpArgs false
set_option linter.unusedVariables false
namespace Verif.Ebpf.Read
open Spec

/-- **C81.** `check_bounds_signed` says whether a value is between the bounds, both included. -/
theorem C81_bounds (value lower upper : Int) : checkBoundsSigned value lower upper = true ↔ lower ≤ value ∧ value ≤ upper := by
  unfold checkBoundsSigned boundsCode
  simp only [List.length_cons, List.length_nil, exec]
  by_cases h1 : value < lower
  · simp [h1, exec]; try omega
  · by_cases h2 : value > upper
    · simp [h1, h2, exec]; try omega
    · simp [h1, h2, exec]; try omega

theorem readStr_ok (n : Nat) (dest : Buf) (h : n ≤ dest.length) : readStrBytes n dest = .ok (dest.take (n - 1)) := by
  unfold readStrBytes
  rw [(C81_bounds n 0 dest.length).mpr ⟨by omega, by omega⟩]
  simp only [Bool.not_true, Bool.false_eq_true, if_false, Int.toNat_natCast]
  rw [if_neg (by omega), if_pos (by omega)]

theorem readStr_err (len : Int) (dest : Buf) (h : len < 0) : readStrBytes len dest = .error (-1) := by
  unfold readStrBytes
  have : checkBoundsSigned len 0 dest.length = false := by
    cases hc : checkBoundsSigned len 0 dest.length with
    | false => rfl
    | true => have := (C81_bounds len 0 dest.length).mp hc; omega
  rw [this]
  rfl

/-- **C81.** Reading a string from user or kernel memory gives the string, cut to leave room for the terminator, whatever the buffer held and
whatever follows the string. The buffer keeps its length, and the byte after the result is the terminator. -/
theorem C81_string (mem : Memory) (user : Bool) (src : Nat) (helper : Buf → Nat → Int × Buf) (hh : StrHelper mem user src helper)
    (s dest : Buf) (hs : StringAt mem src s) (hd : dest.length < 2 ^ 32) :
    (strBytes helper dest).1 = .ok (s.take (dest.length - 1)) ∧ (strBytes helper dest).2.length = dest.length ∧
      (0 < dest.length → (strBytes helper dest).2[min s.length (dest.length - 1)]? = some 0) := by
  have hu : u32 dest.length = dest.length := Nat.mod_eq_of_lt hd
  obtain ⟨hl, h0, hshort, hlong, -⟩ := hh dest dest.length rfl
  unfold strBytes
  rw [hu]
  simp only
  by_cases hz : dest.length = 0
  · refine ⟨?_, hl, fun h => absurd h (by omega)⟩
    rw [h0 hz, show (0 : Int) = ((0 : Nat) : Int) from rfl, readStr_ok 0 _ (by omega), show dest.length - 1 = 0 by omega]
    rfl
  · by_cases hlt : s.length < dest.length
    · obtain ⟨hr, hb⟩ := hshort s hs hlt
      rw [List.take_of_length_le (show s.length ≤ dest.length - 1 by omega), Nat.min_eq_left (by omega)]
      have hsl : (helper dest dest.length).2.take s.length = s := by
        have := congrArg (List.take s.length) hb
        rwa [List.take_take, Nat.min_eq_left (by omega), List.take_left' rfl] at this
      refine ⟨?_, hl, fun _ => ?_⟩
      · rw [hr]
        by_cases he : (user && s.isEmpty) = true
        · rw [if_pos he, show (0 : Int) = ((0 : Nat) : Int) from rfl, readStr_ok 0 _ (by omega)]
          simp only [Bool.and_eq_true, List.isEmpty_iff] at he
          simp [he.2]
        · rw [if_neg he, show (s.length : Int) + 1 = ((s.length + 1 : Nat) : Int) by omega, readStr_ok _ _ (by omega), Nat.add_sub_cancel, hsl]
      · have := congrArg (fun l : Buf => l[s.length]?) hb
        simp only [List.getElem?_take] at this
        rw [if_pos (by omega)] at this
        rw [this]
        simp
    · have hlg : LongAt mem src dest.length (s.take dest.length) := by
        refine ⟨by rw [List.length_take]; omega, fun b hb => hs.1 b (List.mem_of_mem_take hb), fun i b hi => hs.2 i b ?_⟩
        rw [List.getElem?_take] at hi
        split at hi
        · rw [List.getElem?_append_left (by omega)]; exact hi
        · cases hi
      obtain ⟨hr, hb⟩ := hlong _ (by omega) hlg
      rw [List.take_take, Nat.min_eq_left (by omega)] at hb
      refine ⟨?_, hl, fun _ => ?_⟩
      · rw [hr, readStr_ok _ _ (by omega), hb, List.take_left' (by rw [List.length_take]; omega)]
      · rw [hb, Nat.min_eq_right (by omega), List.getElem?_append_right (by rw [List.length_take]; omega)]
        rw [List.length_take]
        rw [show dest.length - 1 - min (dest.length - 1) s.length = 0 by omega]
        rfl

/-- **C81.** A string longer than the buffer is cut even if no terminator is ever found in readable memory. -/
theorem C81_string_long (mem : Memory) (user : Bool) (src : Nat) (helper : Buf → Nat → Int × Buf) (hh : StrHelper mem user src helper)
    (s dest : Buf) (hs : LongAt mem src dest.length s) (h0 : 0 < dest.length) (hd : dest.length < 2 ^ 32) :
    strBytes helper dest = (.ok (s.take (dest.length - 1)), s.take (dest.length - 1) ++ [0]) := by
  have hu : u32 dest.length = dest.length := Nat.mod_eq_of_lt hd
  obtain ⟨hl, -, -, hlong, -⟩ := hh dest dest.length rfl
  obtain ⟨hr, hb⟩ := hlong s h0 hs
  unfold strBytes
  rw [hu]
  simp only
  rw [hr, readStr_ok _ _ (by omega), hb, List.take_left' (by rw [List.length_take]; have := hs.1; omega)]

/-- **C81.** Unreadable memory is an error, never a string. -/
theorem C81_string_fault (mem : Memory) (user : Bool) (src : Nat) (helper : Buf → Nat → Int × Buf) (hh : StrHelper mem user src helper)
    (dest : Buf) (hs : Faults mem src dest.length) (hd : dest.length < 2 ^ 32) : (strBytes helper dest).1 = .error (-1) := by
  have hu : u32 dest.length = dest.length := Nat.mod_eq_of_lt hd
  obtain ⟨-, -, -, -, hf⟩ := hh dest dest.length rfl
  unfold strBytes
  rw [hu]
  exact readStr_err _ _ (hf hs)

/-- **C81.** Whatever the helper answers, the length returned by the deprecated functions is a position in the buffer. -/
theorem C81_length_bounded (helper : Buf → Nat → Int × Buf) (dest : Buf) (n : Nat) (h : (str helper dest).1 = .ok n) : n ≤ dest.length := by
  unfold str at h
  simp only at h
  split at h
  · cases h
  · cases h
    exact Nat.min_le_right _ _

theorem skbLoad_in (pkt to : Buf) (offset len : Nat) (h1 : offset ≤ 2147483647) (h2 : offset + len ≤ pkt.length) :
    skbLoad pkt offset to len = (0, (pkt.drop offset).take len) := by unfold skbLoad; rw [if_pos ⟨h1, h2⟩]

theorem skbLoad_out (pkt to : Buf) (offset len : Nat) (h : pkt.length < offset + len) :
    skbLoad pkt offset to len = (-14, List.replicate to.length 0) := by unfold skbLoad; rw [if_neg (by omega)]

/-- **C81.** `load_bytes` gives the bytes of the packet from the offset on, as many as there are and as fit, for every offset; the rest of the
buffer is untouched. Beyond the end it fails and changes nothing. -/
theorem C81_packet_bytes (pkt dst : Buf) (offset : Nat) (hp : pkt.length ≤ 2147483647) :
    (offset ≤ pkt.length → loadBytes (skbLoad pkt) pkt.length offset dst =
      (.ok (min (pkt.length - offset) dst.length), (pkt.drop offset).take dst.length ++ dst.drop (pkt.length - offset))) ∧
    (pkt.length < offset → loadBytes (skbLoad pkt) pkt.length offset dst = (.error (-1), dst)) := by
  constructor
  · intro h
    unfold loadBytes
    rw [if_neg (by omega)]
    have hn : ¬ min (pkt.length - offset) dst.length ≥ 2 ^ 32 := by
      simp only [show (2 : Nat) ^ 32 = 4294967296 from rfl]; omega
    simp only
    rw [if_neg hn, show u32 offset = offset from Nat.mod_eq_of_lt (by simp only [show (2 : Nat) ^ 32 = 4294967296 from rfl]; omega)]
    rw [skbLoad_in _ _ _ _ (by omega) (by omega)]
    simp only [if_true, Prod.mk.injEq, true_and]
    rcases Nat.le_total (pkt.length - offset) dst.length with hc | hc
    · rw [Nat.min_eq_left hc, List.take_of_length_le (by rw [List.length_drop]; omega), List.take_of_length_le (by rw [List.length_drop]; omega)]
    · rw [Nat.min_eq_right hc, List.drop_eq_nil_of_le (as := dst) (Nat.le_refl _), List.drop_eq_nil_of_le (as := dst) hc]
  · intro h
    unfold loadBytes
    rw [if_pos h]

/-- **C81.** `load` of a value gives the bytes of the packet at the offset, or fails if they are not all inside, for offsets below 2^32. -/
theorem C81_packet_load_partial (pkt uninit : Buf) (offset size : Nat) (hp : pkt.length ≤ 2147483647) (hs : size < 2 ^ 32) (hs0 : 0 < size)
    (ho : offset < 2 ^ 32) :
    (offset + size ≤ pkt.length → load (skbLoad pkt) offset size uninit = .ok ((pkt.drop offset).take size)) ∧
    (pkt.length < offset + size → ∃ e, load (skbLoad pkt) offset size uninit = .error e) := by
  have h1 : u32 offset = offset := Nat.mod_eq_of_lt ho
  have h2 : u32 size = size := Nat.mod_eq_of_lt hs
  unfold load
  rw [h1, h2]
  constructor
  · intro h
    rw [skbLoad_in _ _ _ _ (by omega) h]
    rfl
  · intro h
    rw [skbLoad_out _ _ _ _ h]
    exact ⟨-14, rfl⟩

/-- **C81, counterexample.** The offset of `load` is cut to 32 bits: at any offset that exceeds a valid one by 2^32, which is far outside the packet,
`load` succeeds with bytes from elsewhere. -/
theorem C81_load_offset_violated (pkt uninit : Buf) (offset size : Nat) (hp : pkt.length ≤ 2147483647) (hs : size < 2 ^ 32) (hs0 : 0 < size)
    (h : offset + size ≤ pkt.length) :
    load (skbLoad pkt) (offset + 2 ^ 32) size uninit = .ok ((pkt.drop offset).take size) := by
  have ho : offset < 2 ^ 32 := by simp only [show (2 : Nat) ^ 32 = 4294967296 from rfl]; omega
  have := (C81_packet_load_partial pkt uninit offset size hp hs hs0 ho).1 h
  unfold load at this ⊢
  rwa [show u32 (offset + 2 ^ 32) = u32 offset from Nat.add_mod_right _ _]

/-- **C81.** `store` that succeeds has replaced exactly the bytes at the offset; one that fails has changed nothing. Offsets below 2^32. -/
theorem C81_packet_store_partial (helper : Buf → Nat → Buf → Nat → Nat → Int × Buf) (hh : SkbStore helper) (pkt v : Buf) (offset flags : Nat)
    (hv : v.length < 2 ^ 32) (ho : offset < 2 ^ 32) :
    ((store helper pkt offset v flags).1 = .ok () →
      offset + v.length ≤ pkt.length ∧ (store helper pkt offset v flags).2 = patched pkt offset v) ∧
    (∀ e, (store helper pkt offset v flags).1 = .error e → (store helper pkt offset v flags).2 = pkt) := by
  have h1 : u32 offset = offset := Nat.mod_eq_of_lt ho
  have h2 : u32 v.length = v.length := Nat.mod_eq_of_lt hv
  unfold store
  rw [h1, h2]
  obtain ⟨ha, hb⟩ := hh pkt offset v v.length flags rfl
  simp only
  constructor
  · intro h
    by_cases h0 : (helper pkt offset v v.length flags).1 = 0
    · exact ⟨(ha h0).2.1, (ha h0).2.2⟩
    · rw [if_neg h0] at h; cases h
  · intro e h
    by_cases h0 : (helper pkt offset v v.length flags).1 = 0
    · rw [if_pos h0] at h; cases h
    · exact hb h0

/-- A helper as specified that never runs out of memory and knows no flags. -/
def storeHelper (pkt : Buf) (offset : Nat) (v : Buf) (len flags : Nat) : Int × Buf :=
  if offset ≤ 2147483647 ∧ offset + len ≤ pkt.length ∧ flags = 0 then (0, patched pkt offset v) else (-14, pkt)

theorem storeHelper_spec : SkbStore storeHelper := by
  intro pkt offset v len flags hl
  unfold storeHelper
  split
  · rename_i h
    exact ⟨fun _ => ⟨h.1, h.2.1, rfl⟩, fun h => absurd rfl h⟩
  · exact ⟨fun h => absurd h (by show ¬ ((-14 : Int) = 0); decide), fun _ => rfl⟩

/-- **C81, counterexample.** Likewise `store` at an offset beyond 2^32 overwrites the beginning of the packet and reports success. -/
theorem C81_store_offset_violated : ∃ helper, SkbStore helper ∧
    store helper [1, 2, 3, 4] (2 ^ 32) [9, 9] 0 = (.ok (), [9, 9, 3, 4]) :=
  ⟨storeHelper, storeHelper_spec, by decide +kernel⟩

/-! ## Non-vacuity -/

/-- A helper as specified, for memory that holds `s`, a terminator, and nothing readable after it. -/
def memS (s : Buf) : Memory := fun a => if a < 100 then none else (s ++ [0])[a - 100]?

/-- What the kernel does for `memS`. -/
def helperS (user : Bool) (s dest : Buf) (size : Nat) : Int × Buf :=
  if size = 0 then (0, dest)
  else if s.length < size then (if user && s.isEmpty then 0 else (s.length : Int) + 1, s ++ [0] ++ dest.drop (s.length + 1))
  else (size, s.take (size - 1) ++ [0])

theorem memS_string (s : Buf) (hs : NoNul s) : StringAt (memS s) 100 s := by
  refine ⟨hs, fun i b hi => ?_⟩
  unfold memS
  rw [if_neg (by omega), Nat.add_sub_cancel_left]
  exact hi

theorem helperS_spec (user : Bool) (s : Buf) (hs : NoNul s) : StrHelper (memS s) user 100 (helperS user s) := by
  have hm : ∀ i, memS s (100 + i) = (s ++ [0])[i]? := fun i => by
    unfold memS
    rw [if_neg (by omega), Nat.add_sub_cancel_left]
  have huniq : ∀ s', StringAt (memS s) 100 s' → s' = s := by
    intro s' h
    have h0 := h.2 s'.length 0 (by simp)
    rw [hm] at h0
    have hlen : s'.length = s.length := by
      rcases Nat.lt_trichotomy s'.length s.length with hl | hl | hl
      · rw [List.getElem?_append_left hl] at h0
        exact absurd rfl (hs 0 (List.mem_of_getElem? h0))
      · exact hl
      · rw [List.getElem?_eq_none (by simp; omega)] at h0; cases h0
    apply List.ext_getElem hlen
    intro i h1 h2
    have := h.2 i s'[i] (by rw [List.getElem?_append_left h1, List.getElem?_eq_getElem h1])
    rw [hm, List.getElem?_append_left h2, List.getElem?_eq_getElem h2] at this
    exact (Option.some.inj this).symm
  intro dest size hsz
  refine ⟨?_, ?_, ?_, ?_, ?_⟩
  · unfold helperS
    split
    · rfl
    · split
      · simp; omega
      · simp; omega
  · intro h; unfold helperS; rw [if_pos h]
  · intro s' h' hlt
    rw [huniq s' h'] at hlt ⊢
    unfold helperS
    rw [if_neg (by omega), if_pos hlt]
    refine ⟨rfl, ?_⟩
    rw [List.take_left' (by simp)]
  · intro s' h0 h'
    have hle : size ≤ s.length := by
      apply Nat.le_of_not_lt
      intro hc
      have hi : s.length < s'.length := by rw [h'.1]; exact hc
      have := h'.2.2 s.length s'[s.length] (List.getElem?_eq_getElem hi)
      rw [hm] at this
      simp at this
      exact h'.2.1 _ (List.getElem_mem hi) this.symm
    have heq : s' = s.take size := by
      apply List.ext_getElem (by rw [h'.1, List.length_take]; omega)
      intro i h1 h2
      have := h'.2.2 i s'[i] (List.getElem?_eq_getElem h1)
      have hi : i < s.length := by rw [h'.1] at h1; omega
      rw [hm, List.getElem?_append_left hi, List.getElem?_eq_getElem hi] at this
      rw [List.getElem_take]
      exact (Option.some.inj this).symm
    unfold helperS
    rw [if_neg (by omega), if_neg (by omega), heq, List.take_take, Nat.min_eq_left (by omega)]
    exact ⟨rfl, rfl⟩
  · intro ⟨k, hk, hn, hb⟩
    exfalso
    rw [hm] at hn
    have hks : s.length < k := by
      have := List.getElem?_eq_none_iff.mp hn
      simp at this
      omega
    obtain ⟨b, hb1, hb2⟩ := hb s.length hks
    rw [hm] at hb1
    simp at hb1
    exact hb2 hb1.symm

example : (strBytes (helperS true [104, 105]) (List.replicate 8 7)).1 = .ok [104, 105] :=
  (C81_string (memS [104, 105]) true 100 _ (helperS_spec true _ (by unfold NoNul; decide)) [104, 105] _ (memS_string _ (by unfold NoNul; decide))
    (by decide)).1
example : strBytes (helperS true []) [7, 7] = (.ok [], [0, 7]) := by decide +kernel
example : strBytes (helperS false [104, 105, 106]) [7, 7] = (.ok [104], [104, 0]) := by decide +kernel
example : Faults (fun a => if a = 5 then some 1 else none) 5 2 := ⟨1, by decide, by decide, fun i hi => ⟨1, by simp; omega, by decide⟩⟩
example : loadBytes (skbLoad [1, 2, 3, 4, 5]) 5 3 [0, 0, 0, 7] = (.ok 2, [4, 5, 0, 7]) := by decide +kernel
example : load (skbLoad [1, 2, 3, 4, 5]) 1 2 [0, 0] = .ok [2, 3] := by decide +kernel

end Verif.Ebpf.Read
