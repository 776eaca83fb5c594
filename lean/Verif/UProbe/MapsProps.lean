import Verif.UProbe.MapsModel
import Verif.UProbe.MapsSpec
/-!
# C48, C49: the process map and looking up libraries
-/
set_option linter.unusedSimpArgs false
set_option linter.unusedVariables false
namespace Verif.UProbe
open Verif.Str Verif.UProbe.Spec

/-! ## White space -/

theorem isWs_iff (c : Char) : isWs c = true ↔ White c := by
  unfold isWs White
  simp only [Bool.or_eq_true, decide_eq_true_eq]
  grind

theorem isWs_false (c : Char) : isWs c = false ↔ ¬ White c := by
  rw [← isWs_iff]; simp

theorem trimStart_run {w s : Text} (h : Run w) : trimStart (w ++ s) = trimStart s := by
  induction w with
  | nil => rfl
  | cons c cs ih =>
    unfold trimStart at *
    rw [List.cons_append, List.dropWhile_cons_of_pos ((isWs_iff c).mpr (h c (by simp)))]
    exact ih (fun d hd => h d (by simp [hd]))

theorem trimStart_id {s : Text} (h : ∀ c, s.head? = some c → ¬ White c) : trimStart s = s := by
  cases s with
  | nil => rfl
  | cons c cs =>
    unfold trimStart
    rw [List.dropWhile_cons_of_neg]
    rw [isWs_iff]
    exact h c rfl

theorem trimStart_spec (s : Text) : ∃ w, Run w ∧ s = w ++ trimStart s ∧
    ∀ c, (trimStart s).head? = some c → ¬ White c := by
  induction s with
  | nil => exact ⟨[], by simp [Run], rfl, by simp [trimStart]⟩
  | cons c cs ih =>
    by_cases hc : White c
    · obtain ⟨w, h1, h2, h3⟩ := ih
      have e : trimStart (c :: cs) = trimStart cs := by
        unfold trimStart; rw [List.dropWhile_cons_of_pos ((isWs_iff c).mpr hc)]
      refine ⟨c :: w, ?_, ?_, ?_⟩
      · intro d hd
        rcases List.mem_cons.mp hd with rfl | hd
        · exact hc
        · exact h1 d hd
      · rw [e, List.cons_append, ← h2]
      · rw [e]; exact h3
    · refine ⟨[], by simp [Run], ?_, ?_⟩
      · rw [trimStart_id (by intro d hd; simp at hd; exact hd ▸ hc)]; rfl
      · rw [trimStart_id (by intro d hd; simp at hd; exact hd ▸ hc)]
        intro d hd; simp at hd; exact hd ▸ hc

theorem trimEnd_eq (s : Text) : trimEnd s = (trimStart s.reverse).reverse := rfl

theorem Spec.Run.reverse {w : Text} (h : Run w) : Run w.reverse := fun c hc => h c (by simpa using hc)

theorem trimEnd_run {w s : Text} (h : Run w) : trimEnd (s ++ w) = trimEnd s := by
  rw [trimEnd_eq, trimEnd_eq, List.reverse_append, trimStart_run h.reverse]

theorem trimEnd_id {s : Text} (h : ∀ c, s.getLast? = some c → ¬ White c) : trimEnd s = s := by
  rw [trimEnd_eq, trimStart_id, List.reverse_reverse]
  simpa [List.head?_reverse] using h

theorem trimEnd_spec (s : Text) : ∃ w, Run w ∧ s = trimEnd s ++ w ∧
    ∀ c, (trimEnd s).getLast? = some c → ¬ White c := by
  obtain ⟨w, h1, h2, h3⟩ := trimStart_spec s.reverse
  refine ⟨w.reverse, h1.reverse, ?_, ?_⟩
  · have := congrArg List.reverse h2
    rw [List.reverse_reverse, List.reverse_append] at this
    rw [trimEnd_eq]; exact this
  · intro c hc
    rw [trimEnd_eq, List.getLast?_reverse] at hc
    exact h3 c hc

/-! ## Splitting a line -/

theorem takeWhile_word {w rest : Text} (hw : Word w) (hr : ∀ c, rest.head? = some c → White c) :
    (w ++ rest).takeWhile (fun c => !isWs c) = w ∧ (w ++ rest).dropWhile (fun c => !isWs c) = rest := by
  have hall : ∀ c ∈ w, (!isWs c) = true := by
    intro c hc
    have := (isWs_false c).mpr (hw.2 c hc)
    simp [this]
  rw [List.takeWhile_append_of_pos hall, List.dropWhile_append_of_pos hall]
  cases rest with
  | nil => simp
  | cons c cs =>
    have := (isWs_iff c).mpr (hr c rfl)
    simp [List.takeWhile_cons, List.dropWhile_cons, this]

theorem split_word {n : Nat} {w0 w : Text} (h0 : Run w0) (hw : Word w) : splitParts (n + 1) (w0 ++ w) = [w] := by
  have hs : trimStart w = w := by
    apply trimStart_id
    intro c hc
    exact hw.2 c (List.mem_of_mem_head? hc)
  cases n with
  | zero => rw [splitParts, trimStart_run h0, hs]
  | succ n =>
    rw [splitParts, trimStart_run h0, hs, if_neg]
    simp only [List.any_eq_true, not_exists, not_and]
    intro c hc
    rw [isWs_iff]
    exact hw.2 c hc

theorem split_step {n : Nat} {w0 w rest : Text} (h0 : Run w0) (hw : Word w) (hr : rest ≠ [])
    (hr' : ∀ c, rest.head? = some c → White c) :
    splitParts (n + 2) (w0 ++ (w ++ rest)) = w :: splitParts (n + 1) rest := by
  have hs : trimStart (w ++ rest) = w ++ rest := by
    apply trimStart_id
    intro c hc
    cases w with
    | nil => exact absurd rfl hw.1
    | cons d ds => simp at hc; exact hc ▸ hw.2 d (by simp)
  rw [splitParts, trimStart_run h0, hs, if_pos, (takeWhile_word hw hr').1, (takeWhile_word hw hr').2]
  cases rest with
  | nil => exact absurd rfl hr
  | cons c cs => simp [(isWs_iff c).mpr (hr' c rfl)]

/-- A text that does not end with white space begins with a word, and splitting goes on behind it. -/
theorem split_cases (n : Nat) {t : Text} (hne : t ≠ []) (ht : ∀ c, t.getLast? = some c → ¬ White c) :
    ∃ w0 w rest, Run w0 ∧ Word w ∧ t = w0 ++ (w ++ rest) ∧
      ((rest = [] ∧ splitParts (n + 2) t = [w]) ∨
       (rest ≠ [] ∧ (∀ c, rest.head? = some c → White c) ∧ (∀ c, rest.getLast? = some c → ¬ White c) ∧
         splitParts (n + 2) t = w :: splitParts (n + 1) rest)) := by
  obtain ⟨w0, h0, e0, hh⟩ := trimStart_spec t
  have hs : trimStart t ≠ [] := by
    intro hn
    rw [hn, List.append_nil] at e0
    cases hl : t.getLast? with
    | none => exact hne (by simpa using hl)
    | some c =>
      exact ht c hl (h0 c (e0 ▸ List.mem_of_getLast? hl))
  have hsplit := List.takeWhile_append_dropWhile (p := fun c => !isWs c) (l := trimStart t)
  refine ⟨w0, (trimStart t).takeWhile (fun c => !isWs c), (trimStart t).dropWhile (fun c => !isWs c), h0, ?_, ?_, ?_⟩
  · constructor
    · cases hc : trimStart t with
      | nil => exact absurd hc hs
      | cons c cs =>
        have := (isWs_false c).mpr (hh c (by rw [hc]; rfl))
        simp [List.takeWhile_cons, this]
    · intro c hc
      have := List.all_eq_true.mp List.all_takeWhile c hc
      simp only [Bool.not_eq_true', Bool.not_eq_eq_eq_not, Bool.not_true] at this
      exact (isWs_false c).mp this
  · rw [hsplit]; exact e0
  · by_cases hr : (trimStart t).dropWhile (fun c => !isWs c) = []
    · left
      refine ⟨hr, ?_⟩
      rw [hr, List.append_nil] at hsplit
      rw [splitParts, if_neg, hsplit]
      simp only [List.any_eq_true, not_exists, not_and]
      intro c hc
      rw [← hsplit] at hc
      have := List.all_eq_true.mp List.all_takeWhile c hc
      simpa using this
    · right
      have hhead : ∀ c, ((trimStart t).dropWhile (fun c => !isWs c)).head? = some c → White c := by
        intro c hc
        have := List.head?_dropWhile_not (fun c => !isWs c) (trimStart t)
        rw [hc] at this
        simp only at this
        rw [← isWs_iff]; simpa using this
      refine ⟨hr, hhead, ?_, ?_⟩
      · intro c hc
        apply ht c
        rw [e0, ← hsplit, List.getLast?_append, List.getLast?_append, hc]
        rfl
      · rw [splitParts, if_pos]
        cases hd : (trimStart t).dropWhile (fun c => !isWs c) with
        | nil => exact absurd hd hr
        | cons c cs =>
          simp only [List.any_eq_true]
          refine ⟨c, ?_, (isWs_iff c).mpr (hhead c (by rw [hd]; rfl))⟩
          rw [← hsplit, hd]; simp

/-! ## Lines -/

theorem head_sep {w s : Text} (h : Sep w) : w ++ s ≠ [] ∧ ∀ c, (w ++ s).head? = some c → White c := by
  obtain ⟨h1, h2⟩ := h
  cases w with
  | nil => exact absurd rfl h1
  | cons d ds =>
    refine ⟨by simp, ?_⟩
    intro c hc
    simp at hc
    exact hc ▸ h2 d (by simp)

theorem Spec.Sep.run {w : Text} (h : Sep w) : Run w := h.2

theorem Spec.Word.isEmpty {w : Text} (h : Word w) : w.isEmpty = false := by
  cases w with
  | nil => exact absurd rfl h.1
  | cons => rfl

theorem Spec.Word.last {w : Text} (h : Word w) : ∀ c, w.getLast? = some c → ¬ White c :=
  fun c hc => h.2 c (List.mem_of_getLast? hc)

theorem last_append {s t : Text} (ht : t ≠ []) (h : ∀ c, t.getLast? = some c → ¬ White c) :
    ∀ c, (s ++ t).getLast? = some c → ¬ White c := by
  intro c hc
  rw [List.getLast?_append] at hc
  cases hl : t.getLast? with
  | none => exact absurd (by simpa using hl) ht
  | some d => rw [hl] at hc; simp at hc; exact hc ▸ h d hl

/-- A line of five words, with white space around and between them. -/
theorem parse_five {w0 a w1 b w2 c w3 d w4 e w5 : Text} (h0 : Run w0) (ha : Word a) (h1 : Sep w1) (hb : Word b)
    (h2 : Sep w2) (hc : Word c) (h3 : Sep w3) (hd : Word d) (h4 : Sep w4) (he : Word e) (h5 : Run w5) :
    parseLine (w0 ++ (a ++ (w1 ++ (b ++ (w2 ++ (c ++ (w3 ++ (d ++ (w4 ++ (e ++ w5)))))))))) =
      parseFields [a, b, c, d, e] := by
  have ht : trimEnd (w0 ++ (a ++ (w1 ++ (b ++ (w2 ++ (c ++ (w3 ++ (d ++ (w4 ++ (e ++ w5)))))))))) =
      w0 ++ (a ++ (w1 ++ (b ++ (w2 ++ (c ++ (w3 ++ (d ++ (w4 ++ e)))))))) := by
    rw [show w0 ++ (a ++ (w1 ++ (b ++ (w2 ++ (c ++ (w3 ++ (d ++ (w4 ++ (e ++ w5))))))))) =
      (w0 ++ (a ++ (w1 ++ (b ++ (w2 ++ (c ++ (w3 ++ (d ++ (w4 ++ e))))))))) ++ w5 by simp, trimEnd_run h5]
    rw [show w0 ++ (a ++ (w1 ++ (b ++ (w2 ++ (c ++ (w3 ++ (d ++ (w4 ++ e)))))))) =
      (w0 ++ (a ++ (w1 ++ (b ++ (w2 ++ (c ++ (w3 ++ (d ++ w4)))))))) ++ e by simp]
    exact trimEnd_id (last_append he.1 he.last)
  unfold parseLine splitN
  rw [ht, split_step h0 ha (head_sep h1).1 (head_sep h1).2,
    split_step h1.run hb (head_sep h2).1 (head_sep h2).2,
    split_step h2.run hc (head_sep h3).1 (head_sep h3).2,
    split_step h3.run hd (head_sep h4).1 (head_sep h4).2,
    split_word h4.run he]
  simp [List.filter_cons, ha.isEmpty, hb.isEmpty, hc.isEmpty, hd.isEmpty, he.isEmpty]

/-- A line of five words and a rest that neither begins nor ends with white space. -/
theorem parse_six {w0 a w1 b w2 c w3 d w4 e w5 p w6 : Text} (h0 : Run w0) (ha : Word a) (h1 : Sep w1) (hb : Word b)
    (h2 : Sep w2) (hc : Word c) (h3 : Sep w3) (hd : Word d) (h4 : Sep w4) (he : Word e) (h5 : Sep w5)
    (hp : p ≠ []) (hp' : Trimmed p) (h6 : Run w6) :
    parseLine (w0 ++ (a ++ (w1 ++ (b ++ (w2 ++ (c ++ (w3 ++ (d ++ (w4 ++ (e ++ (w5 ++ (p ++ w6)))))))))))) =
      parseFields [a, b, c, d, e, p] := by
  have ht : trimEnd (w0 ++ (a ++ (w1 ++ (b ++ (w2 ++ (c ++ (w3 ++ (d ++ (w4 ++ (e ++ (w5 ++ (p ++ w6)))))))))))) =
      w0 ++ (a ++ (w1 ++ (b ++ (w2 ++ (c ++ (w3 ++ (d ++ (w4 ++ (e ++ (w5 ++ p)))))))))) := by
    rw [show w0 ++ (a ++ (w1 ++ (b ++ (w2 ++ (c ++ (w3 ++ (d ++ (w4 ++ (e ++ (w5 ++ (p ++ w6))))))))))) =
      (w0 ++ (a ++ (w1 ++ (b ++ (w2 ++ (c ++ (w3 ++ (d ++ (w4 ++ (e ++ (w5 ++ p))))))))))) ++ w6 by simp, trimEnd_run h6]
    rw [show w0 ++ (a ++ (w1 ++ (b ++ (w2 ++ (c ++ (w3 ++ (d ++ (w4 ++ (e ++ (w5 ++ p)))))))))) =
      (w0 ++ (a ++ (w1 ++ (b ++ (w2 ++ (c ++ (w3 ++ (d ++ (w4 ++ (e ++ w5)))))))))) ++ p by simp]
    exact trimEnd_id (last_append hp hp'.2)
  unfold parseLine splitN
  rw [ht, split_step h0 ha (head_sep h1).1 (head_sep h1).2,
    split_step h1.run hb (head_sep h2).1 (head_sep h2).2,
    split_step h2.run hc (head_sep h3).1 (head_sep h3).2,
    split_step h3.run hd (head_sep h4).1 (head_sep h4).2,
    split_step h4.run he (head_sep h5).1 (head_sep h5).2]
  have hp1 : p.isEmpty = false := by
    cases p with
    | nil => exact absurd rfl hp
    | cons => rfl
  rw [splitParts, trimStart_run h5.run, trimStart_id hp'.1]
  simp [List.filter_cons, ha.isEmpty, hb.isEmpty, hc.isEmpty, hd.isEmpty, he.isEmpty, hp1]

/-! ### Numbers -/

theorem parseUInt_iff (radix bits : Nat) (s : Text) (v : Nat) (hr : radix ≤ 16) :
    parseUInt radix bits s = some v ↔ Numeral radix bits s v := by
  have hplus : ∀ (acc : Nat) (t : Text), parseDigits radix acc ('+' :: t) = none := by
    intro acc t
    have : digitVal radix '+' = none := by
      unfold digitVal; simp
    rw [parseDigits, this]
  unfold parseUInt Numeral
  by_cases hp : s.head? = some '+'
  · rw [if_pos hp]
    cases s with
    | nil => simp at hp
    | cons c cs =>
      simp only [List.head?_cons, Option.some.injEq] at hp
      subst hp
      simp only [List.tail_cons]
      constructor
      · intro h
        cases cs with
        | nil => simp at h
        | cons d ds =>
          simp only at h
          cases hd : parseDigits radix 0 (d :: ds) with
          | none => rw [hd] at h; simp at h
          | some n =>
            rw [hd] at h
            simp only at h
            split at h
            · rename_i hlt
              cases h
              exact ⟨d :: ds, Or.inr rfl, by simp, hd, hlt⟩
            · cases h
      · rintro ⟨ds, h1, h2, h3, h4⟩
        rcases h1 with h1 | h1
        · rw [← h1, hplus] at h3; cases h3
        · simp only [List.cons.injEq, true_and] at h1
          subst h1
          cases cs with
          | nil => exact absurd rfl h2
          | cons d ds => simp only; rw [h3]; simp only; rw [if_pos h4]
  · rw [if_neg hp]
    constructor
    · intro h
      cases s with
      | nil => simp at h
      | cons d ds =>
        simp only at h
        cases hd : parseDigits radix 0 (d :: ds) with
        | none => rw [hd] at h; simp at h
        | some n =>
          rw [hd] at h
          simp only at h
          split at h
          · rename_i hlt
            cases h
            exact ⟨d :: ds, Or.inl rfl, by simp, hd, hlt⟩
          · cases h
    · rintro ⟨ds, h1, h2, h3, h4⟩
      rcases h1 with h1 | h1
      · subst h1
        cases s with
        | nil => exact absurd rfl h2
        | cons d ds => simp only; rw [h3]; simp only; rw [if_pos h4]
      · rw [h1] at hp; simp at hp

theorem parseDigits_zeros (z : Nat) (s : Text) : parseDigits 16 0 (List.replicate z '0' ++ s) = parseDigits 16 0 s := by
  induction z with
  | zero => rfl
  | succ z ih =>
    have : digitVal 16 '0' = some 0 := by decide
    simp only [List.replicate_succ, List.cons_append, parseDigits, this]
    simpa using ih

theorem numeral_hex (z n : Nat) (h : n < 2 ^ 64) : parseUInt 16 64 (hex z n) = some n := by
  rw [parseUInt_iff _ _ _ _ (by omega)]
  refine ⟨hex z n, Or.inl rfl, ?_, ?_, h⟩
  · intro hn
    exact render_ne_nil 16 n (List.append_eq_nil_iff.mp hn).2
  · unfold hex
    rw [parseDigits_zeros]
    exact parseDigits_render 16 n (by omega) (by omega)

theorem digit_plain (d : Nat) (h : d < 16) : ¬ White (digitChar d) ∧ digitChar d ≠ '-' ∧ digitChar d ≠ '/' := by
  have : ∀ d : Fin 16, isWs (digitChar d.val) = false ∧ digitChar d.val ≠ '-' ∧ digitChar d.val ≠ '/' := by decide +kernel
  have h' := this ⟨d, h⟩
  exact ⟨(isWs_false _).mp h'.1, h'.2⟩

theorem hex_plain (z n : Nat) : ∀ c ∈ hex z n, ¬ White c ∧ c ≠ '-' := by
  intro c hc
  unfold hex at hc
  rcases List.mem_append.mp hc with hc | hc
  · rw [(List.mem_replicate.mp hc).2, ← isWs_false]
    decide
  · obtain ⟨d, hd, rfl⟩ := mem_render 16 n (by omega) (by omega) c hc
    exact ⟨(digit_plain d hd).1, (digit_plain d hd).2.1⟩

theorem hex_word (z n : Nat) : Word (hex z n) :=
  ⟨fun h => render_ne_nil 16 n (List.append_eq_nil_iff.mp h).2, fun c hc => (hex_plain z n c hc).1⟩

theorem dec_word (n : Nat) : Word (render 10 n) := by
  refine ⟨render_ne_nil 10 n, ?_⟩
  intro c hc
  obtain ⟨d, hd, rfl⟩ := mem_render 10 n (by omega) (by omega) c hc
  exact (digit_plain d (by omega)).1

theorem word_append {a b : Text} {x : Char} (ha : Word a) (hb : Word b) (hx : ¬ White x) : Word (a ++ x :: b) := by
  refine ⟨by simp, ?_⟩
  intro c hc
  rcases List.mem_append.mp hc with hc | hc
  · exact ha.2 c hc
  · rcases List.mem_cons.mp hc with rfl | hc
    · exact hx
    · exact hb.2 c hc

theorem parseRange_hex (z y a b : Nat) (ha : a < 2 ^ 64) (hb : b < 2 ^ 64) :
    parseRange (hex z a ++ '-' :: hex y b) = some (a, b) := by
  have h1 : ∀ c ∈ hex z a, decide (c = '-') = false := fun c hc => by simp [(hex_plain z a c hc).2]
  have h2 : ∀ c ∈ hex y b, decide (c = '-') = false := fun c hc => by simp [(hex_plain y b c hc).2]
  unfold parseRange
  rw [splitBy_append_sep _ _ _ _ h1 (by decide), splitBy_none _ _ h2]
  simp only
  rw [numeral_hex z a ha, numeral_hex y b hb]

theorem sep_space : Sep [' '] := ⟨by simp, by intro c hc; simp at hc; subst hc; exact Or.inl rfl⟩

theorem sep_spaces (n : Nat) : Sep (' ' :: List.replicate n ' ') := by
  refine ⟨by simp, ?_⟩
  intro c hc
  rcases List.mem_cons.mp hc with rfl | hc
  · exact Or.inl rfl
  · rw [(List.mem_replicate.mp hc).2]; exact Or.inl rfl

theorem run_nil : Run [] := by simp [Run]

theorem device_word (pad : Pads) (m : Mapping) : Word (device pad m) :=
  word_append (hex_word _ _) (hex_word _ _) (by rw [← isWs_false]; decide)

/-- How a line of the kernel is split. -/
theorem line_fields (pad : Pads) (m : Mapping) (hf : Fits m) (hp : Trimmed m.path) :
    parseLine (line pad m) = parseFields ([hex pad.a m.start ++ '-' :: hex pad.b m.stop, m.perms,
      hex pad.off m.offset, device pad m, render 10 m.inode] ++ if m.path = [] then [] else [m.path]) := by
  obtain ⟨h1, h2, h3, h4, h5⟩ := hf
  have hr : Word (hex pad.a m.start ++ '-' :: hex pad.b m.stop) :=
    word_append (hex_word _ _) (hex_word _ _) (by rw [← isWs_false]; decide)
  by_cases hpath : m.path = []
  · have e := parse_five run_nil hr sep_space ⟨h4, h5⟩ sep_space (hex_word pad.off m.offset) sep_space
      (device_word pad m) sep_space (dec_word m.inode) (sep_spaces pad.spaces).run
    rw [if_pos hpath, List.append_nil, ← e]
    unfold line
    rw [hpath]
    simp
  · have e := parse_six run_nil hr sep_space ⟨h4, h5⟩ sep_space (hex_word pad.off m.offset) sep_space
      (device_word pad m) sep_space (dec_word m.inode) (sep_spaces pad.spaces) hpath hp run_nil
    rw [if_neg hpath]
    simp only [List.cons_append, List.nil_append] at *
    rw [← e]
    unfold line
    simp

/-- **C48 (partial)** A line the kernel prints parses to the range, the permissions, the offset, the device, the
inode and the path of the mapping, if the inode number fits into 32 bits and the path does not begin or end with white
space (it may contain any). -/
theorem C48_kernel_line_partial (pad : Pads) (m : Mapping) (hf : Fits m) (hi : m.inode < 2 ^ 32) (hp : Trimmed m.path) :
    parseLine (line pad m) = some ⟨m.start, m.stop, m.perms, m.offset, device pad m, m.inode,
      if m.path = [] then none else some m.path⟩ := by
  rw [line_fields pad m hf hp]
  have h1 := parseRange_hex pad.a pad.b m.start m.stop hf.1 hf.2.1
  have h2 := numeral_hex pad.off m.offset hf.2.2.1
  have h3 := parseUInt_render 10 32 m.inode (by omega) (by omega) hi
  by_cases hpath : m.path = []
  · rw [if_pos hpath, if_pos hpath]
    simp only [List.append_nil, parseFields, h1, h2, h3]
  · rw [if_neg hpath, if_neg hpath]
    simp only [List.cons_append, List.nil_append, parseFields, h1, h2, h3]

/-- **C48 (refuted in general)** A line with an inode number of more than 32 bits is refused, whatever else it
says. File systems such as btrfs, XFS and overlayfs have such numbers. -/
theorem C48_inode_violated (pad : Pads) (m : Mapping) (hf : Fits m) (hp : Trimmed m.path) (hi : 2 ^ 32 ≤ m.inode) :
    parseLine (line pad m) = none := by
  rw [line_fields pad m hf hp]
  have h3 : parseUInt 10 32 (render 10 m.inode) = none := by
    cases h : parseUInt 10 32 (render 10 m.inode) with
    | none => rfl
    | some v =>
      obtain ⟨ds, h1, h2, h3, h4⟩ := (parseUInt_iff 10 32 _ v (by omega)).mp h
      have hd := parseDigits_render 10 m.inode (by omega) (by omega)
      rcases h1 with h1 | h1
      · rw [← h1, hd] at h3
        have := Option.some.inj h3
        omega
      · rw [h1, parseDigits] at hd
        have : digitVal 10 '+' = none := by decide
        rw [this] at hd
        cases hd
  have h1 := parseRange_hex pad.a pad.b m.start m.stop hf.1 hf.2.1
  have h2 := numeral_hex pad.off m.offset hf.2.2.1
  by_cases hpath : m.path = []
  · rw [if_pos hpath]
    simp only [List.append_nil, parseFields, h1, h2, h3]
  · rw [if_neg hpath]
    simp only [List.cons_append, List.nil_append, parseFields, h1, h2, h3]

theorem splitParts_ne_empty : ∀ (n : Nat) (t : Text), t ≠ [] → (∀ c, t.getLast? = some c → ¬ White c) →
    ∀ p ∈ splitParts n t, p ≠ []
  | 0, t, _, _ => by simp [splitParts]
  | 1, t, hne, ht => by
    intro p hp
    obtain ⟨w0, h0, e0, hh⟩ := trimStart_spec t
    simp only [splitParts, List.mem_singleton] at hp
    subst hp
    intro hn
    rw [hn, List.append_nil] at e0
    cases hl : t.getLast? with
    | none => exact hne (by simpa using hl)
    | some c => exact ht c hl (h0 c (e0 ▸ List.mem_of_getLast? hl))
  | n + 2, t, hne, ht => by
    obtain ⟨w0, w, rest, h0, hw, e, h | h⟩ := split_cases n hne ht
    · rw [h.2]
      intro p hp
      simp only [List.mem_singleton] at hp
      exact hp ▸ hw.1
    · obtain ⟨h1, h2, h3, h4⟩ := h
      rw [h4]
      intro p hp
      rcases List.mem_cons.mp hp with rfl | hp
      · exact hw.1
      · exact splitParts_ne_empty (n + 1) rest h1 h3 p hp

theorem parseRange_some {s : Text} {x y : Nat} (h : parseRange s = some (x, y)) :
    ∃ a b, s = a ++ '-' :: b ∧ Numeral 16 64 a x ∧ Numeral 16 64 b y := by
  unfold parseRange at h
  split at h
  · rename_i a b hab
    cases ha : parseUInt 16 64 a with
    | none => rw [ha] at h; simp at h
    | some x' =>
      cases hb : parseUInt 16 64 b with
      | none => rw [ha, hb] at h; simp at h
      | some y' =>
        rw [ha, hb] at h
        simp only [Option.some.injEq, Prod.mk.injEq] at h
        obtain ⟨rfl, rfl⟩ := h
        refine ⟨a, b, ?_, (parseUInt_iff 16 64 a x' (by omega)).mp ha, (parseUInt_iff 16 64 b y' (by omega)).mp hb⟩
        have := joinWith_splitBy '-' s
        have e : (fun c => decide (c = '-')) = (fun c : Char => c == '-') := by
          funext c; simp [BEq.beq]
        rw [e] at hab
        rw [hab] at this
        simpa [joinWith] using this.symm
  · cases h

theorem numeral_no_dash {s : Text} {v : Nat} (h : Numeral 16 64 s v) : '-' ∉ s := by
  obtain ⟨ds, h1, h2, h3, h4⟩ := h
  have key : ∀ (l : Text) (acc v : Nat), parseDigits 16 acc l = some v → '-' ∉ l := by
    intro l
    induction l with
    | nil => simp
    | cons c cs ih =>
      intro acc v h hm
      rw [parseDigits] at h
      cases hd : digitVal 16 c with
      | none => rw [hd] at h; cases h
      | some d =>
        rw [hd] at h
        rcases List.mem_cons.mp hm with rfl | hm
        · have : digitVal 16 '-' = none := by decide
          rw [this] at hd; cases hd
        · exact ih _ _ h hm
  rcases h1 with rfl | rfl
  · exact key _ _ _ h3
  · intro hm
    rcases List.mem_cons.mp hm with h | hm
    · cases h
    · exact key _ _ _ h3 hm

theorem parseRange_iff {a b : Text} {x y : Nat} (ha : Numeral 16 64 a x) (hb : Numeral 16 64 b y) :
    parseRange (a ++ '-' :: b) = some (x, y) := by
  unfold parseRange
  rw [splitBy_append_sep _ _ _ _ (fun c hc => by simp; rintro rfl; exact numeral_no_dash ha hc) (by decide),
    splitBy_none _ _ (fun c hc => by simp; rintro rfl; exact numeral_no_dash hb hc)]
  simp only
  rw [(parseUInt_iff 16 64 a x (by omega)).mpr ha, (parseUInt_iff 16 64 b y (by omega)).mpr hb]

theorem numeral_word {r : Nat} {bits : Nat} {s : Text} {v : Nat} (hr : r ≤ 16) (h : Numeral r bits s v) : s ≠ [] := by
  obtain ⟨ds, h1, h2, _⟩ := h
  rcases h1 with rfl | rfl
  · exact h2
  · simp

/-- **C48** A line is accepted exactly if it has the shape of a mapping, and then the fields are those of the shape:
everything else is refused. -/
theorem C48_accepted_iff (l : Text) (e : Entry) :
    parseLine l = some e ↔ Shape l e.address e.addressEnd e.perms e.offset e.dev e.inode e.path := by
  constructor
  · intro h
    obtain ⟨w6, h6, hl, hlast⟩ := trimEnd_spec l
    unfold parseLine splitN at h
    generalize trimEnd l = t at h hl hlast
    have hne : t ≠ [] := by
      rintro rfl
      simp [splitParts, trimStart, parseFields] at h
    have hfil : (splitParts 6 t).filter (fun p => !p.isEmpty) = splitParts 6 t := by
      apply List.filter_eq_self.mpr
      intro p hp
      have := splitParts_ne_empty 6 t hne hlast p hp
      cases p with
      | nil => exact absurd rfl this
      | cons => rfl
    rw [hfil] at h
    obtain ⟨w0, a, r1, h0, ha, e0, ⟨_, s0⟩ | ⟨n1, f1, l1, s0⟩⟩ := split_cases 4 hne hlast
    · rw [s0] at h; simp [parseFields] at h
    obtain ⟨w1, b, r2, h1, hb, e1, ⟨_, s1⟩ | ⟨n2, f2, l2, s1⟩⟩ := split_cases 3 n1 l1
    · rw [s0, s1] at h; simp [parseFields] at h
    obtain ⟨w2, c, r3, h2, hc, e2, ⟨_, s2⟩ | ⟨n3, f3, l3, s2⟩⟩ := split_cases 2 n2 l2
    · rw [s0, s1, s2] at h; simp [parseFields] at h
    obtain ⟨w3, d, r4, h3, hd, e3, ⟨_, s3⟩ | ⟨n4, f4, l4, s3⟩⟩ := split_cases 1 n3 l3
    · rw [s0, s1, s2, s3] at h; simp [parseFields] at h
    have sepOf : ∀ {r w x : Text}, Run w → Word x → (∀ c, r.head? = some c → White c) →
        (∃ y, r = w ++ (x ++ y)) → Sep w := by
      intro r w x hw hx hf ⟨y, hr⟩
      refine ⟨?_, hw⟩
      rintro rfl
      cases x with
      | nil => exact hx.1 rfl
      | cons z zs => exact hx.2 z (by simp) (hf z (by rw [hr]; rfl))
    obtain ⟨w4, i, r5, h4, hi, e4, ⟨hr5, s4⟩ | ⟨n5, f5, l5, s4⟩⟩ := split_cases 0 n4 l4
    · rw [s0, s1, s2, s3, s4] at h
      simp only [parseFields] at h
      cases hx : parseRange a with
      | none => rw [hx] at h; simp at h
      | some xy =>
        obtain ⟨x, y⟩ := xy
        cases ho : parseUInt 16 64 c with
        | none => rw [hx, ho] at h; simp at h
        | some o =>
          cases hn : parseUInt 10 32 i with
          | none => rw [hx, ho, hn] at h; simp at h
          | some n =>
            rw [hx, ho, hn] at h
            simp only [Option.some.injEq] at h
            subst h
            obtain ⟨a1, a2, ea, na1, na2⟩ := parseRange_some hx
            refine ⟨w0, a1, a2, w1, w2, c, w3, w4, i, w6, ?_, h0, sepOf h1 hb f1 ⟨_, e1⟩, sepOf h2 hc f2 ⟨_, e2⟩,
              sepOf h3 hd f3 ⟨_, e3⟩, sepOf h4 hi f4 ⟨_, e4⟩, ea ▸ ha, hb, hc, hd, hi, na1, na2,
              (parseUInt_iff 16 64 c o (by omega)).mp ho, (parseUInt_iff 10 32 i n (by omega)).mp hn, Or.inl ⟨h6, rfl⟩⟩
            rw [hl, e0, e1, e2, e3, e4, hr5, ea]
            simp
    · rw [s0, s1, s2, s3, s4] at h
      obtain ⟨w5, h5, e5, hp5⟩ := trimStart_spec r5
      simp only [parseFields, splitParts] at h
      cases hx : parseRange a with
      | none => rw [hx] at h; simp at h
      | some xy =>
        obtain ⟨x, y⟩ := xy
        cases ho : parseUInt 16 64 c with
        | none => rw [hx, ho] at h; simp at h
        | some o =>
          cases hn : parseUInt 10 32 i with
          | none => rw [hx, ho, hn] at h; simp at h
          | some n =>
            rw [hx, ho, hn] at h
            simp only [Option.some.injEq] at h
            subst h
            obtain ⟨a1, a2, ea, na1, na2⟩ := parseRange_some hx
            have hpne : trimStart r5 ≠ [] := splitParts_ne_empty 1 r5 n5 l5 _ (by simp [splitParts])
            have hsep5 : Sep w5 := by
              refine ⟨?_, h5⟩
              rintro rfl
              cases hq : trimStart r5 with
              | nil => exact hpne hq
              | cons z zs =>
                exact hp5 z (by rw [hq]; rfl) (f5 z (by rw [e5, hq]; rfl))
            refine ⟨w0, a1, a2, w1, w2, c, w3, w4, i, w5 ++ (trimStart r5 ++ w6), ?_, h0, sepOf h1 hb f1 ⟨_, e1⟩,
              sepOf h2 hc f2 ⟨_, e2⟩, sepOf h3 hd f3 ⟨_, e3⟩, sepOf h4 hi f4 ⟨_, e4⟩, ea ▸ ha, hb, hc, hd, hi, na1, na2,
              (parseUInt_iff 16 64 c o (by omega)).mp ho, (parseUInt_iff 10 32 i n (by omega)).mp hn,
              Or.inr ⟨w5, trimStart r5, w6, rfl, hsep5, hpne, ⟨hp5, ?_⟩, h6, rfl⟩⟩
            · rw [hl, e0, e1, e2, e3, e4, ea]
              conv => lhs; rw [e5]
              simp
            · intro z hz
              apply l5 z
              rw [e5, List.getLast?_append, hz]; rfl
  · rintro ⟨w0, a1, a2, w1, w2, c, w3, w4, i, tail, hl, h0, h1, h2, h3, h4, ha, hb, hc, hd, hi, na1, na2, no, nn, ht⟩
    have r1 := parseRange_iff na1 na2
    have r2 := (parseUInt_iff 16 64 c _ (by omega)).mpr no
    have r3 := (parseUInt_iff 10 32 i _ (by omega)).mpr nn
    rcases ht with ⟨h5, hp⟩ | ⟨w5, p, w6, ht, h5, hpne, hptr, h6, hp⟩
    · have := parse_five h0 ha h1 hb h2 hc h3 hd h4 hi h5
      rw [hl, this]
      simp only [parseFields, r1, r2, r3]
      cases e; simp_all
    · have := parse_six h0 ha h1 hb h2 hc h3 hd h4 hi h5 hpne hptr h6
      rw [hl, ht, this]
      simp only [parseFields, r1, r2, r3]
      cases e; simp_all

/-- Two mappings as the kernel prints them: a library whose path has spaces, and a big inode number. -/
def exMapping : Mapping :=
  ⟨0x7fcd7f7f2000, 0x7fcd7f814000, "r-xp".toList, 0x28000, 0xfd, 1, 3147, "/opt/my app/libfoo.so.1".toList⟩

example : Fits exMapping ∧ Trimmed exMapping.path ∧ exMapping.inode < 2 ^ 32 := by
  refine ⟨⟨by decide, by decide, by decide, by decide, ?_⟩, ⟨?_, ?_⟩, by decide⟩
  · intro c hc; rw [← isWs_false]; revert c; decide
  · intro c hc
    simp only [exMapping] at hc
    rw [show "/opt/my app/libfoo.so.1".toList.head? = some '/' by decide +kernel] at hc
    cases hc
    rw [← isWs_false]; decide
  · intro c hc
    simp only [exMapping] at hc
    rw [show "/opt/my app/libfoo.so.1".toList.getLast? = some '1' by decide +kernel] at hc
    cases hc
    rw [← isWs_false]; decide

example : line ⟨0, 0, 3, 0, 1, 5⟩ exMapping =
    "7fcd7f7f2000-7fcd7f814000 r-xp 00028000 fd:01 3147      /opt/my app/libfoo.so.1".toList ∧
    parseLine (line ⟨0, 0, 3, 0, 1, 5⟩ exMapping) = some ⟨0x7fcd7f7f2000, 0x7fcd7f814000, "r-xp".toList, 0x28000,
      "fd:01".toList, 3147, some "/opt/my app/libfoo.so.1".toList⟩ ∧
    parseLine (line ⟨0, 0, 3, 0, 1, 5⟩ { exMapping with inode := 2 ^ 32 }) = none := by decide +kernel

/-- **C48 (refuted in general)** The path of a file whose name ends with a space is returned without it. -/
theorem C48_trailing_space_violated :
    parseLine (line ⟨0, 0, 3, 0, 1, 5⟩ { exMapping with path := "/tmp/lib ".toList }) =
      some ⟨0x7fcd7f7f2000, 0x7fcd7f814000, "r-xp".toList, 0x28000, "fd:01".toList, 3147, some "/tmp/lib".toList⟩ := by
  decide +kernel

end Verif.UProbe
