import Verif.Probe.Spec
/-!
# Lemmas on the text of definitions and files
-/
set_option linter.unusedSimpArgs false
set_option linter.unusedVariables false
namespace Verif.Probe
open Verif.Str
open Verif.Probe.Spec (MadeBy Plain Symbol)

/-! ## Digits -/

theorem digit_facts (d : Nat) (h : d < 16) : asciiWs (digitChar d) = false ∧ digitChar d ≠ '\x0b' ∧ digitChar d ≠ '_' ∧
    digitChar d ≠ ':' ∧ digitChar d ≠ '+' ∧ digitChar d ≠ 'x' ∧ digitChar d ≠ '/' ∧ Spec.blank (digitChar d) = false ∧
    (Spec.letter (digitChar d) || (digitChar d).isDigit) = true := by
  have : ∀ d < 16, asciiWs (digitChar d) = false ∧ digitChar d ≠ '\x0b' ∧ digitChar d ≠ '_' ∧
    digitChar d ≠ ':' ∧ digitChar d ≠ '+' ∧ digitChar d ≠ 'x' ∧ digitChar d ≠ '/' ∧ Spec.blank (digitChar d) = false ∧
    (Spec.letter (digitChar d) || (digitChar d).isDigit) = true := by decide
  exact this d h

/-- Every character of a number is a digit. -/
theorem render_digits (radix n : Nat) (h2 : 2 ≤ radix) (hr : radix ≤ 16) : ∀ c ∈ render radix n, ∃ d < radix, c = digitChar d := by
  induction n using Nat.strongRecOn with
  | ind n ih =>
    intro c hc
    rw [render] at hc
    split at hc
    · rename_i h
      rcases List.mem_append.mp hc with hc | hc
      · exact ih (n / radix) (Nat.div_lt_self (by omega) (by omega)) c hc
      · rw [List.mem_singleton] at hc
        exact ⟨n % radix, Nat.mod_lt _ (by omega), hc⟩
    · rename_i h
      rw [List.mem_singleton] at hc
      exact ⟨n, by omega, hc⟩

theorem render_no (radix n : Nat) (h2 : 2 ≤ radix) (hr : radix ≤ 16) (p : Char → Prop) (hp : ∀ d < 16, p (digitChar d)) :
    ∀ c ∈ render radix n, p c := by
  intro c hc
  obtain ⟨d, hd, rfl⟩ := render_digits radix n h2 hr c hc
  exact hp d (by omega)

theorem render_inj (radix a b : Nat) (h2 : 2 ≤ radix) (hr : radix ≤ 16) (h : render radix a = render radix b) : a = b := by
  have h1 := parseDigits_render radix a h2 hr
  have h3 := parseDigits_render radix b h2 hr
  rw [h, h3] at h1
  exact (Option.some.inj h1).symm

/-- A decimal number of more than one digit does not begin with a zero. -/
theorem render_head (n : Nat) : (render 10 n).length = 1 ∨ (render 10 n).head? ≠ some '0' := by
  induction n using Nat.strongRecOn with
  | ind n ih =>
    rw [render]
    split
    · rename_i h
      rcases ih (n / 10) (Nat.div_lt_self (by omega) (by omega)) with hl | hl
      · right
        obtain ⟨c, hc⟩ := List.length_eq_one_iff.mp hl
        rw [hc]
        show some c ≠ some '0'
        have : n / 10 < 10 := by
          by_cases hlt : n / 10 < 10
          · exact hlt
          · rw [render, dif_pos ⟨by omega, by omega⟩] at hl
            have h0 := List.length_pos_iff.mpr (render_ne_nil 10 (n / 10 / 10))
            rw [List.length_append, List.length_singleton] at hl
            omega
        rw [render, dif_neg (by omega)] at hc
        injection hc with hc
        have key : ∀ d < 10, 0 < d → digitChar d ≠ '0' := by decide
        have := key (n / 10) this (by omega)
        rw [← hc]
        intro hcontra
        exact this (Option.some.inj hcontra)
      · right
        obtain ⟨c, cs, hc⟩ := List.exists_cons_of_ne_nil (render_ne_nil 10 (n / 10))
        rw [hc] at hl ⊢
        exact hl
    · left; rfl

theorem number_dec (n : Nat) : Spec.number (render 10 n) = some n := by
  have hp := parseDigits_render 10 n (by omega) (by omega)
  rcases render_head n with h | h
  · obtain ⟨c, hc⟩ := List.length_eq_one_iff.mp h
    rw [hc] at hp ⊢
    rw [Spec.number]
    · exact hp
    all_goals intros; simp_all
  · rw [Spec.number]
    · exact hp
    · exact render_ne_nil 10 n
    all_goals (intros; simp_all)

theorem number_hex (n : Nat) : Spec.number ('0' :: 'x' :: render 16 n) = some n := by
  have hp := parseDigits_render 16 n (by omega) (by omega)
  obtain ⟨c, cs, hc⟩ := List.exists_cons_of_ne_nil (render_ne_nil 16 n)
  rw [hc] at hp ⊢
  simpa [Spec.number] using hp

/-! ## Numbers in files -/

theorem dropWhile_none {α : Type} (p : α → Bool) (l : List α) (h : ∀ x, l.head? = some x → p x = false) : l.dropWhile p = l := by
  cases l with
  | nil => rfl
  | cons a as => rw [List.dropWhile_cons_of_neg]; simp [h a rfl]

/-- Trimming text that ends in a newline and has no white space at its ends. -/
theorem trim_line (t : Text) (hne : t ≠ []) (h : ∀ c ∈ t, asciiWs c = false ∧ c ≠ '\x0b') : trim (t ++ ['\n']) = t := by
  unfold trim
  simp only
  have h1 : (t ++ ['\n']).dropWhile (fun c => asciiWs c || c = '\x0b') = t ++ ['\n'] := by
    apply dropWhile_none
    intro x hx
    obtain ⟨y, ys, rfl⟩ := List.exists_cons_of_ne_nil hne
    simp only [List.cons_append, List.head?_cons, Option.some.injEq] at hx
    have := h y List.mem_cons_self
    subst hx
    simp [this]
  rw [h1, List.reverse_append, List.reverse_singleton, List.singleton_append, List.dropWhile_cons_of_pos (by decide), dropWhile_none,
    List.reverse_reverse]
  intro x hx
  rw [List.head?_reverse] at hx
  have := h x (List.mem_of_getLast? hx)
  simp [this]

theorem parseUInt_eq (bits n m : Nat) (h : parseUInt 10 bits (render 10 n) = some m) : m = n := by
  unfold parseUInt at h
  have hh : (render 10 n).head? ≠ some '+' := by
    intro hc
    have := render_no 10 n (by omega) (by omega) (· ≠ '+') (fun d hd => (digit_facts d hd).2.2.2.2.1) '+' (List.mem_of_mem_head? hc)
    exact this rfl
  rw [if_neg hh] at h
  obtain ⟨c, cs, hc⟩ := List.exists_cons_of_ne_nil (render_ne_nil 10 n)
  have hp := parseDigits_render 10 n (by omega) (by omega)
  rw [hc] at h hp
  simp only [hp] at h
  split at h
  · exact (Option.some.inj h).symm
  · cases h

theorem parse_line (bits n m : Nat) (h : parseUInt 10 bits (trim (render 10 n ++ ['\n'])) = some m) : m = n := by
  rw [trim_line _ (render_ne_nil 10 n)] at h
  · exact parseUInt_eq bits n m h
  · exact render_no 10 n (by omega) (by omega) _ (fun d hd => ⟨(digit_facts d hd).1, (digit_facts d hd).2.1⟩)

theorem parse_config (n m : Nat) (h : (afterColon (trim ("config:".toList ++ render 10 n ++ ['\n']))).bind (parseUInt 10 32) = some m) :
    m = n := by
  rw [trim_line] at h
  · simp [afterColon] at h
    exact parseUInt_eq 32 n m h
  · simp
  · intro c hc
    rcases List.mem_append.mp hc with hc | hc
    · exact (by decide : ∀ c ∈ "config:".toList, asciiWs c = false ∧ c ≠ '\x0b') c hc
    · exact render_no 10 n (by omega) (by omega) (fun c => asciiWs c = false ∧ c ≠ '\x0b')
        (fun d hd => ⟨(digit_facts d hd).1, (digit_facts d hd).2.1⟩) c hc

/-! ## Paths -/

theorem join_plain (a b : Text) (ha : a.getLast? ≠ some '/') (hb : b.head? ≠ some '/') : join a b = a ++ '/' :: b := by
  unfold join
  split
  · exact absurd rfl hb
  · rw [if_neg ha]

theorem getLast?_slash (a b : Text) (hne : b ≠ []) (h : '/' ∉ b) : (a ++ b).getLast? ≠ some '/' := by
  intro hc
  rw [List.getLast?_append, Option.or_eq_some_iff] at hc
  rcases hc with hc | ⟨hc, _⟩
  · exact h (List.mem_of_getLast? hc)
  · rw [List.getLast?_eq_none_iff] at hc; exact hne hc

theorem getLast?_slash' (a b : Text) (hne : b ≠ []) (h : '/' ∉ b) : (a ++ '/' :: b).getLast? ≠ some '/' := by
  have := getLast?_slash (a ++ ['/']) b hne h
  rwa [List.append_assoc] at this

theorem head?_slash (b : Text) (h : '/' ∉ b) : b.head? ≠ some '/' := fun hc => h (List.mem_of_mem_head? hc)

theorem tpFile_eq (root c n : Text) (hr : root.getLast? ≠ some '/') (hc : Plain c) (hn : Plain n) :
    tpFile root c n = root ++ "/events/".toList ++ c ++ ['/'] ++ n ++ "/id".toList := by
  unfold tpFile
  rw [join_plain root _ hr (by decide), join_plain _ c (getLast?_slash' _ _ (by decide) (by decide)) (head?_slash _ hc.2),
    join_plain _ n (getLast?_slash' _ _ hc.1 hc.2) (head?_slash _ hn.2),
    join_plain _ ['i', 'd'] (getLast?_slash' _ _ hn.1 hn.2) (by decide)]
  simp [List.append_assoc]

theorem eventsFile_k (k : Spec.Kernel) (hr : k.root.getLast? ≠ some '/') : eventsFile k.root kprobe.pmu = Spec.eventsPath k true := by
  unfold eventsFile
  rw [join_plain k.root _ hr (by decide)]
  rfl

theorem eventsFile_u (k : Spec.Kernel) (hr : k.root.getLast? ≠ some '/') : eventsFile k.root uprobe.pmu = Spec.eventsPath k false := by
  unfold eventsFile
  rw [join_plain k.root _ hr (by decide)]
  rfl

/-! ## Definitions -/

theorem cut_first (c : Char) (a b : Text) (h : c ∉ a) : Spec.cut c (a ++ c :: b) = some (a, b) := by
  induction a with
  | nil => simp [Spec.cut]
  | cons x xs ih =>
    have hx : x ≠ c := fun e => h (e ▸ List.mem_cons_self)
    rw [List.cons_append, Spec.cut, if_neg hx, ih (fun hm => h (List.mem_cons_of_mem _ hm))]
    rfl

theorem cut_none (c : Char) (a : Text) (h : c ∉ a) : Spec.cut c a = none := by
  induction a with
  | nil => rfl
  | cons x xs ih =>
    have hx : x ≠ c := fun e => h (e ▸ List.mem_cons_self)
    rw [Spec.cut, if_neg hx, ih (fun hm => h (List.mem_cons_of_mem _ hm))]
    rfl

theorem cutLast_last (c : Char) (a b : Text) (h : c ∉ b) : Spec.cutLast c (a ++ c :: b) = some (a, b) := by
  unfold Spec.cutLast
  have : (a ++ c :: b).reverse = b.reverse ++ c :: a.reverse := by simp
  rw [this, cut_first c _ _ (by simpa using h)]
  simp

/-- Two words and a newline. -/
theorem words_two (a b : Text) (ha : a ≠ []) (hb : b ≠ []) (hna : ∀ c ∈ a, Spec.blank c = false) (hnb : ∀ c ∈ b, Spec.blank c = false) :
    Spec.words (a ++ ' ' :: (b ++ ['\n'])) = [a, b] := by
  unfold Spec.words
  rw [splitBy_append_sep Spec.blank a ' ' _ hna (by decide), splitBy_append_sep Spec.blank b '\n' [] hnb (by decide)]
  simp [splitBy, ha, hb]

theorem words_one (a : Text) (ha : a ≠ []) (hna : ∀ c ∈ a, Spec.blank c = false) : Spec.words (a ++ ['\n']) = [a] := by
  unfold Spec.words
  rw [splitBy_append_sep Spec.blank a '\n' [] hna (by decide)]
  simp [splitBy, ha]

/-- The head of a definition. -/
theorem head_eq (ret : Bool) (g n : Text) (hg : Spec.goodName g = true) (hgs : '/' ∉ g) :
    Spec.head ((if ret then 'r' else 'p') :: ':' :: g ++ ['/'] ++ n) = if Spec.goodName n then some (ret, g, n) else none := by
  have hc : Spec.cut '/' (g ++ '/' :: n) = some (g, n) := cut_first '/' g n hgs
  cases ret <;> simp [Spec.head, hc, hg]

theorem kernelPlace_entry (f : Text) (off : Nat) (h : Symbol f) :
    Spec.kernelPlace false (f ++ '+' :: render 10 off) = some (.function f off) := by
  obtain ⟨⟨c, cs, rfl, hd⟩, hp, _⟩ := h
  have := cut_first '+' (c :: cs) (render 10 off) hp
  rw [List.cons_append] at this ⊢
  simp [Spec.kernelPlace, hd, this, number_dec]

theorem kernelPlace_ret (f : Text) (h : Symbol f) : Spec.kernelPlace true f = some (.function f 0) := by
  obtain ⟨⟨c, cs, rfl, hd⟩, hp, _⟩ := h
  simp [Spec.kernelPlace, hd, cut_none '+' _ hp]

theorem userPlace_eq (p : Text) (off : Nat) (h : p ≠ []) : Spec.userPlace (p ++ ':' :: '0' :: 'x' :: render 16 off) = some (.file p off) := by
  have hc : ':' ∉ '0' :: 'x' :: render 16 off := by
    intro hm
    rcases List.mem_cons.mp hm with e | hm
    · exact absurd e (by decide)
    · rcases List.mem_cons.mp hm with e | hm
      · exact absurd e (by decide)
      · exact render_no 16 off (by omega) (by omega) (· ≠ ':') (fun d hd => (digit_facts d hd).2.2.2.1) ':' hm rfl
  simp [Spec.userPlace, cutLast_last ':' p _ hc, number_hex, h]

/-- What a line of `create_probe_event` defines. -/
theorem line_kernel (ret : Bool) (name f : Text) (off : Nat) (hf : Symbol f) (hr : ret = true → off = 0)
    (hb : ∀ c ∈ name, Spec.blank c = false) :
    Spec.command true (eventLine kprobe ret name f off) =
      if Spec.goodName name then some (.define ⟨Spec.group true, name, ⟨.function f off, ret⟩⟩) else none := by
  have hline : eventLine kprobe ret name f off =
      ((if ret then 'r' else 'p') :: ':' :: "kprobes".toList ++ ['/'] ++ name) ++ ' ' :: ((f ++ kprobe.writeOffset ret off) ++ ['\n']) := by
    unfold eventLine
    simp [kprobe]
  rw [hline, Spec.command, words_two]
  · simp only
    rw [head_eq ret _ name (by decide) (by decide)]
    by_cases hg : Spec.goodName name
    · rw [if_pos hg, if_pos hg]
      simp only [Option.bind_some, if_true]
      cases ret with
      | true =>
        have := hr rfl
        subst this
        simp only [kprobe, if_true, List.append_nil]
        rw [kernelPlace_ret f hf]
        rfl
      | false =>
        simp only [kprobe, Bool.false_eq_true, if_false]
        rw [kernelPlace_entry f off hf]
        rfl
    · rw [if_neg hg, if_neg hg]; rfl
  · simp
  · obtain ⟨⟨c, cs, rfl, _⟩, _⟩ := hf
    simp
  · intro c hc
    rcases List.mem_append.mp hc with hc | hc
    · exact (by decide : ∀ ret : Bool, ∀ c ∈ (if ret then 'r' else 'p') :: ':' :: "kprobes".toList ++ ['/'], Spec.blank c = false) ret c hc
    · exact hb c hc
  · intro c hc
    rcases List.mem_append.mp hc with hc | hc
    · exact hf.2.2 c hc
    · cases ret with
      | true => cases hc
      | false =>
        rcases List.mem_cons.mp hc with rfl | hc
        · decide
        · exact render_no 10 off (by omega) (by omega) (Spec.blank · = false) (fun d hd => (digit_facts d hd).2.2.2.2.2.2.2.1) c hc

theorem line_user (ret : Bool) (name p : Text) (off : Nat) (hp : p ≠ []) (hpb : ∀ c ∈ p, Spec.blank c = false)
    (hb : ∀ c ∈ name, Spec.blank c = false) :
    Spec.command false (eventLine uprobe ret name p off) =
      if Spec.goodName name then some (.define ⟨Spec.group false, name, ⟨.file p off, ret⟩⟩) else none := by
  have hline : eventLine uprobe ret name p off =
      ((if ret then 'r' else 'p') :: ':' :: "uprobes".toList ++ ['/'] ++ name) ++ ' ' :: ((p ++ uprobe.writeOffset ret off) ++ ['\n']) := by
    unfold eventLine
    simp [uprobe]
  rw [hline, Spec.command, words_two]
  · simp only
    rw [head_eq ret _ name (by decide) (by decide)]
    by_cases hg : Spec.goodName name
    · rw [if_pos hg, if_pos hg]
      simp only [Option.bind_some, Bool.false_eq_true, if_false]
      rw [show uprobe.writeOffset ret off = ':' :: '0' :: 'x' :: render 16 off from rfl, userPlace_eq p off hp]
      rfl
    · rw [if_neg hg, if_neg hg]; rfl
  · simp
  · simp [hp]
  · intro c hc
    rcases List.mem_append.mp hc with hc | hc
    · exact (by decide : ∀ ret : Bool, ∀ c ∈ (if ret then 'r' else 'p') :: ':' :: "uprobes".toList ++ ['/'], Spec.blank c = false) ret c hc
    · exact hb c hc
  · intro c hc
    rcases List.mem_append.mp hc with hc | hc
    · exact hpb c hc
    · rcases List.mem_cons.mp hc with rfl | hc
      · decide
      · rcases List.mem_cons.mp hc with rfl | hc
        · decide
        · rcases List.mem_cons.mp hc with rfl | hc
          · decide
          · exact render_no 16 off (by omega) (by omega) (Spec.blank · = false) (fun d hd => (digit_facts d hd).2.2.2.2.2.2.2.1) c hc

/-! ## Names -/

theorem madeBy_eventName (self : Nat) (ret : Bool) (t : Text) (off i : Nat) : MadeBy self i (eventName self ret t off i) :=
  ⟨[if ret then 'r' else 'p', '_'] ++ t.map (fun c => if c = '.' ∨ c = '/' ∨ c = '-' then '_' else c) ++ ['_', '0', 'x'] ++ render 16 off,
    by unfold eventName; simp [List.append_assoc]⟩

theorem no_underscore (n : Nat) : '_' ∉ render 10 n := fun h =>
  render_no 10 n (by omega) (by omega) (· ≠ '_') (fun d hd => (digit_facts d hd).2.2.1) '_' h rfl

theorem madeBy_inj (self self' i j : Nat) (name : Text) (h : MadeBy self i name) (h' : MadeBy self' j name) : self = self' ∧ i = j := by
  obtain ⟨m, hm⟩ := h
  obtain ⟨m', hm'⟩ := h'
  constructor
  · have e1 : name.drop 4 = render 10 self ++ '_' :: (m ++ ['_'] ++ render 10 i) := by rw [hm]; simp [List.append_assoc]
    have e2 : name.drop 4 = render 10 self' ++ '_' :: (m' ++ ['_'] ++ render 10 j) := by rw [hm']; simp [List.append_assoc]
    have c1 := cut_first '_' (render 10 self) (m ++ ['_'] ++ render 10 i) (no_underscore self)
    have c2 := cut_first '_' (render 10 self') (m' ++ ['_'] ++ render 10 j) (no_underscore self')
    rw [← e1] at c1
    rw [← e2, c1] at c2
    injection c2 with c2
    injection c2 with c2 _
    exact render_inj 10 _ _ (by omega) (by omega) c2
  · have e1 : name = ("aya_".toList ++ render 10 self ++ ['_'] ++ m) ++ '_' :: render 10 i := by rw [hm]; simp [List.append_assoc]
    have e2 : name = ("aya_".toList ++ render 10 self' ++ ['_'] ++ m') ++ '_' :: render 10 j := by rw [hm']; simp [List.append_assoc]
    have c1 := cutLast_last '_' ("aya_".toList ++ render 10 self ++ ['_'] ++ m) (render 10 i) (no_underscore i)
    have c2 := cutLast_last '_' ("aya_".toList ++ render 10 self' ++ ['_'] ++ m') (render 10 j) (no_underscore j)
    rw [← e1] at c1
    rw [← e2, c1] at c2
    injection c2 with c2
    injection c2 with _ c2
    exact render_inj 10 _ _ (by omega) (by omega) c2

theorem eventName_all (p : Char → Prop) (hlit : ∀ c ∈ ['a', 'y', '_', 'r', 'p', '0', 'x'], p c) (hdig : ∀ d < 16, p (digitChar d))
    (self : Nat) (ret : Bool) (t : Text) (off i : Nat) (ht : ∀ c ∈ t, c ≠ '.' → c ≠ '/' → c ≠ '-' → p c) :
    ∀ c ∈ eventName self ret t off i, p c := by
  have hd10 := fun n => render_no 10 n (by omega) (by omega) p hdig
  have hd16 := fun n => render_no 16 n (by omega) (by omega) p hdig
  unfold eventName
  simp only [List.forall_mem_append]
  refine ⟨⟨⟨⟨⟨⟨⟨?_, hd10 self⟩, ?_⟩, ?_⟩, ?_⟩, hd16 off⟩, ?_⟩, hd10 i⟩
  · intro c hc
    exact hlit c ((by decide : ∀ c ∈ "aya_".toList, c ∈ ['a', 'y', '_', 'r', 'p', '0', 'x']) c hc)
  · intro c hc
    exact hlit c ((by decide : ∀ ret : Bool, ∀ c ∈ ['_', if ret then 'r' else 'p', '_'], c ∈ ['a', 'y', '_', 'r', 'p', '0', 'x']) ret c hc)
  · intro c hc
    obtain ⟨x, hx, rfl⟩ := List.mem_map.mp hc
    split
    · exact hlit '_' (by decide)
    · rename_i hn
      exact ht x hx (fun e => hn (.inl e)) (fun e => hn (.inr (.inl e))) (fun e => hn (.inr (.inr e)))
  · intro c hc
    exact hlit c ((by decide : ∀ c ∈ ['_', '0', 'x'], c ∈ ['a', 'y', '_', 'r', 'p', '0', 'x']) c hc)
  · intro c hc
    exact hlit c ((by decide : ∀ c ∈ ['_'], c ∈ ['a', 'y', '_', 'r', 'p', '0', 'x']) c hc)

theorem eventName_noBlank (self : Nat) (ret : Bool) (t : Text) (off i : Nat) (ht : ∀ c ∈ t, Spec.blank c = false) :
    ∀ c ∈ eventName self ret t off i, Spec.blank c = false :=
  eventName_all (Spec.blank · = false) (by decide) (fun d hd => (digit_facts d hd).2.2.2.2.2.2.2.1) self ret t off i
    (fun c hc _ _ _ => ht c hc)

theorem eventName_plain (self : Nat) (ret : Bool) (t : Text) (off i : Nat) : Plain (eventName self ret t off i) :=
  ⟨by unfold eventName; exact List.append_ne_nil_of_right_ne_nil _ (render_ne_nil 10 i), fun hc => eventName_all (· ≠ '/') (by decide) (fun d hd => (digit_facts d hd).2.2.2.2.2.2.1) self ret t off i
    (fun c _ _ h _ => h) '/' hc rfl⟩

/-- A name is good to the kernel if the target has no other characters than letters, digits, `_`, `.`, `/` and `-`. -/
theorem eventName_good (self : Nat) (ret : Bool) (t : Text) (off i : Nat)
    (ht : ∀ c ∈ t, (Spec.letter c || c.isDigit) = true ∨ c = '.' ∨ c = '/' ∨ c = '-') :
    Spec.goodName (eventName self ret t off i) = true := by
  have h := eventName_all (fun c => (Spec.letter c || c.isDigit) = true) (by decide)
    (fun d hd => (digit_facts d hd).2.2.2.2.2.2.2.2) self ret t off i
    (fun c hc h1 h2 h3 => by rcases ht c hc with h | h | h | h <;> first | exact h | contradiction)
  have he : (eventName self ret t off i).head? = some 'a' := by
    unfold eventName
    rw [show "aya_".toList = 'a' :: ['y', 'a', '_'] from rfl]
    simp only [List.cons_append, List.head?_cons]
  obtain ⟨cs, he⟩ : ∃ cs, eventName self ret t off i = 'a' :: cs := by
    cases hn : eventName self ret t off i with
    | nil => rw [hn] at he; cases he
    | cons a as => rw [hn] at he; injection he with he; exact ⟨as, by rw [he]⟩
  rw [he] at h ⊢
  simp only [Spec.goodName, Bool.and_eq_true, List.all_eq_true]
  exact ⟨by decide, fun c hc => h c (List.mem_cons_of_mem _ hc)⟩

end Verif.Probe
