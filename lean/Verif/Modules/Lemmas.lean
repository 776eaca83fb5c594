import Verif.Modules.Spec
/-!
# What the helpers of the model do
-/
namespace Verif.Modules

theorem rsplitOnce_not {c : UInt8} : ∀ {s : Bytes}, c ∉ s → rsplitOnce c s = none
  | [], _ => rfl
  | b :: bs, h => by
    have h1 : c ≠ b := fun e => h (e ▸ List.mem_cons_self)
    have h2 := rsplitOnce_not (c := c) (s := bs) (fun e => h (List.mem_cons_of_mem _ e))
    simp only [rsplitOnce, h2]
    exact if_neg (fun e => h1 e.symm)

theorem rsplitOnce_append {c : UInt8} {r : Bytes} (h : c ∉ r) : ∀ (l : Bytes), rsplitOnce c (l ++ c :: r) = some (l, r)
  | [] => by
    have := rsplitOnce_not h
    simp [rsplitOnce, this]
  | b :: bs => by
    have := rsplitOnce_append h bs
    simp [rsplitOnce, this]

theorem rsplitOnce_some {c : UInt8} : ∀ {s l r : Bytes}, rsplitOnce c s = some (l, r) → s = l ++ c :: r
  | [], _, _, h => by cases h
  | b :: bs, l, r, h => by
    simp only [rsplitOnce] at h
    rcases e : rsplitOnce c bs with _ | ⟨l', r'⟩
    · rw [e] at h
      by_cases hb : b = c
      · simp [hb] at h
        obtain ⟨rfl, rfl⟩ := h
        simp [hb]
      · simp [hb] at h
    · rw [e] at h
      simp at h
      obtain ⟨rfl, rfl⟩ := h
      rw [rsplitOnce_some e]
      rfl

theorem stripPrefix_append : ∀ (p s : Bytes), stripPrefix p (p ++ s) = some s
  | [], _ => rfl
  | p :: ps, s => by simp [stripPrefix, stripPrefix_append ps s]

theorem stripPrefix_some : ∀ {p s r : Bytes}, stripPrefix p s = some r → s = p ++ r
  | [], _, _, h => by simpa [stripPrefix] using h
  | _ :: _, [], _, h => by cases h
  | p :: ps, b :: bs, r, h => by
    simp only [stripPrefix] at h
    by_cases e : p = b
    · rw [if_pos e] at h
      rw [stripPrefix_some h, e]
      rfl
    · rw [if_neg e] at h
      cases h

theorem stripSuffix_append (s p : Bytes) : stripSuffix p (s ++ p) = some s := by
  simp [stripSuffix, stripPrefix_append]

theorem stripSuffix_some {p s r : Bytes} (h : stripSuffix p s = some r) : s = r ++ p := by
  simp only [stripSuffix, Option.map_eq_some_iff] at h
  obtain ⟨x, hx, rfl⟩ := h
  have := congrArg List.reverse (stripPrefix_some hx)
  simpa using this

theorem moduleName_iff {name m : Bytes} {c : Compression} : moduleName name = some (m, c) ↔ IsModule name m c := by
  constructor
  · intro h
    simp only [moduleName, Option.map_eq_some_iff, Prod.mk.injEq] at h
    obtain ⟨x, hx, rfl, hc⟩ := h
    have hs := stripSuffix_some hx
    simp only [uncompressed] at hs hc
    rcases e : rsplitOnce 46 name with _ | ⟨n, e'⟩
    · rw [e] at hs hc
      subst hc
      simp only at hs
      rw [hs]
      exact .plain x
    · rw [e] at hs hc
      have hn := rsplitOnce_some e
      simp only at hs hc
      by_cases h1 : e' = xz
      · simp only [h1, if_true] at hs hc
        subst hc
        rw [hn, hs, h1]
        exact .xz x
      · by_cases h2 : e' = zst
        · have h3 : ¬ zst = xz := by decide
          simp only [h2, h3, if_true, if_false] at hs hc
          subst hc
          rw [hn, hs, h2]
          exact .zstd x
        · simp only [h1, h2, if_false] at hs hc
          subst hc
          rw [hs]
          exact .plain x
  · intro h
    cases h with
    | plain =>
      have := rsplitOnce_append (c := 46) (r := [107, 111]) (by decide) m
      have hu : uncompressed (m ++ [46, 107, 111]) = (m ++ [46, 107, 111], .plain) := by
        simp only [uncompressed, this]
        rw [if_neg (by decide), if_neg (by decide)]
      simp only [moduleName, hu]
      have := stripSuffix_append m dotKo
      simp only [dotKo] at this ⊢
      rw [this]
      rfl
    | xz =>
      have := rsplitOnce_append (c := 46) (r := [120, 122]) (by decide) (m ++ [46, 107, 111])
      have hu : uncompressed (m ++ [46, 107, 111] ++ [46, 120, 122]) = (m ++ [46, 107, 111], .xz) := by
        simp only [uncompressed, this]
        rw [if_pos (by decide)]
      simp only [moduleName, hu]
      have := stripSuffix_append m dotKo
      simp only [dotKo] at this ⊢
      rw [this]
      rfl
    | zstd =>
      have := rsplitOnce_append (c := 46) (r := [122, 115, 116]) (by decide) (m ++ [46, 107, 111])
      have hu : uncompressed (m ++ [46, 107, 111] ++ [46, 122, 115, 116]) = (m ++ [46, 107, 111], .zstd) := by
        simp only [uncompressed, this]
        rw [if_neg (by decide), if_pos (by decide)]
      simp only [moduleName, hu]
      have := stripSuffix_append m dotKo
      simp only [dotKo] at this ⊢
      rw [this]
      rfl

theorem compressionOf_module {name m : Bytes} {c : Compression} (h : IsModule name m c) (hm : m ≠ []) : compressionOf name = c := by
  cases h with
  | plain =>
    have := rsplitOnce_append (c := 46) (r := [107, 111]) (by decide) m
    have he : extension (m ++ [46, 107, 111]) = some [107, 111] := by
      simp only [extension, this]
      exact if_neg (by simp [hm])
    simp only [compressionOf, he]
    rw [if_neg (by decide), if_neg (by decide)]
  | xz =>
    have := rsplitOnce_append (c := 46) (r := [120, 122]) (by decide) (m ++ [46, 107, 111])
    have he : extension (m ++ [46, 107, 111] ++ [46, 120, 122]) = some [120, 122] := by
      simp only [extension, this]
      exact if_neg (by simp)
    simp only [compressionOf, he]
    rw [if_pos (by decide)]
  | zstd =>
    have := rsplitOnce_append (c := 46) (r := [122, 115, 116]) (by decide) (m ++ [46, 107, 111])
    have he : extension (m ++ [46, 107, 111] ++ [46, 122, 115, 116]) = some [122, 115, 116] := by
      simp only [extension, this]
      exact if_neg (by simp)
    simp only [compressionOf, he]
    rw [if_neg (by decide), if_pos (by decide)]

/-! ### Splitting -/

theorem splitOn_not {c : UInt8} : ∀ {s : Bytes}, c ∉ s → splitOn c s = [s]
  | [], _ => rfl
  | b :: bs, h => by
    have h1 : ¬ b = c := fun e => h (e ▸ List.mem_cons_self)
    have h2 := splitOn_not (c := c) (s := bs) (fun e => h (List.mem_cons_of_mem _ e))
    simp [splitOn, h1, h2]

theorem splitOn_append {c : UInt8} {r : Bytes} : ∀ {l : Bytes}, c ∉ l → splitOn c (l ++ c :: r) = l :: splitOn c r
  | [], _ => by simp [splitOn]
  | b :: bs, h => by
    have h1 : ¬ b = c := fun e => h (e ▸ List.mem_cons_self)
    have h2 := splitOn_append (c := c) (r := r) (l := bs) (fun e => h (List.mem_cons_of_mem _ e))
    simp [splitOn, h1, h2]

theorem splitOn_cases (c : UInt8) : ∀ (s : Bytes), (c ∉ s ∧ splitOn c s = [s]) ∨ ∃ (l r : Bytes), c ∉ l ∧ s = l ++ c :: r ∧ splitOn c s = l :: splitOn c r
  | [] => .inl ⟨by simp, rfl⟩
  | b :: bs => by
    by_cases h : b = c
    · subst h
      exact .inr ⟨[], bs, by simp, rfl, by simp [splitOn]⟩
    · rcases splitOn_cases c bs with ⟨h1, h2⟩ | ⟨l, r, h1, h2, h3⟩
      · refine .inl ⟨fun hc => ?_, by simp [splitOn, h, h2]⟩
        rcases List.mem_cons.1 hc with rfl | hc
        · exact h rfl
        · exact h1 hc
      · refine .inr ⟨b :: l, r, fun hc => ?_, by rw [h2]; rfl, by simp [splitOn, h, h3]⟩
        rcases List.mem_cons.1 hc with rfl | hc
        · exact h rfl
        · exact h1 hc

theorem splitOn_ne (c : UInt8) (s : Bytes) : splitOn c s ≠ [] := by
  rcases splitOn_cases c s with ⟨_, h⟩ | ⟨l, r, _, _, h⟩ <;> rw [h] <;> simp

theorem splitOn_mid (c : UInt8) (x y : Bytes) : splitOn c (x ++ c :: y) = splitOn c x ++ splitOn c y := by
  induction h : x.length using Nat.strongRecOn generalizing x with
  | ind n ih =>
    rcases splitOn_cases c x with ⟨h1, h2⟩ | ⟨l, r, h1, h2, h3⟩
    · rw [splitOn_append h1, h2]
      rfl
    · have := ih r.length (by rw [← h, h2]; simp; omega) r rfl
      rw [h3, h2, List.append_assoc, List.cons_append, splitOn_append h1, this]
      rfl

theorem entry_of {data e : Bytes} (h : HasEntry data e) : e ∈ splitOn 0 data := by
  obtain ⟨l, r, rfl, he, h0, hl, hr⟩ := h
  have key : e ∈ splitOn 0 (e ++ r) := by
    rcases hr with rfl | hr
    · rw [List.append_nil, splitOn_not h0]
      exact List.mem_cons_self
    · cases r with
      | nil => cases hr
      | cons b r =>
        simp only [List.head?_cons, Option.some.injEq] at hr
        subst hr
        rw [splitOn_append h0]
        exact List.mem_cons_self
  rcases hl with rfl | hl
  · exact key
  · obtain ⟨l', rfl⟩ := List.getLast?_eq_some_iff.1 hl
    have : l' ++ [0] ++ e ++ r = l' ++ 0 :: (e ++ r) := by simp
    rw [this, splitOn_mid]
    exact List.mem_append_right _ key

theorem of_entry : ∀ {data e : Bytes}, e ∈ splitOn 0 data → e ≠ [] → HasEntry data e := by
  intro data
  induction h : data.length using Nat.strongRecOn generalizing data with
  | ind n ih =>
    intro e he hne
    rcases splitOn_cases 0 data with ⟨h1, h2⟩ | ⟨l, r, h1, h2, h3⟩
    · rw [h2] at he
      have : e = data := by simpa using he
      subst this
      exact ⟨[], [], by simp, hne, h1, .inl rfl, .inl rfl⟩
    · rw [h3] at he
      rcases List.mem_cons.1 he with rfl | he
      · exact ⟨[], 0 :: r, by rw [h2]; rfl, hne, h1, .inl rfl, .inr rfl⟩
      · obtain ⟨x, y, hxy, a1, a2, a3, a4⟩ := ih r.length (by rw [← h, h2]; simp; omega) (data := r) rfl he hne
        refine ⟨l ++ 0 :: x, y, by rw [h2, hxy]; simp, a1, a2, .inr ?_, a4⟩
        rcases a3 with rfl | a3
        · simp
        · have hx : x ≠ [] := by rintro rfl; cases a3
          simp [List.getLast?_append, List.getLast?_cons, a3]

/-! ### Text -/

/-- The states that checking gets to. -/
def Utf8.Good : Utf8 → Prop
  | .more _ lo _ => 0x80 ≤ lo
  | _ => True

theorem Utf8.good_step {s : Utf8} (b : UInt8) : (s.step b).Good := by
  cases s with
  | start =>
    simp only [Utf8.step]
    repeat' split
    all_goals first | exact True.intro | (show (0x80 : UInt8) ≤ _; decide)
  | more n lo hi =>
    simp only [Utf8.step]
    repeat' split
    all_goals first | exact True.intro | (show (0x80 : UInt8) ≤ _; decide)
  | bad => exact True.intro

theorem Utf8.good_fold : ∀ {s : Utf8} (l : Bytes), s.Good → (l.foldl Utf8.step s).Good
  | _, [], h => h
  | _, b :: l, _ => Utf8.good_fold l (Utf8.good_step b)

theorem Utf8.bad_fold : ∀ (l : Bytes), l.foldl Utf8.step .bad = .bad
  | [] => rfl
  | _ :: l => Utf8.bad_fold l

theorem utf8_append {a b : Bytes} (ha : utf8 a = true) : utf8 (a ++ b) = utf8 b := by
  have : a.foldl Utf8.step .start = .start := by simpa [utf8] using ha
  simp [utf8, List.foldl_append, this]

/-- Before a byte of ASCII text ends. -/
theorem utf8_before {a b : Bytes} {c : UInt8} (hc : c < 0x80) (h : utf8 (a ++ c :: b) = true) : utf8 a = true := by
  have g : (a.foldl Utf8.step .start).Good := Utf8.good_fold a True.intro
  have h' : b.foldl Utf8.step ((a.foldl Utf8.step .start).step c) = .start := by simpa [utf8, List.foldl_append] using h
  rcases e : a.foldl Utf8.step .start with _ | ⟨n, lo, hi⟩ | _
  · simp [utf8, e]
  · rw [e] at g h'
    have : ¬ (lo ≤ c ∧ c ≤ hi) := by
      intro hh
      have g' : (0x80 : UInt8) ≤ lo := g
      have h1 := UInt8.le_iff_toNat_le.1 g'
      have h2 := UInt8.le_iff_toNat_le.1 hh.1
      have h3 := UInt8.lt_iff_toNat_lt.1 hc
      omega
    have hs : Utf8.step (.more n lo hi) c = .bad := by
      simp only [Utf8.step]
      exact if_neg this
    rw [hs, Utf8.bad_fold] at h'
    cases h'
  · rw [e] at h'
    have hs : Utf8.step .bad c = .bad := rfl
    rw [hs, Utf8.bad_fold] at h'
    cases h'

theorem lines_append {l r : Bytes} (h : 10 ∉ l) : lines (l ++ 10 :: r) = stripCr l :: lines r := by
  unfold lines
  rw [splitOn_append h]
  rcases e : splitOn 10 r with _ | ⟨x, xs⟩
  · exact absurd e (splitOn_ne 10 r)
  · rfl

local macro "u8" : tactic =>
  `(tactic| (simp only [UInt8.lt_iff_toNat_lt, UInt8.le_iff_toNat_le, ← UInt8.toNat_inj, UInt8.reduceToNat] at *; omega))

/-- The state after a byte of a character that needs `n` more. -/
def then_ : Nat → Utf8
  | 0 => .start
  | n + 1 => .more n 0x80 0xBF

theorem then_succ (n : Nat) : then_ (n + 1) = .more n 0x80 0xBF := rfl

theorem bad_stays : ∀ (s : Bytes), s.foldl Utf8.step .bad = .bad
  | [] => rfl
  | _ :: s => bad_stays s

theorem more_step {n : Nat} {lo hi b : UInt8} {s : Bytes} : (b :: s).foldl Utf8.step (.more n lo hi) =
    if lo ≤ b ∧ b ≤ hi then s.foldl Utf8.step (then_ n) else .bad := by
  by_cases h : lo ≤ b ∧ b ≤ hi
  · rw [if_pos h, List.foldl_cons]
    simp only [Utf8.step, if_pos h]
    cases n <;> rfl
  · rw [if_neg h, List.foldl_cons]
    simp only [Utf8.step, if_neg h, bad_stays]

theorem more_ends {n : Nat} {lo hi : UInt8} {s : Bytes} (h : s.foldl Utf8.step (.more n lo hi) = .start) :
    ∃ (b : UInt8) (t : Bytes), s = b :: t ∧ lo ≤ b ∧ b ≤ hi ∧ t.foldl Utf8.step (then_ n) = .start := by
  cases s with
  | nil => cases h
  | cons b t =>
    rw [more_step] at h
    by_cases hb : lo ≤ b ∧ b ≤ hi
    · rw [if_pos hb] at h
      exact ⟨b, t, rfl, hb.1, hb.2, h⟩
    · rw [if_neg hb] at h; cases h

theorem text_of : ∀ (k : Nat) (s : Bytes), s.length ≤ k → s.foldl Utf8.step .start = .start → Text s
  | _, [], _, _ => .nil
  | 0, _ :: _, hl, _ => by simp at hl
  | k + 1, a :: s, hl, h => by
    have hl : s.length ≤ k := by simpa using hl
    rw [List.foldl_cons] at h
    have two : ∀ {lo hi : UInt8}, s.foldl Utf8.step (.more 1 lo hi) = .start →
        ∃ (b c : UInt8) (t : Bytes), s = b :: c :: t ∧ lo ≤ b ∧ b ≤ hi ∧ 0x80 ≤ c ∧ c ≤ 0xBF ∧ Text t := by
      intro lo hi h
      obtain ⟨b, t, rfl, hb, hb', h⟩ := more_ends h
      obtain ⟨c, t, rfl, hc, hc', h⟩ := more_ends h
      exact ⟨b, c, t, rfl, hb, hb', hc, hc', text_of k t (by simp at hl; omega) h⟩
    have three : ∀ {lo hi : UInt8}, s.foldl Utf8.step (.more 2 lo hi) = .start →
        ∃ (b c d : UInt8) (t : Bytes), s = b :: c :: d :: t ∧ lo ≤ b ∧ b ≤ hi ∧ 0x80 ≤ c ∧ c ≤ 0xBF ∧ 0x80 ≤ d ∧ d ≤ 0xBF ∧ Text t := by
      intro lo hi h
      obtain ⟨b, t, rfl, hb, hb', h⟩ := more_ends h
      obtain ⟨c, t, rfl, hc, hc', h⟩ := more_ends h
      obtain ⟨d, t, rfl, hd, hd', h⟩ := more_ends h
      exact ⟨b, c, d, t, rfl, hb, hb', hc, hc', hd, hd', text_of k t (by simp at hl; omega) h⟩
    simp only [Utf8.step] at h
    by_cases h1 : a < 0x80
    · rw [if_pos h1] at h
      exact .one (by u8) (text_of k s hl h)
    rw [if_neg h1] at h
    by_cases h2 : a < 0xC2
    · rw [if_pos h2, bad_stays] at h; cases h
    rw [if_neg h2] at h
    by_cases h3 : a < 0xE0
    · rw [if_pos h3] at h
      obtain ⟨b, t, rfl, hb, hb', h⟩ := more_ends h
      exact .two (by u8) (by u8) hb hb' (text_of k t (by simp at hl; omega) h)
    rw [if_neg h3] at h
    by_cases h4 : a = 0xE0
    · rw [if_pos h4] at h
      obtain ⟨b, c, t, rfl, hb, hb', hc, hc', ht⟩ := two h
      exact .three (.inl ⟨h4, hb, hb'⟩) hc hc' ht
    rw [if_neg h4] at h
    by_cases h5 : a = 0xED
    · rw [if_pos h5] at h
      obtain ⟨b, c, t, rfl, hb, hb', hc, hc', ht⟩ := two h
      exact .three (.inr (.inr (.inl ⟨h5, hb, hb'⟩))) hc hc' ht
    rw [if_neg h5] at h
    by_cases h6 : a < 0xF0
    · rw [if_pos h6] at h
      obtain ⟨b, c, t, rfl, hb, hb', hc, hc', ht⟩ := two h
      by_cases h7 : a ≤ 0xEC
      · exact .three (.inr (.inl ⟨by u8, h7, hb, hb'⟩)) hc hc' ht
      · exact .three (.inr (.inr (.inr ⟨by u8, by u8, hb, hb'⟩))) hc hc' ht
    rw [if_neg h6] at h
    by_cases h7 : a = 0xF0
    · rw [if_pos h7] at h
      obtain ⟨b, c, d, t, rfl, hb, hb', hc, hc', hd, hd', ht⟩ := three h
      exact .four (.inl ⟨h7, hb, hb'⟩) hc hc' hd hd' ht
    rw [if_neg h7] at h
    by_cases h8 : a < 0xF4
    · rw [if_pos h8] at h
      obtain ⟨b, c, d, t, rfl, hb, hb', hc, hc', hd, hd', ht⟩ := three h
      exact .four (.inr (.inl ⟨by u8, by u8, hb, hb'⟩)) hc hc' hd hd' ht
    rw [if_neg h8] at h
    by_cases h9 : a = 0xF4
    · rw [if_pos h9] at h
      obtain ⟨b, c, d, t, rfl, hb, hb', hc, hc', hd, hd', ht⟩ := three h
      exact .four (.inr (.inr ⟨h9, hb, hb'⟩)) hc hc' hd hd' ht
    · rw [if_neg h9, bad_stays] at h; cases h

theorem start_step {a : UInt8} {s : Bytes} {u : Utf8} (h : Utf8.step .start a = u) : (a :: s).foldl Utf8.step .start = s.foldl Utf8.step u := by
  rw [List.foldl_cons, h]

theorem of_text {s : Bytes} (h : Text s) : s.foldl Utf8.step .start = .start := by
  induction h with
  | nil => rfl
  | one ha _ ih =>
    rw [start_step (u := .start) (if_pos (by u8))]; exact ih
  | two h1 h2 h3 h4 _ ih =>
    rw [start_step (u := .more 0 0x80 0xBF) (by
      simp only [Utf8.step]
      rw [if_neg (by u8), if_neg (by u8), if_pos (by u8)]), more_step, if_pos ⟨h3, h4⟩]; exact ih
  | three h h3 h4 _ ih =>
    rcases h with ⟨h0, h1, h2⟩ | ⟨h, h', h1, h2⟩ | ⟨h0, h1, h2⟩ | ⟨h, h', h1, h2⟩
    · subst h0
      rw [start_step (u := .more 1 0xA0 0xBF) (by decide), more_step, if_pos ⟨h1, h2⟩, then_succ, more_step, if_pos ⟨h3, h4⟩]; exact ih
    · rw [start_step (u := .more 1 0x80 0xBF) (by
        simp only [Utf8.step]
        rw [if_neg (by u8), if_neg (by u8), if_neg (by u8), if_neg (by u8), if_neg (by u8), if_pos (by u8)]),
        more_step, if_pos ⟨h1, h2⟩, then_succ, more_step, if_pos ⟨h3, h4⟩]; exact ih
    · subst h0
      rw [start_step (u := .more 1 0x80 0x9F) (by decide), more_step, if_pos ⟨h1, h2⟩, then_succ, more_step, if_pos ⟨h3, h4⟩]; exact ih
    · rw [start_step (u := .more 1 0x80 0xBF) (by
        simp only [Utf8.step]
        rw [if_neg (by u8), if_neg (by u8), if_neg (by u8), if_neg (by u8), if_neg (by u8), if_pos (by u8)]),
        more_step, if_pos ⟨h1, h2⟩, then_succ, more_step, if_pos ⟨h3, h4⟩]; exact ih
  | four h h3 h4 h5 h6 _ ih =>
    rcases h with ⟨h0, h1, h2⟩ | ⟨h, h', h1, h2⟩ | ⟨h0, h1, h2⟩
    · subst h0
      rw [start_step (u := .more 2 0x90 0xBF) (by decide), more_step, if_pos ⟨h1, h2⟩, then_succ, more_step, if_pos ⟨h3, h4⟩, then_succ, more_step, if_pos ⟨h5, h6⟩]; exact ih
    · rw [start_step (u := .more 2 0x80 0xBF) (by
        simp only [Utf8.step]
        rw [if_neg (by u8), if_neg (by u8), if_neg (by u8), if_neg (by u8), if_neg (by u8), if_neg (by u8), if_neg (by u8), if_pos (by u8)]),
        more_step, if_pos ⟨h1, h2⟩, then_succ, more_step, if_pos ⟨h3, h4⟩, then_succ, more_step, if_pos ⟨h5, h6⟩]; exact ih
    · subst h0
      rw [start_step (u := .more 2 0x80 0x8F) (by decide), more_step, if_pos ⟨h1, h2⟩, then_succ, more_step, if_pos ⟨h3, h4⟩, then_succ, more_step, if_pos ⟨h5, h6⟩]; exact ih

/-- What the tools accept as text is UTF-8. -/
theorem utf8_iff {s : Bytes} : utf8 s = true ↔ Text s := by
  constructor
  · intro h
    exact text_of s.length s (Nat.le_refl _) (by simpa [utf8] using h)
  · intro h
    simp [utf8, of_text h]

end Verif.Modules
