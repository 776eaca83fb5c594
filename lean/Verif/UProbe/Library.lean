import Verif.UProbe.MapsProps
/-!
# C49: looking up a library in the map of a process
-/
set_option linter.unusedSimpArgs false
set_option linter.unusedVariables false
namespace Verif.UProbe
open Verif.Str Verif.UProbe.Spec

/-! ## File names -/

theorem splitBy_sep (s t : Text) (x : Char) (p : Char → Bool) (hx : p x = true) :
    splitBy p (s ++ x :: t) = splitBy p s ++ splitBy p t := by
  induction s with
  | nil => simp [splitBy, hx]
  | cons c cs ih =>
    rw [List.cons_append, splitBy, splitBy]
    split
    · rw [ih]; rfl
    · rw [ih]
      cases hs : splitBy p cs with
      | nil => exact absurd hs (splitBy_ne_nil p cs)
      | cons h t => rfl

theorem splitBy_mem (s : Text) (x : Char) : ∀ c ∈ splitBy (fun d => decide (d = x)) s, x ∉ c := by
  induction s with
  | nil => simp [splitBy]
  | cons c cs ih =>
    rw [splitBy]
    split
    · intro d hd
      rcases List.mem_cons.mp hd with rfl | hd
      · simp
      · exact ih d hd
    · rename_i hc
      cases hs : splitBy (fun d => decide (d = x)) cs with
      | nil => exact absurd hs (splitBy_ne_nil _ cs)
      | cons h t =>
        rw [hs] at ih
        intro d hd
        rcases List.mem_cons.mp hd with rfl | hd
        · intro hm
          rcases List.mem_cons.mp hm with rfl | hm
          · simp at hc
          · exact ih h (by simp) hm
        · exact ih d (by simp [hd])

theorem splitBy_comps (n : Text) (x : Char) (comps : List Text) (hn : x ∉ n) (hc : ∀ c ∈ comps, x ∉ c) :
    splitBy (fun d => decide (d = x)) (n ++ (comps.map (x :: ·)).flatten) = n :: comps := by
  induction comps generalizing n with
  | nil =>
    simp only [List.map_nil, List.flatten_nil, List.append_nil]
    exact splitBy_none _ _ (fun d hd => by simp; rintro rfl; exact hn hd)
  | cons c cs ih =>
    simp only [List.map_cons, List.flatten_cons, List.cons_append]
    rw [splitBy_append_sep _ _ _ _ (fun d hd => by simp; rintro rfl; exact hn hd) (by simp),
      ih c (hc c (by simp)) (fun d hd => hc d (by simp [hd]))]

theorem joinWith_parts (x : Char) (pre : List Text) (n : Text) (post : List Text) :
    joinWith x (pre ++ n :: post) = (pre.map (· ++ [x])).flatten ++ n ++ (post.map (x :: ·)).flatten := by
  induction pre with
  | nil =>
    induction post generalizing n with
    | nil => simp [joinWith]
    | cons c cs ih =>
      simp only [List.nil_append, joinWith, List.map_cons, List.flatten_cons, List.map_nil, List.flatten_nil] at *
      rw [ih c]
      simp
  | cons a as ih =>
    have : joinWith x (a :: (as ++ n :: post)) = a ++ x :: joinWith x (as ++ n :: post) := by
      cases as <;> rfl
    rw [List.cons_append, this, ih]
    simp

/-- `Path::file_name` gives the last component. -/
theorem fileName_iff (p n : Text) : fileName p = some n ↔ LastName p n := by
  have hkeep : ∀ c : Text, ((!c.isEmpty && decide (c ≠ ['.'])) = true) ↔ ¬ (c = [] ∨ c = ['.']) := by
    intro c
    by_cases h : c = [] <;> by_cases h' : c = ['.'] <;> simp [h, h']
  constructor
  · intro h
    unfold fileName at h
    cases hl : ((splitBy (· = '/') p).filter (fun c => !c.isEmpty && c ≠ ['.'])).getLast? with
    | none => rw [hl] at h; simp at h
    | some m =>
      rw [hl] at h
      simp only at h
      split at h
      · cases h
      · rename_i hdd
        cases h
        have hmem := List.mem_of_getLast? hl
        rw [List.mem_filter, hkeep] at hmem
        -- the last kept component and the dropped ones behind it
        have key : ∀ cs : List Text, (cs.filter (fun c => !c.isEmpty && decide (c ≠ ['.']))).getLast? = some n →
            ∃ pre post, cs = pre ++ n :: post ∧ ∀ c ∈ post, c = [] ∨ c = ['.'] := by
          intro cs
          generalize hr : cs.reverse = rs
          induction rs generalizing cs with
          | nil => simp at hr; simp [hr]
          | cons a as ih =>
            intro h
            obtain ⟨l, rfl⟩ : ∃ l, cs = l ++ [a] := ⟨as.reverse, by
              have := congrArg List.reverse hr
              simpa using this⟩
            have ih := ih l (by simpa using hr)
            rw [List.filter_append] at h
            by_cases ha : (!a.isEmpty && decide (a ≠ ['.'])) = true
            · rw [List.filter_cons_of_pos (p := fun c => !c.isEmpty && decide (c ≠ ['.'])) ha, List.filter_nil, List.getLast?_append] at h
              simp at h
              exact ⟨l, [], by simp [h], by simp⟩
            · rw [List.filter_cons_of_neg (p := fun c => !c.isEmpty && decide (c ≠ ['.'])) ha, List.filter_nil, List.append_nil] at h
              obtain ⟨pre, post, e, hp⟩ := ih h
              refine ⟨pre, post ++ [a], by simp [e], ?_⟩
              intro c hc
              rcases List.mem_append.mp hc with hc | hc
              · exact hp c hc
              · simp at hc
                subst hc
                exact Classical.byContradiction fun hn => ha ((hkeep c).mpr hn)
        obtain ⟨pre, post, e, hpost⟩ := key _ hl
        refine ⟨fun h => hmem.2 (Or.inl h), splitBy_mem p '/' n hmem.1, fun h => hmem.2 (Or.inr h), hdd,
          (pre.map (· ++ ['/'])).flatten, (post.map ('/' :: ·)).flatten, ?_, ?_, post, hpost, rfl⟩
        · have hj := joinWith_splitBy '/' p
          have e' : (fun c => decide (c = '/')) = (fun c : Char => c == '/') := by
            funext c; simp [BEq.beq]
          rw [e'] at e
          rw [e, joinWith_parts] at hj
          exact hj.symm
        · cases hpre : pre.reverse with
          | nil => left; simp at hpre; simp [hpre]
          | cons a as =>
            right
            have : pre = as.reverse ++ [a] := by
              have := congrArg List.reverse hpre
              simpa using this
            rw [this]
            simp [List.getLast?_append]
  · rintro ⟨h1, h2, h3, h4, pre, post, e, hpre, comps, hcomps, hpost⟩
    have hns : ∀ c ∈ comps, '/' ∉ c := by
      intro c hc
      rcases hcomps c hc with rfl | rfl <;> simp
    have hs : ∃ l, splitBy (fun d => decide (d = '/')) p = l ++ n :: comps := by
      rcases hpre with rfl | hpre
      · refine ⟨[], ?_⟩
        rw [e, hpost, List.nil_append, splitBy_comps n '/' comps h2 hns]; rfl
      · obtain ⟨l, hl⟩ : ∃ l, pre = l ++ ['/'] := by
          cases hr : pre.reverse with
          | nil => simp at hr; simp [hr] at hpre
          | cons a as =>
            have : pre = as.reverse ++ [a] := by
              have := congrArg List.reverse hr
              simpa using this
            rw [this] at hpre
            simp at hpre
            exact ⟨as.reverse, by rw [this, hpre]⟩
        refine ⟨splitBy (fun d => decide (d = '/')) l, ?_⟩
        rw [e, hl, hpost, show l ++ ['/'] ++ n ++ (comps.map ('/' :: ·)).flatten =
          l ++ '/' :: (n ++ (comps.map ('/' :: ·)).flatten) by simp, splitBy_sep _ _ _ _ (by simp),
          splitBy_comps n '/' comps h2 hns]
    obtain ⟨l, hl⟩ := hs
    unfold fileName
    rw [hl, List.filter_append]
    have hn : (n :: comps).filter (fun c => !c.isEmpty && decide (c ≠ ['.'])) = [n] := by
      rw [List.filter_cons_of_pos (p := fun c => !c.isEmpty && decide (c ≠ ['.']))
        ((hkeep n).mpr (by rintro (h | h); exact h1 h; exact h3 h))]
      congr 1
      apply List.filter_eq_nil_iff.mpr
      intro c hc
      rw [hkeep]
      exact fun h => h (hcomps c hc)
    rw [hn, List.getLast?_append]
    simp only [List.getLast?_singleton, Option.some_or]
    rw [if_neg h4]

/-! ## Names of libraries -/

theorem stripPrefix_iff (p s r : Text) : stripPrefix p s = some r ↔ s = p ++ r := by
  induction p generalizing s with
  | nil => simp [stripPrefix, eq_comm]
  | cons c cs ih =>
    cases s with
    | nil => simp [stripPrefix]
    | cons d ds =>
      rw [stripPrefix]
      split
      · rename_i h
        rw [ih, h]; simp
      · rename_i h
        simp only [List.cons_append, List.cons.injEq]
        constructor
        · intro h; cases h
        · rintro ⟨rfl, _⟩; exact absurd rfl h

theorem stripSuffix_iff (suf s r : Text) : stripSuffix suf s = some r ↔ s = r ++ suf := by
  unfold stripSuffix
  constructor
  · intro h
    cases hp : stripPrefix suf.reverse s.reverse with
    | none => rw [hp] at h; simp at h
    | some q =>
      rw [hp] at h
      simp at h
      have := (stripPrefix_iff _ _ _).mp hp
      have := congrArg List.reverse this
      rw [List.reverse_reverse, List.reverse_append, List.reverse_reverse] at this
      rw [this, h]
  · intro h
    have : stripPrefix suf.reverse s.reverse = some r.reverse := by
      rw [stripPrefix_iff, h, List.reverse_append]
    rw [this]; simp

theorem libBase_base (lib : Text) : Base lib (libBase lib) := by
  unfold libBase Base
  cases h : stripSuffix ['.', 's', 'o'] lib with
  | some b => left; exact (stripSuffix_iff _ _ _).mp h
  | none =>
    right
    refine ⟨rfl, ?_⟩
    rintro ⟨b, hb⟩
    rw [(stripSuffix_iff _ _ _).mpr hb] at h
    cases h

theorem base_unique {lib b : Text} (h : Base lib b) : b = libBase lib := by
  rcases h with h | ⟨h, h'⟩
  · unfold libBase
    rw [(stripSuffix_iff _ _ _).mpr h]; rfl
  · unfold libBase
    cases hs : stripSuffix ['.', 's', 'o'] lib with
    | none => exact h.symm
    | some c => exact absurd ⟨c, (stripSuffix_iff _ _ _).mp hs⟩ h'

theorem tail_iff (t : Text) :
    (t.isEmpty || ['.', 's', 'o'].isPrefixOf t || ['-'].isPrefixOf t) = true ↔ Tail t := by
  unfold Tail
  rw [Bool.or_eq_true, Bool.or_eq_true, List.isEmpty_iff, List.isPrefixOf_iff_prefix, List.isPrefixOf_iff_prefix]
  constructor
  · rintro ((h | ⟨r, h⟩) | ⟨r, h⟩)
    · exact Or.inl h
    · exact Or.inr (Or.inl ⟨r, h.symm⟩)
    · exact Or.inr (Or.inr ⟨r, h.symm⟩)
  · rintro (h | ⟨r, h⟩ | ⟨r, h⟩)
    · exact Or.inl (Or.inl h)
    · exact Or.inl (Or.inr ⟨r, h.symm⟩)
    · exact Or.inr ⟨r, h.symm⟩

theorem pathMatches_iff (lib p : Text) : pathMatches (libBase lib) p = true ↔ Names lib p := by
  unfold pathMatches Names
  constructor
  · intro h
    cases hf : fileName p with
    | none => rw [hf] at h; cases h
    | some n =>
      rw [hf] at h
      simp only at h
      cases hs : stripPrefix (libBase lib) n with
      | none => rw [hs] at h; cases h
      | some t =>
        rw [hs] at h
        simp only at h
        exact ⟨libBase lib, n, t, libBase_base lib, (fileName_iff p n).mp hf, (stripPrefix_iff _ _ _).mp hs, (tail_iff t).mp h⟩
  · rintro ⟨base, n, t, hb, hl, hn, ht⟩
    rw [(fileName_iff p n).mpr hl]
    simp only
    rw [← base_unique hb, (stripPrefix_iff base n t).mpr hn]
    exact (tail_iff t).mpr ht

/-! ## The lookup -/

theorem findLoop_path (lib : Text) (p : Text) : ∀ ls : List Text, findLoop (libBase lib) ls = .path p ↔
    ∃ before l after e, ls = before ++ l :: after ∧ parseLine l = some e ∧ e.path = some p ∧ Names lib p ∧
      ∀ k ∈ before, ∃ e', parseLine k = some e' ∧ ∀ q, e'.path = some q → ¬ Names lib q
  | [] => by simp [findLoop]
  | l :: ls => by
    have ih := findLoop_path lib p ls
    rw [findLoop]
    -- a step over a line without a match
    have step : ∀ e, parseLine l = some e → (∀ q, e.path = some q → ¬ Names lib q) →
        ((∃ before l' after e', ls = before ++ l' :: after ∧ parseLine l' = some e' ∧ e'.path = some p ∧ Names lib p ∧
          ∀ k ∈ before, ∃ e', parseLine k = some e' ∧ ∀ q, e'.path = some q → ¬ Names lib q) ↔
        ∃ before l' after e', l :: ls = before ++ l' :: after ∧ parseLine l' = some e' ∧ e'.path = some p ∧ Names lib p ∧
          ∀ k ∈ before, ∃ e', parseLine k = some e' ∧ ∀ q, e'.path = some q → ¬ Names lib q) := by
      intro e he hq
      constructor
      · rintro ⟨before, l', after, e', h1, h2, h3, h4, h5⟩
        refine ⟨l :: before, l', after, e', by rw [h1]; rfl, h2, h3, h4, ?_⟩
        intro k hk
        rcases List.mem_cons.mp hk with rfl | hk
        · exact ⟨e, he, hq⟩
        · exact h5 k hk
      · rintro ⟨before, l', after, e', h1, h2, h3, h4, h5⟩
        cases before with
        | nil =>
          simp at h1
          obtain ⟨rfl, rfl⟩ := h1
          rw [he] at h2
          cases h2
          exact absurd h4 (hq p h3)
        | cons b bs =>
          simp at h1
          obtain ⟨rfl, rfl⟩ := h1
          exact ⟨bs, l', after, e', rfl, h2, h3, h4, fun k hk => h5 k (by simp [hk])⟩
    cases he : parseLine l with
    | none =>
      simp only
      constructor
      · intro h; cases h
      · rintro ⟨before, l', after, e', h1, h2, h3, h4, h5⟩
        cases before with
        | nil => simp at h1; rw [h1.1, h2] at he; cases he
        | cons b bs =>
          simp at h1
          obtain ⟨e', he', _⟩ := h5 b (by simp)
          rw [← h1.1, he] at he'; cases he'
    | some e =>
      simp only
      cases hp : e.path with
      | none =>
        simp only
        rw [ih]
        exact step e he (by simp [hp])
      | some q =>
        simp only
        by_cases hm : pathMatches (libBase lib) q = true
        · rw [if_pos hm]
          have hnames := (pathMatches_iff lib q).mp hm
          constructor
          · intro h
            cases h
            exact ⟨[], l, ls, e, rfl, he, hp, hnames, by simp⟩
          · rintro ⟨before, l', after, e', h1, h2, h3, h4, h5⟩
            cases before with
            | nil =>
              simp at h1
              rw [← h1.1, he] at h2
              cases h2
              rw [hp] at h3
              rw [Option.some.inj h3]
            | cons b bs =>
              simp at h1
              obtain ⟨e'', he'', hq''⟩ := h5 b (by simp)
              rw [← h1.1, he] at he''
              cases he''
              exact absurd hnames (hq'' q hp)
        · rw [if_neg hm, ih]
          apply step e he
          intro q' hq'
          rw [hp] at hq'
          cases hq'
          rw [← pathMatches_iff]
          exact hm

theorem findLoop_none (lib : Text) : ∀ ls : List Text, findLoop (libBase lib) ls = .none ↔
    ∀ l ∈ ls, ∃ e, parseLine l = some e ∧ ∀ q, e.path = some q → ¬ Names lib q
  | [] => by simp [findLoop]
  | l :: ls => by
    have ih := findLoop_none lib ls
    rw [findLoop, List.forall_mem_cons]
    cases he : parseLine l with
    | none => simp
    | some e =>
      simp only
      cases hp : e.path with
      | none =>
        simp only
        rw [ih]
        simp [hp]
      | some q =>
        simp only
        by_cases hm : pathMatches (libBase lib) q = true
        · rw [if_pos hm]
          have hnames := (pathMatches_iff lib q).mp hm
          simp [hp, hnames]
        · rw [if_neg hm, ih]
          have := mt (pathMatches_iff lib q).mpr hm
          simp [hp, this]

/-! ## The file the kernel prints -/

/-- The text of `/proc/<pid>/maps`: one line for each mapping. -/
def Spec.printed (ms : List (Pads × Mapping)) : List Char := (ms.map (fun m => line m.1 m.2 ++ ['\n'])).flatten

/-- What the theorems need of a mapping: numbers in range, and a path without line feed that neither begins nor ends
with white space. -/
def Spec.Plain (m : Mapping) : Prop := Fits m ∧ m.inode < 2 ^ 32 ∧ Trimmed m.path ∧ '\n' ∉ m.path

theorem trimEnd_append {s t : Text} (h : trimEnd t ≠ []) : trimEnd (s ++ t) = s ++ trimEnd t := by
  obtain ⟨w, hw, e, hl⟩ := trimEnd_spec t
  generalize trimEnd t = u at *
  rw [e, ← List.append_assoc, trimEnd_run hw]
  exact trimEnd_id (last_append h hl)

theorem parseLine_trimEnd (l : Text) : parseLine (trimEnd l) = parseLine l := by
  obtain ⟨w, hw, e, hl⟩ := trimEnd_spec l
  unfold parseLine splitN
  rw [trimEnd_id hl]

theorem nl_white : White '\n' := Or.inr (Or.inr (Or.inl rfl))

theorem line_no_nl (pad : Pads) (m : Mapping) (hf : Fits m) (hn : '\n' ∉ m.path) : '\n' ∉ line pad m := by
  have h1 := fun z n => (hex_word z n).2 '\n'
  have h2 := (dec_word m.inode).2 '\n'
  have h3 := (device_word pad m).2 '\n'
  have h4 := hf.2.2.2.2 '\n'
  have nw := nl_white
  unfold line
  simp only [List.mem_append, List.mem_cons, List.mem_replicate, not_or]
  refine ⟨fun h => h1 _ _ h nw, by decide, fun h => h1 _ _ h nw, by decide, fun h => h4 h nw, by decide,
    fun h => h1 _ _ h nw, by decide, fun h => h3 h nw, by decide, fun h => h2 h nw, by decide, ?_, hn⟩
  rintro ⟨_, h⟩
  cases h

theorem line_head (pad : Pads) (m : Mapping) : ∃ c cs, line pad m = c :: cs ∧ ¬ White c := by
  have h := hex_word pad.a m.start
  cases he : hex pad.a m.start with
  | nil => exact absurd he h.1
  | cons c cs =>
    refine ⟨c, cs ++ '-' :: (hex pad.b m.stop ++ ' ' :: (m.perms ++ ' ' :: (hex pad.off m.offset ++
      ' ' :: (device pad m ++ ' ' :: (render 10 m.inode ++ ' ' :: (List.replicate pad.spaces ' ' ++ m.path)))))), ?_, ?_⟩
    · unfold line; rw [he]; rfl
    · exact h.2 c (by rw [he]; simp)

theorem trimEnd_line_ne (pad : Pads) (m : Mapping) : trimEnd (line pad m) ≠ [] := by
  obtain ⟨c, cs, h, hc⟩ := line_head pad m
  obtain ⟨w, hw, e, hl⟩ := trimEnd_spec (line pad m)
  intro hn
  rw [hn, List.nil_append] at e
  exact hc (hw c (by rw [← e, h]; simp))

theorem splitBy_lines (ls : List Text) (last : Text) (h : ∀ l ∈ ls, '\n' ∉ l) (hl : '\n' ∉ last) :
    splitBy (fun c => decide (c = '\n')) ((ls.map (· ++ ['\n'])).flatten ++ last) = ls ++ [last] := by
  induction ls with
  | nil =>
    simp only [List.map_nil, List.flatten_nil, List.nil_append]
    exact splitBy_none _ _ (fun c hc => by simp; rintro rfl; exact hl hc)
  | cons l ls ih =>
    simp only [List.map_cons, List.flatten_cons, List.append_assoc, List.cons_append, List.nil_append]
    rw [splitBy_append_sep _ _ _ _ (fun c hc => by simp; rintro rfl; exact h l (by simp) hc) (by decide),
      ih (fun l' hl' => h l' (by simp [hl']))]

/-- The lines that are parsed are the lines printed, but for white space at the end of the last one. -/
theorem mapLines_printed (ms : List (Pads × Mapping)) (last : Pads × Mapping) (h : ∀ m ∈ ms ++ [last], Plain m.2) :
    mapLines (printed (ms ++ [last])) = ms.map (fun m => line m.1 m.2) ++ [trimEnd (line last.1 last.2)] := by
  have hnn : ∀ m ∈ ms ++ [last], '\n' ∉ line m.1 m.2 := fun m hm => line_no_nl _ _ (h m hm).1 (h m hm).2.2.2
  have e1 : printed (ms ++ [last]) = ((ms.map (fun m => line m.1 m.2)).map (· ++ ['\n'])).flatten ++
      (line last.1 last.2 ++ ['\n']) := by
    unfold printed
    simp [List.map_map, Function.comp_def]
  have hstart : trimStart (printed (ms ++ [last])) = printed (ms ++ [last]) := by
    apply trimStart_id
    intro c hc
    cases ms with
    | nil =>
      obtain ⟨d, ds, hd, hw⟩ := line_head last.1 last.2
      simp [printed, hd] at hc
      exact hc ▸ hw
    | cons m ms =>
      obtain ⟨d, ds, hd, hw⟩ := line_head m.1 m.2
      simp [printed, hd] at hc
      exact hc ▸ hw
  have e2 : trimEnd (printed (ms ++ [last])) = ((ms.map (fun m => line m.1 m.2)).map (· ++ ['\n'])).flatten ++
      trimEnd (line last.1 last.2) := by
    rw [e1, ← List.append_assoc, trimEnd_run (by intro c hc; simp at hc; subst hc; exact nl_white),
      trimEnd_append (trimEnd_line_ne _ _)]
  unfold mapLines
  rw [hstart, e2, splitBy_lines]
  · intro l hl
    obtain ⟨m, hm, rfl⟩ := List.mem_map.mp hl
    exact hnn m (by simp [hm])
  · intro hc
    obtain ⟨w, hw, e, _⟩ := trimEnd_spec (line last.1 last.2)
    exact hnn last (by simp) (by rw [e]; simp [hc])

theorem names_ne_nil {lib p : Text} (h : Names lib p) : p ≠ [] := by
  obtain ⟨base, n, t, _, hl, _, _⟩ := h
  obtain ⟨h1, _, _, _, pre, post, e, _⟩ := hl
  rintro rfl
  simp at e
  exact h1 e.2.1

theorem findLoop_congr (base : Text) : ∀ ls ls' : List Text, ls.map parseLine = ls'.map parseLine →
    (∀ l ∈ ls', parseLine l ≠ none) → findLoop base ls = findLoop base ls'
  | [], [], _, _ => rfl
  | [], _ :: _, h, _ => by simp at h
  | _ :: _, [], h, _ => by simp at h
  | l :: ls, l' :: ls', h, hn => by
    simp only [List.map_cons, List.cons.injEq] at h
    rw [findLoop, findLoop, h.1]
    cases he : parseLine l' with
    | none => exact absurd he (hn l' (by simp))
    | some e => simp only [findLoop_congr base ls ls' h.2 (fun k hk => hn k (by simp [hk]))]

/-- **C49 (partial)** In the file printed for a process that has mappings, looking up a library gives the path of the
first mapping that names it, and nothing if there is none. (Partial: inode numbers of more than 32 bits make the lookup
fail, see `C49_inode_violated`, and see `C49_other_library_violated` for what counts as the library's name.) -/
theorem C49_lookup_partial (ms : List (Pads × Mapping)) (lib : Text) (hne : ms ≠ []) (h : ∀ m ∈ ms, Plain m.2) :
    (∀ p, findLibrary (printed ms) lib = .path p ↔
      ∃ before m after, ms = before ++ m :: after ∧ m.2.path = p ∧ Names lib p ∧ ∀ k ∈ before, ¬ Names lib k.2.path) ∧
    (findLibrary (printed ms) lib = .none ↔ ∀ m ∈ ms, ¬ Names lib m.2.path) := by
  obtain ⟨init, last, rfl⟩ : ∃ init last, ms = init ++ [last] :=
    ⟨ms.dropLast, ms.getLast hne, (List.dropLast_concat_getLast hne).symm⟩
  let f : Pads × Mapping → Text := fun m => line m.1 m.2
  have hf : ∀ m ∈ init ++ [last], parseLine (f m) = parseLine (line m.1 m.2) := fun _ _ => rfl
  have hlines : ∀ lib', findLibrary (printed (init ++ [last])) lib' = findLoop (libBase lib') ((init ++ [last]).map f) := by
    intro lib'
    unfold findLibrary
    rw [mapLines_printed init last h]
    apply findLoop_congr
    · simp [parseLine_trimEnd, f]
    · intro l hl
      obtain ⟨m, hm, rfl⟩ := List.mem_map.mp hl
      rw [hf m hm, C48_kernel_line_partial m.1 m.2 (h m hm).1 (h m hm).2.1 (h m hm).2.2.1]
      simp
  have hparse : ∀ m ∈ init ++ [last], ∃ e, parseLine (f m) = some e ∧ e.path = if m.2.path = [] then none else some m.2.path := by
    intro m hm
    rw [hf m hm, C48_kernel_line_partial m.1 m.2 (h m hm).1 (h m hm).2.1 (h m hm).2.2.1]
    exact ⟨_, rfl, rfl⟩
  have hnames : ∀ m ∈ init ++ [last], (∃ e, parseLine (f m) = some e ∧ ∀ q, e.path = some q → ¬ Names lib q) ↔
      ¬ Names lib m.2.path := by
    intro m hm
    obtain ⟨e, he, hp⟩ := hparse m hm
    constructor
    · rintro ⟨e', he', hq⟩ hn
      rw [he] at he'
      cases he'
      rw [if_neg (names_ne_nil hn)] at hp
      exact hq _ hp hn
    · intro hn
      refine ⟨e, he, ?_⟩
      intro q hq
      rw [hp] at hq
      split at hq
      · cases hq
      · cases hq; exact hn
  refine ⟨?_, ?_⟩
  · intro p
    rw [hlines, findLoop_path]
    constructor
    · rintro ⟨before, l, after, e, h1, h2, h3, h4, h5⟩
      obtain ⟨b, r, hb, hbm, hr⟩ := List.map_eq_append_iff.mp h1
      obtain ⟨m, a, hm, hl, ha⟩ := List.map_eq_cons_iff.mp hr
      subst hm hbm
      have hmem : m ∈ init ++ [last] := by rw [hb]; simp
      obtain ⟨e', he', hp'⟩ := hparse m hmem
      rw [hl, h2] at he'
      cases he'
      rw [hp'] at h3
      refine ⟨b, m, a, hb, ?_, h4, ?_⟩
      · split at h3
        · cases h3
        · exact Option.some.inj h3
      · intro k hk
        exact (hnames k (by rw [hb]; simp [hk])).mp (h5 (f k) (List.mem_map_of_mem hk))
    · rintro ⟨before, m, after, h1, h2, h3, h4⟩
      have hmem : m ∈ init ++ [last] := by rw [h1]; simp
      obtain ⟨e, he, hp⟩ := hparse m hmem
      refine ⟨before.map f, f m, after.map f, e, by rw [h1]; simp, he, ?_, h3, ?_⟩
      · rw [hp, h2, if_neg (names_ne_nil h3)]
      · intro k hk
        obtain ⟨k', hk', rfl⟩ := List.mem_map.mp hk
        exact (hnames k' (by rw [h1]; simp [hk'])).mpr (h4 k' hk')
  · rw [hlines, findLoop_none]
    constructor
    · intro hh m hm
      exact (hnames m hm).mp (hh (f m) (List.mem_map_of_mem hm))
    · intro hh l hl
      obtain ⟨m, hm, rfl⟩ := List.mem_map.mp hl
      exact (hnames m hm).mpr (hh m hm)

/-- **C49** Whatever the text, a path that is returned is the path of one of its lines and names the library. -/
theorem C49_only_such (data lib p : Text) (h : findLibrary data lib = .path p) :
    Names lib p ∧ ∃ before l after e, mapLines data = before ++ l :: after ∧ parseLine l = some e ∧ e.path = some p := by
  obtain ⟨before, l, after, e, h1, h2, h3, h4, _⟩ := (findLoop_path lib p (mapLines data)).mp h
  exact ⟨h4, before, l, after, e, h1, h2, h3⟩

/-- The map of a process with an anonymous mapping and two libraries. -/
def exMaps : List (Pads × Mapping) :=
  [(⟨0, 0, 7, 1, 1, 0⟩, ⟨0x5583, 0x5584, "rw-p".toList, 0, 0, 0, 0, []⟩),
   (⟨0, 0, 7, 0, 1, 9⟩, ⟨0x7f10, 0x7f20, "r-xp".toList, 0, 8, 1, 7, "/usr/lib/libapt-pkg.so.6.0".toList⟩),
   (⟨0, 0, 7, 0, 1, 9⟩, ⟨0x7f30, 0x7f40, "r-xp".toList, 0, 8, 1, 9, "/lib/libc.so.6".toList⟩)]

example : (exMaps.map (fun m => findLibrary (printed exMaps) ("libc".toList))).head? = some (.path "/lib/libc.so.6".toList) ∧
    findLibrary (printed exMaps) "libc.so".toList = .path "/lib/libc.so.6".toList ∧
    findLibrary (printed exMaps) "libm".toList = .none := by decide +kernel

theorem plain_of (m : Mapping) (h1 : m.start < 2 ^ 64 ∧ m.stop < 2 ^ 64 ∧ m.offset < 2 ^ 64 ∧ m.perms ≠ [] ∧
    (m.perms.all (fun c => !isWs c)) = true) (h2 : m.inode < 2 ^ 32)
    (h3 : ((m.path.head?.all (fun c => !isWs c)) && (m.path.getLast?.all (fun c => !isWs c))) = true)
    (h4 : '\n' ∉ m.path) : Plain m := by
  refine ⟨⟨h1.1, h1.2.1, h1.2.2.1, h1.2.2.2.1, ?_⟩, h2, ⟨?_, ?_⟩, h4⟩
  · intro c hc
    have := List.all_eq_true.mp h1.2.2.2.2 c hc
    rw [← isWs_false]; simpa using this
  · intro c hc
    rw [Bool.and_eq_true] at h3
    have := h3.1
    rw [hc] at this
    rw [← isWs_false]; simpa using this
  · intro c hc
    rw [Bool.and_eq_true] at h3
    have := h3.2
    rw [hc] at this
    rw [← isWs_false]; simpa using this

example : ∀ m ∈ exMaps, Plain m.2 := by
  intro m hm
  simp only [exMaps, List.mem_cons, List.not_mem_nil, or_false] at hm
  rcases hm with rfl | rfl | rfl <;> exact plain_of _ (by decide +kernel) (by decide) (by decide +kernel) (by decide +kernel)

/-- **C49 (refuted in general)** A library whose name goes on with a hyphen is taken for the one looked up: `libapt`
finds `libapt-pkg`, which is another library. -/
theorem C49_other_library_violated :
    findLibrary (printed exMaps) "libapt".toList = .path "/usr/lib/libapt-pkg.so.6.0".toList := by decide +kernel

/-- **C49 (refuted in general)** One mapping of a file with an inode number of more than 32 bits makes the lookup
fail, although the library is mapped. -/
theorem C49_inode_violated :
    ∃ l, findLibrary (printed ((⟨0, 0, 7, 0, 1, 9⟩, ⟨1, 2, "r--p".toList, 0, 0, 0x2a, 2 ^ 32 + 5, "/bin/app".toList⟩) :: exMaps))
      "libc".toList = .badLine l :=
  ⟨line ⟨0, 0, 7, 0, 1, 9⟩ ⟨1, 2, "r--p".toList, 0, 0, 0x2a, 2 ^ 32 + 5, "/bin/app".toList⟩, by decide +kernel⟩

/-- An empty map, as kernel threads have, is an error and not an unsuccessful lookup. -/
theorem C49_empty_map (lib : Text) : findLibrary [] lib = .badLine [] := rfl

end Verif.UProbe
