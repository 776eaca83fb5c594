import Verif.Verdict.Spec
/-!
# C116: the verdict is that of the tests
-/
namespace Verif.Verdict

theorem stripPrefix_some : ∀ {p s r : Text}, stripPrefix p s = some r → s = p ++ r
  | [], s, r, h => by cases h; rfl
  | _ :: _, [], _, h => by cases h
  | p :: ps, c :: cs, r, h => by
    simp only [stripPrefix] at h
    by_cases hc : p = c
    · rw [if_pos hc] at h
      rw [hc, List.cons_append, ← stripPrefix_some h]
    · rw [if_neg hc] at h; cases h

theorem stripPrefix_append : ∀ (p r : Text), stripPrefix p (p ++ r) = some r
  | [], _ => rfl
  | p :: ps, r => by
    simp only [List.cons_append, stripPrefix, if_true]
    exact stripPrefix_append ps r

/-! ## Arguments -/

theorem words_word : ∀ {a : Text} (w s : Text), (∀ c ∈ a, isSpace c = false) → words w (a ++ s) = words (w ++ a) s
  | [], w, s, _ => by simp
  | c :: cs, w, s, h => by
    have hc := h c List.mem_cons_self
    simp only [List.cons_append, words, hc, Bool.false_eq_true, if_false]
    rw [words_word (w ++ [c]) s (fun x hx => h x (List.mem_cons_of_mem _ hx))]
    simp

theorem words_space {w s : Text} {c : Char} (hc : isSpace c = true) (hw : w ≠ []) : words w (c :: s) = w :: words [] s := by
  have : w.isEmpty = false := by simpa using hw
  simp [words, hc, this]

theorem words_joined : ∀ {ps : List (Text × Text)} {rest : Text}, ps ≠ [] → (∀ p ∈ ps, p.1 ≠ [] ∧ (∀ c ∈ p.1, isSpace c = false) ∧ ∀ c ∈ p.2, isSpace c = false) →
    words [] (joined ps ++ ' ' :: rest) = ps.map param ++ words [] rest
  | [], _, h, _ => absurd rfl h
  | [p], rest, _, h => by
    obtain ⟨h1, h2, h3⟩ := h p List.mem_cons_self
    simp only [joined, List.map_cons, List.map_nil]
    have hp : ∀ c ∈ param p, isSpace c = false := by
      intro c hc
      simp only [param, List.mem_append, List.mem_singleton] at hc
      rcases hc with (hc | hc) | hc
      · exact h2 c hc
      · subst hc; decide
      · exact h3 c hc
    rw [words_word [] _ hp, List.nil_append, words_space (by decide) (by simp [param])]
    rfl
  | p :: q :: r, rest, _, h => by
    obtain ⟨h1, h2, h3⟩ := h p List.mem_cons_self
    have hp : ∀ c ∈ param p, isSpace c = false := by
      intro c hc
      simp only [param, List.mem_append, List.mem_singleton] at hc
      rcases hc with (hc | hc) | hc
      · exact h2 c hc
      · subst hc; decide
      · exact h3 c hc
    have ih := words_joined (ps := q :: r) (rest := rest) (by simp) (fun x hx => h x (List.mem_cons_of_mem _ hx))
    simp only [joined]
    rw [List.append_assoc, words_word [] _ hp, List.nil_append, List.cons_append, words_space (by decide) (by simp [param]), ih]
    rfl

/-- The binaries get the arguments of the user, in order, if each is one word: whatever the console is and with the end of line that the kernel adds. -/
theorem C116_args_partial {console : Text} {args : List Text} (hc : Word console) (ha : ∀ a ∈ args, Word a) : guestArgs (kernelArgs console args ++ ['\n']) = args := by
  unfold guestArgs kernelArgs
  simp only [List.append_assoc, List.cons_append, List.nil_append]
  rw [words_joined (by simp) (by
    intro p hp
    rcases List.mem_cons.1 hp with rfl | hp
    · exact ⟨by simp, by dsimp only; decide, hc⟩
    · obtain ⟨a, h, rfl⟩ := List.mem_map.1 hp
      exact ⟨by simp, by dsimp only; decide, ha a h⟩)]
  have he : words [] ['n', 'o', 'a', 'p', 'i', 'c', ' ', 'l', 's', 'm', '=', 'b', 'p', 'f', '\n'] = [['n', 'o', 'a', 'p', 'i', 'c'], ['l', 's', 'm', '=', 'b', 'p', 'f']] := by decide
  rw [he, List.filterMap_append, List.map_cons, List.filterMap_cons_none (by simp [param, stripPrefix, initArg])]
  have hm : ∀ (l : List Text), ((l.map (fun a => ((['i', 'n', 'i', 't', '.', 'a', 'r', 'g'] : Text), a))).map param).filterMap (stripPrefix initArg) = l := by
    intro l
    induction l with
    | nil => rfl
    | cons a l ih =>
      have hp : stripPrefix initArg (param (['i', 'n', 'i', 't', '.', 'a', 'r', 'g'], a)) = some a := stripPrefix_append initArg a
      rw [List.map_cons, List.map_cons, List.filterMap_cons_some hp, ih]
  rw [hm]
  have : ([['n', 'o', 'a', 'p', 'i', 'c'], ['l', 's', 'm', '=', 'b', 'p', 'f']] : List Text).filterMap (stripPrefix initArg) = [] := by decide
  rw [this, List.append_nil]

/-! ## The console -/

theorem lines_line : ∀ {l : Text} (w s : Text), '\n' ∉ l → lines w (l ++ '\n' :: s) = stripCr (w ++ l) :: lines [] s
  | [], w, s, _ => by simp [lines]
  | c :: cs, w, s, h => by
    have hc : c ≠ '\n' := fun hh => h (by simp [hh])
    simp only [List.cons_append, lines, if_neg hc]
    rw [lines_line (w ++ [c]) s (fun hh => h (List.mem_cons_of_mem _ hh))]
    simp

theorem lines_whole : ∀ {ls : List Text} {s : Text}, (∀ l ∈ ls, '\n' ∉ l) → lines [] (ls.flatMap (· ++ ['\n']) ++ s) = ls.map stripCr ++ lines [] s
  | [], _, _ => rfl
  | l :: ls, s, h => by
    simp only [List.flatMap_cons, List.append_assoc, List.cons_append, List.nil_append, List.map_cons]
    rw [lines_line [] _ (h l List.mem_cons_self), List.nil_append, lines_whole (fun x hx => h x (List.mem_cons_of_mem _ hx))]

theorem stripCr_prefix (l : Text) : stripCr l <+: l := by
  unfold stripCr
  by_cases h : l.getLast? = some '\r'
  · rw [if_pos h]; exact List.dropLast_prefix l
  · rw [if_neg h]; exact List.prefix_rfl

theorem Quiet.append {a b : Text} (ha : Quiet a) (hb : Quiet b) : Quiet (a ++ b) := by
  obtain ⟨la, rfl, h1⟩ := ha
  obtain ⟨lb, rfl, h2⟩ := hb
  exact ⟨la ++ lb, by simp, fun l hl => (List.mem_append.1 hl).elim (h1 l) (h2 l)⟩

theorem quiet_nil : Quiet [] := ⟨[], rfl, fun _ h => by cases h⟩

theorem crlf_append (a b : Text) : crlf (a ++ b) = crlf a ++ crlf b := by simp [crlf]

theorem crlf_plain : ∀ {l : Text}, '\n' ∉ l → crlf l = l
  | [], _ => rfl
  | c :: cs, h => by
    have hc : c ≠ '\n' := fun hh => h (by simp [hh])
    have ih := crlf_plain (l := cs) (fun hh => h (List.mem_cons_of_mem _ hh))
    unfold crlf at ih ⊢
    rw [List.flatMap_cons, if_neg hc, ih]
    rfl

theorem not_prefix_cr {l : Text} (h : ¬ initColon <+: l) : ¬ initColon <+: l ++ ['\r'] := by
  intro hp
  rcases List.prefix_concat_iff.1 hp with he | hp
  · have : (initColon).getLast? = (l ++ ['\r']).getLast? := by rw [he]
    rw [List.getLast?_concat] at this
    revert this
    decide
  · exact h hp

theorem Quiet.crlf {t : Text} (h : Quiet t) : Quiet (crlf t) := by
  obtain ⟨ls, rfl, hl⟩ := h
  refine ⟨ls.map (· ++ ['\r']), ?_, ?_⟩
  · induction ls with
    | nil => rfl
    | cons l ls ih =>
      have h1 := (hl l List.mem_cons_self).1
      rw [List.flatMap_cons, crlf_append, crlf_append, crlf_plain h1, ih (fun x hx => hl x (List.mem_cons_of_mem _ hx))]
      simp [Verdict.crlf]
  · intro l hl'
    obtain ⟨x, hx, rfl⟩ := List.mem_map.1 hl'
    exact ⟨by simp [(hl x hx).1], not_prefix_cr (hl x hx).2⟩

theorem readLines_quiet : ∀ {ls : List Text} {c : Nat → Nat} {o : Option Bool} {rest : List Text}, (∀ l ∈ ls, ¬ initColon <+: l) →
    ∃ c', readLines true c o (ls.map stripCr ++ rest) = readLines true c' o rest
  | [], c, _, _, _ => ⟨c, rfl⟩
  | l :: ls, c, o, rest, h => by
    obtain ⟨c', ih⟩ := readLines_quiet (ls := ls) (c := (hang c (stripCr l)).1) (o := o) (rest := rest) (fun x hx => h x (List.mem_cons_of_mem _ hx))
    refine ⟨c', ?_⟩
    have : stripPrefix initColon (stripCr l) = none := by
      rcases e : stripPrefix initColon (stripCr l) with _ | r
      · rfl
      · exact absurd (List.IsPrefix.trans ⟨r, (stripPrefix_some e).symm⟩ (stripCr_prefix l)) (h l List.mem_cons_self)
    simp only [List.map_cons, List.cons_append, readLines, Bool.not_true, Bool.and_false, Bool.false_eq_true, if_false, this]
    exact ih

theorem read_quiet {t s : Text} {c : Nat → Nat} {o : Option Bool} (h : Quiet t) : ∃ c', readLines true c o (lines [] (t ++ s)) = readLines true c' o (lines [] s) := by
  obtain ⟨ls, rfl, hl⟩ := h
  rw [lines_whole (fun l h => (hl l h).1)]
  exact readLines_quiet (fun l h => (hl l h).2)

theorem read_success {s : Text} {c : Nat → Nat} {e : Text} (he : e = [] ∨ e = ['\r']) : ∃ c', readLines true c none (lines [] (initColon ++ success ++ e ++ '\n' :: s)) = readLines true c' (some true) (lines [] s) := by
  rw [lines_line [] s (by rcases he with rfl | rfl <;> decide)]
  have h1 : stripCr ([] ++ (initColon ++ success ++ e)) = initColon ++ success := by rcases he with rfl | rfl <;> decide
  rw [h1]
  refine ⟨(hang c (initColon ++ success)).1, ?_⟩
  rw [readLines, stripPrefix_append]
  simp only [Bool.not_true, Bool.and_false, Bool.false_eq_true, if_false, if_true]

theorem read_failure {s : Text} {c : Nat → Nat} {e : Text} (he : e = [] ∨ e = ['\r']) : ∃ c', readLines true c none (lines [] (initColon ++ failure ++ e ++ '\n' :: s)) = readLines true c' (some false) (lines [] s) := by
  rw [lines_line [] s (by rcases he with rfl | rfl <;> decide)]
  have h1 : stripCr ([] ++ (initColon ++ failure ++ e)) = initColon ++ failure := by rcases he with rfl | rfl <;> decide
  rw [h1]
  refine ⟨(hang c (initColon ++ failure)).1, ?_⟩
  rw [readLines, stripPrefix_append]
  simp only [Bool.not_true, Bool.and_false, Bool.false_eq_true, if_false]
  rw [if_neg (by decide), if_pos trivial]

/-! ## The guest -/

theorem runEntries_iff {line : Text} {args : List Text} : ∀ {es : List (Option (List Text → Run))}, (runEntries line args es).1 = true ↔
    ∀ e ∈ es, ∃ (f : List Text → Run), e = some f ∧ (f args).started = true ∧ (f args).code = some 0
  | [] => by simp [runEntries]
  | e :: es => by
    simp only [runEntries, Bool.and_eq_true, runEntries_iff, List.forall_mem_cons]
    refine and_congr_left (fun _ => ?_)
    cases e with
    | none => simp [runEntry]
    | some f =>
      by_cases hs : (f args).started = true
      · simp [runEntry, hs]
      · simp [runEntry, hs]

theorem run_iff {line : Text} {g : Guest} {c : Text} (hc : g.cmdline = some c ∨ g.cmdline = none) : (run line g).1 = true ↔ Passed g (guestArgs c) := by
  unfold run Passed
  by_cases hm : g.mounts.all id = true
  · rw [if_pos hm]
    have hm' : ∀ m ∈ g.mounts, m = true := by simpa using hm
    rcases hc with hc | hc
    · rw [hc]
      rcases e : g.bin with _ | es
      · simp
      · simp only [runEntries_iff]
        constructor
        · intro h; exact ⟨hm', by simp, es, rfl, h⟩
        · rintro ⟨_, _, es', h1, h2⟩
          cases h1
          exact h2
    · rw [hc]; simp
  · rw [if_neg hm]
    have : ¬ ∀ m ∈ g.mounts, m = true := by simpa using hm
    constructor
    · intro h; cases h
    · intro h; exact absurd h.1 this

theorem runEntries_quiet {line : Text} {args : List Text} (hl : Quiet (line ++ ['\n'])) : ∀ {es : List (Option (List Text → Run))}, (∀ f, some f ∈ es → ∀ args, Quiet (f args).out) →
    Quiet (runEntries line args es).2
  | [], _ => quiet_nil
  | e :: es, h => by
    refine Quiet.append ?_ (runEntries_quiet hl (fun f hf => h f (List.mem_cons_of_mem _ hf)))
    cases e with
    | none => exact quiet_nil
    | some f =>
      unfold runEntry
      dsimp only
      by_cases hs : (f args).started = true
      · rw [if_pos hs]; exact hl.append (h f List.mem_cons_self args)
      · rw [if_neg hs]; exact hl

theorem run_quiet {line : Text} {g : Guest} (hl : Quiet (line ++ ['\n'])) (hg : QuietGuest g) : Quiet (run line g).2 := by
  unfold run
  by_cases hm : g.mounts.all id = true
  · rw [if_pos hm]
    rcases g.cmdline with _ | c
    · exact quiet_nil
    · dsimp only
      rcases e : g.bin with _ | es
      · exact quiet_nil
      · exact runEntries_quiet hl (hg es e)
  · rw [if_neg hm]; exact quiet_nil

theorem read_run {t before after e e' err : Text} (he : e = [] ∨ e = ['\r']) (q1 : Quiet before) (hq : Quiet t) (q2 : Quiet after) :
    readLines true (fun _ => 0) none (lines [] (before ++ (t ++ (initColon ++ success ++ e ++ '\n' :: (after ++ []))))) = .ok (some true) ∧
    (Quiet (err ++ e' ++ ['\n']) →
      readLines true (fun _ => 0) none (lines [] (before ++ (t ++ ((err ++ e' ++ ['\n']) ++ (initColon ++ failure ++ e ++ '\n' :: (after ++ [])))))) = .ok (some false)) := by
  constructor
  · obtain ⟨c1, e1⟩ := read_quiet (s := t ++ (initColon ++ success ++ e ++ '\n' :: (after ++ []))) (c := fun _ => 0) (o := none) q1
    obtain ⟨c2, e2⟩ := read_quiet (s := initColon ++ success ++ e ++ '\n' :: (after ++ [])) (c := c1) (o := none) hq
    obtain ⟨c4, e4⟩ := read_success (s := after ++ []) (c := c2) he
    obtain ⟨c5, e5⟩ := read_quiet (s := []) (c := c4) (o := some true) q2
    rw [e1, e2, e4, e5]
    rfl
  · intro q4
    obtain ⟨c1, e1⟩ := read_quiet (s := t ++ ((err ++ e' ++ ['\n']) ++ (initColon ++ failure ++ e ++ '\n' :: (after ++ [])))) (c := fun _ => 0) (o := none) q1
    obtain ⟨c2, e2⟩ := read_quiet (s := (err ++ e' ++ ['\n']) ++ (initColon ++ failure ++ e ++ '\n' :: (after ++ []))) (c := c1) (o := none) hq
    obtain ⟨c3, e3⟩ := read_quiet (s := initColon ++ failure ++ e ++ '\n' :: (after ++ [])) (c := c2) (o := none) q4
    obtain ⟨c4, e4⟩ := read_failure (s := after ++ []) (c := c3) he
    obtain ⟨c5, e5⟩ := read_quiet (s := []) (c := c4) (o := some false) q2
    rw [e1, e2, e3, e4, e5]
    rfl

theorem crlf_success : crlf (initColon ++ success ++ ['\n']) = initColon ++ success ++ ['\r'] ++ ['\n'] := by decide
theorem crlf_failure : crlf (initColon ++ failure ++ ['\n']) = initColon ++ failure ++ ['\r'] ++ ['\n'] := by decide
theorem crlf_end : crlf ['\n'] = ['\r', '\n'] := by decide

/-- The host's verdict on a machine that booted and was switched off is that of its tests. -/
theorem C116_verdict_partial {line err before after : Text} {g : Guest} {v : Vm} {c : Text} (hb : Booted line err before after g v) (hc : g.cmdline = some c ∨ g.cmdline = none) :
    (vm v = .ok true ∧ Passed g (guestArgs c)) ∨ (vm v = .ok false ∧ ¬ Passed g (guestArgs c)) := by
  obtain ⟨h1, h2, h3, h4, q1, q2, q3, q4, q5⟩ := hb
  have hq := run_quiet q3 q5
  have hr := run_iff (line := line) hc
  unfold vm
  rw [h2]
  unfold initOut at h1
  rcases e : run line g with ⟨_ | _, t⟩
  · right
    rw [e] at hq hr h1
    refine ⟨?_, fun h => by have := hr.2 h; cases this⟩
    have key : readLines true (fun _ => 0) none (lines [] v.console) = .ok (some false) := by
      rcases h1 with h1 | h1
      · have := (read_run (e := []) (e' := []) (err := err) (.inl rfl) q1 hq q2).2 (by simpa using q4)
        rw [h1]
        simpa using this
      · obtain ⟨c1, e1⟩ := read_quiet (s := crlf t ++ (crlf (err ++ ['\n']) ++ (initColon ++ failure ++ ['\r'] ++ '\n' :: (crlf after ++ [])))) (c := fun _ => 0) (o := none) q1.crlf
        obtain ⟨c2, e2⟩ := read_quiet (s := crlf (err ++ ['\n']) ++ (initColon ++ failure ++ ['\r'] ++ '\n' :: (crlf after ++ []))) (c := c1) (o := none) hq.crlf
        obtain ⟨c3, e3⟩ := read_quiet (s := initColon ++ failure ++ ['\r'] ++ '\n' :: (crlf after ++ [])) (c := c2) (o := none) q4.crlf
        obtain ⟨c4, e4⟩ := read_failure (s := crlf after ++ []) (c := c3) (.inr rfl)
        obtain ⟨c5, e5⟩ := read_quiet (s := []) (c := c4) (o := some false) q2.crlf
        have hs : v.console = crlf before ++ (crlf t ++ (crlf (err ++ ['\n']) ++ (initColon ++ failure ++ ['\r'] ++ '\n' :: (crlf after ++ [])))) := by
          have : before ++ (t ++ err ++ ['\n'] ++ initColon ++ failure ++ ['\n']) ++ after = before ++ (t ++ ((err ++ ['\n']) ++ ((initColon ++ failure ++ ['\n']) ++ after))) := by simp
          rw [h1, this, crlf_append, crlf_append, crlf_append _ ((initColon ++ failure ++ ['\n']) ++ after), crlf_append _ after, crlf_failure]
          simp
        rw [hs, e1, e2, e3, e4, e5]
        rfl
    rw [key, h3, h4]
    rfl
  · left
    rw [e] at hq hr h1
    refine ⟨?_, hr.1 rfl⟩
    have key : readLines true (fun _ => 0) none (lines [] v.console) = .ok (some true) := by
      rcases h1 with h1 | h1
      · have := (read_run (e := []) (e' := []) (err := []) (.inl rfl) q1 hq q2).1
        rw [h1]
        simpa using this
      · have := (read_run (e := ['\r']) (e' := []) (err := []) (.inr rfl) q1.crlf hq.crlf q2.crlf).1
        have hs : v.console = crlf before ++ (crlf t ++ (initColon ++ success ++ ['\r'] ++ '\n' :: (crlf after ++ []))) := by
          have : before ++ (t ++ initColon ++ success ++ ['\n']) ++ after = before ++ (t ++ ((initColon ++ success ++ ['\n']) ++ after)) := by simp
          rw [h1, this, crlf_append, crlf_append, crlf_append _ after, crlf_success]
          simp
        rw [hs]
        exact this
    rw [key, h3, h4]
    rfl

/-- With arguments of one word each, given by the user: the verdict on the machine is success if and only if everything in it worked and every binary, run with these arguments, ended with 0. -/
theorem C116_user_partial {line err before after console : Text} {args : List Text} {g : Guest} {v : Vm} (hb : Booted line err before after g v)
    (hg : g.cmdline = some (kernelArgs console args ++ ['\n'])) (hc : Word console) (ha : ∀ a ∈ args, Word a) : vm v = .ok true ↔ Passed g args := by
  have h := C116_verdict_partial hb (.inl hg)
  rw [C116_args_partial hc ha] at h
  rcases h with ⟨h1, h2⟩ | ⟨h1, h2⟩
  · simp [h1, h2]
  · simp [h1, h2]

/-- The command succeeds if and only if the verdict on every machine is success; what is wrong with one machine is never made good by another. -/
theorem C116_all (vs : List Vm) : vms 0 vs = .ok () ↔ ∀ v ∈ vs, vm v = .ok true := by
  have key : ∀ (vs : List Vm) (n : Nat), vms n vs = .ok () ↔ n = 0 ∧ ∀ v ∈ vs, vm v = .ok true := by
    intro vs
    induction vs with
    | nil =>
      intro n
      unfold vms
      by_cases h : n = 0
      · simp [h]
      · simp [h]
    | cons v vs ih =>
      intro n
      unfold vms
      rcases e : vm v with _ | _ | _
      · simp [e]
      · simp [e, ih]
      · simp [e, ih]
  simpa using key vs 0

theorem prefix_iff {p l : Text} : p <+: l ↔ ∃ r, stripPrefix p l = some r :=
  ⟨fun ⟨r, h⟩ => ⟨r, by rw [← h]; exact stripPrefix_append p r⟩, fun ⟨r, h⟩ => ⟨r, (stripPrefix_some h).symm⟩⟩

/-- What a verdict is called. -/
def said (b : Bool) : Text := initColon ++ (if b then success else failure)

theorem readLines_ok : ∀ (ls : List Text) (c : Nat → Nat) (o : Option Bool) (si : Bool) (r : Option Bool), readLines si c o ls = .ok r →
    (o = none ∧ (Verdicts ls).map some = r.toList.map (fun b => some (said b))) ∨ (o ≠ none ∧ o = r ∧ Verdicts ls = []) := by
  intro ls
  induction ls with
  | nil =>
    intro c o si r h
    cases h
    cases o with
    | none => exact .inl ⟨rfl, rfl⟩
    | some b => exact .inr ⟨by simp, rfl, rfl⟩
  | cons l ls ih =>
    intro c o si r h
    unfold readLines at h
    by_cases h1 : ((hang c l).2 && !si) = true
    · rw [if_pos h1] at h; cases h
    · rw [if_neg h1] at h
      rcases e : stripPrefix initColon l with _ | x
      · rw [e] at h
        have hn : ¬ initColon <+: l := fun hh => by obtain ⟨y, hy⟩ := prefix_iff.1 hh; rw [e] at hy; cases hy
        have hv : Verdicts (l :: ls) = Verdicts ls := List.filter_cons_of_neg (fun hh => hn (of_decide_eq_true hh))
        rw [hv]
        exact ih _ _ _ _ h
      · rw [e] at h
        have hv : Verdicts (l :: ls) = l :: Verdicts ls := List.filter_cons_of_pos (decide_eq_true (prefix_iff.2 ⟨x, e⟩))
        have hl := stripPrefix_some e
        rw [hv]
        dsimp only at h
        by_cases hr : x = success
        · rw [if_pos hr] at h
          cases o with
          | some _ => cases h
          | none =>
            rcases ih _ _ _ _ h with ⟨h, _⟩ | ⟨_, h2, h3⟩
            · cases h
            · left; rw [← h2, h3, hl, hr]; exact ⟨rfl, rfl⟩
        · rw [if_neg hr] at h
          by_cases hf : x = failure
          · rw [if_pos hf] at h
            cases o with
            | some _ => cases h
            | none =>
              rcases ih _ _ _ _ h with ⟨h, _⟩ | ⟨_, h2, h3⟩
              · cases h
              · left; rw [← h2, h3, hl, hf]; exact ⟨rfl, rfl⟩
          · rw [if_neg hf] at h; cases h

/-- There is a verdict only on a machine that was switched off as it should and that said it once, with nothing else that begins like it. -/
theorem C116_once {v : Vm} {b : Bool} (h : vm v = .ok b) : v.code = some 0 ∧ v.stderr = true ∧
    Verdicts (lines [] v.console) = [['i', 'n', 'i', 't', ':', ' '] ++ (if b then ['s', 'u', 'c', 'c', 'e', 's', 's'] else ['f', 'a', 'i', 'l', 'u', 'r', 'e'])] := by
  unfold vm at h
  rcases e : readLines v.stdin (fun _ => 0) none (lines [] v.console) with _ | o
  · rw [e] at h; cases h
  · rw [e] at h
    dsimp only at h
    by_cases h1 : v.stderr = true
    · rw [if_pos h1] at h
      by_cases h2 : v.code = some 0
      · rw [if_pos h2] at h
        cases o with
        | none => cases h
        | some b =>
          cases h
          rcases readLines_ok _ _ _ _ _ e with ⟨_, h⟩ | ⟨h, _⟩
          · refine ⟨h2, h1, ?_⟩
            have h' : (Verdicts (lines [] v.console)).map some = [said b].map some := h
            exact (List.map_inj_right (fun _ _ h => Option.some.inj h)).1 h'
          · exact absurd rfl h
      · rw [if_neg h2] at h; cases h
    · rw [if_neg h1] at h; cases h

/-! ## Kernels that hang -/

theorem containsText_iff {p : Text} : ∀ {l : Text}, containsText p l = true ↔ p <:+: l
  | [] => by simp [containsText, List.isEmpty_iff]
  | c :: cs => by
    rw [containsText, Bool.or_eq_true, containsText_iff (l := cs), List.infix_cons_iff, prefix_iff, Option.isSome_iff_exists]

theorem hang_write {c : Nat → Nat} {l : Text} (h0 : c 0 = 0) (h1 : c 1 = 0) : (hang c l).2 = true ↔
    ("end Kernel panic".toList <:+: l ∨ "rcu: RCU grace-period kthread stack dump:".toList <:+: l ∨ ("watchdog: BUG: soft lockup".toList <:+: l ∧ 1 ≤ c 2)) := by
  rw [← containsText_iff, ← containsText_iff, ← containsText_iff]
  generalize ha : containsText "end Kernel panic".toList l = a
  generalize hb : containsText "rcu: RCU grace-period kthread stack dump:".toList l = b
  generalize hc : containsText "watchdog: BUG: soft lockup".toList l = d
  have : markers.findIdx? (fun m => containsText m.1 l) = if a then some 0 else if b then some 1 else if d then some 2 else none := by
    simp only [markers, List.findIdx?_cons, ha, hb, hc, List.findIdx?_nil]
    cases a <;> cases b <;> cases d <;> rfl
  unfold hang
  rw [this]
  cases a <;> cases b <;> cases d <;> simp [markers, h0, h1] <;> omega

theorem hang_counts {c : Nat → Nat} {l : Text} (h0 : c 0 = 0) (h1 : c 1 = 0) (hw : (hang c l).2 = false) :
    (hang c l).1 0 = 0 ∧ (hang c l).1 1 = 0 ∧ (hang c l).1 2 = c 2 + (if containsText "watchdog: BUG: soft lockup".toList l then 1 else 0) := by
  generalize ha : containsText "end Kernel panic".toList l = a
  generalize hb : containsText "rcu: RCU grace-period kthread stack dump:".toList l = b
  generalize hc : containsText "watchdog: BUG: soft lockup".toList l = d
  have : markers.findIdx? (fun m => containsText m.1 l) = if a then some 0 else if b then some 1 else if d then some 2 else none := by
    simp only [markers, List.findIdx?_cons, ha, hb, hc, List.findIdx?_nil]
    cases a <;> cases b <;> cases d <;> rfl
  unfold hang at hw ⊢
  rw [this] at hw ⊢
  cases a <;> cases b <;> cases d <;> simp_all [markers]

theorem Hung.cons {l : Text} {ls : List Text} (h : Hung ls) : Hung (l :: ls) := by
  rcases h with ⟨x, hx, h⟩ | ⟨a, b, x, y, z, rfl, h1, h2⟩
  · exact .inl ⟨x, List.mem_cons_of_mem _ hx, h⟩
  · exact .inr ⟨a, b, l :: x, y, z, rfl, h1, h2⟩

/-- As long as no line begins like a verdict: the host tells the machine to stop (which is seen from the error if it cannot) if and only if the kernel does not go on. -/
theorem C116_hang {ls : List Text} (hq : ∀ l ∈ ls, ¬ ['i', 'n', 'i', 't', ':', ' '] <+: l) : readLines false (fun _ => 0) none ls = .error .stdin ↔ Hung ls := by
  have key : ∀ (ls : List Text) (c : Nat → Nat), (∀ l ∈ ls, ¬ initColon <+: l) → c 0 = 0 → c 1 = 0 →
      (readLines false c none ls = .error .stdin ↔ Hung ls ∨ (1 ≤ c 2 ∧ ∃ l ∈ ls, "watchdog: BUG: soft lockup".toList <:+: l)) := by
    intro ls
    induction ls with
    | nil =>
      intro c _ _ _
      constructor
      · intro h; cases h
      · rintro ((⟨x, hx, _⟩ | ⟨a, b, x, y, z, h, _⟩) | ⟨_, x, hx, _⟩)
        · cases hx
        · simp at h
        · cases hx
    | cons l ls ih =>
      intro c hq h0 h1
      have hw := hang_write (l := l) h0 h1
      rcases e : (hang c l).2 with _ | _
      · rw [e] at hw
        have hn : ¬ _ := fun h => Bool.false_ne_true (hw.2 h)
        obtain ⟨k0, k1, k2⟩ := hang_counts h0 h1 e
        have hs : stripPrefix initColon l = none := by
          rcases e : stripPrefix initColon l with _ | r
          · rfl
          · exact absurd (prefix_iff.2 ⟨r, e⟩) (hq l List.mem_cons_self)
        have hr : readLines false c none (l :: ls) = readLines false (hang c l).1 none ls := by
          rw [readLines, e, hs]; rfl
        rw [hr, ih _ (fun x hx => hq x (List.mem_cons_of_mem _ hx)) k0 k1, k2]
        by_cases hl : "watchdog: BUG: soft lockup".toList <:+: l
        · have hc0 : ¬ 1 ≤ c 2 := fun h => hn (.inr (.inr ⟨hl, h⟩))
          rw [if_pos (containsText_iff.2 hl)]
          constructor
          · rintro (h | ⟨_, b, hb, h⟩)
            · exact .inl h.cons
            · obtain ⟨y, z, rfl⟩ := List.append_of_mem hb
              exact .inl (.inr ⟨l, b, [], y, z, rfl, hl, h⟩)
          · rintro (h | ⟨h, _⟩)
            · rcases h with ⟨x, hx, h⟩ | ⟨a, b, x, y, z, he, ha, hb⟩
              · rcases List.mem_cons.1 hx with rfl | hx
                · exact absurd (h.elim .inl (fun h => .inr (.inl h))) hn
                · exact .inl (.inl ⟨x, hx, h⟩)
              · refine .inr ⟨by omega, b, ?_, hb⟩
                cases x with
                | nil => simp only [List.nil_append, List.cons_append, List.cons.injEq] at he; rw [he.2]; simp
                | cons u x => simp only [List.cons_append, List.cons.injEq] at he; rw [he.2]; simp
            · exact absurd h hc0
        · have hl' : containsText "watchdog: BUG: soft lockup".toList l = false := by
            rw [Bool.eq_false_iff]; exact fun h => hl (containsText_iff.1 h)
          rw [hl']
          simp only [Bool.false_eq_true, if_false, Nat.add_zero]
          constructor
          · rintro (h | ⟨h, b, hb, h'⟩)
            · exact .inl h.cons
            · exact .inr ⟨h, b, List.mem_cons_of_mem _ hb, h'⟩
          · rintro (h | ⟨h, b, hb, h'⟩)
            · rcases h with ⟨x, hx, h⟩ | ⟨a, b, x, y, z, he, ha, hb⟩
              · rcases List.mem_cons.1 hx with rfl | hx
                · exact absurd (h.elim .inl (fun h => .inr (.inl h))) hn
                · exact .inl (.inl ⟨x, hx, h⟩)
              · cases x with
                | nil => simp only [List.nil_append, List.cons_append, List.cons.injEq] at he; rw [he.1] at hl; exact absurd ha hl
                | cons u x => simp only [List.cons_append, List.cons.injEq] at he; exact .inl (.inr ⟨a, b, x, y, z, by rw [he.2], ha, hb⟩)
            · rcases List.mem_cons.1 hb with rfl | hb
              · exact absurd h' hl
              · exact .inr ⟨h, b, hb, h'⟩
      · have hr : readLines false c none (l :: ls) = .error .stdin := by
          rw [readLines, e]; rfl
        rw [hr]
        refine iff_of_true rfl ?_
        rcases hw.1 e with h | h | ⟨h, hc⟩
        · exact .inl (.inl ⟨l, List.mem_cons_self, .inl h⟩)
        · exact .inl (.inl ⟨l, List.mem_cons_self, .inr h⟩)
        · exact .inr ⟨hc, l, List.mem_cons_self, h⟩
  rw [key ls _ hq rfl rfl]
  simp

end Verif.Verdict
