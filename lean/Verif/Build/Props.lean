import Verif.Build.Spec
/-!
# C106: building eBPF crates
-/
set_option linter.unusedSimpArgs false
set_option linter.unusedVariables false
namespace Verif.Build

/-! ## The command -/

theorem cut_append (sep : Char → Bool) : ∀ (a w b : Str), (∀ c ∈ a, sep c = false) →
    cut sep w (a ++ b) = cut sep (a.reverse ++ w) b := by
  intro a
  induction a with
  | nil => intro w b _; simp
  | cons c cs ih =>
    intro w b h
    have hc : sep c = false := h c (by simp)
    simp only [List.cons_append, cut, hc, Bool.false_eq_true, if_false]
    rw [ih _ _ (fun d hd => h d (by simp [hd]))]
    simp

theorem cut_join (sep : Char → Bool) (s : Char) (hs : sep s = true) : ∀ (fs : List Str) (f : Str) (w : Str),
    (∀ x ∈ f :: fs, ∀ c ∈ x, sep c = false) →
    cut sep w (Str.joinWith s (f :: fs)) = (w.reverse ++ f) :: fs := by
  intro fs
  induction fs with
  | nil =>
    intro f w h
    have := cut_append sep f w [] (h f (by simp))
    simp only [List.append_nil] at this
    simp only [Str.joinWith, this, cut, List.reverse_append, List.reverse_reverse]
  | cons g gs ih =>
    intro f w h
    simp only [Str.joinWith]
    rw [cut_append sep f w _ (h f (by simp))]
    simp only [cut, hs, if_true]
    rw [ih g [] (fun x hx => h x (List.mem_cons_of_mem _ hx))]
    simp

theorem featuresOf_join (fs : List Str) (h : ∀ x ∈ fs, x ≠ [] ∧ ∀ c ∈ x, c ≠ ',' ∧ c ≠ ' ') :
    featuresOf (Str.joinWith ',' fs) = fs := by
  cases fs with
  | nil => decide
  | cons f fs =>
    rw [featuresOf, cut_join _ ',' (by decide) fs f [] (fun x hx c hc => by
      have := (h x hx).2 c hc
      simp [this.1, this.2])]
    simp only [List.reverse_nil, List.nil_append]
    rw [List.filter_eq_self]
    intro x hx
    simpa using (h x hx).1

theorem opt_bins (r : Request) (ws : List Str) : readOpts r ("--bins".toList :: ws) = readOpts { r with bins := true } ws := by
  rw [readOpts.eq_def]; dsimp only; rw [if_pos rfl]

theorem opt_json (r : Request) (ws : List Str) : readOpts r ("--message-format=json".toList :: ws) = readOpts { r with json := true } ws := by
  rw [readOpts.eq_def]; dsimp only; rw [if_neg (by decide +kernel), if_pos rfl]

theorem opt_release (r : Request) (ws : List Str) : readOpts r ("--release".toList :: ws) = readOpts { r with release := true } ws := by
  rw [readOpts.eq_def]; dsimp only; rw [if_neg (by decide +kernel), if_neg (by decide +kernel), if_pos rfl]

theorem opt_noDefault (r : Request) (ws : List Str) : readOpts r ("--no-default-features".toList :: ws) = readOpts { r with defaultFeatures := false } ws := by
  rw [readOpts.eq_def]; dsimp only; rw [if_neg (by decide +kernel), if_neg (by decide +kernel), if_neg (by decide +kernel), if_pos rfl]

theorem opt_package (r : Request) (v : Str) (ws : List Str) :
    readOpts r ("--package".toList :: v :: ws) = readOpts { r with package := some v } ws := by
  rw [readOpts, if_neg (by decide +kernel), if_neg (by decide +kernel), if_neg (by decide +kernel), if_neg (by decide +kernel), if_pos rfl]

theorem opt_target (r : Request) (v : Str) (ws : List Str) :
    readOpts r ("--target".toList :: v :: ws) = readOpts { r with target := some v } ws := by
  rw [readOpts, if_neg (by decide +kernel), if_neg (by decide +kernel), if_neg (by decide +kernel), if_neg (by decide +kernel), if_neg (by decide +kernel), if_pos rfl]

theorem opt_z (r : Request) (ws : List Str) :
    readOpts r ("-Z".toList :: "build-std=core".toList :: ws) = readOpts { r with buildCore := true } ws := by
  rw [readOpts, if_neg (by decide +kernel), if_neg (by decide +kernel), if_neg (by decide +kernel), if_neg (by decide +kernel), if_neg (by decide +kernel), if_neg (by decide +kernel), if_pos rfl, if_pos rfl]

theorem opt_features (r : Request) (v : Str) (ws : List Str) :
    readOpts r ("--features".toList :: v :: ws) = readOpts { r with features := r.features ++ featuresOf v } ws := by
  rw [readOpts, if_neg (by decide +kernel), if_neg (by decide +kernel), if_neg (by decide +kernel), if_neg (by decide +kernel), if_neg (by decide +kernel), if_neg (by decide +kernel), if_neg (by decide +kernel), if_pos rfl]

theorem opt_targetDir (r : Request) (v : Str) (ws : List Str) :
    readOpts r ("--target-dir".toList :: v :: ws) = readOpts { r with targetDir := some v } ws := by
  rw [readOpts, if_neg (by decide +kernel), if_neg (by decide +kernel), if_neg (by decide +kernel), if_neg (by decide +kernel), if_neg (by decide +kernel), if_neg (by decide +kernel), if_neg (by decide +kernel), if_neg (by decide +kernel), if_pos rfl]

/-- The words after `cargo build`. -/
theorem readOpts_words (r : Request) (name target j d : Str) (b nd : Bool) :
    readOpts r ("--package".toList :: name :: "--bins".toList :: "--message-format=json".toList :: "--release".toList ::
        "--target".toList :: target ::
        ((if b then ["-Z".toList, "build-std=core".toList] else []) ++
        ((if nd then ["--no-default-features".toList] else []) ++
        ["--features".toList, j, "--target-dir".toList, d]))) =
      some { r with package := some name, bins := true, json := true, release := true, target := some target,
                    buildCore := r.buildCore || b, defaultFeatures := r.defaultFeatures && !nd,
                    features := r.features ++ featuresOf j, targetDir := some d } := by
  rw [opt_package, opt_bins, opt_json, opt_release, opt_target]
  cases b <;> cases nd <;> simp only [Bool.false_eq_true, if_false, if_true, List.nil_append, List.cons_append] <;>
    (try rw [opt_z]) <;> (try rw [opt_noDefault]) <;> rw [opt_features, opt_targetDir, readOpts] <;> simp

/-- What is asked for. -/
def wanted (toolchain : Option Str) (target : Str) (buildCore : Bool) (dir : Str) (p : Package) : Request where
  toolchain := toolchain
  package := some p.name
  bins := true
  json := true
  release := true
  target := some target
  buildCore := buildCore
  defaultFeatures := !p.noDefaultFeatures
  features := p.features
  targetDir := some dir

theorem readWords_cmd (rustup : Option Str) (hru : ∀ r, rustup = some r → r ≠ "cargo".toList) (tc : Toolchain) (target arch : Str)
    (bs : Option Os) (n : Bool) (out : Path) (p : Package) (h : ∀ x ∈ p.features, x ≠ [] ∧ ∀ c ∈ x, c ≠ ',' ∧ c ≠ ' ') :
    readWords (cmdFor (prefixWords rustup tc) target arch bs n out p).words =
      some (wanted (rustup.map (fun _ => tc.asStr)) target (useBuildStd bs n p.name) (pathWord (targetDir out p.name)) p) := by
  obtain ⟨name, nd, feats⟩ := p
  have hf := featuresOf_join feats h
  generalize hj : Str.joinWith ',' feats = j at hf
  subst hf
  cases rustup with
  | none =>
    simp only [cmdFor, prefixWords, hj]
    generalize useBuildStd bs n name = b
    generalize pathWord (targetDir out name) = d
    have h1 : ∀ ws, readWords ("cargo".toList :: "build".toList :: ws) = readOpts {} ws := by
      intro ws; rw [readWords, if_pos (by rfl)]; rfl
    simp only [List.nil_append, List.cons_append, List.append_assoc]
    rw [h1, readOpts_words]
    simp [wanted]
  | some r =>
    have hne : r ≠ "cargo".toList := hru r rfl
    have h2 : ∀ ws, readWords (r :: "run".toList :: tc.asStr :: "cargo".toList :: "build".toList :: ws) =
        readOpts { toolchain := some tc.asStr } ws := by
      intro ws
      have : ¬ ((r :: "run".toList :: tc.asStr :: "cargo".toList :: "build".toList :: ws).take 2 =
          ["cargo".toList, "build".toList]) := by
        intro hh; injection hh with h1 h2; exact hne h1
      rw [readWords, if_neg this, if_pos ⟨rfl, rfl⟩]
      rfl
    simp only [cmdFor, prefixWords, hj]
    generalize useBuildStd bs n name = b
    generalize pathWord (targetDir out name) = d
    simp only [List.nil_append, List.cons_append, List.append_assoc]
    rw [h2, readOpts_words]
    simp [wanted]


theorem join3 (s : Char) (a b c d e : Str) :
    a ++ b ++ c ++ [s] ++ d ++ [s] ++ e = Str.joinWith s [a ++ b ++ c, d, e] := by
  simp [Str.joinWith]

theorem flagsOf_rustflags (arch : Str) (h : Char.ofNat 31 ∉ arch) :
    flagsOf (rustflags arch) =
      ["--cfg=bpf_target_arch=\"".toList ++ arch ++ "\"".toList, "-Cdebuginfo=2".toList, "-Clink-arg=--btf".toList] := by
  have hj : rustflags arch = Str.joinWith (Char.ofNat 31)
      ["--cfg=bpf_target_arch=\"".toList ++ arch ++ "\"".toList, "-Cdebuginfo=2".toList, "-Clink-arg=--btf".toList] := by
    exact join3 _ _ _ _ _ _
  rw [hj, flagsOf, cut_join _ _ (by decide)]
  · simp
  · intro x hx c hc
    have hpre : ∀ l : Str, (l.all (fun c => !(c == Char.ofNat 31))) = true → ∀ c ∈ l, (c == Char.ofNat 31) = false := by
      intro l hl c hc
      have := List.all_eq_true.mp hl c hc
      simpa using this
    simp only [List.mem_cons, List.not_mem_nil, or_false] at hx
    rcases hx with rfl | rfl | rfl
    · simp only [List.mem_append] at hc
      rcases hc with (hc | hc) | hc
      · exact hpre _ (by decide +kernel) c hc
      · rw [beq_eq_false_iff_ne]; rintro rfl; exact h hc
      · exact hpre _ (by decide +kernel) c hc
    · exact hpre _ (by decide +kernel) c hc
    · exact hpre _ (by decide +kernel) c hc

/-! ## One package -/

theorem collect_ok (ms : List Msg) (h : Msg.invalid ∉ ms) : ∃ ws, collect ms = .ok (reported ms, ws) := by
  induction ms with
  | nil => exact ⟨[], rfl⟩
  | cons m ms ih =>
    obtain ⟨ws, hw⟩ := ih (fun hh => h (List.mem_cons_of_mem _ hh))
    cases m with
    | artifact n exe => cases exe <;> exact ⟨ws, by simp [collect, hw, reported]⟩
    | message r => exact ⟨_, by simp only [collect, hw]; rfl⟩
    | text l => exact ⟨_, by simp only [collect, hw]; rfl⟩
    | other => exact ⟨ws, by simp only [collect, hw]; rfl⟩
    | invalid => exact absurd (by simp) h

theorem set_get (fs : Fs) (p q : Path) (e : Entry) : fs.set p e q = if q = p then some e else fs q := rfl

theorem append_inj {out : Path} {a b : Str} : out ++ [a] = out ++ [b] ↔ a = b := by simp

theorem out_ne (out : Path) (a : Str) : out ≠ out ++ [a] := by
  intro h; have := congrArg List.length h; simp at this

/-- The copies put each executable in its place. -/
theorem copyAll_ok (out : Path) : ∀ (es : List (Str × Path)) (bs : List (Str × List UInt8)) (fs fs' : Fs),
    es.map (fun x => (x.1, fs x.2)) = bs.map (fun b => (b.1, some (.file b.2))) →
    (∀ x ∈ es, ∀ m, x.2 ≠ out ++ [m]) → copyAll out es fs = some fs' → (bs.map (·.1)).Nodup →
    (∀ b ∈ bs, fs' (out ++ [b.1]) = some (.file b.2)) ∧ (∀ m ∉ bs.map (·.1), fs' (out ++ [m]) = fs (out ++ [m])) ∧
      fs' out = fs out := by
  intro es
  induction es with
  | nil =>
    intro bs fs fs' hb _ h _
    cases h
    cases bs with
    | nil => simp
    | cons b bs => simp at hb
  | cons x es ih =>
    intro bs fs fs' hb hx h hn
    cases bs with
    | nil => simp at hb
    | cons b bs =>
      obtain ⟨n, src⟩ := x
      obtain ⟨n', bytes⟩ := b
      simp only [List.map_cons, List.cons.injEq, Prod.mk.injEq] at hb
      obtain ⟨⟨rfl, hsrc⟩, hrest⟩ := hb
      simp only [copyAll, copy, hsrc] at h
      have hne : src ≠ out ++ [n] := hx (n, src) (by simp) n
      by_cases hd : fs (out ++ [n]) = some .dir ∨ fs (out ++ [n]).dropLast ≠ some .dir
      · simp only [if_pos hd] at h; cases h
      · simp only [if_neg hd, if_neg hne] at h
        simp only [List.map_cons, List.nodup_cons] at hn
        have hrest' : es.map (fun x => (x.1, (fs.set (out ++ [n]) (.file bytes)) x.2)) =
            bs.map (fun b => (b.1, some (.file b.2))) := by
          rw [← hrest]
          apply List.map_congr_left
          intro y hy
          have := hx y (List.mem_cons_of_mem _ hy) n
          simp only [set_get, if_neg this]
        obtain ⟨a1, a2, a3⟩ := ih bs _ fs' hrest' (fun y hy => hx y (List.mem_cons_of_mem _ hy)) h hn.2
        refine ⟨?_, ?_, ?_⟩
        · intro b hb
          rcases List.mem_cons.mp hb with rfl | hb
          · rw [a2 n hn.1]; simp [set_get]
          · exact a1 b hb
        · intro m hm
          simp only [List.map_cons, List.mem_cons, not_or] at hm
          rw [a2 m hm.2]
          simp only [set_get, append_inj, if_neg hm.1]
        · rw [a3]; simp only [set_get, if_neg (out_ne out n)]

theorem copyAll_succeeds (out : Path) : ∀ (es : List (Str × Path)) (fs : Fs),
    (∀ x ∈ es, ∃ b, fs x.2 = some (.file b)) → (∀ x ∈ es, ∀ m, x.2 ≠ out ++ [m]) → fs out = some .dir →
    (∀ x ∈ es, fs (out ++ [x.1]) ≠ some .dir) → ∃ fs', copyAll out es fs = some fs' ∧ fs' out = some .dir ∧
      ∀ m, fs (out ++ [m]) ≠ some .dir → fs' (out ++ [m]) ≠ some .dir := by
  intro es
  induction es with
  | nil => intro fs _ _ h _; exact ⟨fs, rfl, h, fun m hm => hm⟩
  | cons x es ih =>
    intro fs hf hx ho hd
    obtain ⟨n, src⟩ := x
    obtain ⟨b, hb⟩ := hf (n, src) (by simp)
    have hb : fs src = some (.file b) := hb
    have hne : src ≠ out ++ [n] := hx (n, src) (by simp) n
    have hc : ¬ (fs (out ++ [n]) = some .dir ∨ fs (out ++ [n]).dropLast ≠ some .dir) := by
      intro hh
      rcases hh with hh | hh
      · exact hd (n, src) (by simp) hh
      · apply hh; simpa using ho
    simp only [copyAll, copy, hb, if_neg hc, if_neg hne]
    obtain ⟨fs', h1, h2, h3⟩ := ih (fs.set (out ++ [n]) (.file b))
      (fun y hy => by
        obtain ⟨b', hb'⟩ := hf y (List.mem_cons_of_mem _ hy)
        exact ⟨b', by rw [set_get, if_neg (hx y (List.mem_cons_of_mem _ hy) n)]; exact hb'⟩)
      (fun y hy => hx y (List.mem_cons_of_mem _ hy))
      (by rw [set_get, if_neg (out_ne out n)]; exact ho)
      (fun y hy => by
        rw [set_get]
        split
        · simp
        · exact hd y (List.mem_cons_of_mem _ hy))
    refine ⟨fs', h1, h2, fun m hm => h3 m ?_⟩
    rw [set_get]
    split
    · simp
    · exact hm

theorem onePackage_ok (out : Path) (fs fs' : Fs) (o : Option Outcome) (ws : List Str)
    (h : onePackage out fs o = (.ok, fs', ws)) : ∃ o' es w, o = some o' ∧ collect o'.msgs = .ok (es, w) ∧ o'.success = true ∧
      copyAll out es o'.fs = some fs' := by
  cases o with
  | none => simp [onePackage] at h
  | some o =>
    simp only [onePackage] at h
    rcases e : collect o.msgs with e' | ⟨es, w⟩
    · rw [e] at h; simp at h
    · rw [e] at h
      simp only at h
      by_cases hs : o.success = true
      · simp only [hs, Bool.not_true, Bool.false_eq_true, if_false] at h
        split at h
        · simp at h
        · rcases e2 : copyAll out es o.fs with _ | f
          · rw [e2] at h; simp at h
          · rw [e2] at h
            simp only [Prod.mk.injEq, true_and] at h
            exact ⟨o, es, w, rfl, e, hs, by rw [e2, h.1]⟩
      · simp [hs] at h

/-! ## All packages -/

/-- What the binaries of a list of packages are, in order. -/
def allBins (binsOf : Package → List (Str × List UInt8)) (ps : List Package) : List (Str × List UInt8) := ps.flatMap binsOf

theorem packages_ok (cargo : Cargo) (out : Path) (bins : Request → List Str → List (Str × List UInt8)) (hb : Behaves cargo out bins)
    (cmd : Package → Cmd) (req : Package → Request) (flags : List Str) (hfl : ∀ p, flagsOf (cmd p).rustflags = flags) :
    ∀ (ps : List Package) (fs fs' : Fs) (ws : List Str), (∀ p ∈ ps, readWords (cmd p).words = some (req p)) →
    packages cargo cmd out ps fs = (.ok, fs', ws) →
    ((allBins (fun p => bins (req p) flags) ps).map (·.1)).Nodup → (∀ b ∈ allBins (fun p => bins (req p) flags) ps, b.1 ≠ "aya-build".toList) →
    (∀ p ∈ ps, ∃ fs0 o, cargo (cmd p) fs0 = some o ∧ o.success = true) ∧
    (∀ b ∈ allBins (fun p => bins (req p) flags) ps, fs' (out ++ [b.1]) = some (.file b.2)) ∧
    (∀ m, m ≠ "aya-build".toList → m ∉ (allBins (fun p => bins (req p) flags) ps).map (·.1) → fs' (out ++ [m]) = fs (out ++ [m])) := by
  intro ps
  induction ps with
  | nil => intro fs fs' ws _ h _ _; simp only [packages, Prod.mk.injEq, true_and] at h; rw [← h.1]; simp [allBins]
  | cons p ps ih =>
    intro fs fs' ws hr h hn hay
    simp only [packages] at h
    rcases e : onePackage out fs (cargo (cmd p) fs) with ⟨r, f1, w1⟩
    rw [e] at h
    cases r with
    | err x => simp at h
    | panic => simp at h
    | ok =>
      simp only at h
      rcases e2 : packages cargo cmd out ps f1 with ⟨r2, f2, w2⟩
      rw [e2] at h
      simp only [Prod.mk.injEq] at h
      obtain ⟨rfl, rfl, _⟩ := h
      obtain ⟨o, es, w, ho, hc, hs, hcp⟩ := onePackage_ok out fs f1 _ w1 e
      obtain ⟨w', hw'⟩ := collect_ok o.msgs (hb.messages _ _ _ ho)
      rw [hw'] at hc
      simp only [Except.ok.injEq, Prod.mk.injEq] at hc
      obtain ⟨rfl, _⟩ := hc
      have hmade := hb.made _ _ _ _ (hr p (by simp)) ho hs
      rw [hfl] at hmade
      have hn' : (allBins (fun p => bins (req p) flags) (p :: ps)) = bins (req p) flags ++ allBins (fun p => bins (req p) flags) ps := by
        simp [allBins]
      rw [hn'] at hn hay ⊢
      simp only [List.map_append, List.nodup_append] at hn
      obtain ⟨c1, c2, c3⟩ := copyAll_ok out _ _ _ _ hmade (hb.elsewhere _ _ _ ho) hcp hn.1
      obtain ⟨d0, d1, d2⟩ := ih f1 f2 w2 (fun q hq => hr q (List.mem_cons_of_mem _ hq)) e2 hn.2.1
        (fun b hb => hay b (List.mem_append_right _ hb))
      refine ⟨?_, ?_, ?_⟩
      · intro q hq
        rcases List.mem_cons.mp hq with rfl | hq
        · exact ⟨fs, o, ho, hs⟩
        · exact d0 q hq
      · intro b hbm
        rcases List.mem_append.mp hbm with hbm | hbm
        · have hnot : b.1 ∉ (allBins (fun p => bins (req p) flags) ps).map (·.1) := fun hh =>
            hn.2.2 b.1 (List.mem_map_of_mem hbm) b.1 hh rfl
          rw [d2 b.1 (hay b (List.mem_append_left _ hbm)) hnot]
          exact c1 b hbm
        · exact d1 b hbm
      · intro m hm hnot
        simp only [List.map_append, List.mem_append, not_or] at hnot
        rw [d2 m hm hnot.2, c2 m hnot.1, hb.leaves _ _ _ ho m hm]

theorem packages_succeeds (cargo : Cargo) (out : Path) (bins : Request → List Str → List (Str × List UInt8))
    (hb : Behaves cargo out bins)
    (cmd : Package → Cmd) (req : Package → Request) (flags : List Str) (hfl : ∀ p, flagsOf (cmd p).rustflags = flags) :
    ∀ (ps : List Package) (fs : Fs), (∀ p ∈ ps, readWords (cmd p).words = some (req p)) →
    (∀ p ∈ ps, ∀ fs0, ∃ o, cargo (cmd p) fs0 = some o ∧ o.success = true) → fs out = some .dir →
    (∀ b ∈ allBins (fun p => bins (req p) flags) ps, b.1 ≠ "aya-build".toList) →
    (∀ b ∈ allBins (fun p => bins (req p) flags) ps, fs (out ++ [b.1]) ≠ some .dir) →
    ∃ fs' ws, packages cargo cmd out ps fs = (.ok, fs', ws) := by
  intro ps
  induction ps with
  | nil => intro fs _ _ _ _ _; exact ⟨fs, [], rfl⟩
  | cons p ps ih =>
    intro fs hr hc ho hay hd
    obtain ⟨o, h1, h2⟩ := hc p (by simp) fs
    obtain ⟨w', hw'⟩ := collect_ok o.msgs (hb.messages _ _ _ h1)
    have hmade := hb.made _ _ _ _ (hr p (by simp)) h1 h2
    rw [hfl] at hmade
    have hn' : (allBins (fun p => bins (req p) flags) (p :: ps)) = bins (req p) flags ++ allBins (fun p => bins (req p) flags) ps := by
      simp [allBins]
    rw [hn'] at hay hd
    have hutf : o.err.any Option.isNone = false := by
      rw [List.any_eq_false]
      intro x hx
      cases x with
      | none => exact absurd hx (hb.utf8 _ _ _ h1)
      | some l => simp
    have hmem : ∀ x ∈ reported o.msgs, ∃ b ∈ bins (req p) flags, x.1 = b.1 ∧ o.fs x.2 = some (.file b.2) := by
      intro x hx
      have : (x.1, o.fs x.2) ∈ (bins (req p) flags).map (fun b => (b.1, some (Entry.file b.2))) := by
        rw [← hmade]; exact List.mem_map_of_mem (f := fun x => (x.1, o.fs x.2)) hx
      obtain ⟨b, hbm, hbe⟩ := List.mem_map.mp this
      simp only [Prod.mk.injEq] at hbe
      exact ⟨b, hbm, hbe.1.symm, hbe.2.symm⟩
    obtain ⟨f1, k1, k2, k3⟩ := copyAll_succeeds out (reported o.msgs) o.fs
      (fun x hx => by obtain ⟨b, _, _, hh⟩ := hmem x hx; exact ⟨_, hh⟩)
      (hb.elsewhere _ _ _ h1) (hb.keeps _ _ _ h1 ho)
      (fun x hx => by
        obtain ⟨b, hbm, he, _⟩ := hmem x hx
        rw [he, hb.leaves _ _ _ h1 _ (hay b (List.mem_append_left _ hbm))]
        exact hd b (List.mem_append_left _ hbm))
    have hone : onePackage out fs (cargo (cmd p) fs) = (.ok, f1, w' ++ errLines o.err) := by
      simp only [onePackage, h1, hw', h2, hutf, k1, Bool.not_true, Bool.false_eq_true, if_false]
    obtain ⟨fs', ws, hh⟩ := ih f1 (fun q hq => hr q (List.mem_cons_of_mem _ hq)) (fun q hq => hc q (List.mem_cons_of_mem _ hq)) k2
      (fun b hbm => hay b (List.mem_append_right _ hbm))
      (fun b hbm => k3 _ (by
        rw [hb.leaves _ _ _ h1 _ (hay b (List.mem_append_right _ hbm))]
        exact hd b (List.mem_append_right _ hbm)))
    exact ⟨fs', (w' ++ errLines o.err) ++ ws, by simp only [packages, hone, hh]⟩

/-! ## C106 -/

/-- The target for an endianness. -/
def ebpfTarget (big : Bool) : Str := if big then "bpfeb-unknown-none".toList else "bpfel-unknown-none".toList

/-- Whether unstable options may be used for a crate (<https://doc.rust-lang.org/beta/unstable-book/compiler-environment-variables>): with
    `1` or its name in `RUSTC_BOOTSTRAP`, or a nightly compiler unless that is `-1`. -/
def unstable (bootstrap : Option Os) (nightly : Bool) (name : Str) : Prop :=
  bootstrap = some (.text "1".toList) ∨ bootstrap = some (.text name) ∨ (nightly = true ∧ bootstrap ≠ some (.text "-1".toList))

theorem useBuildStd_iff (bs : Option Os) (n : Bool) (name : Str) : useBuildStd bs n name = true ↔ unstable bs n name := by
  have h11 : ("1".toList : Str) ≠ "-1".toList := by decide +kernel
  unfold unstable useBuildStd
  cases bs with
  | none => simp
  | some b =>
    simp only [Option.some.injEq, ne_eq]
    by_cases h1 : b = .text "1".toList ∨ b = .text name
    · rw [if_pos h1]
      simp only [true_iff]
      rcases h1 with h1 | h1
      · exact .inl h1
      · exact .inr (.inl h1)
    · rw [if_neg h1]
      simp only [not_or] at h1
      by_cases h2 : b = .text "-1".toList
      · rw [if_pos h2]
        constructor
        · intro hh; cases hh
        · rintro (hh | hh | hh)
          · exact absurd hh h1.1
          · exact absurd hh h1.2
          · exact absurd h2 hh.2
      · rw [if_neg h2]
        constructor
        · intro hh; exact .inr (.inr ⟨hh, h2⟩)
        · rintro (hh | hh | hh)
          · exact absurd hh h1.1
          · exact absurd hh h1.2
          · exact hh.1

/-- The surroundings of a build script, as cargo makes them: it is told the directory, endianness and architecture of the target; the
    compiler answers; `rustup` is not called `cargo`. -/
structure Surroundings (w : World) (out : Path) (big : Bool) (arch : Str) (nightly : Bool) : Prop where
  skip : ∀ s, w.env "AYA_BUILD_SKIP".toList = some (.text s) → s ≠ "1".toList ∧ s.map Char.toLower ≠ "true".toList
  dir : w.outDir = some out
  endian : w.env "CARGO_CFG_TARGET_ENDIAN".toList = some (.text (if big then "big".toList else "little".toList))
  told : w.env "CARGO_CFG_TARGET_ARCH".toList = some (.text arch)
  plain : Char.ofNat 31 ∉ arch
  channel : w.nightly = some nightly
  rustup : ∀ r, w.rustup = some r → r ≠ "cargo".toList

/-- The flags for the compiler: the architecture by the name `aya` has for it, and debug information to make BTF of. -/
def ebpfFlags (arch : Str) : List Str :=
  ["--cfg=bpf_target_arch=\"".toList ++ (if "riscv64".toList.isPrefixOf arch then "riscv64".toList else arch) ++ "\"".toList,
   "-Cdebuginfo=2".toList, "-Clink-arg=--btf".toList]

/-- What is asked for in given surroundings. -/
def requestOf (w : World) (out : Path) (big nightly : Bool) (tc : Toolchain) (p : Package) : Request :=
  wanted (w.rustup.map (fun _ => tc.asStr)) (ebpfTarget big) (useBuildStd (w.env "RUSTC_BOOTSTRAP".toList) nightly p.name)
    (pathWord (out ++ ["aya-build".toList, "target".toList, p.name])) p

theorem buildEbpf_eq (w : World) (out : Path) (big : Bool) (arch : Str) (nightly : Bool) (h : Surroundings w out big arch nightly)
    (ps : List Package) (tc : Toolchain) (fs : Fs) :
    buildEbpf w ps tc fs = packages w.cargo
      (cmdFor (prefixWords w.rustup tc) (ebpfTarget big) (archFixup arch) (w.env "RUSTC_BOOTSTRAP".toList) nightly out) out ps fs := by
  have hskip : skips w.env = false := by
    simp only [skips, isTrue]
    rcases e : w.env "AYA_BUILD_SKIP".toList with _ | (s | n)
    · rfl
    · have := h.skip s e
      simp only [Bool.or_eq_false_iff, beq_eq_false_iff_ne]
      exact this
    · rfl
  have ht : targetOf w.env = .ok (ebpfTarget big) := by
    simp only [targetOf, h.endian]
    cases big with
    | true => simp only [if_true]; rfl
    | false =>
      simp only [Bool.false_eq_true, if_false]
      rw [if_neg (by decide +kernel), if_true]
      rfl
  have ha : archOf w.env = .ok (archFixup arch) := by simp only [archOf, h.told]
  simp only [buildEbpf, hskip, h.dir, ht, ha, h.channel, Bool.false_eq_true, if_false]

theorem archFixup_plain (arch : Str) (h : Char.ofNat 31 ∉ arch) : Char.ofNat 31 ∉ archFixup arch := by
  simp only [archFixup]
  split
  · decide +kernel
  · exact h

/-- **C106 (what is built, partial).** If `build_ebpf` succeeds and does not skip, then for each package cargo was run and succeeded, and
    every binary made for the request - this package with exactly these features, for the eBPF target of the same endianness, with the
    flag for the architecture - is in `OUT_DIR` under its name. No other file there has changed. This holds if the binaries have different
    names (`C106_same_name_violated`) and none is called `aya-build` (`C106_reserved_name_violated`). -/
theorem C106_built_partial (w : World) (out : Path) (big : Bool) (arch : Str) (nightly : Bool) (h : Surroundings w out big arch nightly)
    (bins : Request → List Str → List (Str × List UInt8)) (hb : Behaves w.cargo out bins) (ps : List Package) (tc : Toolchain)
    (hfe : ∀ p ∈ ps, ∀ x ∈ p.features, x ≠ [] ∧ ∀ c ∈ x, c ≠ ',' ∧ c ≠ ' ') (fs fs' : Fs) (ws : List Str)
    (hres : buildEbpf w ps tc fs = (.ok, fs', ws))
    (hn : ((ps.flatMap fun p => bins (requestOf w out big nightly tc p) (ebpfFlags arch)).map (·.1)).Nodup)
    (hay : ∀ p ∈ ps, ∀ b ∈ bins (requestOf w out big nightly tc p) (ebpfFlags arch), b.1 ≠ "aya-build".toList) :
    (∀ p ∈ ps, ∃ cmd fs0 o, readWords cmd.words = some (requestOf w out big nightly tc p) ∧ w.cargo cmd fs0 = some o ∧ o.success = true) ∧
    (∀ p ∈ ps, ∀ b ∈ bins (requestOf w out big nightly tc p) (ebpfFlags arch), fs' (out ++ [b.1]) = some (.file b.2)) ∧
    (∀ m, m ≠ "aya-build".toList → (∀ p ∈ ps, m ∉ (bins (requestOf w out big nightly tc p) (ebpfFlags arch)).map (·.1)) →
      fs' (out ++ [m]) = fs (out ++ [m])) := by
  rw [buildEbpf_eq w out big arch nightly h] at hres
  have hr : ∀ p ∈ ps, readWords (cmdFor (prefixWords w.rustup tc) (ebpfTarget big) (archFixup arch)
      (w.env "RUSTC_BOOTSTRAP".toList) nightly out p).words = some (requestOf w out big nightly tc p) := fun p hp =>
    readWords_cmd w.rustup h.rustup tc _ _ _ _ out p (hfe p hp)
  obtain ⟨a, b, c⟩ := packages_ok w.cargo out bins hb _ (requestOf w out big nightly tc) (ebpfFlags arch)
    (fun p => flagsOf_rustflags (archFixup arch) (archFixup_plain arch h.plain)) ps fs fs' ws hr hres hn
    (fun b hbm => by obtain ⟨p, hp, hbp⟩ := List.mem_flatMap.mp hbm; exact hay p hp b hbp)
  refine ⟨fun p hp => ?_, fun p hp b' hb' => b b' (List.mem_flatMap.mpr ⟨p, hp, hb'⟩), fun m hm hnot => c m hm ?_⟩
  · obtain ⟨fs0, o, h1, h2⟩ := a p hp
    exact ⟨_, fs0, o, hr p hp, h1, h2⟩
  · intro hh
    obtain ⟨b', hb', rfl⟩ := List.mem_map.mp hh
    obtain ⟨p, hp, hbp⟩ := List.mem_flatMap.mp hb'
    exact hnot p hp (List.mem_map_of_mem hbp)

/-- **C106 (when building succeeds, partial).** If cargo succeeds for each package, `OUT_DIR` is a directory in which no directory has the
    name of a binary, and no binary is called `aya-build`, then `build_ebpf` succeeds. -/
theorem C106_succeeds_partial (w : World) (out : Path) (big : Bool) (arch : Str) (nightly : Bool) (h : Surroundings w out big arch nightly)
    (bins : Request → List Str → List (Str × List UInt8)) (hb : Behaves w.cargo out bins) (ps : List Package) (tc : Toolchain)
    (hfe : ∀ p ∈ ps, ∀ x ∈ p.features, x ≠ [] ∧ ∀ c ∈ x, c ≠ ',' ∧ c ≠ ' ') (fs : Fs)
    (hok : ∀ p ∈ ps, ∀ cmd fs0, readWords cmd.words = some (requestOf w out big nightly tc p) → ∃ o, w.cargo cmd fs0 = some o ∧ o.success = true)
    (hout : fs out = some .dir)
    (hay : ∀ p ∈ ps, ∀ b ∈ bins (requestOf w out big nightly tc p) (ebpfFlags arch), b.1 ≠ "aya-build".toList)
    (hd : ∀ p ∈ ps, ∀ b ∈ bins (requestOf w out big nightly tc p) (ebpfFlags arch), fs (out ++ [b.1]) ≠ some .dir) :
    ∃ fs' ws, buildEbpf w ps tc fs = (.ok, fs', ws) := by
  rw [buildEbpf_eq w out big arch nightly h]
  have hr : ∀ p ∈ ps, readWords (cmdFor (prefixWords w.rustup tc) (ebpfTarget big) (archFixup arch)
      (w.env "RUSTC_BOOTSTRAP".toList) nightly out p).words = some (requestOf w out big nightly tc p) := fun p hp =>
    readWords_cmd w.rustup h.rustup tc _ _ _ _ out p (hfe p hp)
  exact packages_succeeds w.cargo out bins hb _ (requestOf w out big nightly tc) (ebpfFlags arch)
    (fun p => flagsOf_rustflags (archFixup arch) (archFixup_plain arch h.plain)) ps fs hr
    (fun p hp fs0 => hok p hp _ fs0 (hr p hp)) hout
    (fun b hbm => by obtain ⟨p, hp, hbp⟩ := List.mem_flatMap.mp hbm; exact hay p hp b hbp)
    (fun b hbm => by obtain ⟨p, hp, hbp⟩ := List.mem_flatMap.mp hbm; exact hd p hp b hbp)

/-- **C106 (unstable features).** The core library is built exactly if unstable options may be used for this package. -/
theorem C106_build_core (w : World) (out : Path) (big nightly : Bool) (tc : Toolchain) (p : Package) :
    (requestOf w out big nightly tc p).buildCore = true ↔ unstable (w.env "RUSTC_BOOTSTRAP".toList) nightly p.name :=
  useBuildStd_iff _ _ _

theorem collect_valid : ∀ (ms : List Msg) (x : List (Str × Path) × List Str), collect ms = .ok x → Msg.invalid ∉ ms := by
  intro ms
  induction ms with
  | nil => intro _ _ h; cases h
  | cons m ms ih =>
    intro x h
    have key : ∀ y, collect ms = .ok y → m ≠ .invalid → Msg.invalid ∉ m :: ms := fun y hy hm hh => by
      rcases List.mem_cons.mp hh with e | e
      · exact hm e.symm
      · exact ih y hy e
    cases hc : collect ms with
    | ok y =>
      refine key y hc fun e => ?_
      rw [e] at h
      cases h
    | error e => cases m <;> simp [collect, hc] at h

theorem packages_sound (cargo : Cargo) (cmd : Package → Cmd) (out : Path) : ∀ (ps : List Package) (fs fs' : Fs) (ws : List Str),
    packages cargo cmd out ps fs = (.ok, fs', ws) →
    ∀ p ∈ ps, ∃ fs0 o, cargo (cmd p) fs0 = some o ∧ o.success = true ∧ Msg.invalid ∉ o.msgs ∧ none ∉ o.err := by
  intro ps
  induction ps with
  | nil => intro _ _ _ _ p hp; cases hp
  | cons q ps ih =>
    intro fs fs' ws h p hp
    simp only [packages] at h
    rcases e : onePackage out fs (cargo (cmd q) fs) with ⟨r, fs1, w1⟩
    rw [e] at h
    cases r with
    | ok =>
      dsimp only at h
      rcases e2 : packages cargo cmd out ps fs1 with ⟨r2, fs2, w2⟩
      rw [e2] at h
      simp only [Prod.mk.injEq] at h
      obtain ⟨rfl, _, _⟩ := h
      rcases List.mem_cons.mp hp with rfl | hp
      · obtain ⟨o, es, w, h1, h2, h3, _⟩ := onePackage_ok out fs fs1 _ w1 e
        refine ⟨fs, o, h1, h3, collect_valid _ _ h2, fun hn => ?_⟩
        rw [h1] at e
        have ha : o.err.any Option.isNone = true := List.any_eq_true.mpr ⟨none, hn, rfl⟩
        simp [onePackage, h2, h3, ha] at e
      · exact ih fs1 fs2 w2 e2 p hp
    | err x => cases h
    | panic => cases h

/-- **C106 (failures are told).** Whatever cargo does: if `build_ebpf` succeeds and does not skip, then for each package cargo was started and
    succeeded, all of its messages were well formed, and all that it wrote was UTF-8. -/
theorem C106_failures (w : World) (out : Path) (big : Bool) (arch : Str) (nightly : Bool) (h : Surroundings w out big arch nightly)
    (ps : List Package) (tc : Toolchain) (hfe : ∀ p ∈ ps, ∀ x ∈ p.features, x ≠ [] ∧ ∀ c ∈ x, c ≠ ',' ∧ c ≠ ' ') (fs fs' : Fs) (ws : List Str)
    (hres : buildEbpf w ps tc fs = (.ok, fs', ws)) :
    ∀ p ∈ ps, ∃ cmd fs0 o, readWords cmd.words = some (requestOf w out big nightly tc p) ∧ w.cargo cmd fs0 = some o ∧ o.success = true ∧
      Msg.invalid ∉ o.msgs ∧ none ∉ o.err := by
  rw [buildEbpf_eq w out big arch nightly h] at hres
  intro p hp
  obtain ⟨fs0, o, h1, h2⟩ := packages_sound _ _ _ ps fs fs' ws hres p hp
  exact ⟨_, fs0, o, readWords_cmd w.rustup h.rustup tc _ _ _ _ out p (hfe p hp), h1, h2⟩

end Verif.Build
