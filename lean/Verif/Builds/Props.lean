import Verif.Builds.Spec
import Verif.Verdict.Props
import Mathlib.Data.List.Induction
/-!
# C117: tests run on the newest build that is complete
-/
namespace Verif.Builds

open Verif.Verdict (Text stripPrefix stripPrefix_some stripPrefix_append)

theorem value_eq (t : Text) : value 0 t = Number t := by
  have h0 : '0'.toNat = 48 := by decide
  unfold Number
  rw [h0]
  induction t using List.reverseRecOn with
  | nil => rfl
  | append_singleton t c ih =>
    unfold value at ih ⊢
    rw [List.foldl_append, ih, List.reverse_append, List.reverse_singleton, List.singleton_append, List.map_cons, Nat.ofDigits_cons]
    simp only [List.foldl_cons, List.foldl_nil]
    rw [Nat.mul_comm, Nat.add_comm]

theorem patchOf_iff {version name : Text} {p : Nat × Text} : patchOf version name = some p ↔ p.2 = name ∧ OfLine version name p.1 := by
  have h0 : '0'.toNat = 48 := by decide
  have h9 : '9'.toNat = 57 := by decide
  unfold patchOf OfLine
  rw [h0, h9]
  constructor
  · intro h
    rcases e : stripPrefix ('v' :: version ++ ['.']) name with _ | d
    · rw [e] at h; cases h
    · rw [e] at h
      dsimp only at h
      by_cases hd : d.all digit = true
      · rw [if_pos hd] at h
        unfold parse at h
        by_cases hn : d.isEmpty = true
        · rw [if_pos hn] at h; cases h
        · rw [if_neg hn] at h
          by_cases hv : value 0 d < 2 ^ 64
          · rw [if_pos hv] at h
            cases h
            rw [value_eq] at hv
            refine ⟨rfl, d, by rw [stripPrefix_some e]; simp, by simpa using hn, ?_, value_eq d, by dsimp only; rw [value_eq]; exact hv⟩
            intro c hc
            have := List.all_eq_true.1 hd c hc
            simpa [digit] using this
          · rw [if_neg hv] at h; cases h
      · rw [if_neg hd] at h; cases h
  · rintro ⟨h1, d, rfl, h2, h3, h4, h5⟩
    have hs : stripPrefix ('v' :: version ++ ['.']) (['v'] ++ version ++ ['.'] ++ d) = some d := stripPrefix_append ('v' :: version ++ ['.']) d
    rw [hs]
    dsimp only
    have hd : d.all digit = true := List.all_eq_true.2 (fun c hc => by simpa [digit] using h3 c hc)
    have hn : ¬ d.isEmpty = true := by simpa using h2
    rw [if_pos hd, parse, if_neg hn, value_eq]
    rw [if_pos (by rw [← h4]; exact h5)]
    obtain ⟨a, b⟩ := p
    simp only at h1 h4
    rw [h1, h4]
    rfl

theorem beforeUnderscore_iff : ∀ {f p : Text}, beforeUnderscore f = some p ↔ '_' ∉ p ∧ ∃ r, f = p ++ '_' :: r
  | [], p => by simp [beforeUnderscore]
  | c :: cs, p => by
    unfold beforeUnderscore
    by_cases hc : c = '_'
    · rw [if_pos hc, hc]
      constructor
      · intro h; cases h; exact ⟨by simp, cs, rfl⟩
      · rintro ⟨h1, r, h2⟩
        cases p with
        | nil => rfl
        | cons x xs => simp only [List.cons_append, List.cons.injEq] at h2; exact absurd (by rw [← h2.1]; simp) h1
    · rw [if_neg hc, Option.map_eq_some_iff]
      constructor
      · rintro ⟨q, hq, rfl⟩
        obtain ⟨h1, r, rfl⟩ := beforeUnderscore_iff.1 hq
        exact ⟨by simp [h1, Ne.symm hc], r, rfl⟩
      · rintro ⟨h1, r, h2⟩
        cases p with
        | nil => simp only [List.nil_append, List.cons.injEq] at h2; exact absurd h2.1 hc
        | cons x xs =>
          simp only [List.cons_append, List.cons.injEq] at h2
          exact ⟨xs, beforeUnderscore_iff.2 ⟨fun hh => h1 (List.mem_cons_of_mem _ hh), r, h2.2⟩, by rw [h2.1]⟩

theorem not_both {x y p : Text} (h1 : imagePrefix ++ x <+: p) (h2 : modulesPrefix ++ y <+: p) : False := by
  obtain ⟨r, rfl⟩ := h1
  obtain ⟨s, h⟩ := h2
  simp [imagePrefix, modulesPrefix] at h

/-- A release's name with its version. -/
theorem kindOf_iff {arch version file : Text} (hv : version.head? ≠ some 'v') :
    (kindOf arch ('v' :: version) file = some .image ↔ IsImage arch version file) ∧ (kindOf arch ('v' :: version) file = some .modules ↔ IsModules arch version file) := by
  have hb : bare ('v' :: version) = version := by
    unfold bare
    rw [List.dropWhile_cons_of_pos (by simp)]
    cases version with
    | nil => rfl
    | cons c cs =>
      rw [List.dropWhile_cons_of_neg]
      intro hh
      exact hv (by simpa using hh)
  have gen : ∀ start : Text, Generic start arch file ↔ ∃ p, beforeUnderscore file = some p ∧ start <+: p ∧ generic <:+ p ∧ (('_' :: arch) ++ ['.', 'd', 'e', 'b']) <:+ file := by
    intro start
    constructor
    · rintro ⟨p, r, h1, h2, h3, h4, h5⟩
      exact ⟨p, beforeUnderscore_iff.2 ⟨h2, r, h1⟩, h3, h4, h5⟩
    · rintro ⟨p, h1, h2, h3, h4⟩
      obtain ⟨h5, r, h6⟩ := beforeUnderscore_iff.1 h1
      exact ⟨p, r, h6, h5, h2, h3, h4⟩
  unfold IsImage IsModules
  rw [gen, gen]
  unfold kindOf
  rw [hb]
  rcases e : beforeUnderscore file with _ | p
  · simp
  · dsimp only
    by_cases h1 : generic <:+ p
    · by_cases h2 : (('_' :: arch) ++ ['.', 'd', 'e', 'b']) <:+ file
      · have hg : (!generic.isSuffixOf p || !(('_' :: arch) ++ ['.', 'd', 'e', 'b']).isSuffixOf file) = false := by
          rw [List.isSuffixOf_iff_suffix.2 h1, List.isSuffixOf_iff_suffix.2 h2]; rfl
        rw [hg]
        simp only [Bool.false_eq_true, if_false]
        by_cases h3 : imagePrefix ++ version ++ ['-'] <+: p
        · rw [if_pos (List.isPrefixOf_iff_prefix.2 h3)]
          refine ⟨iff_of_true rfl ⟨p, rfl, h3, h1, h2⟩, iff_of_false (by simp) ?_⟩
          rintro ⟨q, hq, hm, _⟩
          cases hq
          rw [List.append_assoc] at h3
          exact not_both h3 hm
        · rw [if_neg (fun hh => h3 (List.isPrefixOf_iff_prefix.1 hh))]
          by_cases h4 : modulesPrefix ++ version ++ ['-'] <+: p
          · rw [if_pos (List.isPrefixOf_iff_prefix.2 h4)]
            refine ⟨iff_of_false (by simp) ?_, iff_of_true rfl ⟨p, rfl, h4, h1, h2⟩⟩
            rintro ⟨q, hq, hm, _⟩
            cases hq
            exact h3 hm
          · rw [if_neg (fun hh => h4 (List.isPrefixOf_iff_prefix.1 hh))]
            refine ⟨iff_of_false (by simp) ?_, iff_of_false (by simp) ?_⟩
            · rintro ⟨q, hq, hm, _⟩
              cases hq
              exact h3 hm
            · rintro ⟨q, hq, hm, _⟩
              cases hq
              exact h4 hm
      · have hg : (!generic.isSuffixOf p || !(('_' :: arch) ++ ['.', 'd', 'e', 'b']).isSuffixOf file) = true := by
          have : (('_' :: arch) ++ ['.', 'd', 'e', 'b']).isSuffixOf file = false := by
            rw [Bool.eq_false_iff]; exact fun hh => h2 (List.isSuffixOf_iff_suffix.1 hh)
          rw [this]; simp
        rw [if_pos hg]
        exact ⟨iff_of_false (by simp) (fun ⟨_, _, _, _, h⟩ => h2 h), iff_of_false (by simp) (fun ⟨_, _, _, _, h⟩ => h2 h)⟩
    · have hg : (!generic.isSuffixOf p || !(('_' :: arch) ++ ['.', 'd', 'e', 'b']).isSuffixOf file) = true := by
        have : generic.isSuffixOf p = false := by
          rw [Bool.eq_false_iff]; exact fun hh => h1 (List.isSuffixOf_iff_suffix.1 hh)
        rw [this]; simp
      rw [if_pos hg]
      exact ⟨iff_of_false (by simp) (fun ⟨q, hq, _, h, _⟩ => by cases hq; exact h1 h), iff_of_false (by simp) (fun ⟨q, hq, _, h, _⟩ => by cases hq; exact h1 h)⟩

theorem filter_sole {P : Text → Prop} {q : Text → Bool} (hq : ∀ f, q f = true ↔ P f) {files : List Text} {x : Text} : files.filter q = [x] ↔ Sole P files x := by
  constructor
  · intro h
    have hx : x ∈ files.filter q := by rw [h]; simp
    obtain ⟨a, b, rfl⟩ := List.append_of_mem (List.mem_filter.1 hx).1
    have hpx := (List.mem_filter.1 hx).2
    rw [List.filter_append, List.filter_cons_of_pos hpx] at h
    have hl := congrArg List.length h
    simp only [List.length_append, List.length_cons, List.length_nil] at hl
    have ha : a.filter q = [] := List.length_eq_zero_iff.1 (by omega)
    have hb : b.filter q = [] := List.length_eq_zero_iff.1 (by omega)
    refine ⟨a, b, rfl, (hq x).1 hpx, fun y hy hp => ?_⟩
    rcases List.mem_append.1 hy with hy | hy
    · exact List.filter_eq_nil_iff.1 ha y hy ((hq y).2 hp)
    · exact List.filter_eq_nil_iff.1 hb y hy ((hq y).2 hp)
  · rintro ⟨a, b, rfl, hp, hn⟩
    have ha : a.filter q = [] := List.filter_eq_nil_iff.2 (fun y hy hh => hn y (List.mem_append_left _ hy) ((hq y).1 hh))
    have hb : b.filter q = [] := List.filter_eq_nil_iff.2 (fun y hy hh => hn y (List.mem_append_right _ hy) ((hq y).1 hh))
    rw [List.filter_append, List.filter_cons_of_pos ((hq x).2 hp), ha, hb]
    rfl

theorem tryRelease_iff {S : Site} {arch version : Text} {k : Kernel} (hv : version.head? ≠ some 'v') :
    tryRelease S arch ('v' :: version) = .ok (some k) ↔ k.release = 'v' :: version ∧ Has S arch version k.image k.modules := by
  have hi : ∀ f, decide (kindOf arch ('v' :: version) f = some .image) = true ↔ IsImage arch version f := fun f => by rw [decide_eq_true_eq, (kindOf_iff hv).1]
  have hm : ∀ f, decide (kindOf arch ('v' :: version) f = some .modules) = true ↔ IsModules arch version f := fun f => by rw [decide_eq_true_eq, (kindOf_iff hv).2]
  unfold tryRelease Has
  constructor
  · intro h
    rcases e1 : S.release ('v' :: version) with _ | dirs
    · rw [e1] at h; cases h
    · rw [e1] at h
      dsimp only at h
      by_cases ha : arch ∈ dirs
      · rw [if_pos ha] at h
        rcases e2 : S.packages ('v' :: version) with _ | files
        · rw [e2] at h; cases h
        · rw [e2] at h
          dsimp only at h
          rcases e3 : files.filter (fun f => kindOf arch ('v' :: version) f = some .image) with _ | ⟨i, _ | ⟨_, _⟩⟩
          · rw [e3] at h; cases h
          · rw [e3] at h
            dsimp only at h
            rcases e4 : files.filter (fun f => kindOf arch ('v' :: version) f = some .modules) with _ | ⟨m, _ | ⟨_, _⟩⟩
            · rw [e4] at h; cases h
            · rw [e4] at h
              cases h
              exact ⟨rfl, dirs, files, rfl, ha, rfl, (filter_sole hi).1 e3, (filter_sole hm).1 e4⟩
            · rw [e4] at h; cases h
          · rw [e3] at h; cases h
      · rw [if_neg ha] at h; cases h
  · rintro ⟨h0, dirs, files, h1, h2, h3, h4, h5⟩
    rw [h1]
    dsimp only
    rw [if_pos h2, h3]
    dsimp only
    rw [(filter_sole hi).2 h4]
    dsimp only
    rw [(filter_sole hm).2 h5]
    obtain ⟨a, b, c⟩ := k
    simp only at h0
    rw [h0]

theorem tryRelease_clear {S : Site} {arch version : Text} {e : Err} (hv : version.head? ≠ some 'v') (hc : Clear S arch version) : tryRelease S arch ('v' :: version) ≠ .error e := by
  have hi : ∀ f, decide (kindOf arch ('v' :: version) f = some .image) = true ↔ IsImage arch version f := fun f => by rw [decide_eq_true_eq, (kindOf_iff hv).1]
  have hm : ∀ f, decide (kindOf arch ('v' :: version) f = some .modules) = true ↔ IsModules arch version f := fun f => by rw [decide_eq_true_eq, (kindOf_iff hv).2]
  obtain ⟨dirs, files, h1, h2, h3, h4⟩ := hc
  have g3 : files.filter (fun f => kindOf arch ('v' :: version) f = some .image) = [] ∨ ∃ x, files.filter (fun f => kindOf arch ('v' :: version) f = some .image) = [x] :=
    h3.imp (fun h => List.filter_eq_nil_iff.2 (fun f hf hh => h f hf ((hi f).1 hh))) (fun ⟨x, h⟩ => ⟨x, (filter_sole hi).2 h⟩)
  have g4 : files.filter (fun f => kindOf arch ('v' :: version) f = some .modules) = [] ∨ ∃ x, files.filter (fun f => kindOf arch ('v' :: version) f = some .modules) = [x] :=
    h4.imp (fun h => List.filter_eq_nil_iff.2 (fun f hf hh => h f hf ((hm f).1 hh))) (fun ⟨x, h⟩ => ⟨x, (filter_sole hm).2 h⟩)
  unfold tryRelease
  rw [h1]
  dsimp only
  by_cases ha : arch ∈ dirs
  · rw [if_pos ha, h2]
    dsimp only
    rcases g3 with g3 | ⟨x, g3⟩
    · rw [g3]; intro h; cases h
    · rw [g3]
      dsimp only
      rcases g4 with g4 | ⟨y, g4⟩
      · rw [g4]; intro h; cases h
      · rw [g4]; intro h; cases h
  · rw [if_neg ha]; intro h; cases h

theorem pick_ok {S : Site} {arch : Text} {k : Kernel} : ∀ {cs : List (Nat × Text)}, pick S arch cs = .ok k → ∃ (a b : List (Nat × Text)) (c : Nat × Text),
    cs = a ++ c :: b ∧ tryRelease S arch c.2 = .ok (some k) ∧ ∀ x ∈ a, tryRelease S arch x.2 = .ok none
  | [], h => by cases h
  | c :: cs, h => by
    unfold pick at h
    rcases e : tryRelease S arch c.2 with _ | _ | k'
    · rw [e] at h; cases h
    · rw [e] at h
      obtain ⟨a, b, d, h1, h2, h3⟩ := pick_ok h
      refine ⟨c :: a, b, d, by rw [h1]; rfl, h2, fun x hx => ?_⟩
      rcases List.mem_cons.1 hx with rfl | hx
      · exact e
      · exact h3 x hx
    · rw [e] at h
      cases h
      exact ⟨[], cs, c, rfl, e, fun x hx => by cases hx⟩

/-- All releases of the line, newest first. -/
def sorted (version : Text) (names : List Text) : List (Nat × Text) :=
  ((names.filterMap (patchOf version)).insertionSort (fun a b => a.1 ≤ b.1)).reverse

theorem mem_sorted {version : Text} {names : List Text} {c : Nat × Text} : c ∈ sorted version names ↔ c.2 ∈ names ∧ OfLine version c.2 c.1 := by
  unfold sorted
  rw [List.mem_reverse, List.mem_insertionSort, List.mem_filterMap]
  constructor
  · rintro ⟨n, hn, h⟩
    obtain ⟨h1, h2⟩ := patchOf_iff.1 h
    rw [h1]; exact ⟨hn, h2⟩
  · rintro ⟨h1, h2⟩
    exact ⟨c.2, h1, patchOf_iff.2 ⟨rfl, h2⟩⟩

theorem sorted_desc (version : Text) (names : List Text) : (sorted version names).Pairwise (fun a b => b.1 ≤ a.1) := by
  unfold sorted
  rw [List.pairwise_reverse]
  have : Std.Total (fun a b : Nat × Text => a.1 ≤ b.1) := ⟨fun a b => Nat.le_total a.1 b.1⟩
  have : IsTrans (Nat × Text) (fun a b : Nat × Text => a.1 ≤ b.1) := ⟨fun _ _ _ h1 h2 => Nat.le_trans h1 h2⟩
  exact List.pairwise_insertionSort _ _

theorem OfLine.name {version name : Text} {p : Nat} (hv : version.head? ≠ some 'v') (h0 : version ≠ []) (h : OfLine version name p) :
    ∃ v, name = 'v' :: v ∧ v.head? ≠ some 'v' := by
  obtain ⟨d, rfl, _⟩ := h
  refine ⟨version ++ ['.'] ++ d, by simp, ?_⟩
  cases version with
  | nil => exact absurd rfl h0
  | cons c cs => simpa using hv

/-- What is chosen is listed, is of the line, has one image and one package of modules of this release for the architecture, and no newer release of the line has. -/
theorem C117_newest {S : Site} {version arch : Text} {k : Kernel} (hv : version.head? ≠ some 'v') (h0 : version ≠ []) (h : kernelUrls S version arch = .ok k) :
    ∃ (names : List Text) (v : Text) (patch : Nat), S.list = some names ∧ k.release = 'v' :: v ∧ k.release ∈ names ∧ OfLine version k.release patch ∧ Has S arch v k.image k.modules ∧
      ∀ (v' : Text) (p' : Nat), 'v' :: v' ∈ names → OfLine version ('v' :: v') p' → patch < p' → ∀ i m, ¬ Has S arch v' i m := by
  unfold kernelUrls at h
  rcases e : S.list with _ | names
  · rw [e] at h; cases h
  · rw [e] at h
    obtain ⟨a, b, c, h1, h2, h3⟩ := pick_ok h
    have hsub : sorted version names = a ++ c :: (b ++ (sorted version names).drop maxCandidates) := by
      have := List.take_append_drop maxCandidates (sorted version names)
      have hc : (sorted version names).take maxCandidates = a ++ c :: b := h1
      rw [hc, List.append_assoc, List.cons_append] at this
      exact this.symm
    have hmem : c ∈ sorted version names := by rw [hsub]; simp
    obtain ⟨m1, m2⟩ := mem_sorted.1 hmem
    obtain ⟨v, hn, hv'⟩ := m2.name hv h0
    rw [hn] at h2
    obtain ⟨r1, r2⟩ := (tryRelease_iff hv').1 h2
    refine ⟨names, v, c.1, rfl, r1, by rw [r1, ← hn]; exact m1, by rw [r1, ← hn]; exact m2, r2, ?_⟩
    intro v2 p2 g1 g2 g3 i m g4
    have hx : (p2, 'v' :: v2) ∈ sorted version names := mem_sorted.2 ⟨g1, g2⟩
    have hd := sorted_desc version names
    rw [hsub] at hx hd
    rw [List.pairwise_append] at hd
    rcases List.mem_append.1 hx with hx | hx
    · have := h3 _ hx
      obtain ⟨w, hw, hw'⟩ := g2.name hv h0
      cases hw
      rw [(tryRelease_iff (k := ⟨'v' :: v2, i, m⟩) hw').2 ⟨rfl, g4⟩] at this
      cases this
    · rcases List.mem_cons.1 hx with hx | hx
      · rw [← hx] at g3; exact absurd g3 (Nat.lt_irrefl _)
      · have := (List.pairwise_cons.1 hd.2.1).1 _ hx
        simp only at this
        omega

theorem pick_found {S : Site} {arch : Text} : ∀ {cs : List (Nat × Text)} {c : Nat × Text} {k : Kernel}, c ∈ cs → tryRelease S arch c.2 = .ok (some k) →
    (∀ x ∈ cs, c.1 ≤ x.1 → ∀ e, tryRelease S arch x.2 ≠ .error e) → cs.Pairwise (fun a b => b.1 ≤ a.1) → ∃ k', pick S arch cs = .ok k'
  | [], _, _, h, _, _, _ => by cases h
  | d :: ds, c, k, hm, hk, he, hp => by
    have hle : c.1 ≤ d.1 := by
      rcases List.mem_cons.1 hm with rfl | hm
      · exact Nat.le_refl _
      · exact (List.pairwise_cons.1 hp).1 c hm
    unfold pick
    rcases e : tryRelease S arch d.2 with x | _ | k'
    · exact absurd e (he d List.mem_cons_self hle x)
    · rcases List.mem_cons.1 hm with rfl | hm
      · rw [hk] at e; cases e
      · exact pick_found hm hk (fun x hx => he x (List.mem_cons_of_mem _ hx)) (List.pairwise_cons.1 hp).2
    · exact ⟨k', rfl⟩

/-- A kernel is found if one of the ten newest releases of the line is complete and it and those newer are clear. -/
theorem C117_found_partial {S : Site} {version arch v i m : Text} {names : List Text} {patch : Nat} (hv : version.head? ≠ some 'v') (h0 : version ≠ []) (hl : S.list = some names)
    (hn : 'v' :: v ∈ names) (ho : OfLine version ('v' :: v) patch) (hh : Has S arch v i m)
    (hc : ∀ v' p', 'v' :: v' ∈ names → OfLine version ('v' :: v') p' → patch ≤ p' → Clear S arch v')
    (hten : ∀ (ns : List Text), ns.Sublist names → (∀ n ∈ ns, ∃ p', OfLine version n p' ∧ patch ≤ p') → ns.length ≤ 10) :
    ∃ k, kernelUrls S version arch = .ok k := by
  unfold kernelUrls
  rw [hl]
  dsimp only
  have hmem : (patch, 'v' :: v) ∈ sorted version names := mem_sorted.2 ⟨hn, ho⟩
  obtain ⟨w, hw, hw'⟩ := ho.name hv h0
  cases hw
  have hk := (tryRelease_iff (k := ⟨'v' :: v, i, m⟩) hw').2 ⟨rfl, hh⟩
  have hd := sorted_desc version names
  have htake : (patch, 'v' :: v) ∈ (sorted version names).take maxCandidates := by
    obtain ⟨a, b, hab⟩ := List.append_of_mem hmem
    have hlen : (a ++ [(patch, 'v' :: v)]).length ≤ 10 := by
      have hall : ∀ x ∈ a ++ [(patch, 'v' :: v)], patch ≤ x.1 := by
        intro x hx
        rcases List.mem_append.1 hx with hx | hx
        · rw [hab, List.pairwise_append] at hd
          exact hd.2.2 x hx _ List.mem_cons_self
        · rw [List.mem_singleton.1 hx]
      have h1 : (a ++ [(patch, 'v' :: v)]).length ≤ ((sorted version names).filter (fun x => decide (patch ≤ x.1))).length := by
        rw [hab]
        have : a ++ (patch, 'v' :: v) :: b = (a ++ [(patch, 'v' :: v)]) ++ b := by simp
        rw [this, List.filter_append, List.filter_eq_self.2 (fun x hx => decide_eq_true (hall x hx))]
        simp
      have h2 : ((sorted version names).filter (fun x => decide (patch ≤ x.1))).length = ((names.filterMap (patchOf version)).filter (fun x => decide (patch ≤ x.1))).length := by
        unfold sorted
        rw [List.filter_reverse, List.length_reverse]
        exact ((List.perm_insertionSort _ _).filter _).length_eq
      have h3 : ((names.filterMap (patchOf version)).filter (fun x => decide (patch ≤ x.1))).length = (names.filter (fun n => ((patchOf version n).any (fun x => decide (patch ≤ x.1))))).length := by
        clear hten hc hn hl hmem hd hab h1 h2
        induction names with
        | nil => rfl
        | cons n ns ih =>
          rcases e : patchOf version n with _ | x
          · rw [List.filterMap_cons_none e, List.filter_cons_of_neg (by simp [e]), ih]
          · rw [List.filterMap_cons_some e]
            by_cases hx : patch ≤ x.1
            · rw [List.filter_cons_of_pos (by simpa using hx), List.filter_cons_of_pos (by simpa [e] using hx), List.length_cons, List.length_cons, ih]
            · rw [List.filter_cons_of_neg (by simpa using hx), List.filter_cons_of_neg (by simpa [e] using hx), ih]
      have h4 := hten _ (List.filter_sublist (p := fun n => ((patchOf version n).any (fun x => decide (patch ≤ x.1)))) (l := names)) (by
        intro n hn
        have := (List.mem_filter.1 hn).2
        rw [Option.any_eq_true] at this
        obtain ⟨x, hx, hx'⟩ := this
        exact ⟨x.1, (patchOf_iff.1 hx).2, of_decide_eq_true hx'⟩)
      omega
    rw [hab]
    have : a ++ (patch, 'v' :: v) :: b = (a ++ [(patch, 'v' :: v)]) ++ b := by simp
    have hl10 : (a ++ [(patch, 'v' :: v)]).take maxCandidates = a ++ [(patch, 'v' :: v)] := List.take_of_length_le hlen
    rw [this, List.take_append, hl10]
    simp
  refine pick_found (c := (patch, 'v' :: v)) htake hk ?_ (hd.sublist (List.take_sublist _ _))
  intro x hx hle e
  obtain ⟨x1, x2⟩ := mem_sorted.1 (List.mem_of_mem_take hx)
  obtain ⟨u, hu, hu'⟩ := x2.name hv h0
  rw [hu] at x1 x2 ⊢
  exact tryRelease_clear hu' (hc u x.1 x1 x2 hle)

end Verif.Builds
