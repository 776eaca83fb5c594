import Verif.Util.Model
import Verif.Util.Spec
/-!
# Properties C27, C28, C38, C51-C53
-/
set_option linter.unusedSimpArgs false
set_option linter.unusedVariables false
namespace Verif.Util
open Verif.Str

/-! ## C27: kernel version comparison and code -/

/-- `at_least` answers "the running kernel is not older than". -/
theorem C27_at_least (cur : KernelVersion) (x y z : Nat) :
    atLeast (some cur) x y z = true ↔ ¬ Spec.Older cur.major cur.minor cur.patch x y z := by
  simp only [atLeast, KernelVersion.cmp, Spec.Older]
  rcases Nat.lt_trichotomy cur.major x with h | h | h
  · simp [Nat.compare_eq_lt.mpr h, h]
  · rcases Nat.lt_trichotomy cur.minor y with h2 | h2 | h2
    · simp [Nat.compare_eq_eq.mpr h, Nat.compare_eq_lt.mpr h2, h, h2]
    · rcases Nat.lt_trichotomy cur.patch z with h3 | h3 | h3
      · simp [Nat.compare_eq_eq.mpr h, Nat.compare_eq_eq.mpr h2, Nat.compare_eq_lt.mpr h3, h, h2, h3]
      · simp [Nat.compare_eq_eq.mpr h, Nat.compare_eq_eq.mpr h2, Nat.compare_eq_eq.mpr h3, h, h2, h3]
      · simp [Nat.compare_eq_eq.mpr h, Nat.compare_eq_eq.mpr h2, Nat.compare_eq_gt.mpr h3, h, h2]
        omega
    · simp [Nat.compare_eq_eq.mpr h, Nat.compare_eq_gt.mpr h2, h]
      omega
  · simp [Nat.compare_eq_gt.mpr h]
    omega

example : atLeast (some ⟨5, 15, 0⟩) 5 4 300 = true ∧ atLeast (some ⟨5, 4, 2⟩) 5 15 0 = false := by
  decide

/-- If the running version cannot be determined, `at_least` answers no. -/
theorem C27_at_least_unknown (x y z : Nat) : atLeast none x y z = false := rfl

/-- The version code is the kernel's `LINUX_VERSION_CODE`. -/
theorem C27_code_is_linux_version_code (v : KernelVersion) :
    v.code = Spec.linuxVersionCode v.major v.minor v.patch := by
  simp only [KernelVersion.code, Spec.linuxVersionCode, Spec.sublevelInCode, maxPatch]
  repeat' split
  all_goals (try omega)

example : (KernelVersion.mk 4 14 252).code = 265983 ∧ (KernelVersion.mk 5 15 3).code = 331523 := by
  decide

/-- The `u32` arithmetic of `code` cannot overflow. -/
theorem C27_code_fits (v : KernelVersion) (h : v.WF) : v.code < 2 ^ 32 := by
  obtain ⟨h1, h2, h3⟩ := h
  simp only [KernelVersion.code, maxPatch]
  repeat' split
  all_goals omega

example : (KernelVersion.mk 255 255 65535).WF := by decide

/-- Comparing codes is compatible with comparing versions, except for the two releases 4.4.256 and
4.9.256. Missing: those two, for which the claim is false (`C27_code_monotone_violated`). -/
theorem C27_code_monotone_partial (v w : KernelVersion) (hv : v.WF) (hw : w.WF)
    (hex : ¬ (v.major = 4 ∧ (v.minor = 4 ∨ v.minor = 9) ∧ v.patch = 256))
    (h : Spec.Older v.major v.minor v.patch w.major w.minor w.patch) : v.code ≤ w.code := by
  obtain ⟨h1, h2, h3⟩ := hv
  obtain ⟨g1, g2, g3⟩ := hw
  have hp : (if v.patch ≥ maxPatch v.major v.minor then 255 else v.patch) ≤ 255 := by
    simp only [maxPatch]
    repeat' split
    all_goals omega
  have hmono : v.patch ≤ w.patch → v.patch ≠ 256 ∨ maxPatch v.major v.minor ≠ 257 →
      (if v.patch ≥ maxPatch v.major v.minor then 255 else v.patch)
        ≤ (if w.patch ≥ maxPatch v.major v.minor then 255 else w.patch) := by
    intro hle hne
    have : maxPatch v.major v.minor ≤ 257 := by simp only [maxPatch]; repeat' split
                                                all_goals omega
    split <;> split <;> omega
  have h257 : maxPatch v.major v.minor = 257 → v.major = 4 ∧ (v.minor = 4 ∨ v.minor = 9) := by
    simp only [maxPatch]
    repeat' split
    all_goals omega
  simp only [KernelVersion.code]
  simp only [Spec.Older] at h
  rcases h with h | ⟨e1, h | ⟨e2, h⟩⟩
  · omega
  · omega
  · rw [← e1, ← e2]
    have := hmono (by omega) (by
      by_cases hx : v.patch = 256
      · right; intro h'; exact hex ⟨(h257 h').1, (h257 h').2, hx⟩
      · left; exact hx)
    omega

example : Spec.Older 4 19 250 5 0 0 := by simp [Spec.Older]

/-- 4.9.256 is older than 4.9.257 but has the larger code (it equals the code of 4.10.0). -/
theorem C27_code_monotone_violated :
    ∃ v w : KernelVersion, v.WF ∧ w.WF ∧
      Spec.Older v.major v.minor v.patch w.major w.minor w.patch ∧ ¬ v.code ≤ w.code :=
  ⟨⟨4, 9, 256⟩, ⟨4, 9, 257⟩, by decide, by decide, by simp [Spec.Older], by decide⟩

/-! ## C51: kernel version strings -/

theorem isAsciiDigit_digitChar (d : Nat) (h : d < 10) : isAsciiDigit (digitChar d) = true := by
  have key : ∀ d : Fin 10, isAsciiDigit (digitChar d.1) = true := by decide +kernel
  exact key ⟨d, h⟩

theorem render_no_sep (n : Nat) :
    ∀ c ∈ render 10 n, (c == '.' || !isAsciiDigit c) = false := by
  intro c hc
  obtain ⟨d, hd, rfl⟩ := mem_render 10 n (by omega) (by omega) c hc
  simp [isAsciiDigit_digitChar d hd, (digitChar_facts d (by omega)).2.2.2.1]

/-- A release string that starts with the version and continues with a non-digit (as
`uname -r` prints: `5.15.0-91-generic`) is parsed to that version. -/
theorem C51_parse_release (v : KernelVersion) (h : v.WF) (suffix : List Char)
    (hs : ∀ c, suffix.head? = some c → isAsciiDigit c = false) :
    parseKernelVersionString (v.display ++ suffix) = some v := by
  obtain ⟨h1, h2, h3⟩ := h
  have key : ∃ rest, splitBy (fun c => c == '.' || !isAsciiDigit c) (v.display ++ suffix)
      = render 10 v.major :: render 10 v.minor :: render 10 v.patch :: rest := by
    simp only [KernelVersion.display, List.append_assoc, List.cons_append]
    rw [splitBy_append_sep _ _ '.' _ (render_no_sep _) (by simp)]
    rw [splitBy_append_sep _ _ '.' _ (render_no_sep _) (by simp)]
    cases suffix with
    | nil =>
      rw [List.append_nil, splitBy_none _ _ (render_no_sep _)]
      exact ⟨[], rfl⟩
    | cons c cs =>
      have hc := hs c rfl
      rw [splitBy_append_sep _ _ c _ (render_no_sep _) (by simp [hc])]
      exact ⟨_, rfl⟩
  obtain ⟨rest, key⟩ := key
  simp only [parseKernelVersionString, key]
  rw [parseUInt_render 10 8 _ (by omega) (by omega) h1,
      parseUInt_render 10 8 _ (by omega) (by omega) h2,
      parseUInt_render 10 16 _ (by omega) (by omega) h3]

example : (KernelVersion.mk 5 15 0).display ++ "-91-generic".toList = "5.15.0-91-generic".toList ∧
    parseKernelVersionString "5.15.0-91-generic".toList = some ⟨5, 15, 0⟩ := by decide +kernel

/-- Whatever string is accepted, the numbers obtained are in the range of their Rust types. -/
theorem C51_parse_wf (s : List Char) (v : KernelVersion)
    (h : parseKernelVersionString s = some v) : v.WF := by
  have bnd : ∀ bits t n, parseUInt 10 bits t = some n → n < 2 ^ bits := by
    intro bits t n hn
    simp only [parseUInt] at hn
    repeat' split at hn
    all_goals simp_all
  simp only [parseKernelVersionString] at h
  repeat' split at h
  all_goals (try simp at h)
  rename_i a b c _ _ _ _ _ ha hb hc
  subst h
  exact ⟨bnd 8 _ _ ha, bnd 8 _ _ hb, bnd 16 _ _ hc⟩

/-- The documented precedence: Ubuntu's version signature, then Debian's version in `uname -v`, then
`uname -r`. -/
theorem C51_source_precedence (ubuntu : Option (List Char)) (version release : List Char) :
    getKernelVersion ubuntu (some (version, release)) =
      match ubuntu.bind parseUbuntuKernelVersion with
      | some v => some v
      | none =>
        match splitOnce "Debian ".toList version with
        | some (_, v) => parseKernelVersionString v
        | none => parseKernelVersionString release := by
  simp only [getKernelVersion, getDebianKernelVersion]
  cases ubuntu.bind parseUbuntuKernelVersion with
  | some v => rfl
  | none =>
    cases splitOnce "Debian ".toList version with
    | none => rfl
    | some p =>
      obtain ⟨a, b⟩ := p
      simp only []
      cases parseKernelVersionString b <;> rfl

example : getKernelVersion none (some ("#1 SMP Debian 4.19.37-5 (2019-06-19)".toList,
    "4.19.0-5-amd64".toList)) = some ⟨4, 19, 37⟩ := by decide +kernel

example : getKernelVersion (some "Ubuntu 4.15.0-82.83-generic 4.15.18".toList) none
    = some ⟨4, 15, 18⟩ := by decide +kernel

/-- Ubuntu's `/proc/version_signature` is `Ubuntu <package version> <version>`: the third word is the
kernel version, with or without further words or a newline. -/
theorem C51_ubuntu_signature (w1 w2 s1 rest : List Char) (v : KernelVersion) (hv : v.WF)
    (h1 : ∀ c ∈ w1, isWhitespace c = false) (h2 : ∀ c ∈ w2, isWhitespace c = false)
    (hs1 : ∀ c ∈ s1, isWhitespace c = false) (hs : ∀ c, s1.head? = some c → isAsciiDigit c = false)
    (hrest : ∀ c, rest.head? = some c → isWhitespace c = true)
    (uts : Option (List Char × List Char)) :
    getKernelVersion (some (w1 ++ ' ' :: (w2 ++ ' ' :: (v.display ++ s1 ++ rest)))) uts = some v := by
  have hdisp : ∀ c ∈ v.display ++ s1, isWhitespace c = false := by
    intro c hc
    have hd : ∀ n, ∀ c ∈ render 10 n, isWhitespace c = false := by
      intro n c hc
      obtain ⟨d, hd, rfl⟩ := mem_render 10 n (by omega) (by omega) c hc
      have key : ∀ d : Fin 10, isWhitespace (digitChar d.1) = false := by decide +kernel
      exact key ⟨d, hd⟩
    rcases List.mem_append.mp hc with hc | hc
    · simp only [KernelVersion.display, List.mem_append, List.mem_cons] at hc
      rcases hc with hc | rfl | hc | rfl | hc
      · exact hd _ c hc
      · decide
      · exact hd _ c hc
      · decide
      · exact hd _ c hc
    · exact hs1 c hc
  have hne : v.display ++ s1 ≠ [] := by
    have := render_ne_nil 10 v.major
    simp [KernelVersion.display, this]
  have hsplit : ∃ more, splitBy isWhitespace (w1 ++ ' ' :: (w2 ++ ' ' :: (v.display ++ s1 ++ rest)))
      = w1 :: w2 :: (v.display ++ s1) :: more := by
    rw [splitBy_append_sep _ _ ' ' _ h1 (by decide), splitBy_append_sep _ _ ' ' _ h2 (by decide)]
    cases rest with
    | nil => rw [List.append_nil, splitBy_none _ _ hdisp]; exact ⟨[], rfl⟩
    | cons c cs => rw [splitBy_append_sep _ _ c _ hdisp (hrest c rfl)]; exact ⟨_, rfl⟩
  obtain ⟨more, hsplit⟩ := hsplit
  have hub : parseUbuntuKernelVersion (w1 ++ ' ' :: (w2 ++ ' ' :: (v.display ++ s1 ++ rest))) = some v := by
    have ht : ∃ more', splitTerminator isWhitespace (w1 ++ ' ' :: (w2 ++ ' ' :: (v.display ++ s1 ++ rest)))
        = w1 :: w2 :: (v.display ++ s1) :: more' := by
      unfold splitTerminator
      simp only [hsplit]
      split
      · rename_i hl
        cases more with
        | nil => simp at hl; exact absurd (by simp [hl]) hne
        | cons a as => exact ⟨(a :: as).dropLast, by simp [List.dropLast]⟩
      · exact ⟨more, rfl⟩
    obtain ⟨more', ht⟩ := ht
    simp only [parseUbuntuKernelVersion, ht]
    exact C51_parse_release v hv s1 hs
  simp only [getKernelVersion, Option.bind_some, hub]

/-- Debian puts the version after the word `Debian` in `uname -v`; it is preferred to `uname -r`. -/
theorem C51_debian_version (pre suffix release : List Char) (v : KernelVersion) (hv : v.WF)
    (hs : ∀ c, suffix.head? = some c → isAsciiDigit c = false)
    (hpre : ∀ i < pre.length, ¬ "Debian ".toList <+: (pre ++ "Debian ".toList ++ v.display ++ suffix).drop i)
    : getKernelVersion none (some (pre ++ "Debian ".toList ++ v.display ++ suffix, release)) = some v := by
  have key : ∀ (pre t : List Char), (∀ i < pre.length, ¬ "Debian ".toList <+: (pre ++ ("Debian ".toList ++ t)).drop i) →
      splitOnce "Debian ".toList (pre ++ ("Debian ".toList ++ t)) = some (pre, t) := by
    intro pre t
    induction pre with
    | nil =>
      intro _
      have : "Debian ".toList = 'D' :: "ebian ".toList := by decide
      simp only [List.nil_append]
      rw [this, List.cons_append, splitOnce]
      have hp : ('D' :: "ebian ".toList).isPrefixOf ('D' :: ("ebian ".toList ++ t)) = true := by
        rw [List.isPrefixOf_iff_prefix]; exact ⟨t, rfl⟩
      rw [if_pos hp]
      rfl
    | cons c cs ih =>
      intro h
      rw [List.cons_append, splitOnce]
      have h0 := h 0 (by simp)
      have hp : ¬ ("Debian ".toList.isPrefixOf (c :: (cs ++ ("Debian ".toList ++ t))) = true) := by
        rw [List.isPrefixOf_iff_prefix]; simpa using h0
      rw [if_neg hp]
      rw [ih (by
        intro i hi
        have := h (i + 1) (by simpa using hi)
        simpa using this)]
  have := key pre (v.display ++ suffix) (by simpa [List.append_assoc] using hpre)
  rw [C51_source_precedence]
  simp only [Option.bind_none]
  rw [show pre ++ "Debian ".toList ++ v.display ++ suffix = pre ++ ("Debian ".toList ++ (v.display ++ suffix)) by simp, this]
  exact C51_parse_release v hv suffix hs

/-! ## C28: CPU lists -/

theorem render_no_char (n : Nat) (ch : Char) (h : ch = '-' ∨ ch = ',') :
    ∀ c ∈ render 10 n, (c == ch) = false := by
  intro c hc
  obtain ⟨d, hd, rfl⟩ := mem_render 10 n (by omega) (by omega) c hc
  have f := digitChar_facts d (by omega)
  rcases h with h | h <;> subst h
  · simp [f.2.1]
  · simp [f.2.2.1]

theorem parseCpuRange_text (i : Spec.CpuItem) (h : i.Fits) :
    parseCpuRange i.text = some (i.first, i.last) := by
  cases i with
  | single n =>
    simp only [Spec.CpuItem.text, parseCpuRange]
    rw [splitBy_none _ _ (render_no_char n '-' (Or.inl rfl))]
    simp [parseUInt_render 10 32 n (by omega) (by omega) h, Spec.CpuItem.first, Spec.CpuItem.last]
  | range a b =>
    simp only [Spec.CpuItem.text, parseCpuRange]
    rw [splitBy_append_sep _ _ '-' _ (render_no_char a '-' (Or.inl rfl)) (by simp),
      splitBy_none _ _ (render_no_char b '-' (Or.inl rfl))]
    simp [parseUInt_render 10 32 a (by omega) (by omega) h.1,
      parseUInt_render 10 32 b (by omega) (by omega) h.2, Spec.CpuItem.first, Spec.CpuItem.last]

/-- The loop of `parse_cpu_ranges` in closed form. -/
theorem parseCpuRanges_foldl (rs : List (List Char)) (acc : List Nat) :
    rs.foldl cpuStep (some acc)
    = (rs.mapM parseCpuRange).map (fun l => acc ++ l.flatMap (fun p => rangeIncl p.1 p.2)) := by
  induction rs generalizing acc with
  | nil => simp
  | cons r rs ih =>
    have hnone : ∀ rs : List (List Char), rs.foldl cpuStep none = none := by
      intro rs; induction rs with
      | nil => rfl
      | cons r rs ih => simpa [cpuStep] using ih
    simp only [List.foldl_cons, List.mapM_cons, cpuStep]
    cases hp : parseCpuRange r with
    | none => simp [hnone]
    | some p =>
      obtain ⟨s, e⟩ := p
      simp only [ih]
      cases rs.mapM parseCpuRange <;> simp

theorem mem_rangeIncl (s e c : Nat) : c ∈ rangeIncl s e ↔ s ≤ c ∧ c ≤ e := by
  simp only [rangeIncl, List.mem_map, List.mem_range]
  constructor
  · rintro ⟨a, h, rfl⟩; omega
  · intro h; exact ⟨c - s, by omega, by omega⟩

theorem rangeIncl_sorted (s e : Nat) : (rangeIncl s e).Pairwise (· < ·) := by
  simp only [rangeIncl]
  rw [List.pairwise_map]
  exact (List.pairwise_lt_range).imp (by intro a b h; omega)

theorem parseCpuRanges_text (items : List Spec.CpuItem) (hne : items ≠ [])
    (hf : ∀ i ∈ items, i.Fits) :
    parseCpuRanges (Spec.listText items) =
      some (items.flatMap (fun i => rangeIncl i.first i.last)) := by
  have hsplit : splitBy (· == ',') (Spec.listText items) = items.map Spec.CpuItem.text := by
    apply splitBy_joinWith _ ',' (by simp)
    · simpa using hne
    · intro x hx c hc
      obtain ⟨i, hi, rfl⟩ := List.mem_map.mp hx
      cases i with
      | single n => exact render_no_char n ',' (Or.inr rfl) c hc
      | range a b =>
        simp only [Spec.CpuItem.text, List.mem_append, List.mem_cons] at hc
        rcases hc with hc | hc | hc
        · exact render_no_char a ',' (Or.inr rfl) c hc
        · subst hc; rfl
        · exact render_no_char b ',' (Or.inr rfl) c hc
  have hmap : (items.map Spec.CpuItem.text).mapM parseCpuRange
      = some (items.map (fun i => (i.first, i.last))) := by
    clear hsplit hne
    induction items with
    | nil => rfl
    | cons i is ih =>
      simp only [List.map_cons, List.mapM_cons]
      rw [parseCpuRange_text i (hf i (by simp)), ih (fun j hj => hf j (by simp [hj]))]
      rfl
  simp only [parseCpuRanges, hsplit]
  rw [parseCpuRanges_foldl, hmap]
  simp [List.flatMap_map]

/-- Parsing a printed CPU list succeeds and returns exactly the CPUs the list denotes. -/
theorem C28_parse_exact (items : List Spec.CpuItem) (hne : items ≠ [])
    (hf : ∀ i ∈ items, i.Fits) :
    ∃ cpus, parseCpuRanges (Spec.listText items) = some cpus ∧
      ∀ c, c ∈ cpus ↔ ∃ i ∈ items, i.Denotes c := by
  refine ⟨_, parseCpuRanges_text items hne hf, ?_⟩
  intro c
  simp only [List.mem_flatMap, mem_rangeIncl]
  constructor
  · rintro ⟨i, hi, h⟩
    refine ⟨i, hi, ?_⟩
    cases i <;> simp_all [Spec.CpuItem.Denotes, Spec.CpuItem.first, Spec.CpuItem.last]
    omega
  · rintro ⟨i, hi, h⟩
    refine ⟨i, hi, ?_⟩
    cases i <;> simp_all [Spec.CpuItem.Denotes, Spec.CpuItem.first, Spec.CpuItem.last]

/-- For lists in the kernel's own format the CPUs come out in increasing order without repetition, so
the CPU count is the number of CPUs in the set, also with the trailing newline of the sysfs file. -/
theorem C28_kernel_format_sorted (items : List Spec.CpuItem) (hk : Spec.KernelFormat items)
    (hf : ∀ i ∈ items, i.Fits) :
    ∃ cpus, parseCpuRanges (Spec.listText items) = some cpus ∧ cpus.Pairwise (· < ·) := by
  refine ⟨_, parseCpuRanges_text items hk.1 hf, ?_⟩
  obtain ⟨_, hle, hp⟩ := hk
  clear hf
  rename_i hne
  clear hne
  induction items with
  | nil => simp
  | cons i is ih =>
    rw [List.pairwise_cons] at hp
    simp only [List.flatMap_cons, List.pairwise_append]
    refine ⟨rangeIncl_sorted _ _, ih (fun j hj => hle j (by simp [hj])) hp.2, ?_⟩
    intro a ha b hb
    rw [mem_rangeIncl] at ha
    obtain ⟨j, hj, hb⟩ := List.mem_flatMap.mp hb
    rw [mem_rangeIncl] at hb
    have := hp.1 j hj
    omega

example : Spec.KernelFormat [.range 0 3, .single 7, .range 10 12] ∧
    Spec.listText [.range 0 3, .single 7, .range 10 12] = "0-3,7,10-12".toList ∧
    parseCpuRanges "0-3,7,10-12".toList = some [0, 1, 2, 3, 7, 10, 11, 12] ∧
    nrCpus "0-3,7,10-12\n".toList = some 8 := by
  refine ⟨?_, by decide +kernel, by decide +kernel, by decide +kernel⟩
  simp [Spec.KernelFormat, Spec.CpuItem.first, Spec.CpuItem.last]

theorem trim_newline (t : List Char) (h : ∀ c ∈ t, isWhitespace c = false) : trim (t ++ ['\n']) = t := by
  have hd : ∀ (l m : List Char), (∀ c ∈ l, isWhitespace c = false) → l ≠ [] → (l ++ m).dropWhile isWhitespace = l ++ m := by
    intro l m hl hne
    cases l with
    | nil => exact absurd rfl hne
    | cons a as => simp [List.dropWhile, hl a (by simp)]
  unfold trim
  by_cases ht : t = []
  · subst ht; decide
  · rw [hd t _ h ht]
    simp only [List.reverse_append, List.reverse_cons, List.reverse_nil, List.nil_append, List.singleton_append]
    have hn : isWhitespace '\n' = true := by decide
    rw [List.dropWhile_cons_of_pos hn]
    have := hd t.reverse [] (fun c hc => h c (by simpa using hc)) (by simpa using ht)
    rw [List.append_nil] at this
    rw [this, List.reverse_reverse]

theorem listText_no_ws (items : List Spec.CpuItem) : ∀ c ∈ Spec.listText items, isWhitespace c = false := by
  have hd : ∀ n, ∀ c ∈ render 10 n, isWhitespace c = false := by
    intro n c hc
    obtain ⟨d, hd, rfl⟩ := mem_render 10 n (by omega) (by omega) c hc
    have key : ∀ d : Fin 10, isWhitespace (digitChar d.1) = false := by decide +kernel
    exact key ⟨d, hd⟩
  have hi : ∀ i : Spec.CpuItem, ∀ c ∈ i.text, isWhitespace c = false := by
    intro i c hc
    cases i with
    | single n => exact hd n c hc
    | range a b =>
      simp only [Spec.CpuItem.text, List.mem_append, List.mem_cons] at hc
      rcases hc with hc | rfl | hc
      · exact hd a c hc
      · decide
      · exact hd b c hc
  have hj : ∀ l : List (List Char), (∀ w ∈ l, ∀ c ∈ w, isWhitespace c = false) →
      ∀ c ∈ joinWith ',' l, isWhitespace c = false := by
    intro l
    induction l with
    | nil => intro _ c hc; simp [joinWith] at hc
    | cons w ws ih =>
      intro h c hc
      cases ws with
      | nil => simp only [joinWith] at hc; exact h w (by simp) c hc
      | cons w' ws' =>
        simp only [joinWith, List.mem_append, List.mem_cons] at hc
        rcases hc with hc | rfl | hc
        · exact h w (by simp) c hc
        · decide
        · exact ih (fun x hx => h x (by simp [hx])) c (by simpa [joinWith] using hc)
  intro c hc
  refine hj _ ?_ c hc
  intro w hw
  obtain ⟨i, _, rfl⟩ := List.mem_map.mp hw
  exact hi i

/-- Reading the sysfs file, which ends in a newline: the CPUs are exactly those denoted, and the CPU count
is their number. -/
theorem C28_sysfs_file (items : List Spec.CpuItem) (hk : Spec.KernelFormat items)
    (hf : ∀ i ∈ items, i.Fits) :
    ∃ cpus, readCpuRanges (Spec.listText items ++ ['\n']) = some cpus ∧ cpus.Pairwise (· < ·) ∧
      (∀ c, c ∈ cpus ↔ ∃ i ∈ items, i.Denotes c) ∧
      nrCpus (Spec.listText items ++ ['\n']) = some cpus.length := by
  obtain ⟨cpus, h1, h2⟩ := C28_kernel_format_sorted items hk hf
  obtain ⟨cpus', h3, h4⟩ := C28_parse_exact items hk.1 hf
  have : cpus' = cpus := by rw [h1] at h3; cases h3; rfl
  subst this
  have ht := trim_newline _ (listText_no_ws items)
  refine ⟨cpus', by rw [readCpuRanges, ht]; exact h1, h2, h4, ?_⟩
  rw [nrCpus, readCpuRanges, ht, h1]; rfl

/-- Exactly which strings are accepted: comma-separated items, each a `u32` or two `u32`s separated
by one dash (in Rust's decimal syntax, which also allows a leading plus sign). -/
theorem C28_accepts_iff (s : List Char) :
    (parseCpuRanges s).isSome ↔
      ∀ item ∈ splitBy (· == ',') s,
        (∃ n, '-' ∉ item ∧ parseUInt 10 32 item = some n) ∨
        (∃ x y a b, item = x ++ '-' :: y ∧ '-' ∉ x ∧ '-' ∉ y ∧
          parseUInt 10 32 x = some a ∧ parseUInt 10 32 y = some b) := by
  have hitem : ∀ item, (parseCpuRange item).isSome ↔
        (∃ n, '-' ∉ item ∧ parseUInt 10 32 item = some n) ∨
        (∃ x y a b, item = x ++ '-' :: y ∧ '-' ∉ x ∧ '-' ∉ y ∧
          parseUInt 10 32 x = some a ∧ parseUInt 10 32 y = some b) := by
    intro item
    have nosep : ∀ x : List Char, '-' ∉ x → ∀ c ∈ x, (c == '-') = false := by
      intro x hx c hc
      rw [beq_eq_false_iff_ne]
      rintro rfl; exact hx hc
    have pieces : ∀ item : List Char, ∀ x ∈ splitBy (· == '-') item, '-' ∉ x := by
      intro item
      induction item with
      | nil => simp [splitBy]
      | cons c cs ih =>
        intro x hx
        simp only [splitBy] at hx
        split at hx
        · rcases List.mem_cons.mp hx with h | h
          · subst h; simp
          · exact ih x h
        · rename_i hc
          split at hx
          · rename_i h t heq
            rcases List.mem_cons.mp hx with h' | h'
            · subst h'
              simp only [List.mem_cons, not_or]
              refine ⟨?_, ih h (by rw [heq]; simp)⟩
              rintro rfl; simp at hc
            · exact ih x (by rw [heq]; simp [h'])
          · rename_i heq; exact absurd heq (splitBy_ne_nil _ _)
    have hj := joinWith_splitBy '-' item
    constructor
    · intro h
      simp only [parseCpuRange] at h
      cases hs : splitBy (· == '-') item with
      | nil => exact absurd hs (splitBy_ne_nil _ _)
      | cons a rest =>
        rw [hs] at h hj
        have hp := pieces item
        rw [hs] at hp
        cases rest with
        | nil =>
          simp only [joinWith] at hj
          subst hj
          left
          cases hpa : parseUInt 10 32 a with
          | none => simp [hpa] at h
          | some n => exact ⟨n, hp a (by simp), rfl⟩
        | cons b more =>
          cases hpa : parseUInt 10 32 a with
          | none => simp [hpa] at h
          | some n =>
            cases more with
            | cons c cs => simp [hpa] at h
            | nil =>
              cases hpb : parseUInt 10 32 b with
              | none => simp [hpa, hpb] at h
              | some m =>
                right
                refine ⟨a, b, n, m, ?_, hp a (by simp), hp b (by simp), hpa, hpb⟩
                simpa [joinWith] using hj.symm
    · rintro (⟨n, hno, hn⟩ | ⟨x, y, a, b, rfl, hx, hy, ha, hb⟩)
      · simp only [parseCpuRange]
        rw [splitBy_none _ _ (nosep _ hno)]
        simp [hn]
      · simp only [parseCpuRange]
        rw [splitBy_append_sep _ _ '-' _ (nosep _ hx) (by simp), splitBy_none _ _ (nosep _ hy)]
        simp [ha, hb]
  simp only [parseCpuRanges]
  rw [parseCpuRanges_foldl, Option.isSome_map]
  generalize splitBy (· == ',') s = items
  induction items with
  | nil => simp
  | cons i is ih =>
    simp only [List.mapM_cons, List.forall_mem_cons]
    refine Iff.trans ?_ (and_congr (hitem i) ih)
    cases parseCpuRange i with
    | none => simp
    | some p => cases is.mapM parseCpuRange <;> simp

example : parseCpuRanges "0-1-2".toList = none ∧ parseCpuRanges "".toList = none ∧
    parseCpuRanges "0-".toList = none ∧ parseCpuRanges "0,4294967296".toList = none := by
  decide +kernel

/-! ## C52: kernel symbol table -/

/-- A line `<hex address> <type> <name>` (optionally followed by a space and more text) parses to the
address and the name. -/
theorem C52_symbol_line_partial (addr : Nat) (h : addr < 2 ^ 64) (kind name rest : List Char)
    (hk : ' ' ∉ kind) (hn : ' ' ∉ name) :
    parseKernelSymbolLine (render 16 addr ++ ' ' :: (kind ++ ' ' :: name)) = some (addr, name) ∧
    parseKernelSymbolLine (render 16 addr ++ ' ' :: (kind ++ ' ' :: (name ++ ' ' :: rest)))
      = some (addr, name) := by
  have dropSep : ∀ (a b : List Char), ' ' ∉ a →
      (a ++ ' ' :: b).dropWhile (· != ' ') = ' ' :: b ∧ (a ++ ' ' :: b).takeWhile (· != ' ') = a := by
    intro a b ha
    induction a with
    | nil => simp
    | cons c cs ih =>
      simp only [List.mem_cons, not_or] at ha
      have hc : (c != ' ') = true := by simpa using fun h => ha.1 h.symm
      simp [List.takeWhile_cons, List.dropWhile_cons, hc, ih ha.2]
  have dropEnd : ∀ (a : List Char), ' ' ∉ a → a.dropWhile (· != ' ') = [] := by
    intro a ha
    induction a with
    | nil => rfl
    | cons c cs ih =>
      simp only [List.mem_cons, not_or] at ha
      have hc : (c != ' ') = true := by simpa using fun h => ha.1 h.symm
      simp [List.dropWhile_cons, hc, ih ha.2]
  have hr : ' ' ∉ render 16 addr := by
    intro hc
    obtain ⟨d, hd, he⟩ := mem_render 16 addr (by omega) (by omega) _ hc
    exact (digitChar_facts d hd).2.2.2.2.1 he.symm
  have hp := parseUInt_render 16 64 addr (by omega) (by omega) h
  constructor
  · simp only [parseKernelSymbolLine, splitN, (dropSep _ _ hr).1, (dropSep _ _ hr).2,
      (dropSep _ _ hk).1, (dropSep _ _ hk).2, dropEnd _ hn, hp]
  · simp only [parseKernelSymbolLine, splitN, (dropSep _ _ hr).1, (dropSep _ _ hr).2,
      (dropSep _ _ hk).1, (dropSep _ _ hk).2, (dropSep _ _ hn).1, (dropSep _ _ hn).2, hp]

/-- The table maps an address to the name on the last line with that address, and to nothing if no
line has it; one malformed line makes the whole result an error. -/
theorem C52_symbol_table (lines : List (List Char)) :
    parseKernelSymbols lines (fun _ => none) =
      if ∀ l ∈ lines, (parseKernelSymbolLine l).isSome then
        some (fun a => (lines.filterMap parseKernelSymbolLine).reverse.find? (·.1 = a) |>.map (·.2))
      else none := by
  have gen : ∀ (lines : List (List Char)) (m : Nat → Option (List Char)),
      parseKernelSymbols lines m =
        if ∀ l ∈ lines, (parseKernelSymbolLine l).isSome then
          some (fun a => match (lines.filterMap parseKernelSymbolLine).reverse.find? (·.1 = a) with
            | some p => some p.2
            | none => m a)
        else none := by
    intro lines
    induction lines with
    | nil => intro m; simp [parseKernelSymbols]
    | cons l ls ih =>
      intro m
      simp only [parseKernelSymbols]
      cases hl : parseKernelSymbolLine l with
      | none => simp [hl]
      | some p =>
        obtain ⟨a, n⟩ := p
        simp only [ih, List.forall_mem_cons, hl, Option.isSome_some, true_and,
          List.filterMap_cons, List.reverse_cons, List.find?_append]
        split
        · congr 1
          funext x
          cases hfind : (ls.filterMap parseKernelSymbolLine).reverse.find? (·.1 = x) with
          | some q => simp
          | none =>
            simp only [Option.none_or, List.find?_cons, List.find?_nil, mapInsert]
            by_cases hx : x = a
            · subst hx; simp
            · have hx' : ¬ a = x := fun h => hx h.symm
              simp [hx, hx']
        · rfl
  rw [gen]
  split
  · congr 1
    funext a
    cases (lines.filterMap parseKernelSymbolLine).reverse.find? (·.1 = a) <;> rfl
  · rfl

/-- The names of module symbols keep the tab and module name that `/proc/kallsyms` prints after them:
the name in the table is then not the symbol's name. -/
theorem C52_module_suffix_violated :
    ∃ line : List Char, line = "ffffffffc0000000 t foo\t[mod]".toList ∧
      parseKernelSymbolLine line = some (0xffffffffc0000000, "foo\t[mod]".toList) :=
  ⟨_, rfl, by decide +kernel⟩

/-! ## C38: TC handles -/

/-- Splitting a 32-bit handle and recombining it gives it back. -/
theorem C38_handle_roundtrip (v : BitVec 32) : (TcHandle.ofU32 v).toU32 = v := by
  apply BitVec.eq_of_getLsbD_eq
  intro i hi
  simp only [TcHandle.toU32, TcHandle.ofU32, BitVec.getLsbD_or, BitVec.getLsbD_shiftLeft,
    BitVec.getLsbD_setWidth, BitVec.getLsbD_ushiftRight]
  by_cases h : i < 16
  · simp [h, hi]
  · have h1 : i - 16 < 16 := by omega
    have h2 : 16 + (i - 16) = i := by omega
    simp [h, hi, h1, h2]
    intro; omega

/-- Recombining major and minor and splitting again gives them back. -/
theorem C38_handle_roundtrip' (h : TcHandle) : TcHandle.ofU32 h.toU32 = h := by
  obtain ⟨mj, mn⟩ := h
  simp only [TcHandle.toU32, TcHandle.ofU32, TcHandle.mk.injEq]
  constructor
  · apply BitVec.eq_of_getLsbD_eq
    intro i hi
    have h1 : ¬ (16 + i < 16) := by omega
    have h2 : 16 + i < 32 := by omega
    have h4 : i < 32 := by omega
    have h3 : 16 + i - 16 = i := by omega
    simp only [BitVec.getLsbD_or, BitVec.getLsbD_shiftLeft, BitVec.getLsbD_setWidth,
      BitVec.getLsbD_ushiftRight, h1, h2, h3, h4, hi]
    simp
  · apply BitVec.eq_of_getLsbD_eq
    intro i hi
    have h4 : i < 32 := by omega
    simp only [BitVec.getLsbD_or, BitVec.getLsbD_shiftLeft, BitVec.getLsbD_setWidth, hi, h4]
    simp

/-- `tc_handler_make` takes its upper half from the first and its lower half from the second
argument. -/
theorem C38_make_halves (major minor : BitVec 32) :
    tcHandlerMake major minor = (TcHandle.mk (major >>> 16 |>.setWidth 16) (minor.setWidth 16)).toU32 := by
  apply BitVec.eq_of_getLsbD_eq
  intro i hi
  have m1 : ∀ i, i < 32 → (0xFFFF0000#32).getLsbD i = decide (16 ≤ i) := by decide
  have m2 : ∀ i, i < 32 → (0x0000FFFF#32).getLsbD i = decide (i < 16) := by decide
  simp only [tcHandlerMake, TcHandle.toU32, BitVec.getLsbD_or, BitVec.getLsbD_and,
    BitVec.getLsbD_shiftLeft, BitVec.getLsbD_setWidth, BitVec.getLsbD_ushiftRight, m1 i hi, m2 i hi]
  by_cases h : i < 16
  · have : ¬ 16 ≤ i := by omega
    simp [h, this, hi]
  · have h1 : i - 16 < 16 := by omega
    have h2 : 16 + (i - 16) = i := by omega
    have h3 : 16 ≤ i := by omega
    simp [h, hi, h1, h2, h3]
    intro; omega

/-- The priority sent in a filter request is the priority read back from the same word. -/
theorem C38_priority_roundtrip (prio proto : BitVec 16) :
    tcmInfoPriority (tcmInfo prio proto) = prio := by
  apply BitVec.eq_of_getLsbD_eq
  intro i hi
  have m1 : ∀ i, i < 32 → (0xFFFF0000#32).getLsbD i = decide (16 ≤ i) := by decide
  have m2 : ∀ i, i < 32 → (0x0000FFFF#32).getLsbD i = decide (i < 16) := by decide
  have a1 : 16 + i < 32 := by omega
  have a2 : 16 ≤ 16 + i := by omega
  have a3 : ¬ (16 + i < 16) := by omega
  have a4 : 16 + i - 16 = i := by omega
  have a5 : i < 32 := by omega
  simp only [tcmInfoPriority, tcmInfo, tcHandlerMake, BitVec.getLsbD_or, BitVec.getLsbD_and,
    BitVec.getLsbD_shiftLeft, BitVec.getLsbD_setWidth, BitVec.getLsbD_ushiftRight,
    m1 _ a1, m2 _ a1, a3, a4, hi, a5]
  simp [a1]

/-- Ingress and egress filters hang off `ffff:fff2` and `ffff:fff3`; a custom parent is used as is. -/
theorem C38_parent (t : TcAttachType) :
    t.tcParent = match t with
      | .ingress => 0xFFFFFFF2#32
      | .egress => 0xFFFFFFF3#32
      | .custom p => p := by
  cases t <;> first | rfl | decide

example : (TcHandle.mk 0x12 0x345).toU32 = 0x00120345#32 ∧
    tcmInfo 49152 3 = 0xC0000300#32 := by decide

/-! ## C53: object names -/

/-- The name the kernel is given is the requested one cut to 15 bytes, and reading the kernel's
16-byte field back gives exactly that, for names without NUL bytes (Rust `CStr`). -/
theorem C53_name_roundtrip (name : List UInt8) (h : ∀ b ∈ name, b ≠ 0) :
    bytesOfBpfName (encodeBpfName name) = name.take 15 ∧ (encodeBpfName name).length = 16 := by
  have hdrop : ∀ n, (List.replicate n (0 : UInt8) ++ (name.take 15).reverse).dropWhile (· == 0)
      = (name.take 15).reverse := by
    intro n
    induction n with
    | zero =>
      simp only [List.replicate_zero, List.nil_append]
      cases hr : (name.take 15).reverse with
      | nil => rfl
      | cons b bs =>
        have : b ∈ name.take 15 := by
          have : b ∈ (name.take 15).reverse := by rw [hr]; simp
          simpa using this
        have hb := h b (List.mem_of_mem_take this)
        simp [List.dropWhile_cons, hb]
    | succ n ih => simpa [List.replicate_succ, List.dropWhile_cons] using ih
  have htake : name.take (min name.length 15) = name.take 15 := by
    by_cases hl : name.length ≤ 15
    · rw [Nat.min_eq_left hl, List.take_of_length_le (Nat.le_refl _), List.take_of_length_le hl]
    · rw [Nat.min_eq_right (by omega)]
  constructor
  · simp only [bytesOfBpfName, encodeBpfName, htake, List.reverse_append, List.reverse_replicate,
      hdrop, List.reverse_reverse]
  · simp [encodeBpfName]; omega

example : bytesOfBpfName (encodeBpfName [112, 114, 111, 103]) = [112, 114, 111, 103] := by decide

end Verif.Util
