import Verif.Features.Spec
import Verif.Common.Except
import Mathlib.Tactic.IntervalCases

/-!
# C86: what the process is told about the kernel's abilities
-/
set_option linter.unusedSimpArgs false
set_option linter.unusedVariables false

namespace Verif.Features

/-! ## Maps -/

theorem pow2_pos {n : Nat} (h : isPow2 n) : 0 < n := by
  obtain ⟨i, rfl⟩ := h; exact Nat.two_pow_pos i

theorem willing_none (m : Machine) (w : m.Willing) (e : Nat) : ¬ m.Hindrance e := by
  rintro (⟨_, ⟨a, h⟩ | ⟨a, h⟩ | h⟩ | ⟨a, h⟩ | ⟨a, h⟩ | h | h | h)
  · simp [(w.create a).1] at h
  · simp [(w.load a).1] at h
  · simp [w.btf.1] at h
  · simp [(w.create a).2] at h
  · simp [(w.load a).2] at h
  · simp [w.link] at h
  · simp [w.btf.2] at h
  · simp [w.data] at h

/-- The attributes of every probe fit the type. -/
theorem probe_fits (m : Machine) (hp : isPow2 m.pageSize) (fd t : Nat) (h0 : 0 < t) (h : t ≤ 33) :
    fits m (mapAttr m.pageSize t (if t ∈ [12, 13] then some fd else none)) ∧
    plain (mapAttr m.pageSize t (if t ∈ [12, 13] then some fd else none)) := by
  interval_cases t <;> simp [mapAttr, sizes, fits, plain, NO_PREALLOC, MMAPABLE, hp]

theorem probe_type (ps t : Nat) (i : Option Nat) : (mapAttr ps t i).type = t := by
  simp only [mapAttr]; split_ifs <;> rfl

theorem probe_btf (ps t : Nat) (i : Option Nat) :
    ((mapAttr ps t i).btfFd ≠ 0 ∨ (mapAttr ps t i).btfKey ≠ 0 ∨ (mapAttr ps t i).btfValue ≠ 0 ↔ t ∈ [24, 28, 29, 32]) ∧
    ((mapAttr ps t i).btfKey ≠ 0 ∨ (mapAttr ps t i).btfValue ≠ 0 ↔ t ∈ [24, 28, 29, 32]) ∧
    ((mapAttr ps t i).vmlinuxValue ≠ 0 ↔ t = 26) := by
  by_cases h1 : t = 11
  · subst h1; simp [mapAttr]
  · by_cases h2 : t ∈ [24, 28, 29, 32]
    · simp only [mapAttr, if_neg h1, if_pos h2]
      simp [h2]
      intro h; subst h; simp at h2
    · simp only [mapAttr, if_neg h1, if_neg h2]
      split_ifs <;> simp_all <;> omega

/-- What a machine answers to a probe. -/
theorem create_probe (m : Machine) (g : m.Good) (fd t : Nat) (h0 : 0 < t) (h : t ≤ 33) :
    ∃ a : MapAttr, mapAttr m.pageSize t (if t ∈ [12, 13] then some fd else none) = a ∧
    m.create a =
      (if t ∈ [24, 28, 29, 32] ∧ m.fieldBtf = false then .error 7
       else if t = 26 ∧ m.fieldVmlinux = false then .error 7
       else if m.map t = false then .error 22
       else if m.mayCreate a = false then .error 1
       else match m.mapFault a with
        | some e => .error e
        | none => if t = 26 then .error 524 else if t ∈ [24, 28, 29, 32] then .error 9 else .ok 40) := by
  refine ⟨_, rfl, ?_⟩
  have hf := probe_fits m g.page fd t h0 h
  have hb := probe_btf m.pageSize t (if t ∈ [12, 13] then some fd else none)
  have ht := probe_type m.pageSize t (if t ∈ [12, 13] then some fd else none)
  generalize mapAttr m.pageSize t (if t ∈ [12, 13] then some fd else none) = a at *
  obtain ⟨hb1, hb2, hb3⟩ := hb
  have hb1' : (a.btfFd ≠ 0 ∨ a.btfKey ≠ 0 ∨ a.btfValue ≠ 0) = (t ∈ [24, 28, 29, 32]) := propext hb1
  unfold Machine.create
  simp only [hb1', hb3, ht, hf.1, hf.2, not_true_eq_false, or_false]
  simp only [hb2]
  split_ifs <;> first | rfl | (cases m.mapFault a <;> rfl)

theorem create_inner (m : Machine) (g : m.Good) :
    m.create innerAttr = (if m.mayCreate innerAttr = false then .error 1
      else match m.mapFault innerAttr with
        | some e => .error e
        | none => .ok 40) := by
  have : fits m innerAttr ∧ plain innerAttr := by simp [fits, plain, innerAttr]
  simp only [Machine.create, this.1, this.2]
  have hm : m.map innerAttr.type = true := g.hash.1
  have h3 : ¬ (innerAttr.btfKey ≠ 0 ∨ innerAttr.btfValue ≠ 0) := by simp [innerAttr]
  have h1 : ¬ ((innerAttr.btfFd ≠ 0 ∨ innerAttr.btfKey ≠ 0 ∨ innerAttr.btfValue ≠ 0) ∧ m.fieldBtf = false) := by simp [innerAttr]
  have h2 : ¬ (innerAttr.vmlinuxValue ≠ 0 ∧ m.fieldVmlinux = false) := by simp [innerAttr]
  have h4 : ¬ innerAttr.type = 26 := by simp [innerAttr]
  rw [if_neg h1, if_neg h2, if_neg (by simp [hm]), if_neg h4, if_neg h3]
  by_cases hc : m.mayCreate innerAttr = false
  · rw [if_pos hc, if_pos hc]
  · rw [if_neg hc, if_neg hc]
    cases m.mapFault innerAttr <;> rfl

theorem mapAttr_type (ps t : Nat) (inner : Option Nat) : (mapAttr ps t inner).type = t := by
  unfold mapAttr
  simp only []
  split_ifs <;> rfl

/-- **C86.** Whatever the process may do and whatever goes wrong, an answer is never wrong: if it cannot be had there is an error. -/
theorem C86_maps_sound (m : Machine) (g : m.Good) (t : Nat) (h0 : 0 < t) (h : t ≤ 33) :
    isMapSupported m.kernel t = .ok (m.map t) ∨ ∃ e, isMapSupported m.kernel t = .error e ∧ m.Hindrance e := by
  unfold isMapSupported
  rw [if_neg (by omega)]
  have hi : (if t ∈ [12, 13] then (m.kernel.create innerAttr).map some else (.ok none : Except Nat (Option Nat))) =
      .ok (if t ∈ [12, 13] then some 40 else none) ∨ ∃ e, (if t ∈ [12, 13] then (m.kernel.create innerAttr).map some else (.ok none : Except Nat (Option Nat))) =
        .error e ∧ m.Hindrance e := by
    by_cases h12 : t ∈ [12, 13]
    · simp only [if_pos h12]
      show (m.create innerAttr).map some = _ ∨ ∃ e, (m.create innerAttr).map some = .error e ∧ m.Hindrance e
      rw [create_inner m g]
      by_cases hm : m.mayCreate innerAttr = false
      · rw [if_pos hm]; exact Or.inr ⟨1, rfl, Or.inl ⟨rfl, Or.inl ⟨_, hm⟩⟩⟩
      · rw [if_neg hm]
        cases hf : m.mapFault innerAttr with
        | some e => exact Or.inr ⟨e, rfl, Or.inr (Or.inl ⟨_, hf⟩)⟩
        | none => exact Or.inl rfl
    · simp only [if_neg h12]; exact Or.inl trivial
  rcases hi with hi | ⟨e, hi, he⟩
  · obtain ⟨a, ha, hc⟩ := create_probe m g 40 t h0 h
    simp only [hi]
    show (match m.create (mapAttr m.pageSize t (if t ∈ [12, 13] then some 40 else none)) with
        | .ok _ => Except.ok true
        | .error e => mapVerdict t e) = _ ∨ ∃ e, (match m.create (mapAttr m.pageSize t (if t ∈ [12, 13] then some 40 else none)) with
        | .ok _ => Except.ok true
        | .error e => mapVerdict t e) = .error e ∧ m.Hindrance e
    rw [ha, hc]
    by_cases hk : m.map t = true
    · have k1 : ¬ (t ∈ [24, 28, 29, 32] ∧ m.fieldBtf = false) := by
        rintro ⟨x, y⟩; have := g.storage t x hk; simp [y] at this
      have k2 : ¬ (t = 26 ∧ m.fieldVmlinux = false) := by
        rintro ⟨x, y⟩; subst x; have := g.ops hk; simp [y] at this
      rw [if_neg k1, if_neg k2, if_neg (by simp [hk]), hk]
      by_cases hm : m.mayCreate a = false
      · rw [if_pos hm]
        refine Or.inr ⟨1, ?_, Or.inl ⟨rfl, Or.inl ⟨_, hm⟩⟩⟩
        simp [mapVerdict, EINVAL, E2BIG, EBADF, ENOTSUPP]
      · rw [if_neg hm]
        cases hf : m.mapFault a with
        | some e =>
          obtain ⟨o1, o2, o3, o4⟩ := g.faults.1 a e hf
          have hta : a.type = t := by rw [← ha]; exact mapAttr_type _ _ _
          rw [hta] at o3 o4
          refine Or.inr ⟨e, ?_, Or.inr (Or.inl ⟨a, hf⟩)⟩
          show mapVerdict t e = _
          unfold mapVerdict
          rw [if_neg (show ¬ e = EINVAL from o1), if_neg (fun x => o2 x.1), if_neg (fun x => o3 x.1 x.2),
            if_neg (fun x => o4 x.1 x.2)]
        | none =>
          left
          by_cases h26 : t = 26
          · subst h26; simp [mapVerdict, EINVAL, E2BIG, EBADF, ENOTSUPP]
          · by_cases hs : t ∈ [24, 28, 29, 32]
            · simp only [if_neg h26, if_pos hs]
              simp only [mapVerdict, EINVAL, E2BIG, EBADF]
              simp [hs]
            · simp only [if_neg h26, if_neg hs]
    · have hk : m.map t = false := by simpa using hk
      rw [hk]
      left
      by_cases k1 : t ∈ [24, 28, 29, 32] ∧ m.fieldBtf = false
      · rw [if_pos k1]
        have : t ∈ [24, 26, 28, 29, 32] := by have := k1.1; simp at this ⊢; omega
        simp [mapVerdict, EINVAL, E2BIG, this]
      · rw [if_neg k1]
        by_cases k2 : t = 26 ∧ m.fieldVmlinux = false
        · rw [if_pos k2]; simp [mapVerdict, EINVAL, E2BIG, k2.1]
        · rw [if_neg k2, if_pos rfl]; simp [mapVerdict, EINVAL]
  · simp only [hi]
    exact Or.inr ⟨e, rfl, he⟩

/-- **C86.** Asking for a type of maps says whether the kernel has it, when the process may create maps and nothing goes wrong. -/
theorem C86_maps (m : Machine) (g : m.Good) (w : m.Willing) (t : Nat) (h0 : 0 < t) (h : t ≤ 33) :
    isMapSupported m.kernel t = .ok (m.map t) := by
  rcases C86_maps_sound m g t h0 h with h | ⟨e, _, h⟩
  · exact h
  · exact absurd h (willing_none m w e)

/-! ## Programs -/

theorem load_unknown (m : Machine) (a : ProgAttr) (h : m.prog a.type = false) :
    ∃ e, (e = 7 ∨ e = 22) ∧ m.load a = (.error e, List.replicate a.log 0) := by
  unfold Machine.load
  simp only []
  by_cases h1 : a.attachType ≠ 0 ∧ m.fieldAttach = false ∨ a.attachBtfId ≠ 0 ∧ m.fieldAttachBtf = false ∨ a.named = true ∧ m.fieldName = false
  · exact ⟨7, Or.inl rfl, if_pos h1⟩
  · exact ⟨22, Or.inr rfl, by rw [if_neg h1, if_pos (Or.inl h)]⟩

/-- What follows the checks of the attributes. -/
noncomputable def verified (m : Machine) (a : ProgAttr) : Except Nat Nat × List UInt8 :=
  if a.type = 27 then (.error 524, List.replicate a.log 0)
  else if a.type ∈ [26, 28, 29] ∧ a.attachBtfId = 0 then refusal a.log mustProvide
  else if a.type = 29 ∧ a.attachType = 43 ∧ m.cgroupLsm = false then (.error 22, List.replicate a.log 0)
  else match a.code with
    | .trivial => (.ok 41, List.replicate a.log 0)
    | .call h =>
      if m.helper a.type h = true ∧ m.callAccepted a.type h = true then (.ok 41, List.replicate a.log 0)
      else refusal a.log (m.callLog a.type h)

theorem load_known (m : Machine) (a : ProgAttr) (h : m.prog a.type = true)
    (h1 : a.attachType ≠ 0 → m.fieldAttach = true) (h2 : a.attachBtfId ≠ 0 → m.fieldAttachBtf = true)
    (h3 : a.named = true → m.fieldName = true) (h4 : attaches a.type a.attachType)
    (h5 : a.attachBtfId ≠ 0 → a.type ∈ [26, 27, 28, 29]) (h6 : a.type = 2 → m.checksCode = true → a.kernVersion = m.code)
    (h7 : a.sleepable = true ↔ a.type = 31) :
    (m.mayLoad a = false ∧ m.load a = (.error 1, List.replicate a.log 0)) ∨
    (∃ e, m.progFault a = some e ∧ m.load a = (.error e, List.replicate a.log 0)) ∨ m.load a = verified m a := by
  have n1 : ¬ (a.attachType ≠ 0 ∧ m.fieldAttach = false ∨ a.attachBtfId ≠ 0 ∧ m.fieldAttachBtf = false ∨ a.named = true ∧ m.fieldName = false) := by
    rintro (⟨x, y⟩ | ⟨x, y⟩ | ⟨x, y⟩)
    · simp [h1 x] at y
    · simp [h2 x] at y
    · simp [h3 x] at y
  have n2 : ¬ (m.prog a.type = false ∨ ¬ attaches a.type a.attachType) := by simp [h, h4]
  have n3 : ¬ (a.attachBtfId ≠ 0 ∧ ¬ a.type ∈ [26, 27, 28, 29]) := fun x => x.2 (h5 x.1)
  have n4 : ¬ (a.type = 2 ∧ m.checksCode = true ∧ a.kernVersion ≠ m.code) := fun x => x.2.2 (h6 x.1 x.2.1)
  have n5 : ¬ (a.type = 31 ∧ a.sleepable = false ∨ a.sleepable = true ∧ a.type ∉ [26, 29, 31]) := by
    rintro (⟨x, y⟩ | ⟨x, y⟩)
    · simp [h7.2 x] at y
    · simp [h7.1 x] at y
  unfold Machine.load
  simp only []
  rw [if_neg n1, if_neg n2, if_neg n3, if_neg n4]
  by_cases hm : m.mayLoad a = false
  · left; exact ⟨hm, if_pos hm⟩
  · right
    rw [if_neg hm]
    cases hf : m.progFault a with
    | some e => left; exact ⟨e, rfl, rfl⟩
    | none =>
      right
      simp only [if_neg n5]
      unfold verified
      split_ifs <;> first | rfl | (cases a.code <;> simp only [] <;> split_ifs <;> rfl) | (cases a.code <;> rfl)

theorem attach_ok (p : ProgType) (hp : p.exists) : attaches p.num (attachType p) ∧
    (attachType p ≠ 0 → p.num ∈ [16, 18, 20, 21, 22, 23, 25, 26, 29, 30, 32]) := by
  cases p with
  | plain n =>
    obtain ⟨h, _⟩ : n ≤ 32 ∧ n ≠ 29 := hp
    interval_cases n <;> simp [attaches, attachType, ProgType.num]
  | lsmMac => simp [attaches, attachType, ProgType.num]
  | lsmCgroup => simp [attaches, attachType, ProgType.num]

theorem silent_prefix (n : Nat) : wantsBtfId.isPrefixOf (List.replicate n 0) = false := by
  have : wantsBtfId = 84 :: wantsBtfId.tail := by decide +kernel
  rw [this]
  cases n with
  | zero => rfl
  | succ n => rfl

theorem mustProvide_prefix (n : Nat) : wantsBtfId.isPrefixOf (inBuffer n mustProvide) = true := by
  have : mustProvide = wantsBtfId ++ mustProvide.drop 36 := by decide +kernel
  rw [inBuffer, this, List.append_assoc, List.isPrefixOf_iff_prefix]
  exact List.prefix_append _ _

theorem refusal_mustProvide (n : Nat) (h : 100 ≤ n) : refusal n mustProvide = (.error 22, inBuffer n mustProvide) := by
  have hl : mustProvide.length < 100 := by decide +kernel
  unfold refusal
  rw [if_neg (by omega), if_pos (by omega)]

/-- **C86.** Whatever the process may do and whatever goes wrong, an answer about a type of programs is never wrong, if the kernel
    describes its own functions. -/
theorem C86_programs_sound_partial (m : Machine) (g : m.Good) (hd : m.Described) (p : ProgType) (hp : p.exists) :
    isProgramSupported m.kernel p = .ok (m.runs p) ∨ ∃ e, isProgramSupported m.kernel p = .error e ∧ m.Hindrance e := by
  by_cases h0 : p = .plain 0
  · subst h0; exact Or.inl rfl
  have hat := attach_ok p hp
  have hr : m.prog p.num = false → m.runs p = false := by
    intro h
    cases p with
    | plain n =>
      simp only [ProgType.num] at h
      unfold Machine.runs
      split
      · rename_i x; cases x; simp [h]
      · contradiction
      · contradiction
      · rename_i x; cases x; simp [h]
    | lsmMac => simp [Machine.runs, show m.prog 29 = false from h]
    | lsmCgroup => simp [Machine.runs, show m.prog 29 = false from h]
  unfold isProgramSupported
  rw [if_neg h0]
  change programVerdict m.kernel p (m.load (programProbe m.kernel p)) = _ ∨ ∃ e, programVerdict m.kernel p (m.load (programProbe m.kernel p)) = _ ∧ _
  cases hk : m.prog p.num with
  | false =>
    left
    obtain ⟨e, he, hl⟩ := load_unknown m (programProbe m.kernel p) hk
    rw [hl, hr hk]
    rcases he with rfl | rfl
    · simp [programVerdict, EINVAL, E2BIG]
    · simp only [programVerdict, silent_prefix, Bool.and_false]; simp [EINVAL]
  | true =>
    have hid : (programProbe m.kernel p).attachBtfId ≠ 0 → p.num ∈ [26, 29] := by
      intro h
      cases p with
      | plain n =>
        by_cases hn : n = 26
        · subst hn; simp [ProgType.num]
        · exfalso; apply h
          simp only [programProbe]
          have : probeFunction (.plain n) = none := by
            unfold probeFunction; split <;> simp_all
          rw [this]; rfl
      | lsmMac => simp [ProgType.num]
      | lsmCgroup => simp [ProgType.num]
    have hl := load_known m (programProbe m.kernel p) hk
      (fun h => g.attach _ (hat.2 h) hk)
      (fun h => g.attachBtf _ (hid h) hk)
      (by intro h; simp [programProbe, progAttr] at h)
      hat.1
      (by intro h; have h' := hid h; simp at h'; show p.num ∈ _; rcases h' with h' | h' <;> simp [h'])
      (by
        intro h hc
        have : p = .plain 2 := by
          cases p with
          | plain n => simp only [programProbe, progAttr, ProgType.num] at h; rw [h]
          | lsmMac => simp [programProbe, progAttr, ProgType.num] at h
          | lsmCgroup => simp [programProbe, progAttr, ProgType.num] at h
        subst this
        exact g.code hc)
      (by
        simp only [programProbe, progAttr, decide_eq_true_eq]
        cases p <;> simp [ProgType.num])
    rcases hl with ⟨hm, hl⟩ | ⟨e, hf, hl⟩ | hl
    · rw [hl]
      right
      refine ⟨1, ?_, Or.inl ⟨rfl, Or.inr (Or.inl ⟨_, hm⟩)⟩⟩
      simp [programVerdict, EINVAL, E2BIG, ENOTSUPP]
    · rw [hl]
      right
      obtain ⟨o1, o2, o3, o4⟩ := g.faults.2.1 _ e hf
      refine ⟨e, ?_, Or.inr (Or.inr (Or.inl ⟨_, hf⟩))⟩
      simp [programVerdict, EINVAL, E2BIG, ENOTSUPP, o1, o2, o4]
    · rw [hl]
      have hty : (programProbe m.kernel p).type = p.num := rfl
      have hcode : (programProbe m.kernel p).code = .trivial := rfl
      unfold verified
      rw [hty, hcode]
      by_cases h27 : p.num = 27
      · have : p = .plain 27 := by
          cases p with
          | plain n => simp only [ProgType.num] at h27; rw [h27]
          | lsmMac => simp [ProgType.num] at h27
          | lsmCgroup => simp [ProgType.num] at h27
        subst this
        left
        rw [if_pos h27]
        simp [programVerdict, EINVAL, E2BIG, ENOTSUPP, Machine.runs, show m.prog 27 = true from hk]
      rw [if_neg h27]
      by_cases h28 : p = .plain 28
      · subst h28
        left
        rw [if_pos ⟨by simp [ProgType.num], rfl⟩,
          refusal_mustProvide (programProbe m.kernel (.plain 28)).log (show 100 ≤ 256 by decide)]
        simp [programVerdict, EINVAL, looksAtLog, mustProvide_prefix, Machine.runs, show m.prog 28 = true from hk]
      have hne : ¬ (p.num ∈ [26, 28, 29] ∧ (programProbe m.kernel p).attachBtfId = 0) := by
        rintro ⟨h1, h2⟩
        cases p with
        | plain n =>
          simp only [ProgType.num] at h1 hk h28
          obtain ⟨_, h29⟩ : n ≤ 32 ∧ n ≠ 29 := hp
          have : n = 26 := by
            simp at h1 h28; omega
          subst this
          exact hd.1 hk h2
        | lsmMac => exact hd.2 hk h2
        | lsmCgroup => exact hd.2 hk h2
      rw [if_neg hne]
      have hatt : (programProbe m.kernel p).attachType = attachType p := rfl
      rw [hatt]
      by_cases hcg : p.num = 29 ∧ attachType p = 43 ∧ m.cgroupLsm = false
      · rw [if_pos hcg]
        have : p = .lsmCgroup := by
          cases p with
          | plain n => exact absurd hcg.1 hp.2
          | lsmMac => have := hcg.2.1; simp [attachType] at this
          | lsmCgroup => rfl
        subst this
        left
        simp only [programVerdict, silent_prefix, Bool.and_false]; simp [EINVAL, Machine.runs, hcg.2.2]
      · rw [if_neg hcg]
        by_cases htr : p = .plain 26 ∨ p = .lsmMac
        · have hru : m.runs p = m.trampolines := by
            rcases htr with rfl | rfl
            · simp [Machine.runs, show m.prog 26 = true from hk]
            · simp [Machine.runs, show m.prog 29 = true from hk]
          simp only [programVerdict, if_pos htr, Machine.kernel, hru]
          cases hlf : m.linkFault with
          | some e =>
            right
            obtain ⟨o1, o2, o3, o4⟩ := g.faults.2.2.1 e hlf
            exact ⟨e, by simp [ENOTSUPP, o4], Or.inr (Or.inr (Or.inr (Or.inl hlf)))⟩
          | none =>
            left
            cases m.trampolines <;> simp [ENOTSUPP]
        · left
          simp only [programVerdict, if_neg htr]
          cases p with
          | plain n =>
            have : m.runs (.plain n) = (n != 0 && n != 29 && m.prog n) := by
              unfold Machine.runs; split <;> simp_all
            rw [this, show m.prog n = true from hk]
            have h29 := hp.2
            simp at h0
            simp [h0, h29]
          | lsmMac => simp at htr
          | lsmCgroup =>
            simp [ProgType.num, attachType] at hcg
            simp [Machine.runs, show m.prog 29 = true from hk, hcg]

/-- **C86.** Asking for a type of programs says whether they can be loaded and attached, when the process may load programs,
    nothing goes wrong and the kernel describes its own functions. -/
theorem C86_programs_partial (m : Machine) (g : m.Good) (w : m.Willing) (hd : m.Described) (p : ProgType) (hp : p.exists) :
    isProgramSupported m.kernel p = .ok (m.runs p) := by
  rcases C86_programs_sound_partial m g hd p hp with h | ⟨e, _, h⟩
  · exact h
  · exact absurd h (willing_none m w e)

/-! ## Functions of the kernel -/

theorem occurs_iff (needle : List UInt8) : ∀ text, occurs needle text = true ↔ ∃ a b, text = a ++ needle ++ b
  | [] => by
    simp only [occurs, List.isPrefixOf_iff_prefix]
    constructor
    · rintro ⟨b, h⟩; exact ⟨[], b, by simpa using h.symm⟩
    · rintro ⟨a, b, h⟩
      have : needle = [] := by
        have := congrArg List.length h; simp at this
        exact List.length_eq_zero_iff.1 (by omega)
      subst this; exact List.nil_prefix
  | c :: cs => by
    simp only [occurs, Bool.or_eq_true, List.isPrefixOf_iff_prefix, occurs_iff needle cs]
    constructor
    · rintro (⟨b, h⟩ | ⟨a, b, h⟩)
      · exact ⟨[], b, by simpa using h.symm⟩
      · exact ⟨c :: a, b, by simp [h]⟩
    · rintro ⟨a, b, h⟩
      cases a with
      | nil => left; exact ⟨b, by simpa using h.symm⟩
      | cons x xs =>
        right
        simp only [List.cons_append, List.cons.injEq] at h
        exact ⟨xs, b, h.2⟩

theorem text_of_buffer (n : Nat) (text : List UInt8) (h : 0 ∉ text) : (inBuffer n text).takeWhile (· ≠ 0) = text := by
  have hz : ∀ k, (List.replicate k (0 : UInt8)).takeWhile (· ≠ 0) = [] := by
    intro k; cases k <;> simp [List.replicate]
  unfold inBuffer
  induction text with
  | nil => simpa using hz _
  | cons c cs ih =>
    have hc : c ≠ 0 := fun e => h (by simp [e])
    have hcs : 0 ∉ cs := fun e => h (by simp [e])
    have ih' : ∀ k, (cs ++ List.replicate k (0 : UInt8)).takeWhile (· ≠ 0) = cs := by
      intro k
      clear ih h
      induction cs with
      | nil => simpa using hz k
      | cons d ds ih =>
        have hd : d ≠ 0 := fun e => hcs (by simp [e])
        have hds : 0 ∉ ds := fun e => hcs (by simp [e])
        simp only [List.cons_append, List.takeWhile_cons, decide_eq_true hd, if_true]
        exact congrArg _ (ih hds)
    simp only [List.cons_append, List.takeWhile_cons, decide_eq_true hc, if_true]
    exact congrArg _ (ih' _)

theorem any_says (text : List UInt8) : diagnostics.any (fun d => occurs d text) = true ↔
    Says text "invalid func " ∨ Says text "unknown func " ∨ Says text "program of this type cannot use helper " := by
  simp only [diagnostics, List.any_cons, List.any_nil, Bool.or_false, Bool.or_eq_true, occurs_iff, Says]

theorem says_ne (text : List UInt8) (h : Says text "invalid func " ∨ Says text "unknown func " ∨
    Says text "program of this type cannot use helper ") : text ≠ [] := by
  rintro rfl
  rcases h with ⟨a, b, h⟩ | ⟨a, b, h⟩ | ⟨a, b, h⟩ <;>
  · have := congrArg List.length h
    simp only [List.length_append, List.length_nil] at this
    revert this
    first
    | rw [show "invalid func ".toUTF8.toList.length = 13 by decide +kernel]; omega
    | rw [show "unknown func ".toUTF8.toList.length = 13 by decide +kernel]; omega
    | rw [show "program of this type cannot use helper ".toUTF8.toList.length = 39 by decide +kernel]; omega

/-- **C86.** Whatever the process may do and whatever goes wrong before the program is examined, an answer about a function of the
    kernel is never wrong; it can be asked for every type of programs that needs no function to be attached to. -/
theorem C86_helpers_sound (m : Machine) (g : m.Good) (n h : Nat) (h0 : 0 < n) (h32 : n ≤ 32) (hn : n ∉ [26, 27, 28, 29]) :
    isHelperSupported m.kernel (.plain n) h = .ok (m.prog n && m.helper n h) ∨
    ∃ e, isHelperSupported m.kernel (.plain n) h = .error (.syscall e) ∧ m.Hindrance e := by
  simp only [List.mem_cons, List.not_mem_nil, or_false, not_or] at hn
  have hat := attach_ok (.plain n) ⟨h32, hn.2.2.2⟩
  unfold isHelperSupported
  rw [if_neg (by simp; omega), if_neg (by simp; omega)]
  generalize ha : ({ progAttr m.kernel (.plain n) (.call h) with log := 4096 } : ProgAttr) = a
  have hty : a.type = n := by rw [← ha]; rfl
  have hcode : a.code = .call h := by rw [← ha]; rfl
  have hlog : a.log = 4096 := by rw [← ha]
  change helperVerdict (m.load a) = _ ∨ ∃ e, helperVerdict (m.load a) = _ ∧ _
  have silent : (List.replicate 4096 (0 : UInt8)).takeWhile (· ≠ 0) = [] := by
    have := text_of_buffer 4096 [] (by simp)
    simpa [inBuffer] using this
  cases hk : m.prog n with
  | false =>
    left
    obtain ⟨e, he, hl⟩ := load_unknown m a (by rw [hty]; exact hk)
    rw [hl, hlog]
    simp only [helperVerdict, silent, List.isEmpty_nil, if_true, Bool.false_and]
    rcases he with rfl | rfl <;> simp [EINVAL, E2BIG]
  | true =>
    have hl := load_known m a (by rw [hty]; exact hk)
      (by
        intro h
        have h' : attachType (.plain n) ≠ 0 := by rw [← ha] at h; exact h
        exact g.attach _ (hat.2 h') hk)
      (by intro h; rw [← ha] at h; exact absurd rfl h)
      (by intro h; rw [← ha] at h; simp [progAttr] at h)
      (by rw [← ha]; exact hat.1)
      (by intro h; rw [← ha] at h; exact absurd rfl h)
      (by
        intro h hc
        rw [hty] at h; subst h
        rw [← ha]; exact g.code hc)
      (by
        rw [hty, ← ha]
        simp only [progAttr, decide_eq_true_eq]
        simp)
    rcases hl with ⟨hm, hl⟩ | ⟨e, hf, hl⟩ | hl
    · rw [hl, hlog]
      right
      refine ⟨1, ?_, Or.inl ⟨rfl, Or.inr (Or.inl ⟨_, hm⟩)⟩⟩
      simp only [helperVerdict, silent, List.isEmpty_nil, if_true]
      simp [EINVAL, E2BIG]
    · rw [hl, hlog]
      right
      obtain ⟨o1, o2, o3, o4⟩ := g.faults.2.1 _ e hf
      refine ⟨e, ?_, Or.inr (Or.inr (Or.inl ⟨_, hf⟩))⟩
      simp only [helperVerdict, silent, List.isEmpty_nil, if_true]
      simp [EINVAL, E2BIG, o1, o2]
    · rw [hl]
      left
      unfold verified
      rw [hty, hcode, hlog, if_neg hn.2.1, if_neg (by simp; omega), if_neg (fun x => hn.2.2.2 x.1)]
      simp only []
      by_cases hc : m.helper n h = true ∧ m.callAccepted n h = true
      · rw [if_pos hc]; simp [helperVerdict, hc.1]
      · rw [if_neg hc]
        have ht := (g.text n h).1
        rw [refusal, if_neg (by omega), if_pos (g.text n h).2]
        simp only [helperVerdict, text_of_buffer _ _ ht, Bool.true_and]
        cases hh : m.helper n h with
        | false =>
          have hs := g.refused n h hk hh
          have hne := says_ne _ hs
          rw [if_neg (by simpa using hne), if_pos ((any_says _).2 hs)]
        | true =>
          obtain ⟨k0, k1, k2, k3⟩ := g.accepted n h hh
          rw [if_neg (by simpa using k0), if_neg (fun x => by
            rcases (any_says _).1 x with x | x | x
            · exact k1 x
            · exact k2 x
            · exact k3 x)]

/-- **C86.** Asking whether programs of a type may call a function says so, when the process may load programs and nothing goes
    wrong; types that need a function to be attached to are refused. -/
theorem C86_helpers (m : Machine) (g : m.Good) (w : m.Willing) (p : ProgType) (hp : p.exists) (h : Nat) :
    isHelperSupported m.kernel p h =
      if p.num ∈ [26, 27, 28, 29] then .error .unexpectedProgramType else .ok (p.num != 0 && (m.prog p.num && m.helper p.num h)) := by
  cases p with
  | lsmMac => simp [isHelperSupported, ProgType.num]
  | lsmCgroup => simp [isHelperSupported, ProgType.num]
  | plain n =>
    obtain ⟨h32, h29⟩ : n ≤ 32 ∧ n ≠ 29 := hp
    show isHelperSupported m.kernel (.plain n) h =
      if n ∈ [26, 27, 28, 29] then .error .unexpectedProgramType else .ok (n != 0 && (m.prog n && m.helper n h))
    by_cases h0 : n = 0
    · subst h0; rfl
    · by_cases hn : n ∈ [26, 27, 28, 29]
      · rw [if_pos hn]
        simp at hn
        simp [isHelperSupported, h0]
        omega
      · rw [if_neg hn]
        rcases C86_helpers_sound m g n h (by omega) h32 hn with h | ⟨e, _, he⟩
        · rw [h]; simp [h0]
        · exact absurd he (willing_none m w e)

/-! ## Other features -/

theorem other_plain (m : Machine) (g : m.Good) (t v : Nat) (ht : t ∉ [24, 26, 28, 29, 32])
    (hf : m.map t = true → (fits m { type := t, key := 4, value := v, max := 1 } ↔ b = true)) :
    m.create { type := t, key := 4, value := v, max := 1 } = .error 22 ∧ (m.map t && b) = false ∨
    (∃ e, m.create { type := t, key := 4, value := v, max := 1 } = .error e ∧ m.Hindrance e ∧ e ≠ 22) ∨
    m.create { type := t, key := 4, value := v, max := 1 } = .ok 40 ∧ (m.map t && b) = true := by
  generalize ha : ({ type := t, key := 4, value := v, max := 1 } : MapAttr) = a at *
  have hty : a.type = t := by rw [← ha]
  have n1 : ¬ ((a.btfFd ≠ 0 ∨ a.btfKey ≠ 0 ∨ a.btfValue ≠ 0) ∧ m.fieldBtf = false) := by simp [← ha]
  have n2 : ¬ (a.vmlinuxValue ≠ 0 ∧ m.fieldVmlinux = false) := by simp [← ha]
  have n3 : plain a := by simp [← ha, plain]
  have n4 : ¬ (a.btfKey ≠ 0 ∨ a.btfValue ≠ 0) := by simp [← ha]
  have n5 : ¬ a.type = 26 := by rw [hty]; intro h; subst h; simp at ht
  unfold Machine.create
  rw [if_neg n1, if_neg n2]
  by_cases hk : m.map t = true
  · by_cases hb : b = true
    · have hfi : fits m a := (hf hk).2 hb
      have n6 : ¬ (m.map a.type = false ∨ ¬ fits m a ∨ ¬ plain a) := by simp [hty, hk, hfi, n3]
      rw [if_neg n6]
      right
      by_cases hm : m.mayCreate a = false
      · left; rw [if_pos hm]; exact ⟨1, rfl, Or.inl ⟨rfl, Or.inl ⟨_, hm⟩⟩, by decide⟩
      · rw [if_neg hm, if_neg n5, if_neg n4]
        cases hf : m.mapFault a with
        | some e => left; exact ⟨e, rfl, Or.inr (Or.inl ⟨_, hf⟩), (g.faults.1 _ _ hf).1⟩
        | none => right; exact ⟨rfl, by simp [hk, hb]⟩
    · left
      have hfi : ¬ fits m a := fun x => hb ((hf hk).1 x)
      rw [if_pos (Or.inr (Or.inl hfi))]
      exact ⟨rfl, by simp [hb]⟩
  · left
    rw [if_pos (Or.inl (by rw [hty]; simpa using hk))]
    exact ⟨rfl, by simp [hk]⟩

theorem btf_sample (m : Machine) (g : m.Good) (f : BtfFeature) :
    (∀ i ∈ btfSample f, ∀ k, kindOf i = some k → m.kind k = true) ↔
    (match f with
     | .func => m.kind .func
     | .funcGlobal => m.kind .globalFunc
     | .dataSec => m.kind .data
     | .dataSecZero => m.kind .emptyData
     | .float => m.kind .float
     | .declTag => m.kind .declTag
     | .typeTag => m.kind .typeTag
     | .enum64 => m.kind .enum64) = true := by
  cases f <;> simp [btfSample, kindOf]
  exact g.declTag

theorem btf_result (m : Machine) (g : m.Good) (items : List BtfItem) (b : Bool)
    (hb : (∀ i ∈ items, ∀ k, kindOf i = some k → m.kind k = true) ↔ b = true) :
    probeResult (m.kernel.btf items) [EINVAL] = .ok (m.btf && b) ∨
    ∃ e, probeResult (m.kernel.btf items) [EINVAL] = .error e ∧ m.Hindrance e := by
  simp only [Machine.kernel]
  by_cases h1 : m.btf = false
  · rw [if_pos h1, h1]; left; rfl
  · rw [if_neg h1]
    have h1 : m.btf = true := by simpa using h1
    by_cases h2 : m.mayLoadBtf = false
    · rw [if_pos h2]; right; exact ⟨1, rfl, Or.inl ⟨rfl, Or.inr (Or.inr h2)⟩⟩
    · rw [if_neg h2]
      cases h3 : m.btfFault with
      | some e =>
        right
        have o := (g.faults.2.2.2.1 e h3).1
        exact ⟨e, by simp [probeResult, EINVAL, o], Or.inr (Or.inr (Or.inr (Or.inr (Or.inl h3))))⟩
      | none =>
        left
        simp only [hb, h1, Bool.true_and]
        cases b <;> rfl

/-- Loading the trivial program of a type without attach type. -/
theorem load_trivial (m : Machine) (g : m.Good) (n : Nat) (hn : n = 1 ∨ n = 5) (named : Bool) :
    (∃ e, (e = 7 ∨ e = 22) ∧ (m.load { progAttr m.kernel (.plain n) .trivial with named := named }).1 = .error e ∧
      (m.prog n && (!named || m.fieldName)) = false) ∨
    (∃ e, (m.load { progAttr m.kernel (.plain n) .trivial with named := named }).1 = .error e ∧ m.Hindrance e ∧ e ≠ 7 ∧ e ≠ 22) ∨
    (m.load { progAttr m.kernel (.plain n) .trivial with named := named }).1 = .ok 41 ∧ (m.prog n && (!named || m.fieldName)) = true := by
  generalize ha : ({ progAttr m.kernel (.plain n) .trivial with named := named } : ProgAttr) = a
  have hty : a.type = n := by rw [← ha]; rfl
  have hat : a.attachType = 0 := by rw [← ha]; rcases hn with rfl | rfl <;> rfl
  have hid : a.attachBtfId = 0 := by rw [← ha]; rfl
  have hcode : a.code = .trivial := by rw [← ha]; rfl
  have hnm : a.named = named := by rw [← ha]
  cases hk : m.prog n with
  | false =>
    left
    obtain ⟨e, he, hl⟩ := load_unknown m a (by rw [hty]; exact hk)
    exact ⟨e, he, by rw [hl], by simp⟩
  | true =>
    by_cases hf : named = true ∧ m.fieldName = false
    · left
      refine ⟨7, Or.inl rfl, ?_, by simp [hf.1, hf.2]⟩
      unfold Machine.load
      simp only []
      rw [if_pos (Or.inr (Or.inr ⟨by rw [hnm]; exact hf.1, hf.2⟩))]
    · right
      have hb : (true && (!named || m.fieldName)) = true := by
        cases h : named <;> cases h' : m.fieldName <;> simp_all
      have hl := load_known m a (by rw [hty]; exact hk)
        (by intro h; exact absurd hat h) (by intro h; exact absurd hid h)
        (by
          intro h
          rw [hnm] at h
          cases h' : m.fieldName with
          | true => rfl
          | false => exact absurd ⟨h, h'⟩ hf)
        (by rw [hty, hat]; rcases hn with rfl | rfl <;> simp [attaches])
        (by intro h; exact absurd hid h)
        (by intro h; rw [hty] at h; omega)
        (by rw [hty, ← ha]; rcases hn with rfl | rfl <;> simp [progAttr])
      rcases hl with ⟨hm, hl⟩ | ⟨e, hf, hl⟩ | hl
      · left
        rw [hl]
        exact ⟨1, rfl, Or.inl ⟨rfl, Or.inr (Or.inl ⟨_, hm⟩)⟩, by decide, by decide⟩
      · left
        rw [hl]
        obtain ⟨o1, o2, _, _⟩ := g.faults.2.1 _ _ hf
        exact ⟨e, rfl, Or.inr (Or.inr (Or.inl ⟨_, hf⟩)), o2, o1⟩
      · right
        rw [hl]
        refine ⟨?_, hb⟩
        unfold verified
        rw [hty, hcode]
        rcases hn with rfl | rfl <;> simp

/-- **C86.** Whatever the process may do and whatever goes wrong, an answer about a feature is never wrong: if it cannot be had
    there is an error. -/
theorem C86_features_sound (m : Machine) (g : m.Good) (f : Feature) :
    runProbe m.kernel f = .ok (m.provides f) ∨ ∃ e, runProbe m.kernel f = .error e ∧ m.Hindrance e := by
  have helper : ∀ n h, 0 < n → n ≤ 25 → ioError (isHelperSupported m.kernel (.plain n) h) = .ok (m.prog n && m.helper n h) ∨
      ∃ e, ioError (isHelperSupported m.kernel (.plain n) h) = .error e ∧ m.Hindrance e := by
    intro n h h0 h25
    rcases C86_helpers_sound m g n h h0 (by omega) (by simp; omega) with h | ⟨e, h, he⟩
    · left; rw [h]; rfl
    · right; exact ⟨e, by rw [h]; rfl, he⟩
  have progId : ∀ t, t = 14 ∨ t = 16 → probeProgId m.kernel t = .ok (m.map t && m.progId t) ∨
      ∃ e, probeProgId m.kernel t = .error e ∧ m.Hindrance e := by
    intro t ht
    have := other_plain (b := m.progId t) m g t 8 (by simp; omega)
      (by intro _; rcases ht with rfl | rfl <;> simp [fits])
    unfold probeProgId
    rw [show m.kernel.create = m.create from rfl]
    rcases this with ⟨h, hb⟩ | ⟨e, h, he, hne⟩ | ⟨h, hb⟩
    · left; rw [h, hb]; rfl
    · right; rw [h]; exact ⟨e, by simp [probeResult, EINVAL, hne], he⟩
    · left; rw [h, hb]; rfl
  cases f with
  | name =>
    have := load_trivial m g 1 (Or.inl rfl) true
    simp only [runProbe, probeName, Machine.provides]
    change probeResult (m.load _).1 _ = _ ∨ ∃ e, probeResult (m.load _).1 _ = _ ∧ _
    rcases this with ⟨e, he, h, hb⟩ | ⟨e, h, he, h7, h22⟩ | ⟨h, hb⟩
    · left
      rw [h, show m.fieldName = false by simpa [g.socketFilter] using hb]
      rcases he with rfl | rfl <;> rfl
    · right; rw [h]; exact ⟨e, by simp [probeResult, EINVAL, E2BIG, h7, h22], he⟩
    · left; rw [h, show m.fieldName = true by simpa [g.socketFilter] using hb]; rfl
  | probeReadKernel => exact helper 5 113 (by omega) (by omega)
  | cookie => exact helper 2 174 (by omega) (by omega)
  | perfLink =>
    have := load_trivial m g 5 (Or.inr rfl) false
    simp only [runProbe, probePerfLink, Machine.provides]
    have hn : (m.kernel.load (progAttr m.kernel (.plain 5) .trivial)).1 =
      (m.load { progAttr m.kernel (.plain 5) .trivial with named := false }).1 := rfl
    rw [hn]
    simp only [Bool.not_false, Bool.true_or, Bool.and_true] at this
    rcases this with ⟨e, he, h, hb⟩ | ⟨e, h, he, h7, h22⟩ | ⟨h, hb⟩
    · left
      rw [h, hb]
      rcases he with rfl | rfl <;> rfl
    · right; rw [h]; exact ⟨e, by simp [EINVAL, E2BIG, h7, h22], he⟩
    · rw [h, hb]
      simp only [Machine.kernel, Bool.true_and]
      cases hl : m.linkFault with
      | some e =>
        right
        obtain ⟨o1, o2, o3, o4⟩ := g.faults.2.2.1 e hl
        exact ⟨e, by simp [EBADF, EINVAL, o1, o3], Or.inr (Or.inr (Or.inr (Or.inl hl)))⟩
      | none => left; cases m.perfLink <;> simp [EBADF, EINVAL]
  | globalData =>
    have := other_plain (b := true) m g 2 32 (by simp) (by intro _; simp [fits])
    simp only [runProbe, probeGlobalData, Machine.provides]
    have hn : m.kernel.create { type := 2, key := 4, value := 32, max := 1 } = m.create { type := 2, key := 4, value := 32, max := 1 } := rfl
    rw [hn]
    rcases this with ⟨h, hb⟩ | ⟨e, h, he, hne⟩ | ⟨h, hb⟩
    · simp [g.hash.2] at hb
    · right; rw [h]; exact ⟨e, rfl, he⟩
    · rw [h]
      simp only [Machine.kernel]
      cases hl : m.dataFault with
      | some e =>
        right
        obtain ⟨o1, o2, o3, o4⟩ := g.faults.2.2.2.2 e hl
        exact ⟨e, by simp [probeResult, E2BIG, EINVAL, o1, o2], Or.inr (Or.inr (Or.inr (Or.inr (Or.inr hl))))⟩
      | none => left; cases m.globalData <;> simp [probeResult, EINVAL]
  | cpuMapProgId => exact progId 16 (Or.inr rfl)
  | devMapProgId => exact progId 14 (Or.inl rfl)
  | btf =>
    have := btf_result m g [.int] true (by simp [kindOf])
    simpa [runProbe, probeBtf, Machine.provides] using this
  | btfFeature f =>
    have := btf_result m g (btfSample f) _ (btf_sample m g f)
    cases f <;> exact this

/-- **C86.** Asking for a feature says whether the kernel has it, when the process may do what the probe does and nothing goes wrong. -/
theorem C86_features (m : Machine) (g : m.Good) (w : m.Willing) (f : Feature) : runProbe m.kernel f = .ok (m.provides f) := by
  rcases C86_features_sound m g f with h | ⟨e, _, he⟩
  · exact h
  · exact absurd he (willing_none m w e)

end Verif.Features
