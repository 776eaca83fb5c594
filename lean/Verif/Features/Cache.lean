import Verif.Features.Props

/-!
# C86: features that are remembered, the limit of locked memory, and cases
-/
set_option linter.unusedSimpArgs false
set_option linter.unusedVariables false

namespace Verif.Features

/-! ## Features that are remembered -/

/-- The question about the feature among those asked before, and the machine that was asked. -/
def firstAsked (f : Feature) : List (Machine × Feature) → Option Machine
  | [] => none
  | (m, f') :: qs => if f' = f then some m else firstAsked f qs

/-- The questions, as the model takes them. -/
noncomputable def asKernels (qs : List (Machine × Feature)) : List (Kernel × Feature) := qs.map (fun q => (q.1.kernel, q.2))

/-- What the probe makes of a machine. -/
noncomputable def verdict (m : Machine) (f : Feature) : Bool :=
  match runProbe m.kernel f with
  | .ok b => b
  | .error _ => false

/-- The cache holds the first answers. -/
def Remembers (before : List (Machine × Feature)) (c : Cache) : Prop :=
  ∀ f, c.lookup f = (firstAsked f before).map (fun m => verdict m f)

theorem lookup_snoc (c : Cache) (f g : Feature) (b : Bool) : (c ++ [(g, b)]).lookup f =
    match c.lookup f with
    | some x => some x
    | none => if f = g then some b else none := by
  induction c with
  | nil =>
    by_cases h : f = g
    · subst h; simp [List.lookup]
    · have : (f == g) = false := by simpa using h
      simp [List.lookup, this, h]
  | cons p c ih =>
    obtain ⟨k, v⟩ := p
    simp only [List.cons_append, List.lookup]
    cases h : (f == k) with
    | true => rfl
    | false => exact ih

theorem firstAsked_snoc (f g : Feature) (m : Machine) (qs : List (Machine × Feature)) : firstAsked f (qs ++ [(m, g)]) =
    match firstAsked f qs with
    | some x => some x
    | none => if g = f then some m else none := by
  induction qs with
  | nil => simp [firstAsked]
  | cons q qs ih =>
    obtain ⟨m', f'⟩ := q
    simp only [List.cons_append, firstAsked]
    by_cases h : f' = f
    · simp [h]
    · simp only [if_neg h]; exact ih

theorem getFeature_step (before : List (Machine × Feature)) (c : Cache) (hc : Remembers before c) (m : Machine) (f : Feature) :
    getFeature m.kernel c f = (verdict ((firstAsked f before).getD m) f, (getFeature m.kernel c f).2.1, (firstAsked f before).isNone) ∧
    Remembers (before ++ [(m, f)]) (getFeature m.kernel c f).2.1 := by
  unfold getFeature
  have h := hc f
  cases hf : firstAsked f before with
  | some m0 =>
    rw [hf] at h
    simp only [h, Option.map_some, Option.getD_some, Option.isNone_some]
    refine ⟨trivial, ?_⟩
    intro f'
    rw [hc f', firstAsked_snoc]
    cases h' : firstAsked f' before with
    | some x => rfl
    | none =>
      by_cases e : f = f'
      · subst e; rw [hf] at h'; cases h'
      · simp [e]
  | none =>
    rw [hf] at h
    simp only [h, Option.map_none, Option.getD_none, Option.isNone_none]
    refine ⟨?_, ?_⟩
    · rfl
    · intro f'
      rw [lookup_snoc, hc f', firstAsked_snoc]
      cases h' : firstAsked f' before with
      | some x => rfl
      | none =>
        by_cases e : f = f'
        · subst e; simp [verdict]; rfl
        · have e' : ¬ f' = f := fun x => e x.symm
          simp [e, e']

theorem askAll_eq (qs : List (Machine × Feature)) : ∀ (before : List (Machine × Feature)) (c : Cache), Remembers before c →
    ∀ (i : Nat) (m : Machine) (f : Feature), qs[i]? = some (m, f) →
      (askAll c (asKernels qs))[i]? =
        some (verdict ((firstAsked f (before ++ qs.take i)).getD m) f, (firstAsked f (before ++ qs.take i)).isNone) := by
  induction qs with
  | nil => intro _ _ _ i m f h; simp at h
  | cons q qs ih =>
    intro before c hc i m f h
    obtain ⟨m0, f0⟩ := q
    obtain ⟨h1, h2⟩ := getFeature_step before c hc m0 f0
    have hs : askAll c (asKernels ((m0, f0) :: qs)) =
        ((getFeature m0.kernel c f0).1, (getFeature m0.kernel c f0).2.2) :: askAll (getFeature m0.kernel c f0).2.1 (asKernels qs) := rfl
    rw [hs]
    cases i with
    | zero =>
      simp only [List.getElem?_cons_zero, Option.some.injEq, Prod.mk.injEq] at h
      obtain ⟨rfl, rfl⟩ := h
      rw [h1]
      simp
    | succ i =>
      simp only [List.getElem?_cons_succ] at h ⊢
      have := ih (before ++ [(m0, f0)]) _ h2 i m f h
      rw [this]
      simp

/-- **C86.** Whatever is asked in whatever order, and however the kernel's willingness changes meanwhile, the answer about a feature
    stays what it was the first time; the kernel is asked only that time; and a feature is only relied on if the kernel that was
    asked has it. -/
theorem C86_remembered (qs : List (Machine × Feature)) (hg : ∀ q ∈ qs, q.1.Good) (i : Nat) (m : Machine) (f : Feature)
    (h : qs[i]? = some (m, f)) :
    ∃ b asked, (askAll [] (asKernels qs))[i]? = some (b, asked) ∧
      (asked = true ↔ ∀ (j : Nat) (q : Machine × Feature), j < i → qs[j]? = some q → q.2 ≠ f) ∧
      (∀ (j : Nat) (m' : Machine), qs[j]? = some (m', f) → ∃ asked, (askAll [] (asKernels qs))[j]? = some (b, asked)) ∧
      ∃ m0 : Machine, (m0, f) ∈ qs ∧ (b = true → m0.provides f = true) ∧ (m0.Willing → b = m0.provides f) := by
  have hr : Remembers [] [] := fun f => rfl
  have hmem : ∀ l m0, firstAsked f l = some m0 → (m0, f) ∈ l := by
    intro l m0
    induction l with
    | nil => intro h; cases h
    | cons q l ih =>
      obtain ⟨m', f'⟩ := q
      simp only [firstAsked]
      by_cases e : f' = f
      · rw [if_pos e]; intro h; cases h; simp [e]
      · rw [if_neg e]; intro h; exact List.mem_cons_of_mem _ (ih h)
  have hnone : ∀ l : List (Machine × Feature), firstAsked f l = none ↔ ∀ q ∈ l, q.2 ≠ f := by
    intro l
    induction l with
    | nil => simp [firstAsked]
    | cons q l ih =>
      obtain ⟨m', f'⟩ := q
      simp only [firstAsked]
      by_cases e : f' = f
      · rw [if_pos e]; simp [e]
      · rw [if_neg e, ih]; simp [e]
  have happ : ∀ l l' m0, firstAsked f l = some m0 → firstAsked f (l ++ l') = some m0 := by
    intro l l' m0
    induction l with
    | nil => intro h; cases h
    | cons q l ih =>
      obtain ⟨m', f'⟩ := q
      simp only [List.cons_append, firstAsked]
      by_cases e : f' = f
      · simp [e]
      · simp only [if_neg e]; exact ih
  have happ0 : ∀ l m0 l', firstAsked f l = none → firstAsked f (l ++ (m0, f) :: l') = some m0 := by
    intro l m0 l'
    induction l with
    | nil => simp [firstAsked]
    | cons q l ih =>
      obtain ⟨m', f'⟩ := q
      simp only [List.cons_append, firstAsked]
      by_cases e : f' = f
      · simp [e]
      · simp only [if_neg e]; exact ih
  have hfirst : ∀ (j : Nat) (m' : Machine), qs[j]? = some (m', f) → firstAsked f qs = some ((firstAsked f (qs.take j)).getD m') := by
    intro j m' hj
    have hs : qs = qs.take j ++ (m', f) :: qs.drop (j + 1) := by
      obtain ⟨hlt, hv⟩ := List.getElem?_eq_some_iff.1 hj
      rw [← hv, ← List.drop_eq_getElem_cons hlt, List.take_append_drop]
    cases hf : firstAsked f (qs.take j) with
    | some m0 => rw [hs]; rw [happ _ _ _ hf]; rfl
    | none => rw [hs, happ0 _ _ _ hf]; rfl
  have key := askAll_eq qs [] [] hr
  simp only [List.nil_append] at key
  obtain ⟨m0, h0⟩ : ∃ m0, firstAsked f qs = some m0 := ⟨_, hfirst i m h⟩
  have hval : ∀ (j : Nat) (m' : Machine), qs[j]? = some (m', f) → (firstAsked f (qs.take j)).getD m' = m0 := by
    intro j m' hj
    have := hfirst j m' hj
    rw [h0] at this
    exact (Option.some.inj this).symm
  have hm0 := hmem _ _ h0
  refine ⟨verdict m0 f, _, by rw [key i m f h, hval i m h], ?_, ?_, m0, hm0, ?_, ?_⟩
  · rw [Option.isNone_iff_eq_none, hnone]
    constructor
    · intro hq j q hj hqj
      exact hq q (List.mem_of_getElem? (i := j) (by rw [List.getElem?_take]; simp [hj, hqj]))
    · intro hq q hmq
      obtain ⟨j, hj⟩ := List.getElem?_of_mem hmq
      rw [List.getElem?_take] at hj
      split at hj
      · exact hq j q (by assumption) hj
      · cases hj
  · intro j m' hj
    exact ⟨_, by rw [key j m' f hj, hval j m' hj]⟩
  · intro hb
    rcases C86_features_sound m0 (hg _ hm0) f with hs | ⟨e, hs, _⟩
    · simp only [verdict, hs] at hb; exact hb
    · simp [verdict, hs] at hb
  · intro hw
    simp only [verdict, C86_features m0 (hg _ hm0) hw f]

/-- **C86.** A kind of BTF is relied on exactly if the kernel takes BTF of that kind, whichever answer came first. -/
theorem C86_btf_kinds (m : Machine) (g : m.Good) (w : m.Willing) (f : BtfFeature) (c : Cache)
    (hc : ∀ f b, c.lookup f = some b → b = m.provides f) : (getBtfFeature m.kernel c f).1 = m.provides (.btfFeature f) := by
  have one : ∀ (c : Cache) (f : Feature), (∀ f b, c.lookup f = some b → b = m.provides f) →
      (getFeature m.kernel c f).1 = m.provides f ∧ ∀ f' b, (getFeature m.kernel c f).2.1.lookup f' = some b → b = m.provides f' := by
    intro c f hc
    unfold getFeature
    cases h : c.lookup f with
    | some b => exact ⟨hc f b h, hc⟩
    | none =>
      simp only [C86_features m g w f]
      refine ⟨trivial, ?_⟩
      intro f' b hb
      rw [lookup_snoc] at hb
      cases h' : c.lookup f' with
      | some x => rw [h'] at hb; simp at hb; subst hb; exact hc f' x h'
      | none =>
        rw [h'] at hb
        by_cases e : f' = f
        · simp [e] at hb; rw [← hb, e]
        · simp [e] at hb
  obtain ⟨h1, h2⟩ := one c .btf hc
  obtain ⟨h3, _⟩ := one _ (.btfFeature f) h2
  unfold getBtfFeature
  simp only []
  by_cases hb : (getFeature m.kernel c .btf).1 = true
  · rw [if_pos hb]; exact h3
  · rw [if_neg hb]
    have : m.btf = false := by
      have h1' : (getFeature m.kernel c .btf).1 = m.btf := h1
      rw [← h1']; simpa using hb
    cases f <;> simp [Machine.provides, this]

/-! ## The limit of locked memory -/

theorem charge_raised (r n : Nat) (p : Proc) (hp : p.soft = none) : charge r n p = (.ok (), { p with locked := p.locked + n }) := by
  simp [charge, hp]

/-- **C86.** On kernels that count locked memory, a process that may raise the limit gets every map and program, of whatever sizes
    and in whatever order, whichever of the two numbers the kernel answers. -/
theorem C86_limit (r : Nat) (calls : List (Nat × List Nat)) (hr : ∀ c ∈ calls, r ∈ c.2) : ∀ p : Proc, (p.privileged = true ∨ p.hard = none) →
    (p.raised = true → p.soft = none) →
    (∀ x ∈ (runCalls true (charge r) p calls).1, x = .ok ()) ∧
    (runCalls true (charge r) p calls).2.locked = p.locked + (calls.map Prod.fst).sum := by
  induction calls with
  | nil => intro p _ _; simp [runCalls]
  | cons c calls ih =>
    intro p hm hi
    obtain ⟨n, errnos⟩ := c
    have hc : errnos.contains r = true := by simpa using hr (n, errnos) (by simp)
    have step : ∃ p', withRetry true errnos (charge r n) p = (.ok (), p') ∧ p'.locked = p.locked + n ∧
        (p'.privileged = true ∨ p'.hard = none) ∧ (p'.raised = true → p'.soft = none) := by
      cases hs : p.soft with
      | none =>
        refine ⟨{ p with locked := p.locked + n }, ?_, rfl, hm, fun _ => hs⟩
        simp [withRetry, charge_raised r n p hs]
      | some l =>
        have hnr : p.raised = false := by
          cases h : p.raised with
          | false => rfl
          | true => rw [hi h] at hs; cases hs
        by_cases hl : p.locked + n ≤ l
        · refine ⟨{ p with locked := p.locked + n }, ?_, rfl, hm, ?_⟩
          · simp [withRetry, charge, hs, hl]
          · intro h; simp [hnr] at h
        · have hpr : (p.privileged || p.hard.isNone) = true := by
            rcases hm with h | h <;> simp [h]
          refine ⟨{ p with raised := true, soft := none, hard := none, locked := p.locked + n }, ?_, rfl, Or.inr rfl, fun _ => rfl⟩
          simp only [withRetry, charge, hs, if_neg hl, Bool.true_and, hc, if_true]
          simp [raiseOnce, hnr, hs, hpr]
    obtain ⟨p', hw, hlk, hm', hi'⟩ := step
    obtain ⟨ih1, ih2⟩ := ih (fun c hc => hr c (List.mem_cons_of_mem _ hc)) p' hm' hi'
    simp only [runCalls, hw]
    refine ⟨?_, ?_⟩
    · intro x hx
      simp only [List.mem_cons] at hx
      rcases hx with rfl | hx
      · rfl
      · exact ih1 x hx
    · rw [ih2, hlk]; simp only [List.map_cons, List.sum_cons]; omega

/-- **C86.** The limit is not touched on newer kernels, nor by calls that do not fail for lack of memory; failures for other reasons
    are reported as they are. -/
theorem C86_limit_untouched (accounted : Bool) (errnos : List Nat) (op : Proc → Except Nat Unit × Proc)
    (hop : ∀ p, (op p).2.soft = p.soft ∧ (op p).2.hard = p.hard) (p : Proc)
    (h : accounted = false ∨ (op p).1 = .ok () ∨ ∃ e, (op p).1 = .error e ∧ e ∉ errnos) :
    withRetry accounted errnos op p = op p ∧ (withRetry accounted errnos op p).2.soft = p.soft := by
  have : withRetry accounted errnos op p = op p := by
    unfold withRetry
    rcases ho : op p with ⟨r, p'⟩
    rw [ho] at h
    cases r with
    | ok u => rfl
    | error e =>
      rcases h with h | h | ⟨e', h, hn⟩
      · simp [h]
      · cases h
      · cases h; simp [hn]
  rw [this]
  exact ⟨rfl, (hop p).1⟩

/-- **C86.** A call that the kernel refuses for want of a right, with the same number, is refused with that number: trying again
    does not hide it. -/
theorem C86_refusal_reported (accounted : Bool) (errnos : List Nat) (e : Nat) (p : Proc) :
    (withRetry accounted errnos (fun p => (.error e, p)) p).1 = .error e := by
  simp only [withRetry]
  split <;> rfl

/-- **C86.** A process that may raise the limit only up to a second limit is refused what that second limit would allow: the limit is
    not raised at all. -/
theorem C86_second_limit_violated : ∃ p : Proc, p.soft = some 65536 ∧ p.hard = some 1048576 ∧
    (charge 1 100000 { p with soft := p.hard }).1 = .ok () ∧ (withRetry true [1] (charge 1 100000) p).1 = .error 1 :=
  ⟨{ soft := some 65536, hard := some 1048576, privileged := false }, rfl, rfl, by decide +kernel, by decide +kernel⟩

/-! ## Cases -/

/-- A recent kernel whose filters may not call one of the functions. -/
def recent : Machine where
  map _ := true
  prog _ := true
  cgroupLsm := true
  trampolines := true
  helper t h := !(t == 1 && h == 113)
  callLog t h := if t = 1 ∧ h = 113 then "0: (85) call 113\nunknown func bpf_probe_read_kernel#113\n".toUTF8.toList
    else "R1 type=ctx expected=fp\n".toUTF8.toList
  callAccepted _ h := h == 5
  fieldBtf := true
  fieldVmlinux := true
  fieldAttach := true
  fieldAttachBtf := true
  fieldName := true
  perfLink := true
  globalData := true
  progId _ := true
  btf := true
  kind _ := true
  function _ := 77
  pageSize := 4096
  code := 0
  checksCode := false
  believed := 0
  mayCreate _ := true
  mayLoad _ := true
  mayLoadBtf := true
  mapFault _ := none
  progFault _ := none
  linkFault := none
  btfFault := none
  dataFault := none

/-- An old kernel, with LSM programs but none for cgroups, that does not describe itself. -/
def older : Machine :=
  { recent with
    map := fun t => decide (t ≤ 27)
    cgroupLsm := false
    trampolines := false
    perfLink := false
    kind := fun k => decide (k ≠ .enum64)
    function := fun _ => 0 }

theorem recent_text : (0 : UInt8) ∉ "0: (85) call 113\nunknown func bpf_probe_read_kernel#113\n".toUTF8.toList ∧
    (0 : UInt8) ∉ "R1 type=ctx expected=fp\n".toUTF8.toList ∧
    "0: (85) call 113\nunknown func bpf_probe_read_kernel#113\n".toUTF8.toList.length < 4096 ∧
    "R1 type=ctx expected=fp\n".toUTF8.toList.length < 4096 ∧
    diagnostics.any (fun d => occurs d "R1 type=ctx expected=fp\n".toUTF8.toList) = false ∧
    diagnostics.any (fun d => occurs d "0: (85) call 113\nunknown func bpf_probe_read_kernel#113\n".toUTF8.toList) = true := by
  decide +kernel

theorem recent_good : recent.Good where
  hash := ⟨rfl, rfl⟩
  socketFilter := rfl
  storage := fun _ _ _ => rfl
  ops := fun _ => rfl
  attach := fun _ _ _ => rfl
  attachBtf := fun _ _ _ => rfl
  cgroupLsm := fun _ => rfl
  declTag := fun _ => rfl
  refused := by
    intro t h _ hh
    have : t = 1 ∧ h = 113 := by simpa [recent] using hh
    simp only [recent, if_pos this]
    exact (any_says _).1 recent_text.2.2.2.2.2
  accepted := by
    intro t h hh
    have : ¬ (t = 1 ∧ h = 113) := by
      rintro ⟨rfl, rfl⟩; simp [recent] at hh
    simp only [recent, if_neg this]
    have hn : ¬ _ := fun x => by
      have := (any_says "R1 type=ctx expected=fp\n".toUTF8.toList).2 x
      rw [recent_text.2.2.2.2.1] at this
      cases this
    simp only [not_or] at hn
    exact ⟨by decide +kernel, hn⟩
  text := by
    intro t h
    simp only [recent]
    split
    · exact ⟨recent_text.1, recent_text.2.2.1⟩
    · exact ⟨recent_text.2.1, recent_text.2.2.2.1⟩
  page := ⟨12, by decide⟩
  code := by intro h; cases h
  faults := by
    refine ⟨?_, ?_, ?_, ?_, ?_⟩ <;> · intros; simp [recent] at *

theorem recent_willing : recent.Willing where
  create := fun _ => ⟨rfl, rfl⟩
  load := fun _ => ⟨rfl, rfl⟩
  btf := ⟨rfl, rfl⟩
  link := rfl
  data := rfl

theorem older_good : older.Good where
  hash := ⟨rfl, rfl⟩
  socketFilter := rfl
  storage := fun _ _ _ => rfl
  ops := fun _ => rfl
  attach := fun _ _ _ => rfl
  attachBtf := fun _ _ _ => rfl
  cgroupLsm := fun _ => rfl
  declTag := fun _ => rfl
  refused := recent_good.refused
  accepted := recent_good.accepted
  text := recent_good.text
  page := recent_good.page
  code := by intro h; cases h
  faults := recent_good.faults

theorem older_willing : older.Willing where
  create := fun _ => ⟨rfl, rfl⟩
  load := fun _ => ⟨rfl, rfl⟩
  btf := ⟨rfl, rfl⟩
  link := rfl
  data := rfl

example : isMapSupported recent.kernel 27 = .ok true ∧ isMapSupported older.kernel 27 = .ok true ∧
    isMapSupported older.kernel 30 = .ok false :=
  ⟨C86_maps recent recent_good recent_willing 27 (by decide) (by decide), C86_maps older older_good older_willing 27 (by decide) (by decide),
    C86_maps older older_good older_willing 30 (by decide) (by decide)⟩

example : isProgramSupported recent.kernel .lsmCgroup = .ok true :=
  C86_programs_partial recent recent_good recent_willing ⟨fun _ => by decide, fun _ => by decide⟩ .lsmCgroup trivial

example : isHelperSupported recent.kernel (.plain 1) 113 = .ok false ∧ isHelperSupported recent.kernel (.plain 5) 113 = .ok true ∧
    isHelperSupported recent.kernel (.plain 26) 113 = .error .unexpectedProgramType :=
  ⟨C86_helpers recent recent_good recent_willing (.plain 1) (by simp [ProgType.exists]) 113,
    C86_helpers recent recent_good recent_willing (.plain 5) (by simp [ProgType.exists]) 113,
    C86_helpers recent recent_good recent_willing (.plain 26) (by simp [ProgType.exists]) 113⟩

example : runProbe older.kernel (.btfFeature .enum64) = .ok false ∧ runProbe recent.kernel .perfLink = .ok true :=
  ⟨C86_features older older_good older_willing _, C86_features recent recent_good recent_willing _⟩

example : (getBtfFeature older.kernel [] .enum64).1 = false ∧ (getBtfFeature older.kernel [] .float).1 = true :=
  ⟨C86_btf_kinds older older_good older_willing .enum64 [] (by intro _ _ h; cases h),
    C86_btf_kinds older older_good older_willing .float [] (by intro _ _ h; cases h)⟩

example : ∃ b, (askAll [] (asKernels [(older, .perfLink), (recent, .btf), (recent, .perfLink)]))[2]? = some (b, false) ∧ b = false := by
  have hg : ∀ q ∈ [(older, Feature.perfLink), (recent, .btf), (recent, .perfLink)], q.1.Good := by
    intro q hq
    simp only [List.mem_cons, List.not_mem_nil, or_false] at hq
    rcases hq with rfl | rfl | rfl
    · exact older_good
    · exact recent_good
    · exact recent_good
  have h := askAll_eq [(older, .perfLink), (recent, .btf), (recent, .perfLink)] [] [] (fun f => rfl) 2 recent .perfLink rfl
  refine ⟨_, h, ?_⟩
  show verdict older .perfLink = false
  simp only [verdict, C86_features older older_good older_willing .perfLink]
  rfl

example : (runCalls true (charge 1) { soft := some 65536, hard := some 65536, privileged := true } [(40000, [1]), (40000, [1]), (5, [1])]).1 =
    [.ok (), .ok (), .ok ()] := by decide +kernel

/-- **C86.** On a kernel that does not describe its own functions, LSM programs for cgroups are reported as supported although the
    kernel has none, and so are programs that cannot be attached. -/
theorem C86_undescribed_violated : ∃ m : Machine, m.Good ∧ m.Willing ∧
    isProgramSupported m.kernel .lsmCgroup = .ok true ∧ m.runs .lsmCgroup = false ∧
    isProgramSupported m.kernel (.plain 26) = .ok true ∧ m.runs (.plain 26) = false := by
  refine ⟨older, older_good, older_willing, ?_, rfl, ?_, rfl⟩
  · have hl := load_known older (programProbe older.kernel .lsmCgroup) rfl (fun _ => rfl) (fun h => absurd rfl h) (fun _ => rfl)
      trivial (fun h => absurd rfl h) (by intro h; cases h) (by simp [programProbe, progAttr, ProgType.num])
    rcases hl with ⟨h, _⟩ | ⟨e, h, _⟩ | hl
    · cases h
    · cases h
    · show programVerdict older.kernel .lsmCgroup (older.load (programProbe older.kernel .lsmCgroup)) = _
      rw [hl]
      unfold verified
      rw [if_neg (by decide), if_pos ⟨by decide, rfl⟩, 
        refusal_mustProvide (programProbe older.kernel .lsmCgroup).log (show 100 ≤ 256 by decide)]
      simp only [programVerdict, mustProvide_prefix]
      rfl
  · have hl := load_known older (programProbe older.kernel (.plain 26)) rfl (fun _ => rfl) (fun h => absurd rfl h) (fun _ => rfl)
      trivial (fun h => absurd rfl h) (by intro h; cases h) (by simp [programProbe, progAttr, ProgType.num])
    rcases hl with ⟨h, _⟩ | ⟨e, h, _⟩ | hl
    · cases h
    · cases h
    · show programVerdict older.kernel (.plain 26) (older.load (programProbe older.kernel (.plain 26))) = _
      rw [hl]
      unfold verified
      rw [if_neg (by decide), if_pos ⟨by decide, rfl⟩, 
        refusal_mustProvide (programProbe older.kernel (.plain 26)).log (show 100 ≤ 256 by decide)]
      simp only [programVerdict, mustProvide_prefix]
      rfl

end Verif.Features
