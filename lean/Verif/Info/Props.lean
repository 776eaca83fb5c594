import Verif.Info.Spec
import Verif.Common.Except
/-!
# C85: information about programs and maps is about them
-/
set_option linter.unusedSimpArgs false
set_option linter.unusedVariables false
namespace Verif.Info
open Verif.Str (render parseUInt splitBy digitChar)

/-! ## Answers of the kernel -/

theorem unless_none {w : World} {t : Nat} (h : w.fault t = none) (a : Except Nat α) : w.unless t a = a := by
  simp only [World.unless, h]

theorem nameOf_field (name : List UInt8) (h0 : 0 ∉ name) : nameOf (nameField name) = name := by
  have hd : ∀ (k : Nat) (l : List UInt8), (0 : UInt8) ∉ l → (List.replicate k (0 : UInt8) ++ l).dropWhile (· == 0) = l := by
    intro k l hl
    induction k with
    | zero =>
      cases l with
      | nil => rfl
      | cons a l =>
        have : (a == 0) = false := by
          simp only [beq_eq_false_iff_ne]; intro h; exact hl (by simp [h])
        simp [this]
    | succ k ih => simpa [List.replicate_succ] using ih
  simp only [nameOf, nameField, List.reverse_append, List.reverse_replicate]
  rw [hd _ _ (by simpa using h0)]
  simp

theorem ofBe_foldl (bs : List UInt8) : ∀ a, bs.foldl (fun n b => n * 256 + b.toNat) a = a * 256 ^ bs.length + ofBe bs := by
  induction bs with
  | nil => intro a; simp [ofBe]
  | cons b bs ih =>
    intro a
    simp only [List.foldl_cons, ih, ofBe, List.length_cons, Nat.pow_succ, Nat.add_mul]
    rw [Nat.mul_assoc, Nat.mul_comm 256, Nat.add_assoc]

theorem programType_eq (r : ProgRec) : programType r = if r.type ≤ 32 then r.type else 33 := by
  unfold programType
  by_cases h : r.type ≤ 32
  · rw [if_pos h, if_pos (by omega)]
  · rw [if_neg h, if_neg (by omega)]

theorem positive_eq (n : Nat) : (if n > 0 then some n else none) = unlessZero n := by
  unfold unlessZero
  by_cases h : n = 0
  · simp [h]
  · rw [if_neg h, if_pos (by omega)]

/-- **C85 (information is about the program asked for).** In every good world, information obtained by a descriptor is that of
    the program the descriptor refers to, every field of it: type, id, tag, sizes, creator, name, BTF id, runs and verified
    instructions. An optional field is `none` exactly if this kernel does not tell it, or if the kernel tells 0. -/
theorem C85_program_info (w : World) (hw : w.Good) (t id : Nat) (hf : w.fault t = none) :
    ∃ r : ProgRec, progFromFd w.kernel t id = (.ok r, t + 1) ∧
      programType r = (if (w.prog id).type ≤ 32 then (w.prog id).type else 33) ∧
      r.id = id ∧ tag r = bigEndian (w.prog id).tag ∧
      r.jited = (w.prog id).jited ∧ sizeTranslated r = unlessZero (w.prog id).xlated ∧
      createdByUid r = told w.tellsLoadTime (w.prog id).uid ∧
      nameOf r.name = (if w.tellsName then (w.prog id).name else []) ∧
      btfId r = unlessZero (w.prog id).btfId ∧
      (r.runTimeNs, r.runCnt) = w.ran t id ∧
      verifiedInstructionCount r = unlessZero (w.prog id).verified := by
  refine ⟨w.progRec t id, ?_, programType_eq _, rfl, ?_, rfl, positive_eq _, ?_, ?_, positive_eq _, rfl, positive_eq _⟩
  · simp only [progFromFd, World.kernel, unless_none hf]
  · have h := ofBe_foldl (w.prog id).tag 0
    simp only [tag, World.progRec, bigEndian, h]; omega
  · have hl := hw.loadTime id
    cases ht : w.tellsLoadTime with
    | false => simp [createdByUid, World.progRec, told, ht]
    | true => simp [createdByUid, World.progRec, told, ht, hl]
  · cases ht : w.tellsName with
    | false => simp [World.progRec, ht]; decide
    | true => simpa [World.progRec, ht] using nameOf_field _ (hw.name id).2

theorem mapType_known (r : MapRec) (h : r.type ≤ 33) : mapType r = .ok r.type := by
  unfold mapType; rw [if_pos (by omega)]

theorem mapType_unknown (r : MapRec) (h : 33 < r.type) : mapType r = .error 34 := by
  unfold mapType; rw [if_neg (by omega)]

/-- **C85 (maps).** Likewise for maps, by id. A map that is not there gives an error. A type this version of the library does not
    know gives an error. -/
theorem C85_map_info (w : World) (hw : w.Good) (t id : Nat) (hf : w.fault t = none) (hf' : w.fault (t + 1) = none) :
    (id ∈ w.maps t → ∃ r : MapRec, mapFromId w.kernel t id = (.ok r, t + 2) ∧
      r.id = id ∧ r.keySize = (w.map id).keySize ∧ r.valueSize = (w.map id).valueSize ∧
      r.maxEntries = (w.map id).maxEntries ∧ r.mapFlags = (w.map id).mapFlags ∧
      nameOf r.name = (if w.tellsName then (w.map id).name else []) ∧
      ((w.map id).type ≤ 33 → mapType r = .ok (w.map id).type) ∧
      (33 < (w.map id).type → ∃ n, mapType r = .error n)) ∧
    (id ∉ w.maps t → mapFromId w.kernel t id = (.err 2, t + 1)) := by
  constructor
  · intro hm
    refine ⟨w.mapRec id, ?_, rfl, rfl, rfl, rfl, rfl, ?_, ?_, ?_⟩
    · simp only [mapFromId, World.kernel, unless_none hf, if_pos hm, orErr, mapFromFd, unless_none hf']
    · cases ht : w.tellsName with
      | false => simp [World.mapRec, ht]; decide
      | true => simpa [World.mapRec, ht] using nameOf_field _ (hw.mapName id).2
    · intro h; exact mapType_known (w.mapRec id) h
    · intro h; exact ⟨34, mapType_unknown (w.mapRec id) h⟩
  · intro hm
    simp only [mapFromId, World.kernel, unless_none hf, if_neg hm, orErr]

/-- **C85 (violated: the number in the error).** The error for a map type the library does not know does not carry the type of
    the map: it carries 34 for all of them. -/
theorem C85_unknown_map_type_violated (r : MapRec) (h : 34 < r.type) : mapType r = .error 34 ∧ r.type ≠ 34 := by
  refine ⟨?_, by omega⟩
  simp only [mapType]; rw [if_neg (by omega)]

/-- **C85 (violated: pinned paths).** Asking for the information of a pinned program or map by a path with a zero byte panics. -/
theorem C85_from_pin_violated (k : Kernel) (t : Nat) (path : List UInt8) (h : 0 ∈ path) :
    progFromPin k t path = (.panic, t) ∧ mapFromPin k t path = (.panic, t) := by
  have : path.contains 0 = true := by simpa using h
  simp only [progFromPin, mapFromPin, this]; simp

/-- **C85 (pinned).** Any other path gives the information of what is pinned there, or `ENOENT`. -/
theorem C85_from_pin_partial (w : World) (t : Nat) (path : List UInt8) (h : 0 ∉ path) (hf : w.fault t = none) :
    progFromPin w.kernel t path =
      (match w.pins t path with
       | some id => progFromFd w.kernel (t + 1) id
       | none => (.err 2, t + 1)) ∧
    mapFromPin w.kernel t path =
      (match w.pins t path with
       | some id => mapFromFd w.kernel (t + 1) id
       | none => (.err 2, t + 1)) := by
  have : path.contains 0 = false := by simpa using h
  constructor
  · simp only [progFromPin, this]
    simp only [World.kernel, unless_none hf]
    cases w.pins t path <;> simp [orErr]
  · simp only [mapFromPin, this]
    simp only [World.kernel, unless_none hf]
    cases w.pins t path <;> simp [orErr]

/-! ## Listing -/

theorem above_some {cur id : Nat} {ids : List Nat} (h : above cur ids = some id) :
    id ∈ ids ∧ cur < id ∧ ∀ j ∈ ids, cur < j → id ≤ j := by
  have h' := List.min?_eq_some_iff.mp h
  obtain ⟨hm, hl⟩ := h'
  simp only [List.mem_filter, decide_eq_true_eq] at hm hl
  exact ⟨hm.1, hm.2, fun j hj hc => hl j ⟨hj, hc⟩⟩

theorem above_none {cur : Nat} {ids : List Nat} (h : above cur ids = none) : ∀ j ∈ ids, ¬ cur < j := by
  intro j hj hc
  have := List.min?_eq_none_iff.mp h
  have hm : j ∈ ids.filter (fun i => decide (cur < i)) := by simp [hj, hc]
  rw [this] at hm; cases hm

/-- The infos among items. -/
def infos {α : Type} : List (Res α) → List α
  | [] => []
  | .ok r :: is => r :: infos is
  | _ :: is => infos is

/-- What a step of the list of programs gives. -/
inductive Stepped (w : World) (t cur : Nat) : Option (Res ProgRec) × Nat × Option Nat → Prop where
  | ended (h : w.fault t = some 2 ∨ ∀ j ∈ w.progs t, ¬ cur < j) : Stepped w t cur (none, t + 1, none)
  | failed (e : Nat) (h : w.fault t = some e) (he : e ≠ 2) : Stepped w t cur (some (.err e), t + 1, none)
  | gone (id e : Nat) (hc : cur < id) (hm : id ∈ w.progs t) (hl : ∀ j ∈ w.progs t, cur < j → id ≤ j)
      (h : w.fault (t + 1) = some e ∨ (e = 2 ∧ id ∉ w.progs (t + 1))) : Stepped w t cur (some (.err e), t + 2, some id)
  | hidden (id e : Nat) (hc : cur < id) (hm : id ∈ w.progs t) (hl : ∀ j ∈ w.progs t, cur < j → id ≤ j)
      (h : w.fault (t + 2) = some e) : Stepped w t cur (some (.err e), t + 3, some id)
  | shown (id : Nat) (hc : cur < id) (hm : id ∈ w.progs t) (hl : ∀ j ∈ w.progs t, cur < j → id ≤ j)
      (hm' : id ∈ w.progs (t + 1)) : Stepped w t cur (some (.ok (w.progRec (t + 2) id)), t + 3, some id)

theorem progStep_stepped (w : World) (t cur : Nat) : Stepped w t cur (progStep w.kernel t (some cur)) := by
  unfold progStep
  cases h0 : w.fault t with
  | some e =>
    by_cases he : e = 2
    · subst he
      have : idStep w.kernel.nextProgId t (some cur) = (none, t + 1, none) := by
        simp only [idStep, World.kernel, World.unless, h0, enoent, if_pos]
      rw [this]; exact .ended (.inl h0)
    · have : idStep w.kernel.nextProgId t (some cur) = (some (.error e), t + 1, none) := by
        simp only [idStep, World.kernel, World.unless, h0, enoent]; exact if_neg he
      rw [this]; exact .failed e h0 he
  | none =>
    cases ha : above cur (w.progs t) with
    | none =>
      have : idStep w.kernel.nextProgId t (some cur) = (none, t + 1, none) := by
        simp only [idStep, World.kernel, unless_none h0, ha, orErr, enoent, if_pos]
      rw [this]; exact .ended (.inr (above_none ha))
    | some id =>
      obtain ⟨hm, hc, hl⟩ := above_some ha
      have : idStep w.kernel.nextProgId t (some cur) = (some (.ok id), t + 1, some id) := by
        simp only [idStep, World.kernel, unless_none h0, ha, orErr]
      rw [this]
      simp only
      cases h1 : w.fault (t + 1) with
      | some e =>
        simp only [World.kernel, World.unless, h1]
        exact .gone id e hc hm hl (.inl h1)
      | none =>
        by_cases hm' : id ∈ w.progs (t + 1)
        · have hk : w.kernel.progFd (t + 1) id = .ok id := by
            simp only [World.kernel, unless_none h1, if_pos hm', orErr]
          rw [hk]
          simp only
          cases h2 : w.fault (t + 2) with
          | some e =>
            simp only [progFromFd, World.kernel, World.unless, h2]
            exact .hidden id e hc hm hl h2
          | none =>
            simp only [progFromFd, World.kernel, World.unless, h2]
            exact .shown id hc hm hl hm'
        · have hk : w.kernel.progFd (t + 1) id = .error 2 := by
            simp only [World.kernel, unless_none h1, if_neg hm', orErr]
          rw [hk]
          exact .gone id 2 hc hm hl (.inr ⟨rfl, hm'⟩)

/-- After an end or an error of the enumeration itself there is nothing more. -/
theorem progsAll_none (k : Kernel) (fuel t : Nat) : (progsAll k fuel t none).1 = [] := by
  cases fuel <;> simp [progsAll, progStep, idStep]

theorem progsAll_sound (w : World) : ∀ (fuel t cur : Nat),
    ((infos (progsAll w.kernel fuel t (some cur)).1).Pairwise (fun a b => a.id < b.id)) ∧
    (∀ r ∈ infos (progsAll w.kernel fuel t (some cur)).1, cur < r.id ∧
      ∃ t' > t, r.id ∈ w.progs t' ∧ r = w.progRec (t' + 1) r.id) ∧
    (∀ i ∈ (progsAll w.kernel fuel t (some cur)).1, i ≠ .panic ∧
      ∀ e, i = .err e → ∃ t' ≥ t, w.fault t' = some e ∨ (e = 2 ∧ ∃ id, id ∈ w.progs t' ∧ id ∉ w.progs (t' + 1))) := by
  intro fuel
  induction fuel with
  | zero => intro t cur; simp [progsAll, infos]
  | succ fuel ih =>
    intro t cur
    have hs := progStep_stepped w t cur
    simp only [progsAll]
    generalize progStep w.kernel t (some cur) = s at hs
    cases hs with
    | ended h => simp [infos]
    | failed e h he =>
      have hn := progsAll_none w.kernel fuel (t + 1)
      simp only [hn, infos]
      refine ⟨List.Pairwise.nil, (by intro r hr; cases hr), ?_⟩
      intro i hi
      simp only [List.mem_cons, List.not_mem_nil, or_false] at hi
      subst hi
      exact ⟨by simp, fun e' he' => by cases he'; exact ⟨t, Nat.le_refl _, .inl h⟩⟩
    | gone id e hc hm hl h =>
      obtain ⟨h1, h2, h3⟩ := ih (t + 2) id
      simp only [infos]
      refine ⟨h1, fun r hr => ?_, ?_⟩
      · obtain ⟨hid, t', ht', hx⟩ := h2 r hr
        exact ⟨by omega, t', by omega, hx⟩
      · intro i hi
        rcases List.mem_cons.mp hi with rfl | hi
        · refine ⟨by simp, fun e' he' => ?_⟩
          cases he'
          rcases h with h | ⟨h, hn⟩
          · exact ⟨t + 1, by omega, .inl h⟩
          · exact ⟨t, by omega, .inr ⟨h, id, hm, hn⟩⟩
        · obtain ⟨ha, hb⟩ := h3 i hi
          refine ⟨ha, fun e' he' => ?_⟩
          obtain ⟨t', ht', hx⟩ := hb e' he'
          exact ⟨t', by omega, hx⟩
    | hidden id e hc hm hl h =>
      obtain ⟨h1, h2, h3⟩ := ih (t + 3) id
      simp only [infos]
      refine ⟨h1, fun r hr => ?_, ?_⟩
      · obtain ⟨hid, t', ht', hx⟩ := h2 r hr
        exact ⟨by omega, t', by omega, hx⟩
      · intro i hi
        rcases List.mem_cons.mp hi with rfl | hi
        · refine ⟨by simp, fun e' he' => ?_⟩
          cases he'
          exact ⟨t + 2, by omega, .inl h⟩
        · obtain ⟨ha, hb⟩ := h3 i hi
          refine ⟨ha, fun e' he' => ?_⟩
          obtain ⟨t', ht', hx⟩ := hb e' he'
          exact ⟨t', by omega, hx⟩
    | shown id hc hm hl hm' =>
      obtain ⟨h1, h2, h3⟩ := ih (t + 3) id
      simp only [infos]
      refine ⟨List.Pairwise.cons (fun r hr => ?_) h1, fun r hr => ?_, ?_⟩
      · have := (h2 r hr).1; simpa [World.progRec] using this
      · rcases List.mem_cons.mp hr with rfl | hr
        · exact ⟨hc, t + 1, by omega, hm', rfl⟩
        · obtain ⟨hid, t', ht', hx⟩ := h2 r hr
          exact ⟨by omega, t', by omega, hx⟩
      · intro i hi
        rcases List.mem_cons.mp hi with rfl | hi
        · exact ⟨by simp, fun e' he' => by cases he'⟩
        · obtain ⟨ha, hb⟩ := h3 i hi
          refine ⟨ha, fun e' he' => ?_⟩
          obtain ⟨t', ht', hx⟩ := hb e' he'
          exact ⟨t', by omega, hx⟩

theorem progsAll_complete (w : World) : ∀ (fuel t cur tEnd : Nat), (progsAll w.kernel fuel t (some cur)).2 = some tEnd →
    (∀ t', t ≤ t' → t' < tEnd → w.fault t' = none) → t < tEnd ∧
    ∀ id, cur < id → (∀ t', t ≤ t' → t' < tEnd → id ∈ w.progs t') →
      ∃ r ∈ infos (progsAll w.kernel fuel t (some cur)).1, r.id = id := by
  intro fuel
  induction fuel with
  | zero => intro t cur tEnd h; simp [progsAll] at h
  | succ fuel ih =>
    intro t cur tEnd h hf
    have hs := progStep_stepped w t cur
    simp only [progsAll] at h ⊢
    generalize progStep w.kernel t (some cur) = s at hs h
    cases hs with
    | ended h' =>
      simp only [Option.some.injEq] at h
      refine ⟨by omega, fun id hid hlive => ?_⟩
      rcases h' with h' | h'
      · rw [hf t (Nat.le_refl _) (by omega)] at h'; cases h'
      · exact absurd hid (h' id (hlive t (Nat.le_refl _) (by omega)))
    | failed e h' he =>
      simp only at h
      have hlt : t < tEnd := by
        cases fuel with
        | zero => simp [progsAll] at h
        | succ f => simp [progsAll, progStep, idStep] at h; omega
      rw [hf t (Nat.le_refl _) hlt] at h'; cases h'
    | gone id' e hc hm hl h' =>
      simp only at h
      have hrec := ih (t + 2) id' tEnd h (fun t' ht' => hf t' (by omega))
      refine ⟨by omega, fun id hid hlive => ?_⟩
      simp only [infos]
      by_cases hlt : id' < id
      · exact hrec.2 id hlt (fun t' ht' => hlive t' (by omega))
      · have hle := hl id (hlive t (Nat.le_refl _) (by omega)) hid
        have : id = id' := by omega
        subst this
        rcases h' with h' | ⟨_, h'⟩
        · rw [hf (t + 1) (by omega) (by omega)] at h'; cases h'
        · exact absurd (hlive (t + 1) (by omega) (by omega)) h'
    | hidden id' e hc hm hl h' =>
      simp only at h
      have hrec := ih (t + 3) id' tEnd h (fun t' ht' => hf t' (by omega))
      rw [hf (t + 2) (by omega) (by omega)] at h'; cases h'
    | shown id' hc hm hl hm' =>
      simp only at h
      have hrec := ih (t + 3) id' tEnd h (fun t' ht' => hf t' (by omega))
      refine ⟨by omega, fun id hid hlive => ?_⟩
      simp only [infos]
      by_cases hlt : id' < id
      · obtain ⟨r, hr, he⟩ := hrec.2 id hlt (fun t' ht' => hlive t' (by omega))
        exact ⟨r, List.mem_cons_of_mem _ hr, he⟩
      · have hle := hl id (hlive t (Nat.le_refl _) (by omega)) hid
        exact ⟨_, List.mem_cons_self .., by simp only [World.progRec]; omega⟩

theorem progsAll_ends (w : World) (bound : Nat) (hb : ∀ t, ∀ id ∈ w.progs t, id < bound) : ∀ (fuel t cur : Nat),
    bound < fuel + cur → 2 ≤ fuel → ∃ tEnd, (progsAll w.kernel fuel t (some cur)).2 = some tEnd := by
  intro fuel
  induction fuel with
  | zero => intro t cur h h2; omega
  | succ fuel ih =>
    intro t cur h h2
    have hs := progStep_stepped w t cur
    simp only [progsAll]
    generalize progStep w.kernel t (some cur) = s at hs
    cases hs with
    | ended h' => exact ⟨_, rfl⟩
    | failed e h' he =>
      cases fuel with
      | zero => omega
      | succ f => exact ⟨t + 1, by simp [progsAll, progStep, idStep]⟩
    | gone id e hc hm hl h' => have := hb t id hm; exact ih _ _ (by omega) (by omega)
    | hidden id e hc hm hl h' => have := hb t id hm; exact ih _ _ (by omega) (by omega)
    | shown id hc hm hl hm' => have := hb t id hm; exact ih _ _ (by omega) (by omega)

/-- **C85 (`loaded_programs`).** Whatever other processes load and unload meanwhile: the list has ascending ids, so no program
    twice; each entry is the information, at a later time, of a program that was loaded during the listing; there is no panic, and
    an entry is an error only if a call failed or a program went away just then. If no call fails, every program that was loaded
    from the start to the end is in the list. The list ends if ids are below a bound, as they are (`2^31`). -/
theorem C85_loaded_programs (w : World) (t : Nat) (fuel : Nat) :
    ((infos (progsAll w.kernel fuel t (some 0)).1).Pairwise (fun a b => a.id < b.id)) ∧
    (∀ r ∈ infos (progsAll w.kernel fuel t (some 0)).1, ∃ t' > t, r.id ∈ w.progs t' ∧ r = w.progRec (t' + 1) r.id) ∧
    (∀ i ∈ (progsAll w.kernel fuel t (some 0)).1, i ≠ .panic ∧
      ∀ e, i = .err e → ∃ t' ≥ t, w.fault t' = some e ∨ (e = 2 ∧ ∃ id, id ∈ w.progs t' ∧ id ∉ w.progs (t' + 1))) ∧
    (∀ tEnd, (progsAll w.kernel fuel t (some 0)).2 = some tEnd → (∀ t', t ≤ t' → t' < tEnd → w.fault t' = none) →
      ∀ id, 0 < id → (∀ t', t ≤ t' → t' < tEnd → id ∈ w.progs t') →
        ∃ r ∈ infos (progsAll w.kernel fuel t (some 0)).1, r.id = id) ∧
    (∀ bound, (∀ t, ∀ id ∈ w.progs t, id < bound) → bound + 2 ≤ fuel →
      ∃ tEnd, (progsAll w.kernel fuel t (some 0)).2 = some tEnd) := by
  obtain ⟨h1, h2, h3⟩ := progsAll_sound w fuel t 0
  refine ⟨h1, fun r hr => (h2 r hr).2, h3, ?_, ?_⟩
  · intro tEnd he hf
    exact (progsAll_complete w fuel t 0 tEnd he hf).2
  · intro bound hb hf
    exact progsAll_ends w bound hb fuel t 0 (by omega) (by omega)

/-- What a step of the list of maps gives. -/
inductive MapStepped (w : World) (t cur : Nat) : Option (Res MapRec) × Nat × Option Nat → Prop where
  | ended (h : w.fault t = some 2 ∨ ∀ j ∈ w.maps t, ¬ cur < j) : MapStepped w t cur (none, t + 1, none)
  | failed (e : Nat) (h : w.fault t = some e) (he : e ≠ 2) : MapStepped w t cur (some (.err e), t + 1, none)
  | gone (id e : Nat) (hc : cur < id) (hm : id ∈ w.maps t) (hl : ∀ j ∈ w.maps t, cur < j → id ≤ j)
      (h : w.fault (t + 1) = some e ∨ (e = 2 ∧ id ∉ w.maps (t + 1))) : MapStepped w t cur (some (.err e), t + 2, some id)
  | hidden (id e : Nat) (hc : cur < id) (hm : id ∈ w.maps t) (hl : ∀ j ∈ w.maps t, cur < j → id ≤ j)
      (h : w.fault (t + 2) = some e) : MapStepped w t cur (some (.err e), t + 3, some id)
  | shown (id : Nat) (hc : cur < id) (hm : id ∈ w.maps t) (hl : ∀ j ∈ w.maps t, cur < j → id ≤ j)
      (hm' : id ∈ w.maps (t + 1)) : MapStepped w t cur (some (.ok (w.mapRec id)), t + 3, some id)

theorem mapStep_stepped (w : World) (t cur : Nat) : MapStepped w t cur (mapStep w.kernel t (some cur)) := by
  unfold mapStep
  cases h0 : w.fault t with
  | some e =>
    by_cases he : e = 2
    · subst he
      have : idStep w.kernel.nextMapId t (some cur) = (none, t + 1, none) := by
        simp only [idStep, World.kernel, World.unless, h0, enoent, if_pos]
      rw [this]; exact .ended (.inl h0)
    · have : idStep w.kernel.nextMapId t (some cur) = (some (.error e), t + 1, none) := by
        simp only [idStep, World.kernel, World.unless, h0, enoent]; exact if_neg he
      rw [this]; exact .failed e h0 he
  | none =>
    cases ha : above cur (w.maps t) with
    | none =>
      have : idStep w.kernel.nextMapId t (some cur) = (none, t + 1, none) := by
        simp only [idStep, World.kernel, unless_none h0, ha, orErr, enoent, if_pos]
      rw [this]; exact .ended (.inr (above_none ha))
    | some id =>
      obtain ⟨hm, hc, hl⟩ := above_some ha
      have : idStep w.kernel.nextMapId t (some cur) = (some (.ok id), t + 1, some id) := by
        simp only [idStep, World.kernel, unless_none h0, ha, orErr]
      rw [this]
      simp only [mapFromId]
      cases h1 : w.fault (t + 1) with
      | some e =>
        simp only [World.kernel, World.unless, h1]
        exact .gone id e hc hm hl (.inl h1)
      | none =>
        by_cases hm' : id ∈ w.maps (t + 1)
        · have hk : w.kernel.mapFd (t + 1) id = .ok id := by
            simp only [World.kernel, unless_none h1, if_pos hm', orErr]
          rw [hk]
          simp only
          cases h2 : w.fault (t + 2) with
          | some e =>
            simp only [mapFromFd, World.kernel, World.unless, h2]
            exact .hidden id e hc hm hl h2
          | none =>
            simp only [mapFromFd, World.kernel, World.unless, h2]
            exact .shown id hc hm hl hm'
        · have hk : w.kernel.mapFd (t + 1) id = .error 2 := by
            simp only [World.kernel, unless_none h1, if_neg hm', orErr]
          rw [hk]
          exact .gone id 2 hc hm hl (.inr ⟨rfl, hm'⟩)

/-- After an end or an error of the enumeration itself there is nothing more. -/
theorem mapsAll_none (k : Kernel) (fuel t : Nat) : (mapsAll k fuel t none).1 = [] := by
  cases fuel <;> simp [mapsAll, mapStep, idStep]

theorem mapsAll_sound (w : World) : ∀ (fuel t cur : Nat),
    ((infos (mapsAll w.kernel fuel t (some cur)).1).Pairwise (fun a b => a.id < b.id)) ∧
    (∀ r ∈ infos (mapsAll w.kernel fuel t (some cur)).1, cur < r.id ∧
      ∃ t' > t, r.id ∈ w.maps t' ∧ r = w.mapRec r.id) ∧
    (∀ i ∈ (mapsAll w.kernel fuel t (some cur)).1, i ≠ .panic ∧
      ∀ e, i = .err e → ∃ t' ≥ t, w.fault t' = some e ∨ (e = 2 ∧ ∃ id, id ∈ w.maps t' ∧ id ∉ w.maps (t' + 1))) := by
  intro fuel
  induction fuel with
  | zero => intro t cur; simp [mapsAll, infos]
  | succ fuel ih =>
    intro t cur
    have hs := mapStep_stepped w t cur
    simp only [mapsAll]
    generalize mapStep w.kernel t (some cur) = s at hs
    cases hs with
    | ended h => simp [infos]
    | failed e h he =>
      have hn := mapsAll_none w.kernel fuel (t + 1)
      simp only [hn, infos]
      refine ⟨List.Pairwise.nil, (by intro r hr; cases hr), ?_⟩
      intro i hi
      simp only [List.mem_cons, List.not_mem_nil, or_false] at hi
      subst hi
      exact ⟨by simp, fun e' he' => by cases he'; exact ⟨t, Nat.le_refl _, .inl h⟩⟩
    | gone id e hc hm hl h =>
      obtain ⟨h1, h2, h3⟩ := ih (t + 2) id
      simp only [infos]
      refine ⟨h1, fun r hr => ?_, ?_⟩
      · obtain ⟨hid, t', ht', hx⟩ := h2 r hr
        exact ⟨by omega, t', by omega, hx⟩
      · intro i hi
        rcases List.mem_cons.mp hi with rfl | hi
        · refine ⟨by simp, fun e' he' => ?_⟩
          cases he'
          rcases h with h | ⟨h, hn⟩
          · exact ⟨t + 1, by omega, .inl h⟩
          · exact ⟨t, by omega, .inr ⟨h, id, hm, hn⟩⟩
        · obtain ⟨ha, hb⟩ := h3 i hi
          refine ⟨ha, fun e' he' => ?_⟩
          obtain ⟨t', ht', hx⟩ := hb e' he'
          exact ⟨t', by omega, hx⟩
    | hidden id e hc hm hl h =>
      obtain ⟨h1, h2, h3⟩ := ih (t + 3) id
      simp only [infos]
      refine ⟨h1, fun r hr => ?_, ?_⟩
      · obtain ⟨hid, t', ht', hx⟩ := h2 r hr
        exact ⟨by omega, t', by omega, hx⟩
      · intro i hi
        rcases List.mem_cons.mp hi with rfl | hi
        · refine ⟨by simp, fun e' he' => ?_⟩
          cases he'
          exact ⟨t + 2, by omega, .inl h⟩
        · obtain ⟨ha, hb⟩ := h3 i hi
          refine ⟨ha, fun e' he' => ?_⟩
          obtain ⟨t', ht', hx⟩ := hb e' he'
          exact ⟨t', by omega, hx⟩
    | shown id hc hm hl hm' =>
      obtain ⟨h1, h2, h3⟩ := ih (t + 3) id
      simp only [infos]
      refine ⟨List.Pairwise.cons (fun r hr => ?_) h1, fun r hr => ?_, ?_⟩
      · have := (h2 r hr).1; simpa [World.mapRec] using this
      · rcases List.mem_cons.mp hr with rfl | hr
        · exact ⟨hc, t + 1, by omega, hm', rfl⟩
        · obtain ⟨hid, t', ht', hx⟩ := h2 r hr
          exact ⟨by omega, t', by omega, hx⟩
      · intro i hi
        rcases List.mem_cons.mp hi with rfl | hi
        · exact ⟨by simp, fun e' he' => by cases he'⟩
        · obtain ⟨ha, hb⟩ := h3 i hi
          refine ⟨ha, fun e' he' => ?_⟩
          obtain ⟨t', ht', hx⟩ := hb e' he'
          exact ⟨t', by omega, hx⟩

theorem mapsAll_complete (w : World) : ∀ (fuel t cur tEnd : Nat), (mapsAll w.kernel fuel t (some cur)).2 = some tEnd →
    (∀ t', t ≤ t' → t' < tEnd → w.fault t' = none) → t < tEnd ∧
    ∀ id, cur < id → (∀ t', t ≤ t' → t' < tEnd → id ∈ w.maps t') →
      ∃ r ∈ infos (mapsAll w.kernel fuel t (some cur)).1, r.id = id := by
  intro fuel
  induction fuel with
  | zero => intro t cur tEnd h; simp [mapsAll] at h
  | succ fuel ih =>
    intro t cur tEnd h hf
    have hs := mapStep_stepped w t cur
    simp only [mapsAll] at h ⊢
    generalize mapStep w.kernel t (some cur) = s at hs h
    cases hs with
    | ended h' =>
      simp only [Option.some.injEq] at h
      refine ⟨by omega, fun id hid hlive => ?_⟩
      rcases h' with h' | h'
      · rw [hf t (Nat.le_refl _) (by omega)] at h'; cases h'
      · exact absurd hid (h' id (hlive t (Nat.le_refl _) (by omega)))
    | failed e h' he =>
      simp only at h
      have hlt : t < tEnd := by
        cases fuel with
        | zero => simp [mapsAll] at h
        | succ f => simp [mapsAll, mapStep, idStep] at h; omega
      rw [hf t (Nat.le_refl _) hlt] at h'; cases h'
    | gone id' e hc hm hl h' =>
      simp only at h
      have hrec := ih (t + 2) id' tEnd h (fun t' ht' => hf t' (by omega))
      refine ⟨by omega, fun id hid hlive => ?_⟩
      simp only [infos]
      by_cases hlt : id' < id
      · exact hrec.2 id hlt (fun t' ht' => hlive t' (by omega))
      · have hle := hl id (hlive t (Nat.le_refl _) (by omega)) hid
        have : id = id' := by omega
        subst this
        rcases h' with h' | ⟨_, h'⟩
        · rw [hf (t + 1) (by omega) (by omega)] at h'; cases h'
        · exact absurd (hlive (t + 1) (by omega) (by omega)) h'
    | hidden id' e hc hm hl h' =>
      simp only at h
      have hrec := ih (t + 3) id' tEnd h (fun t' ht' => hf t' (by omega))
      rw [hf (t + 2) (by omega) (by omega)] at h'; cases h'
    | shown id' hc hm hl hm' =>
      simp only at h
      have hrec := ih (t + 3) id' tEnd h (fun t' ht' => hf t' (by omega))
      refine ⟨by omega, fun id hid hlive => ?_⟩
      simp only [infos]
      by_cases hlt : id' < id
      · obtain ⟨r, hr, he⟩ := hrec.2 id hlt (fun t' ht' => hlive t' (by omega))
        exact ⟨r, List.mem_cons_of_mem _ hr, he⟩
      · have hle := hl id (hlive t (Nat.le_refl _) (by omega)) hid
        exact ⟨_, List.mem_cons_self .., by simp only [World.mapRec]; omega⟩

theorem mapsAll_ends (w : World) (bound : Nat) (hb : ∀ t, ∀ id ∈ w.maps t, id < bound) : ∀ (fuel t cur : Nat),
    bound < fuel + cur → 2 ≤ fuel → ∃ tEnd, (mapsAll w.kernel fuel t (some cur)).2 = some tEnd := by
  intro fuel
  induction fuel with
  | zero => intro t cur h h2; omega
  | succ fuel ih =>
    intro t cur h h2
    have hs := mapStep_stepped w t cur
    simp only [mapsAll]
    generalize mapStep w.kernel t (some cur) = s at hs
    cases hs with
    | ended h' => exact ⟨_, rfl⟩
    | failed e h' he =>
      cases fuel with
      | zero => omega
      | succ f => exact ⟨t + 1, by simp [mapsAll, mapStep, idStep]⟩
    | gone id e hc hm hl h' => have := hb t id hm; exact ih _ _ (by omega) (by omega)
    | hidden id e hc hm hl h' => have := hb t id hm; exact ih _ _ (by omega) (by omega)
    | shown id hc hm hl hm' => have := hb t id hm; exact ih _ _ (by omega) (by omega)

/-- **C85 (`loaded_maps`).** Whatever other processes load and unload meanwhile: the list has ascending ids, so no map twice; each entry is the information of a map that was loaded during the listing; there is no panic, and
    an entry is an error only if a call failed or a map went away just then. If no call fails, every map that was loaded
    from the start to the end is in the list. The list ends if ids are below a bound, as they are (`2^31`). -/
theorem C85_loaded_maps (w : World) (t : Nat) (fuel : Nat) :
    ((infos (mapsAll w.kernel fuel t (some 0)).1).Pairwise (fun a b => a.id < b.id)) ∧
    (∀ r ∈ infos (mapsAll w.kernel fuel t (some 0)).1, ∃ t' > t, r.id ∈ w.maps t' ∧ r = w.mapRec r.id) ∧
    (∀ i ∈ (mapsAll w.kernel fuel t (some 0)).1, i ≠ .panic ∧
      ∀ e, i = .err e → ∃ t' ≥ t, w.fault t' = some e ∨ (e = 2 ∧ ∃ id, id ∈ w.maps t' ∧ id ∉ w.maps (t' + 1))) ∧
    (∀ tEnd, (mapsAll w.kernel fuel t (some 0)).2 = some tEnd → (∀ t', t ≤ t' → t' < tEnd → w.fault t' = none) →
      ∀ id, 0 < id → (∀ t', t ≤ t' → t' < tEnd → id ∈ w.maps t') →
        ∃ r ∈ infos (mapsAll w.kernel fuel t (some 0)).1, r.id = id) ∧
    (∀ bound, (∀ t, ∀ id ∈ w.maps t, id < bound) → bound + 2 ≤ fuel →
      ∃ tEnd, (mapsAll w.kernel fuel t (some 0)).2 = some tEnd) := by
  obtain ⟨h1, h2, h3⟩ := mapsAll_sound w fuel t 0
  refine ⟨h1, fun r hr => (h2 r hr).2, h3, ?_, ?_⟩
  · intro tEnd he hf
    exact (mapsAll_complete w fuel t 0 tEnd he hf).2
  · intro bound hb hf
    exact mapsAll_ends w bound hb fuel t 0 (by omega) (by omega)

end Verif.Info
