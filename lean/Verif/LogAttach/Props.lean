import Verif.LogAttach.Spec
import Verif.Info.History
/-!
# C105: attaching a logger to a running program
-/
set_option linter.unusedSimpArgs false
set_option linter.unusedVariables false
namespace Verif.LogAttach
open Verif.Info

theorem logName_eq : logName = mapName := by decide +kernel

/-! ## Finding the program -/

theorem findProg_none (k : Kernel) (pid fuel t : Nat) : findProg k pid (fuel + 1) t none = some (none, t) := by
  simp [findProg, progStep, idStep]

theorem findProg_sound (w : World) (pid : Nat) : ∀ (fuel t cur : Nat) (r : ProgRec) (t' : Nat),
    findProg w.kernel pid fuel t (some cur) = some (some r, t') →
    ∃ t1, t ≤ t1 ∧ t1 < t' ∧ pid ∈ w.progs t1 ∧ r = w.progRec (t1 + 1) pid ∧ t1 + 1 < t' := by
  intro fuel
  induction fuel with
  | zero => intro t cur r t' h; cases h
  | succ fuel ih =>
    intro t cur r t' h
    have hs := progStep_stepped w t cur
    simp only [findProg] at h
    generalize progStep w.kernel t (some cur) = s at hs h
    cases hs with
    | ended h' => cases h
    | failed e h' he =>
      cases fuel with
      | zero => cases h
      | succ f => simp only [findProg_none] at h; cases h
    | gone id e hc hm hl h' =>
      obtain ⟨t1, a, b, c, d⟩ := ih _ _ _ _ h
      exact ⟨t1, by omega, b, c, d⟩
    | hidden id e hc hm hl h' =>
      obtain ⟨t1, a, b, c, d⟩ := ih _ _ _ _ h
      exact ⟨t1, by omega, b, c, d⟩
    | shown id hc hm hl hm' =>
      simp only at h
      split at h
      · rename_i hid
        cases h
        have hid : id = pid := hid
        subst hid
        exact ⟨t + 1, by omega, by omega, hm', rfl, by omega⟩
      · obtain ⟨t1, a, b, c, d⟩ := ih _ _ _ _ h
        exact ⟨t1, by omega, b, c, d⟩

theorem findProg_ends (w : World) (pid bound : Nat) (hb : ∀ t, ∀ id ∈ w.progs t, id < bound) : ∀ (fuel t cur : Nat),
    bound < fuel + cur → 2 ≤ fuel → ∃ res, findProg w.kernel pid fuel t (some cur) = some res := by
  intro fuel
  induction fuel with
  | zero => intro t cur h h2; omega
  | succ fuel ih =>
    intro t cur h h2
    have hs := progStep_stepped w t cur
    simp only [findProg]
    generalize progStep w.kernel t (some cur) = s at hs
    cases hs with
    | ended h' => exact ⟨_, rfl⟩
    | failed e h' he =>
      cases fuel with
      | zero => omega
      | succ f => exact ⟨_, findProg_none _ _ _ _⟩
    | gone id e hc hm hl h' => have := hb t id hm; exact ih _ _ (by omega) (by omega)
    | hidden id e hc hm hl h' => have := hb t id hm; exact ih _ _ (by omega) (by omega)
    | shown id hc hm hl hm' =>
      simp only
      split
      · exact ⟨_, rfl⟩
      · have := hb t id hm; exact ih _ _ (by omega) (by omega)

/-- The program is found if it stays and no call fails. -/
theorem findProg_found (w : World) (pid : Nat) : ∀ (fuel t cur : Nat) (res : Option ProgRec × Nat),
    (∀ t' ≥ t, w.fault t' = none) → (∀ t' ≥ t, pid ∈ w.progs t') → cur < pid →
    findProg w.kernel pid fuel t (some cur) = some res →
    ∃ t1 ≥ t, res = (some (w.progRec t1 pid), t1 + 1) := by
  intro fuel
  induction fuel with
  | zero => intro t cur res _ _ _ h; cases h
  | succ fuel ih =>
    intro t cur res hf hp hc h
    have hs := progStep_stepped w t cur
    simp only [findProg] at h
    generalize progStep w.kernel t (some cur) = s at hs h
    cases hs with
    | ended h' =>
      rcases h' with h' | h'
      · rw [hf t (Nat.le_refl _)] at h'; cases h'
      · exact absurd hc (h' pid (hp t (Nat.le_refl _)))
    | failed e h' he => rw [hf t (Nat.le_refl _)] at h'; cases h'
    | gone id e hc' hm hl h' =>
      have hle := hl pid (hp t (Nat.le_refl _)) hc
      have hne : id ≠ pid := by
        rintro rfl
        rcases h' with h' | ⟨_, h'⟩
        · rw [hf (t + 1) (by omega)] at h'; cases h'
        · exact h' (hp (t + 1) (by omega))
      obtain ⟨t1, a, b⟩ := ih _ _ res (fun t' ht => hf t' (by omega)) (fun t' ht => hp t' (by omega)) (by omega) h
      exact ⟨t1, by omega, b⟩
    | hidden id e hc' hm hl h' => rw [hf (t + 2) (by omega)] at h'; cases h'
    | shown id hc' hm hl hm' =>
      have hle := hl pid (hp t (Nat.le_refl _)) hc
      simp only at h
      split at h
      · rename_i hid
        cases h
        have hid : id = pid := hid
        subst hid
        exact ⟨t + 2, by omega, rfl⟩
      · rename_i hid
        have hid : id ≠ pid := hid
        obtain ⟨t1, a, b⟩ := ih _ _ res (fun t' ht => hf t' (by omega)) (fun t' ht => hp t' (by omega)) (by omega) h
        exact ⟨t1, by omega, b⟩

/-! ## Finding the map -/

theorem named_iff (w : World) (hw : w.Good) (id : Nat) :
    named (w.mapRec id) = true ↔ w.tellsName = true ∧ (w.map id).name = logName := by
  rw [logName_eq]
  cases ht : w.tellsName with
  | false =>
    have : named (w.mapRec id) = false := by 
      have : named { (w.mapRec id) with name := List.replicate 16 0 } = false := by
        show (nameOf (List.replicate 16 0) == mapName) = false
        decide +kernel
      simpa [named, World.mapRec, ht] using this
    simp [this]
  | true =>
    simp only [named, World.mapRec, ht, if_true, nameOf_field _ (hw.mapName id).2, beq_iff_eq, true_and]

theorem mapFromId_ok (w : World) (t id : Nat) (r : MapRec) (t' : Nat) (h : mapFromId w.kernel t id = (.ok r, t')) :
    id ∈ w.maps t ∧ r = w.mapRec id ∧ t' = t + 2 := by
  simp only [mapFromId, World.kernel, World.unless] at h
  cases h0 : w.fault t with
  | some e => rw [h0] at h; simp at h
  | none =>
    rw [h0] at h
    by_cases hm : id ∈ w.maps t
    · rw [if_pos hm] at h
      simp only [orErr, mapFromFd] at h
      cases h1 : w.fault (t + 1) with
      | some e => rw [h1] at h; simp at h
      | none => rw [h1] at h; simp only [Prod.mk.injEq, Res.ok.injEq] at h; exact ⟨hm, h.1.symm, h.2.symm⟩
    · rw [if_neg hm] at h; simp [orErr] at h

theorem mapFromId_later (k : Kernel) (t id : Nat) : t ≤ (mapFromId k t id).2 := by
  simp only [mapFromId, mapFromFd]
  repeat' split
  all_goals (simp only; omega)

theorem findMap_sound (w : World) : ∀ (ids : List Nat) (t : Nat) (r : MapRec) (t' : Nat),
    findMap w.kernel t ids = (some r, t') → ∃ id ∈ ids, ∃ t1, t ≤ t1 ∧ t1 ≤ t' ∧ id ∈ w.maps t1 ∧ r = w.mapRec id ∧
      named r = true := by
  intro ids
  induction ids with
  | nil => intro t r t' h; simp [findMap] at h
  | cons id ids ih =>
    intro t r t' h
    have hl := mapFromId_later w.kernel t id
    simp only [findMap] at h
    rcases e : mapFromId w.kernel t id with ⟨x, t1⟩
    rw [e] at h hl
    have hl : t ≤ t1 := hl
    rcases x with r1 | er | _
    · simp only at h
      split at h
      · rename_i hn
        simp only [Prod.mk.injEq, Option.some.injEq] at h
        obtain ⟨rfl, rfl⟩ := h
        obtain ⟨a, b, c⟩ := mapFromId_ok w t id _ _ e
        exact ⟨id, by simp, t, Nat.le_refl _, by omega, a, b, hn⟩
      · obtain ⟨i, hi, t2, a, b⟩ := ih _ _ _ h
        exact ⟨i, List.mem_cons_of_mem _ hi, t2, by omega, b⟩
    · obtain ⟨i, hi, t2, a, b⟩ := ih _ _ _ h
      exact ⟨i, List.mem_cons_of_mem _ hi, t2, by omega, b⟩
    · obtain ⟨i, hi, t2, a, b⟩ := ih _ _ _ h
      exact ⟨i, List.mem_cons_of_mem _ hi, t2, by omega, b⟩

theorem mapFromId_there (w : World) (t id : Nat) (hf : ∀ t' ≥ t, w.fault t' = none) (hm : id ∈ w.maps t) :
    mapFromId w.kernel t id = (.ok (w.mapRec id), t + 2) := by
  simp only [mapFromId, World.kernel, unless_none (hf t (Nat.le_refl _)), if_pos hm, orErr, mapFromFd,
    unless_none (hf (t + 1) (by omega))]

theorem findMap_exact (w : World) (hw : w.Good) (hn : w.tellsName = true) : ∀ (ids : List Nat) (t : Nat),
    (∀ t' ≥ t, w.fault t' = none) → (∀ id ∈ ids, ∀ t' ≥ t, id ∈ w.maps t') →
    ∃ t' ≥ t, findMap w.kernel t ids = ((logOf w ids).map w.mapRec, t') := by
  intro ids
  induction ids with
  | nil => intro t _ _; exact ⟨t, Nat.le_refl _, rfl⟩
  | cons id ids ih =>
    intro t hf hm
    have h1 := mapFromId_there w t id hf (hm id (by simp) t (Nat.le_refl _))
    simp only [findMap, h1]
    have hni := named_iff w hw id
    simp only [hn, true_and] at hni
    by_cases hx : (w.map id).name = logName
    · rw [if_pos (hni.mpr hx)]
      exact ⟨t + 2, by omega, by simp [logOf, hx]⟩
    · rw [if_neg (fun hh => hx (hni.mp hh))]
      obtain ⟨t', a, b⟩ := ih (t + 2) (fun t' ht => hf t' (by omega))
        (fun i hi t' ht => hm i (List.mem_cons_of_mem _ hi) t' (by omega))
      refine ⟨t', by omega, ?_⟩
      rw [b]
      simp [logOf, hx]

/-! ## C105 -/

theorem getOrInit_later (k : Kernel) (t : Nat) (c : Option Bool) (b : Bool) (r : ProgRec) : t ≤ (getOrInit k t c b r).2 := by
  have hp : t ≤ (probeField k t r).2 := by
    simp only [probeField]
    repeat' split
    all_goals (simp only; omega)
  simp only [getOrInit]
  split
  · exact Nat.le_refl _
  · split
    · exact Nat.le_refl _
    · rcases e : probeField k t r with ⟨x, t'⟩
      rw [e] at hp
      rcases x with _ | _ | _ <;> exact hp

theorem mapIds_sound (w : World) (hw : w.Good) (t t0 pid : Nat) (c : Caches) (h0 : t0 ≤ t) (ids : List Nat) (t' : Nat)
    (c' : Caches) (h : mapIds w.kernel t c (w.progRec t0 pid) = (.ok (some ids), t', c')) :
    t ≤ t' ∧ ids = (if w.tellsMaps then w.uses t0 pid else []) ∧ c'.mapIds = some true := by
  have hge : t ≤ (getOrInit w.kernel t c.mapIds (decide ((w.progRec t0 pid).nrMapIds > 0)) { nrMapIds := 1 }).2 :=
    getOrInit_later _ _ _ _ _
  simp only [mapIds] at h
  generalize getOrInit w.kernel t c.mapIds (decide ((w.progRec t0 pid).nrMapIds > 0)) { nrMapIds := 1 } = g at h hge
  obtain ⟨b, t1⟩ := g
  have hge : t ≤ t1 := hge
  cases b with
  | false => simp at h
  | true =>
    simp only [if_true] at h
    rcases e : progFd w.kernel t1 (w.progRec t0 pid) with ⟨x, t2⟩
    have e' := e
    have hk : w.kernel.progFd t1 (w.progRec t0 pid).id =
        w.unless t1 (orErr 2 (if pid ∈ w.progs t1 then some pid else none)) := rfl
    simp only [progFd, hk, World.unless] at e'
    rw [e] at h
    cases f1 : w.fault t1 with
    | some er => rw [f1] at e'; cases e'; simp at h
    | none =>
      rw [f1] at e'
      by_cases hp : pid ∈ w.progs t1
      · simp only [if_pos hp, orErr] at e'
        cases e'
        simp only at h
        have hi : w.kernel.progInfo (t1 + 1) pid (w.progRec t0 pid).nrMapIds = w.unless (t1 + 1)
            (.ok (w.progRec (t1 + 1) pid,
              if w.tellsMaps then (w.uses (t1 + 1) pid).take (w.progRec t0 pid).nrMapIds else [])) := rfl
        rw [hi] at h
        simp only [World.unless] at h
        cases f2 : w.fault (t1 + 1) with
        | some er => rw [f2] at h; simp at h
        | none =>
          rw [f2] at h
          simp only [Prod.mk.injEq, Res.ok.injEq, Option.some.injEq] at h
          obtain ⟨h1, h2, h3⟩ := h
          refine ⟨by omega, ?_, by rw [← h3]⟩
          rw [← h1]
          cases ht : w.tellsMaps with
          | false => simp [World.progRec, ht]
          | true =>
            obtain ⟨rest, hr⟩ := hw.uses t0 (t1 + 1) pid (by omega)
            have hn : (w.progRec t0 pid).nrMapIds = (w.uses t0 pid).length := by simp [World.progRec, ht]
            simp only [if_true, hn]
            rw [← hr, List.take_left]
            simp
      · simp only [if_neg hp, orErr] at e'
        cases e'
        simp at h

theorem dataFromId_ok (w : World) (t id : Nat) (m : Ring) (t' : Nat) (h : dataFromId w.kernel t id = (.ok m, t')) :
    m = ⟨id, w.mapRec id⟩ ∧ id ∈ w.maps t ∧ t' = t + 2 := by
  simp only [dataFromId, World.kernel, World.unless] at h
  cases h0 : w.fault t with
  | some e => rw [h0] at h; simp at h
  | none =>
    rw [h0] at h
    by_cases hm : id ∈ w.maps t
    · rw [if_pos hm] at h
      simp only [orErr] at h
      cases h1 : w.fault (t + 1) with
      | some e => rw [h1] at h; simp at h
      | none => rw [h1] at h; simp only [Prod.mk.injEq, Except.ok.injEq] at h; exact ⟨h.1.symm, hm, h.2.symm⟩
    · rw [if_neg hm] at h; simp [orErr] at h

theorem newRing_ok (w : World) (page t : Nat) (m r : Ring) (t' : Nat) (h : newRing (mmapOf w page) page t m = (.ok r, t')) :
    r = m ∧ t' = t + 2 ∧ mayMap page (w.map m.fd) page true 0 ∧
      mayMap page (w.map m.fd) (page + 2 * m.info.maxEntries) false page := by
  simp only [newRing, mmapOf, World.unless] at h
  cases h0 : w.fault t with
  | some e => rw [h0] at h; simp at h
  | none =>
    rw [h0] at h
    by_cases hm : mayMap page (w.map m.fd) page true 0
    · rw [if_pos hm] at h
      simp only at h
      cases h1 : w.fault (t + 1) with
      | some e => rw [h1] at h; simp at h
      | none =>
        rw [h1] at h
        by_cases hm2 : mayMap page (w.map m.fd) (page + 2 * m.info.maxEntries) false page
        · rw [if_pos hm2] at h
          simp only [Prod.mk.injEq, Except.ok.injEq] at h
          exact ⟨h.1.symm, h.2.symm, hm, hm2⟩
        · rw [if_neg hm2] at h; simp at h
    · rw [if_neg hm] at h; simp at h

/-- **C105 (what is attached to).** Whatever other processes load and unload meanwhile, whichever calls fail: if attaching succeeds,
    the program with this id was loaded at some time during the call, and the logger reads a map that the program used then, which
    is called `AYA_LOGS`, and was there when it was opened. Partial: it need not be a ring buffer. -/
theorem C105_attached_partial (w : World) (hw : w.Good) (page fuel t pid : Nat) (c : Caches) (ring : Ring) (t' : Nat) (c' : Caches)
    (h : initFromId w.kernel (mmapOf w page) page fuel t c pid = some (.ok ring, t', c')) :
    ∃ t1 t2, t ≤ t1 ∧ t1 ≤ t2 ∧ t2 < t' ∧ pid ∈ w.progs t1 ∧ ring.fd ∈ w.uses (t1 + 1) pid ∧ ring.fd ∈ w.maps t2 ∧
      (w.map ring.fd).name = logName ∧ ring.info = w.mapRec ring.fd ∧
      mayMap page (w.map ring.fd) page true 0 := by
  simp only [initFromId] at h
  rcases e : findProg w.kernel pid fuel t (some 0) with _ | ⟨_ | r, t0⟩
  · rw [e] at h; cases h
  · rw [e] at h; cases h
  · rw [e] at h
    simp only at h
    obtain ⟨t1, a1, a2, a3, a4, a5⟩ := findProg_sound w pid _ _ _ _ _ e
    rcases e2 : mapIds w.kernel t0 c r with ⟨x, t2, c2⟩
    rw [e2] at h
    rcases x with x | er | _
    · rcases x with _ | ids
      · cases h
      · simp only at h
        rw [a4] at e2
        obtain ⟨b1, b2, b3⟩ := mapIds_sound w hw t0 (t1 + 1) pid c (by omega) ids t2 c2 e2
        simp only [attachTo] at h
        rcases e3 : findMap w.kernel t2 ids with ⟨_ | r2, t3⟩
        · rw [e3] at h; cases h
        · rw [e3] at h
          obtain ⟨id, hid, t4, d1, d2, d3, d4, d5⟩ := findMap_sound w ids t2 r2 t3 e3
          simp only at h
          rcases e4 : dataFromId w.kernel t3 r2.id with ⟨er | m, t5⟩
          · rw [e4] at h; cases h
          · rw [e4] at h
            simp only [Option.some.injEq, Prod.mk.injEq] at h
            have hid2 : r2.id = id := by rw [d4]; rfl
            rw [hid2] at e4
            obtain ⟨f1, f2, f3⟩ := dataFromId_ok w t3 id m t5 e4
            rcases e5 : newRing (mmapOf w page) page t5 m with ⟨er | rr, t6⟩
            · rw [e5] at h; cases h.1
            · rw [e5] at h
              obtain ⟨h1, h2, h3⟩ := h
              simp only [Except.ok.injEq] at h1
              subst h1
              obtain ⟨g1, g2, g3, g4⟩ := newRing_ok w page t5 m _ t6 e5
              subst g1
              rw [d4] at d5
              have hname := (named_iff w hw id).mp d5
              have hfd : rr.fd = id := by rw [f1]
              have hin : id ∈ w.uses (t1 + 1) pid := by
                rw [b2] at hid
                split at hid
                · exact hid
                · cases hid
              have h2 : t6 = t' := h2
              refine ⟨t1, t3, a1, by omega, by omega, a3, ?_, ?_, ?_, ?_, g3⟩
              · rw [hfd]; exact hin
              · rw [hfd]; exact f2
              · rw [hfd]; exact hname.2
              · rw [f1]
    · cases h
    · cases h

theorem attachTo_exact (w : World) (hw : w.Good) (hn : w.tellsName = true) (page t : Nat) (ids : List Nat)
    (hf : ∀ t' ≥ t, w.fault t' = none) (hm : ∀ id ∈ ids, ∀ t' ≥ t, id ∈ w.maps t') :
    ∃ t' ≥ t, attachTo w.kernel (mmapOf w page) page t ids = (
      (match logOf w ids with
       | none => .error .mapNotFound
       | some id =>
         if mayMap page (w.map id) page true 0 ∧ mayMap page (w.map id) (page + 2 * (w.map id).maxEntries) false page then
           .ok ⟨id, w.mapRec id⟩
         else .error (.mapError 22)), t') := by
  obtain ⟨t1, h1, h2⟩ := findMap_exact w hw hn ids t hf hm
  simp only [attachTo, h2]
  rcases e : logOf w ids with _ | id
  · exact ⟨t1, h1, rfl⟩
  · have hid : id ∈ ids := List.mem_of_find?_eq_some e
    have hd : dataFromId w.kernel t1 id = (.ok ⟨id, w.mapRec id⟩, t1 + 2) := by
      simp only [dataFromId, World.kernel, unless_none (hf t1 h1), if_pos (hm id hid t1 h1), orErr,
        unless_none (hf (t1 + 1) (by omega))]
    have hri : (w.mapRec id).id = id := rfl
    have hme : (w.mapRec id).maxEntries = (w.map id).maxEntries := rfl
    simp only [Option.map_some, hri, hd, newRing, mmapOf, unless_none (hf (t1 + 2) (by omega)), hme]
    by_cases a : mayMap page (w.map id) page true 0
    · simp only [if_pos a, unless_none (hf (t1 + 2 + 1) (by omega))]
      by_cases b : mayMap page (w.map id) (page + 2 * (w.map id).maxEntries) false page
      · rw [if_pos b, if_pos ⟨a, b⟩]; exact ⟨_, by omega, rfl⟩
      · rw [if_neg b, if_neg (fun h => b h.2)]; exact ⟨_, by omega, rfl⟩
    · simp only [if_neg a]
      rw [if_neg (fun h => a h.1)]; exact ⟨_, by omega, rfl⟩

theorem initFromId_exact (w : World) (hw : w.Good) (page fuel t pid : Nat) (hc : Calm w t pid) (h0 : 0 < pid) (c : Caches)
    (hcache : c.mapIds = none ∨ c.mapIds = some true)
    (bound : Nat) (hb : ∀ t, ∀ id ∈ w.progs t, id < bound) (hfuel : bound + 2 ≤ fuel) :
    ∃ t1 ≥ t, ∃ t' c', initFromId w.kernel (mmapOf w page) page fuel t c pid = some (
      (match logOf w (w.uses t1 pid) with
       | none => .error .mapNotFound
       | some id =>
         if mayMap page (w.map id) page true 0 ∧ mayMap page (w.map id) (page + 2 * (w.map id).maxEntries) false page then
           .ok ⟨id, w.mapRec id⟩
         else .error (.mapError 22)), t', c') := by
  obtain ⟨res, hres⟩ := findProg_ends w pid bound hb fuel t 0 (by omega) (by omega)
  obtain ⟨t1, ht1, rfl⟩ := findProg_found w pid fuel t 0 res hc.fault hc.prog h0 hres
  obtain ⟨t2, ht2, hmi⟩ := mapIds_right w hw (t1 + 1) t1 pid c (by omega) (fun t' h => hc.fault t' (by omega))
    (fun t' h => hc.mayLoad t' (by omega)) (fun t' h => hc.prog t' (by omega)) (by rw [hc.maps]; exact hcache)
  rw [hc.maps] at hmi
  simp only [told, if_true] at hmi
  obtain ⟨t3, ht3, ha⟩ := attachTo_exact w hw hc.names page t2 (w.uses t1 pid) (fun t' h => hc.fault t' (by omega))
    (fun id hid t' h => hc.used t1 ht1 id hid t' (by omega))
  refine ⟨t1, ht1, t3, { c with mapIds := some true }, ?_⟩
  simp only [initFromId, hres, hmi, ha]

/-- A ring buffer can be mapped as one. -/
theorem ring_mayMap (page : Nat) (f : MapFacts) (h : f.type = ringType) :
    mayMap page f page true 0 ∧ mayMap page f (page + 2 * f.maxEntries) false page := by
  constructor
  · exact .inl ⟨h, by simp⟩
  · exact .inl ⟨h, by simp; omega⟩

/-- **C105 (attaching succeeds).** If nothing gets in the way and the program's log is a ring buffer, the logger reads just that map,
    found among those the program used when it was found. -/
theorem C105_succeeds (w : World) (hw : w.Good) (page fuel t pid id : Nat) (hc : Calm w t pid) (h0 : 0 < pid) (c : Caches)
    (hcache : c.mapIds = none ∨ c.mapIds = some true)
    (bound : Nat) (hb : ∀ t, ∀ id ∈ w.progs t, id < bound) (hfuel : bound + 2 ≤ fuel)
    (hlog : ∀ t' ≥ t, logOf w (w.uses t' pid) = some id) (hring : (w.map id).type = ringType) :
    ∃ t' c', initFromId w.kernel (mmapOf w page) page fuel t c pid = some (.ok ⟨id, w.mapRec id⟩, t', c') := by
  obtain ⟨t1, ht1, t', c', h⟩ := initFromId_exact w hw page fuel t pid hc h0 c hcache bound hb hfuel
  rw [hlog t1 ht1] at h
  simp only [if_pos (ring_mayMap page _ hring)] at h
  exact ⟨t', c', h⟩

/-- **C105 (no log).** If nothing gets in the way and the program uses no map of that name, `MapNotFound` is returned. -/
theorem C105_no_log (w : World) (hw : w.Good) (page fuel t pid : Nat) (hc : Calm w t pid) (h0 : 0 < pid) (c : Caches)
    (hcache : c.mapIds = none ∨ c.mapIds = some true)
    (bound : Nat) (hb : ∀ t, ∀ id ∈ w.progs t, id < bound) (hfuel : bound + 2 ≤ fuel)
    (hlog : ∀ t' ≥ t, ∀ id ∈ w.uses t' pid, (w.map id).name ≠ logName) :
    ∃ t' c', initFromId w.kernel (mmapOf w page) page fuel t c pid = some (.error .mapNotFound, t', c') := by
  obtain ⟨t1, ht1, t', c', h⟩ := initFromId_exact w hw page fuel t pid hc h0 c hcache bound hb hfuel
  have : logOf w (w.uses t1 pid) = none := by
    rw [logOf, List.find?_eq_none]
    intro id hid
    simpa using hlog t1 ht1 id hid
  rw [this] at h
  exact ⟨t', c', h⟩

/-- **C105 (no program).** If the program is not loaded at any time, `ProgramNotFound` is returned, whatever else happens; and the
    call ends if ids are below a bound, as they are (`2^31`). -/
theorem C105_no_program (w : World) (page fuel t pid : Nat) (c : Caches)
    (bound : Nat) (hb : ∀ t, ∀ id ∈ w.progs t, id < bound) (hfuel : bound + 2 ≤ fuel)
    (hp : ∀ t' ≥ t, pid ∉ w.progs t') :
    ∃ t', initFromId w.kernel (mmapOf w page) page fuel t c pid = some (.error .programNotFound, t', c) := by
  obtain ⟨⟨r, t1⟩, hres⟩ := findProg_ends w pid bound hb fuel t 0 (by omega) (by omega)
  rcases r with _ | r
  · exact ⟨t1, by simp only [initFromId, hres]⟩
  · obtain ⟨t2, a, b, c, d⟩ := findProg_sound w pid _ _ _ _ _ hres
    exact absurd c (hp t2 a)

/-! ## What is refuted -/

/-- **C105 refuted: the error is hidden.** If the programs cannot be listed, because the process may not (`EPERM`) or for any other
    reason, it is told that the program does not exist, even if it is loaded all the time. -/
theorem C105_hidden_error_violated (w : World) (page fuel t pid e : Nat) (c : Caches) (he : w.fault t = some e) (hf : 2 ≤ fuel) :
    ∃ t', initFromId w.kernel (mmapOf w page) page fuel t c pid = some (.error .programNotFound, t', c) := by
  obtain ⟨f, rfl⟩ : ∃ f, fuel = f + 2 := ⟨fuel - 2, by omega⟩
  have : ∃ t', findProg w.kernel pid (f + 2) t (some 0) = some (none, t') := by
    have hs := progStep_stepped w t 0
    rw [show f + 2 = (f + 1) + 1 from rfl]
    simp only [findProg]
    generalize hx : progStep w.kernel t (some 0) = s at hs
    cases hs with
    | ended h => exact ⟨_, rfl⟩
    | failed e' h he' => exact ⟨t + 1, findProg_none w.kernel pid f (t + 1)⟩
    | gone id e' hc hm hl h =>
      simp only [progStep, idStep, World.kernel, World.unless, he] at hx
      by_cases h2 : e = enoent <;> simp [h2] at hx
    | hidden id e' hc hm hl h =>
      simp only [progStep, idStep, World.kernel, World.unless, he] at hx
      by_cases h2 : e = enoent <;> simp [h2] at hx
    | shown id hc hm hl hm' =>
      simp only [progStep, idStep, World.kernel, World.unless, he] at hx
      by_cases h2 : e = enoent <;> simp [h2] at hx
  obtain ⟨t', h⟩ := this
  exact ⟨t', by simp only [initFromId, h]⟩

/-- **C105 refuted: not a ring buffer.** If nothing gets in the way and the program's log is an array that can be mapped and is large
    enough, attaching succeeds, and the logger will take what is in the array for positions and records. -/
theorem C105_not_a_ring_violated (w : World) (hw : w.Good) (page fuel t pid id : Nat) (hc : Calm w t pid) (h0 : 0 < pid) (c : Caches)
    (hcache : c.mapIds = none ∨ c.mapIds = some true)
    (bound : Nat) (hb : ∀ t, ∀ id ∈ w.progs t, id < bound) (hfuel : bound + 2 ≤ fuel)
    (hlog : ∀ t' ≥ t, logOf w (w.uses t' pid) = some id) (harr : (w.map id).type = arrayType)
    (hflag : (w.map id).mapFlags = mmapable) (hroom : 2 * page + 2 * (w.map id).maxEntries ≤ arrayRoom (w.map id)) :
    ∃ t' c', initFromId w.kernel (mmapOf w page) page fuel t c pid = some (.ok ⟨id, w.mapRec id⟩, t', c') := by
  obtain ⟨t1, ht1, t', c', h⟩ := initFromId_exact w hw page fuel t pid hc h0 c hcache bound hb hfuel
  rw [hlog t1 ht1] at h
  simp only at h
  rw [if_pos ⟨.inr ⟨harr, hflag, by omega⟩, .inr ⟨harr, hflag, by omega⟩⟩] at h
  exact ⟨t', c', h⟩

/-- **C105 refuted: an earlier failure is remembered.** Once a process has been told nothing about maps, because the trivial program
    could not be loaded at the first question, then even if nothing gets in the way any more, attaching fails with `MapNotFound`,
    whatever maps the program uses, at any later time; and the next attempt starts from the same cache. -/
theorem C105_remembered_violated (w : World) (page fuel t pid : Nat) (hc : Calm w t pid) (h0 : 0 < pid) (c : Caches)
    (hcache : c.mapIds = some false)
    (bound : Nat) (hb : ∀ t, ∀ id ∈ w.progs t, id < bound) (hfuel : bound + 2 ≤ fuel) :
    ∃ t' c', initFromId w.kernel (mmapOf w page) page fuel t c pid = some (.error .mapNotFound, t', c') ∧
      c'.mapIds = some false := by
  obtain ⟨res, hres⟩ := findProg_ends w pid bound hb fuel t 0 (by omega) (by omega)
  obtain ⟨t1, ht1, rfl⟩ := findProg_found w pid fuel t 0 res hc.fault hc.prog h0 hres
  exact ⟨t1 + 1, { c with mapIds := some false }, by simp [initFromId, hres, mapIds, hcache, getOrInit], rfl⟩

/-! ## Cases -/

/-- Programs 3 and 8; 8 uses an array called `AYA` and a ring buffer called `AYA_LOGS`. Program 5 goes away at time 4. -/
def logWorld : World where
  prog id := demoProg (id == 8)
  progs t := if t < 4 then [8, 3, 5] else [8, 3]
  uses t id := if id = 8 then [21, 22] else []
  ran t id := (t * 100, t)
  map id := { type := if id = 22 then 27 else 2, keySize := 0, valueSize := 0, maxEntries := 4096, mapFlags := 0,
              name := if id = 22 then [65, 89, 65, 95, 76, 79, 71, 83] else [65, 89, 65] }
  maps _ := [40, 22, 21]
  pins _ _ := none

theorem logWorld_good : logWorld.Good where
  tag _ := rfl
  name id := ⟨by simp [logWorld, demoProg], by simp [logWorld, demoProg]⟩
  mapName id := by
    simp only [logWorld]
    by_cases h : id = 22
    · simp only [h, if_true]; decide
    · simp only [h, if_false]; decide
  loadTime id := by simp [logWorld, demoProg]
  uses t t' id h := List.prefix_refl _
  now t t' h := Nat.le_refl _

theorem logWorld_calm (t : Nat) : Calm logWorld t 8 where
  fault _ _ := rfl
  mayLoad _ _ := rfl
  names := rfl
  maps := rfl
  prog t' _ := by simp only [logWorld]; split <;> simp
  used t' _ id hid t'' _ := by simp [logWorld] at hid ⊢; omega

theorem logWorld_bound : ∀ t, ∀ id ∈ logWorld.progs t, id < 9 := by
  intro t id h
  simp only [logWorld] at h
  split at h <;> simp at h <;> omega

example : ∃ t' c', initFromId logWorld.kernel (mmapOf logWorld 4096) 4096 11 0 {} 8 = some (.ok ⟨22, logWorld.mapRec 22⟩, t', c') :=
  C105_succeeds logWorld logWorld_good 4096 11 0 8 22 (logWorld_calm 0) (by omega) {} (.inl rfl) 9 logWorld_bound (by omega)
    (fun t' _ => by simp only [logWorld]; decide) rfl

/-- Program 5 is gone when it is opened; the search goes on. -/
example : initFromId logWorld.kernel (mmapOf logWorld 4096) 4096 11 0 {} 8 =
    some (.ok ⟨22, logWorld.mapRec 22⟩, 18, { mapIds := some true }) := by decide +kernel

/-- A program that is gone, one that never was, one without a log. -/
example : (initFromId logWorld.kernel (mmapOf logWorld 4096) 4096 11 4 {} 5).map (·.1) = some (.error .programNotFound) ∧
    (initFromId logWorld.kernel (mmapOf logWorld 4096) 4096 11 0 {} 6).map (·.1) = some (.error .programNotFound) ∧
    (initFromId logWorld.kernel (mmapOf logWorld 4096) 4096 11 0 {} 3).map (·.1) = some (.error .mapNotFound) := by decide +kernel

example : ∃ t', initFromId logWorld.kernel (mmapOf logWorld 4096) 4096 11 4 {} 6 = some (.error .programNotFound, t', {}) :=
  C105_no_program logWorld 4096 11 4 6 {} 9 logWorld_bound (by omega)
    (fun t' _ => by simp only [logWorld]; split <;> simp)

/-- Without the ring buffer among its maps. -/
def bareWorld : World := { logWorld with uses := fun _ id => if id = 8 then [21, 40] else [] }

example : ∃ t' c', initFromId bareWorld.kernel (mmapOf bareWorld 4096) 4096 11 0 {} 8 = some (.error .mapNotFound, t', c') :=
  C105_no_log bareWorld ⟨logWorld_good.tag, logWorld_good.name, logWorld_good.mapName, logWorld_good.loadTime,
      fun _ _ _ _ => List.prefix_refl _, logWorld_good.now⟩ 4096 11 0 8
    ⟨fun _ _ => rfl, fun _ _ => rfl, rfl, rfl, (logWorld_calm 0).prog,
      fun t' _ id hid t'' _ => by simp [bareWorld, logWorld] at hid ⊢; omega⟩ (by omega) {} (.inl rfl) 9 logWorld_bound (by omega)
    (fun t' _ id hid => by
      simp only [bareWorld, if_true, List.mem_cons, List.not_mem_nil, or_false] at hid
      rcases hid with rfl | rfl <;> decide +kernel)

/-- `EPERM` (1) at the first call: `C105_hidden_error_violated` of a program that is loaded all the time. -/
example : (∀ t, 8 ∈ logWorld.progs t) ∧
    (initFromId { logWorld with fault := fun _ => some 1 }.kernel (mmapOf { logWorld with fault := fun _ => some 1 } 4096) 4096 11 0 {}
      8).map (·.1) = some (.error .programNotFound) := by
  refine ⟨fun t => ?_, by decide +kernel⟩
  simp only [logWorld]; split <;> simp

/-- **C105 refuted: the log is passed over.** The program is loaded and uses a ring buffer called `AYA_LOGS` all the time; the process
    has no descriptor left (`EMFILE`, 24) when it asks about this map, and is told that the map does not exist. -/
theorem C105_passed_over_violated :
    ∃ (w : World) (t : Nat), w.Good ∧ (∀ t', 8 ∈ w.progs t' ∧ w.uses t' 8 = [21, 22] ∧ 22 ∈ w.maps t') ∧
      (w.map 22).name = logName ∧ (w.map 22).type = ringType ∧ (∀ t', w.fault t' ≠ none → t' = t ∧ w.fault t' = some 24) ∧
      (initFromId w.kernel (mmapOf w 4096) 4096 11 0 {} 8).map (·.1) = some (.error .mapNotFound) := by
  refine ⟨{ logWorld with fault := fun t => if t = 12 then some 24 else none }, 12,
    ⟨logWorld_good.tag, logWorld_good.name, logWorld_good.mapName, logWorld_good.loadTime, logWorld_good.uses, logWorld_good.now⟩,
    fun t' => ⟨(logWorld_calm t').prog t' (Nat.le_refl _), rfl, by simp [logWorld]⟩, by decide +kernel, rfl, ?_, by decide +kernel⟩
  intro t' h
  by_cases h12 : t' = 12
  · exact ⟨h12, if_pos h12⟩
  · exact absurd (if_neg h12) h

/-- An array of 64 KiB that can be mapped, called `AYA_LOGS`: `C105_not_a_ring_violated`. -/
def arrayWorld : World :=
  { logWorld with map := fun id => { type := 2, keySize := 4, valueSize := 64, maxEntries := 1024, mapFlags := 1024,
                                     name := if id = 22 then [65, 89, 65, 95, 76, 79, 71, 83] else [65] } }

example : ∃ t' c', initFromId arrayWorld.kernel (mmapOf arrayWorld 4096) 4096 11 0 {} 8 =
    some (.ok ⟨22, arrayWorld.mapRec 22⟩, t', c') :=
  C105_not_a_ring_violated arrayWorld
    ⟨logWorld_good.tag, logWorld_good.name, fun id => by
        simp only [arrayWorld]
        by_cases h : id = 22
        · simp only [h, if_true]; decide
        · simp only [h, if_false]; decide, logWorld_good.loadTime, logWorld_good.uses, logWorld_good.now⟩ 4096 11 0 8 22
    ⟨fun _ _ => rfl, fun _ _ => rfl, rfl, rfl, (logWorld_calm 0).prog, (logWorld_calm 0).used⟩ (by omega) {} (.inl rfl) 9
    logWorld_bound (by omega) (fun t' _ => by simp only [arrayWorld, logWorld]; decide) rfl rfl (by decide)

/-- A cache filled when the process could not load. -/
example : ∃ t' c', initFromId logWorld.kernel (mmapOf logWorld 4096) 4096 11 5 { mapIds := some false } 8 =
      some (.error .mapNotFound, t', c') ∧ c'.mapIds = some false :=
  C105_remembered_violated logWorld 4096 11 5 8 (logWorld_calm 5) (by omega) _ rfl 9 logWorld_bound (by omega)

example : (mapIds { logWorld with mayLoad := fun t => decide (5 < t) }.kernel 0 {} (logWorld.progRec 0 3)).2.2 =
    { mapIds := some false } := by decide +kernel

end Verif.LogAttach
