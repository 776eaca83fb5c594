import Verif.Links.Props

set_option linter.unusedVariables false
set_option linter.unusedSimpArgs false

/-!
# C35: a program is attached only while loaded, loaded once, and unloaded after its links
-/
namespace Verif.Links
open Spec

theorem loadedAfter_cons (p : Nat) (b : Bool) (x : Op × Res) (t : List (Op × Res)) :
    loadedAfter p b (x :: t) = loadedAfter p (loadedAfter p b [x]) t := by
  obtain ⟨op, r⟩ := x
  cases op <;> cases r <;> simp [loadedAfter]

theorem set_get {ps : List Prog} {p p' : Nat} {q q' : Prog} (h : ps[p]? = some q) (h' : p ≠ p') :
    (ps.set p' q')[p]? = some q := by
  rw [List.getElem?_set_ne (Ne.symm h'), h]

theorem set_get_self {ps : List Prog} {p : Nat} {q q' : Prog} (h : ps[p]? = some q) :
    (ps.set p q')[p]? = some q' := by
  rw [List.getElem?_set_self']
  simp [h]

/-- Setting program `p'` to something that agrees with what was there on the tracked parts. -/
theorem set_agree {ps : List Prog} {p p' : Nat} {q qp q' : Prog} (h : ps[p]? = some q) (hp : ps[p']? = some qp)
    (h1 : q'.fd = qp.fd) (h2 : q'.hasObj = qp.hasObj) (h3 : q'.dropped = qp.dropped) (h4 : q'.wrapper = qp.wrapper) :
    ∃ x, (ps.set p' q')[p]? = some x ∧ x.fd = q.fd ∧ x.hasObj = q.hasObj ∧ x.dropped = q.dropped ∧
      x.wrapper = q.wrapper := by
  by_cases e : p = p'
  · subst e
    rw [h] at hp
    cases hp
    exact ⟨q', set_get_self h, h1, h2, h3, h4⟩
  · exact ⟨q, set_get h e, rfl, rfl, rfl, rfl⟩

theorem insertLk_agree {env : Env} {p p' : Nat} {q qp : Prog} {l : Lk} {s : St} (h : s.progs[p]? = some q)
    (hp : s.progs[p']? = some qp) :
    (∃ x, (insertLk env p' qp l s).2.progs[p]? = some x ∧ x.fd = q.fd ∧ x.hasObj = q.hasObj ∧
      x.dropped = q.dropped ∧ x.wrapper = q.wrapper) ∧ (insertLk env p' qp l s).1 ≠ .notLoaded := by
  unfold insertLk
  split
  · refine ⟨⟨q, ?_, rfl, rfl, rfl, rfl⟩, by simp⟩
    dsimp only
    rw [(dropLk_keeps env _ l s).progs]
    exact h
  · exact ⟨set_agree h hp rfl rfl rfl rfl, by simp⟩

theorem unload_res (env : Env) (p : Nat) (q : Prog) (s : St) :
    (unload env p q s).1 = .ok ∧ q.fd.isSome = true ∨ (unload env p q s).1 = .notLoaded ∧ q.fd = none ∨
      (unload env p q s).1 = .detachError := by
  unfold unload
  generalize removeAll env q.wrapper (env.order q.links) (setProg s p { q with links := [] }) = r
  obtain ⟨ok, s1⟩ := r
  cases ok
  · simp
  · cases q.fd <;> simp

/-- Tracking one step. -/
theorem step_tracks (env : Env) (hf : Env.Fair env) (s : St) (op : Op) (p : Nat) (q : Prog)
    (h : s.progs[p]? = some q) :
    ∃ x, (step env s op).2.progs[p]? = some x ∧
      x.fd.isSome = loadedAfter p q.fd.isSome [(op, (step env s op).1)] ∧ x.hasObj = q.hasObj ∧
      x.wrapper = q.wrapper ∧
      x.dropped = (q.dropped || decide (op = .dropProgram p)) := by
  cases op with
  | load p' ok =>
    simp only [step]
    split
    · exact ⟨q, h, by simp [loadedAfter], rfl, rfl, by simp⟩
    rename_i q' hq'
    split
    · exact ⟨q, h, by simp [loadedAfter], rfl, rfl, by simp⟩
    split
    · exact ⟨q, h, by simp [loadedAfter], rfl, rfl, by simp⟩
    split
    · exact ⟨q, h, by simp [loadedAfter], rfl, rfl, by simp⟩
    split
    · by_cases e : p' = p
      · subst e
        rw [h] at hq'
        cases hq'
        exact ⟨_, set_get_self h, by simp [loadedAfter], rfl, rfl, by simp⟩
      · exact ⟨q, set_get h (Ne.symm e), by simp [loadedAfter, e], rfl, rfl, by simp⟩
    · exact ⟨q, h, by simp [loadedAfter], rfl, rfl, by simp⟩
  | attach p' ok id isFd usesFd reports =>
    simp only [step]
    split
    · exact ⟨q, h, by simp [loadedAfter], rfl, rfl, by simp⟩
    rename_i q' hq'
    split
    · exact ⟨q, h, by simp [loadedAfter], rfl, rfl, by simp⟩
    split
    · exact ⟨q, h, by simp [loadedAfter], rfl, rfl, by simp⟩
    rename_i fd hfd
    split
    · exact ⟨q, h, by simp [loadedAfter], rfl, rfl, by simp⟩
    obtain ⟨⟨x, h1, h2, h3, h4, h5⟩, _⟩ := insertLk_agree (env := env)
      (l := ⟨s.nextUid, id, isFd, if usesFd then some fd else none, reports⟩)
      (s := { s with trace := s.trace ++ [.attach s.nextUid], nextUid := s.nextUid + 1 }) h hq'
    exact ⟨x, h1, by simp [loadedAfter, h2], h3, h5, by simp [h4]⟩
  | detach p' id =>
    simp only [step]
    split
    · exact ⟨q, h, by simp [loadedAfter], rfl, rfl, by simp⟩
    rename_i q' hq'
    split
    · exact ⟨q, h, by simp [loadedAfter], rfl, rfl, by simp⟩
    split
    · exact ⟨q, h, by simp [loadedAfter], rfl, rfl, by simp⟩
    rename_i l hl
    obtain ⟨x, h1, h2, h3, h4, h5⟩ := set_agree (q' := { q' with links := q'.links.erase l }) h hq' rfl rfl rfl rfl
    exact ⟨x, h1, by simp [loadedAfter, h2], h3, h5, by simp [h4]⟩
  | take p' id =>
    simp only [step]
    split
    · exact ⟨q, h, by simp [loadedAfter], rfl, rfl, by simp⟩
    rename_i q' hq'
    split
    · exact ⟨q, h, by simp [loadedAfter], rfl, rfl, by simp⟩
    split
    · exact ⟨q, h, by simp [loadedAfter], rfl, rfl, by simp⟩
    rename_i l hl
    obtain ⟨x, h1, h2, h3, h4, h5⟩ := set_agree (q' := { q' with links := q'.links.erase l }) h hq' rfl rfl rfl rfl
    exact ⟨x, h1, by simp [loadedAfter, h2], h3, h5, by simp [h4]⟩
  | unload p' =>
    simp only [step]
    split
    · exact ⟨q, h, by simp [loadedAfter], rfl, rfl, by simp⟩
    rename_i q' hq'
    split
    · exact ⟨q, h, by simp [loadedAfter], rfl, rfl, by simp⟩
    have h7 := (unload_spec env hf p' q' s hq').2.2.2.2.2.2
    have hres := unload_res env p' q' s
    generalize unload env p' q' s = r at h7 hres
    obtain ⟨res, s1⟩ := r
    dsimp only at h7 hres ⊢
    rw [h7]
    by_cases e : p' = p
    · subst e
      rw [h] at hq'
      cases hq'
      refine ⟨_, set_get_self h, ?_, rfl, rfl, by simp⟩
      rcases hres with ⟨rfl, h1⟩ | ⟨rfl, h1⟩ | rfl <;> simp [loadedAfter]
    · refine ⟨q, set_get h (Ne.symm e), ?_, rfl, rfl, by simp⟩
      rcases hres with ⟨rfl, h1⟩ | ⟨rfl, h1⟩ | rfl <;> simp [loadedAfter, e]
  | dropProgram p' =>
    simp only [step]
    split
    · rename_i hq'
      refine ⟨q, h, by simp [loadedAfter], rfl, rfl, ?_⟩
      have : p' ≠ p := by rintro rfl; rw [h] at hq'; cases hq'
      simp [this]
    rename_i q' hq'
    split
    · rename_i hd
      refine ⟨q, h, by simp [loadedAfter], rfl, rfl, ?_⟩
      by_cases e : p' = p
      · subst e; rw [h] at hq'; cases hq'; simp [hd]
      · simp [e]
    have h7 := (unload_spec env hf p' q' s hq').2.2.2.2.2.2
    generalize (if (unload env p' q' s).1 = .ok then none else q'.fd) = fd1 at h7
    generalize (unload env p' q' s).2 = s1 at h7
    have hg : s1.progs[p']? = some { q' with links := [], fd := fd1 } := by rw [h7]; exact set_get_self hq'
    rw [hg]
    dsimp only
    by_cases e : p' = p
    · subst e
      rw [h] at hq'
      cases hq'
      exact ⟨_, set_get_self hg, by simp [loadedAfter], rfl, rfl, by simp⟩
    · refine ⟨q, ?_, by simp [loadedAfter, e], rfl, rfl, by simp [e]⟩
      have : s1.progs[p]? = some q := by rw [h7]; exact set_get h (Ne.symm e)
      exact set_get this (Ne.symm e)
  | dropLink i =>
    simp only [step]
    split
    · exact ⟨q, h, by simp [loadedAfter], rfl, rfl, by simp⟩
    rename_i l w s' ht
    refine ⟨q, ?_, by simp [loadedAfter], rfl, rfl, by simp⟩
    dsimp only
    rw [(dropLk_keeps env w l s').progs, (takeOwned_total ht).2.2.2.1]
    exact h
  | detachLink i =>
    simp only [step]
    split
    · exact ⟨q, h, by simp [loadedAfter], rfl, rfl, by simp⟩
    rename_i l w s' ht
    refine ⟨q, ?_, by simp [loadedAfter], rfl, rfl, by simp⟩
    dsimp only
    rw [(takeOwned_total ht).2.2.2.1]
    exact h
  | forgetLink i =>
    simp only [step]
    split
    · exact ⟨q, h, by simp [loadedAfter], rfl, rfl, by simp⟩
    rename_i l w s' ht
    refine ⟨q, ?_, by simp [loadedAfter], rfl, rfl, by simp⟩
    dsimp only
    rw [(takeOwned_total ht).2.2.2.1]
    exact h
  | pinLink i ok =>
    simp only [step]
    split
    · exact ⟨q, h, by simp [loadedAfter], rfl, rfl, by simp⟩
    rename_i l w s' ht
    have h' : s'.progs[p]? = some q := by rw [(takeOwned_total ht).2.2.2.1]; exact h
    repeat' split
    · exact ⟨q, h, by simp [loadedAfter], rfl, rfl, by simp⟩
    · exact ⟨q, h', by simp [loadedAfter], rfl, rfl, by simp⟩
    · exact ⟨q, h', by simp [loadedAfter], rfl, rfl, by simp⟩
  | unpinLink i ok =>
    simp only [step]
    repeat' split
    all_goals exact ⟨q, h, by simp [loadedAfter], rfl, rfl, by simp⟩
  | attachTo p' i ok id =>
    simp only [step]
    split
    case h_2 => exact ⟨q, h, by simp [loadedAfter], rfl, rfl, by simp⟩
    rename_i q' l w s' hq' ht
    have h' : s'.progs[p]? = some q := by rw [(takeOwned_total ht).2.2.2.1]; exact h
    have hq2 : s'.progs[p']? = some q' := by rw [(takeOwned_total ht).2.2.2.1]; exact hq'
    split
    · exact ⟨q, h, by simp [loadedAfter], rfl, rfl, by simp⟩
    split
    · refine ⟨q, ?_, by simp [loadedAfter], rfl, rfl, by simp⟩
      dsimp only
      rw [(dropLk_keeps env w l s').progs]
      exact h'
    rename_i fd hfd
    split
    · generalize (if l.isFd = true then l else _) = l'
      obtain ⟨⟨x, h1, h2, h3, h4, h5⟩, _⟩ := insertLk_agree (env := env) (l := l')
        (s := { s' with trace := s'.trace ++ [.replace l.uid ok] }) h' hq2
      exact ⟨x, h1, by simp [loadedAfter, h2], h3, h5, by simp [h4]⟩
    · split
      · refine ⟨q, ?_, by simp [loadedAfter], rfl, rfl, by simp⟩
        dsimp only
        rw [(dropLk_keeps env true l _).progs]
        exact h'
      · exact ⟨q, h', by simp [loadedAfter], rfl, rfl, by simp⟩

theorem run_tracks (env : Env) (hf : Env.Fair env) (p : Nat) : ∀ (ops : List Op) (s : St) (q : Prog),
    s.progs[p]? = some q →
    ∃ x, (run env ops s).2.progs[p]? = some x ∧
      x.fd.isSome = loadedAfter p q.fd.isSome (ops.zip (run env ops s).1) ∧ x.hasObj = q.hasObj ∧
      x.wrapper = q.wrapper ∧ x.dropped = (q.dropped || droppedAfter p ops)
  | [], s, q, h => ⟨q, h, rfl, rfl, rfl, by simp [droppedAfter]⟩
  | op :: ops, s, q, h => by
      obtain ⟨x, h1, h2, h3, h4, h5⟩ := step_tracks env hf s op p q h
      obtain ⟨y, g1, g2, g3, g4, g5⟩ := run_tracks env hf p ops _ x h1
      simp only [run]
      refine ⟨y, g1, ?_, g3.trans h3, g4.trans h4, ?_⟩
      · rw [List.zip_cons_cons, loadedAfter_cons, ← h2]
        exact g2
      · rw [g5, h5]
        by_cases e : op = .dropProgram p
        · simp [e, droppedAfter]
        · have e' : ¬ Op.dropProgram p = op := fun h => e h.symm
          simp [e, e', droppedAfter]

/-- The loaded state of a program according to the results the user saw. -/
def Loaded (env : Env) (kinds : List (Bool × Bool)) (ops : List Op) (p : Nat) (fromPin : Bool) : Prop :=
  loadedAfter p fromPin (ops.zip (run env ops (initSt kinds)).1) = true

/-- C35, the library's idea of being loaded is the user's: a living program has an open descriptor exactly if the
    last of its successful loads, successful unloads and its opening from a pin was not an unload. -/
theorem C35_state (env : Env) (hf : Env.Fair env) (kinds : List (Bool × Bool)) (ops : List Op) (p : Nat)
    (obj w : Bool) (hk : kinds[p]? = some (obj, w)) (hd : droppedAfter p ops = false) :
    ∃ q, (run env ops (initSt kinds)).2.progs[p]? = some q ∧ q.dropped = false ∧ q.hasObj = obj ∧ q.wrapper = w ∧
      (q.fd.isSome = true ↔ Loaded env kinds ops p (!obj)) := by
  have h0 : (initSt kinds).progs[p]? = some ⟨obj, if obj then none else some p, [], w, false⟩ := by
    simp [initSt, List.getElem?_map, List.getElem?_zipIdx, hk]
  obtain ⟨x, h1, h2, h3, h4, h5⟩ := run_tracks env hf p ops _ _ h0
  refine ⟨x, h1, by simp [h5, hd], h3, h4, ?_⟩
  rw [h2, Loaded]
  cases obj <;> simp

/-- C35, attaching: while the program is not loaded, every attempt to attach fails with "not loaded" and the kernel is
    asked nothing; while it is loaded, an attach the kernel accepts makes an attachment. -/
theorem C35_attach (env : Env) (hf : Env.Fair env) (kinds : List (Bool × Bool)) (ops : List Op) (p : Nat)
    (obj w : Bool) (hk : kinds[p]? = some (obj, w)) (hd : droppedAfter p ops = false)
    (ok isFd usesFd reports : Bool) (id : Nat)
    (s : St) (hs : s = (run env ops (initSt kinds)).2) (r : Res × St)
    (hr : r = step env s (.attach p ok id isFd usesFd reports)) :
    (¬ Loaded env kinds ops p (!obj) → r = (.notLoaded, s)) ∧
    (Loaded env kinds ops p (!obj) → r.1 ≠ .notLoaded ∧
      (Attached s.nextUid r.2.trace ↔ ok = true)) := by
  obtain ⟨q, h1, h2, h3, h4, h5⟩ := C35_state env hf kinds ops p obj w hk hd
  rw [← hs] at h1
  have hi : Inv s := hs ▸ run_inv env hf ops _ (init_inv kinds)
  have hnew : ¬ Attached s.nextUid s.trace := by
    rw [attached_iff, hi.attaches]
    simp
  subst hr
  rw [← h5]
  simp only [step, h1, h2, Bool.false_eq_true, if_false]
  cases hfd : q.fd with
  | none => simp
  | some fd =>
    simp only [Option.isSome_some, not_true_eq_false, false_imp_iff, true_imp_iff, true_and]
    cases ok
    · simp [hnew]
    · simp only [Bool.not_true, Bool.false_eq_true, if_false, iff_true]
      have hs1 : (({ s with trace := s.trace ++ [.attach s.nextUid], nextUid := s.nextUid + 1 } : St)).progs[p]? =
        some q := h1
      refine ⟨(insertLk_agree hs1 hs1).2, ?_⟩
      rw [attached_iff, (insertLk_spec env p q _ _ hs1 h2 hi.dropped).2.1, ← attached_iff]
      simp [Attached]

/-- C35, loading: loading a program that is loaded, or that came from a pin, fails with "already loaded" and the kernel
    is asked nothing; otherwise the kernel is asked exactly once and its answer decides. -/
theorem C35_load (env : Env) (hf : Env.Fair env) (kinds : List (Bool × Bool)) (ops : List Op) (p : Nat)
    (obj w : Bool) (hk : kinds[p]? = some (obj, w)) (hd : droppedAfter p ops = false) (ok : Bool)
    (s : St) (hs : s = (run env ops (initSt kinds)).2) (r : Res × St) (hr : r = step env s (.load p ok)) :
    (Loaded env kinds ops p (!obj) ∨ obj = false → r = (.alreadyLoaded, s)) ∧
    (¬ Loaded env kinds ops p (!obj) ∧ obj = true →
      r.1 = (if ok then .ok else .loadError) ∧
      ∃ fd, r.2.trace = s.trace ++ [.load fd] ∧ (fd.isSome = true ↔ ok = true)) := by
  obtain ⟨q, h1, h2, h3, h4, h5⟩ := C35_state env hf kinds ops p obj w hk hd
  rw [← hs] at h1
  subst hr h3
  rw [← h5]
  simp only [step, h1, h2, Bool.false_eq_true, if_false]
  cases hfd : q.fd with
  | some fd => simp
  | none =>
    cases ho : q.hasObj
    · simp
    · cases ok <;> simp [setProg]

/-- C35, unloading: it succeeds only for a loaded program; then every attachment the program tracked was asked to
    detach, once each, before the program's descriptor was closed, and the program is no longer loaded. Whatever the
    result, only those requests are made, no link remains tracked, and without success the descriptor stays open. -/
theorem C35_unload (env : Env) (hf : Env.Fair env) (kinds : List (Bool × Bool)) (ops : List Op) (p : Nat)
    (obj w : Bool) (hk : kinds[p]? = some (obj, w)) (hd : droppedAfter p ops = false)
    (s : St) (hs : s = (run env ops (initSt kinds)).2) (r : Res × St) (hr : r = step env s (.unload p)) :
    ∃ q q' evs, s.progs[p]? = some q ∧ r.2.progs[p]? = some q' ∧ q'.links = [] ∧ OnlyDetaches evs ∧
      (r.1 = .ok ∨ r.1 = .notLoaded ∨ r.1 = .detachError) ∧
      (r.1 = .ok → Loaded env kinds ops p (!obj) ∧ q'.fd = none ∧
        ∃ fd, q.fd = some fd ∧ r.2.trace = s.trace ++ evs ++ [.close fd]) ∧
      (r.1 ≠ .ok → q'.fd = q.fd ∧ r.2.trace = s.trace ++ evs) ∧
      (r.1 = .notLoaded → ¬ Loaded env kinds ops p (!obj)) ∧
      (w = true ∨ r.1 = .ok → (detachedIn evs).Perm (q.links.map (·.uid))) := by
  obtain ⟨q, h1, h2, h3, h4, h5⟩ := C35_state env hf kinds ops p obj w hk hd
  rw [← hs] at h1
  have hst : step env s (.unload p) = unload env p q s := by simp [step, h1, h2]
  rw [hst] at hr
  obtain ⟨evs, g1, g2, g3⟩ := unload_trace env hf p q s
  have h7 := (unload_spec env hf p q s h1).2.2.2.2.2.2
  have hres := unload_res env p q s
  rw [← hr] at g1 g3 h7 hres
  refine ⟨q, _, evs, h1, by rw [h7]; exact set_get_self h1, rfl, g2, ?_, ?_, ?_, ?_, ?_⟩
  · rcases hres with ⟨h, _⟩ | ⟨h, _⟩ | h <;> simp [h]
  · intro hok
    rcases hres with ⟨h, hfd⟩ | ⟨h, _⟩ | h
    · refine ⟨h5.mp hfd, by simp [hok], ?_⟩
      cases hq : q.fd with
      | none => simp [hq] at hfd
      | some fd => exact ⟨fd, rfl, by rw [g1, if_pos hok, hq]; rfl⟩
    · rw [hok] at h; cases h
    · rw [hok] at h; cases h
  · intro hok
    exact ⟨by simp [hok], by rw [g1, if_neg hok]; simp⟩
  · intro hn
    rw [← h5]
    rcases hres with ⟨h, hfd⟩ | ⟨h, hfd⟩ | h
    · rw [hn] at h; cases h
    · simp [hfd]
    · rw [hn] at h; cases h
  · intro hw
    rw [← h4] at hw
    exact g3 hw

/-- C35, unloading succeeds: with a kernel that carries out requests and no XDP program attached through netlink,
    unloading succeeds exactly for loaded programs. -/
theorem C35_unload_succeeds (env : Env) (hf : Env.Fair env) (hw : ∀ u, env.works u = true)
    (kinds : List (Bool × Bool)) (ops : List Op) (hx : ∀ op ∈ ops, NotXdpNetlink op = true) (p : Nat)
    (obj w : Bool) (hk : kinds[p]? = some (obj, w)) (hd : droppedAfter p ops = false)
    (s : St) (hs : s = (run env ops (initSt kinds)).2) :
    ((step env s (.unload p)).1 = .ok ↔ Loaded env kinds ops p (!obj)) ∧
    ((step env s (.unload p)).1 = .notLoaded ↔ ¬ Loaded env kinds ops p (!obj)) := by
  obtain ⟨q, h1, h2, h3, h4, h5⟩ := C35_state env hf kinds ops p obj w hk hd
  rw [← hs] at h1
  have hst : step env s (.unload p) = unload env p q s := by simp [step, h1, h2]
  have hc : Clean s := by
    rw [hs]
    refine run_clean env hf hw ops _ hx ⟨?_, by simp [initSt], by simp [initSt], by simp [initSt]⟩
    intro q hq
    simp only [initSt, List.mem_map] at hq
    obtain ⟨⟨⟨o, w⟩, i⟩, hm, rfl⟩ := hq
    simp
  rw [hst, (unload_clean hf hw h1 hc).2, ← h5]
  cases q.fd <;> simp

/-- A concrete history: attach before load, load twice, attach, unload, attach again, load again. -/
example :
    (run goodEnv [.attach 0 true 1 true false false, .load 0 true, .load 0 true, .attach 0 true 1 true false false,
      .unload 0, .attach 0 true 2 true false false, .unload 0, .load 0 true, .load 1 true, .unload 1, .load 1 true]
      (initSt [(true, true), (false, true)])).1 =
    [.notLoaded, .ok, .alreadyLoaded, .linkId 1, .ok, .notLoaded, .notLoaded, .ok, .alreadyLoaded, .ok,
      .alreadyLoaded] := by
  decide +kernel

/-- When a link fails to detach, unloading reports it and leaves the program loaded, with all links gone. -/
example :
    let r := run badEnv [.load 0 true, .attach 0 true 1 true false false, .attach 0 true 2 false false true,
      .unload 0, .attach 0 true 1 true false false, .unload 0] (initSt [(true, true)])
    r.1 = [.ok, .linkId 1, .linkId 2, .detachError, .linkId 1, .ok] ∧
    r.2.trace = [.load (some 1), .attach 0, .attach 1, .detach 0 true, .detach 1 false, .attach 2, .detach 2 true,
      .close 1] := by
  decide +kernel

end Verif.Links
