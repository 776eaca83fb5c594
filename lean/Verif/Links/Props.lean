import Verif.Links.Spec

set_option linter.unusedVariables false
set_option linter.unusedSimpArgs false

/-!
# C34, C35: attachments are detached exactly once; programs are loaded, attached and unloaded in order
-/
namespace Verif.Links
open Spec

/-! ## Counting who holds an attachment -/

def cnt (u : Nat) : List Lk → Nat
  | [] => 0
  | l :: ls => (if l.uid = u then 1 else 0) + cnt u ls

def cntOwned (u : Nat) : List (Lk × Bool) → Nat
  | [] => 0
  | x :: ls => (if x.1.uid = u then 1 else 0) + cntOwned u ls

def cntProgs (u : Nat) : List Prog → Nat
  | [] => 0
  | q :: qs => cnt u q.links + cntProgs u qs

def total (s : St) (u : Nat) : Nat :=
  cntProgs u s.progs + cntOwned u s.owned + cnt u s.pinned + cnt u s.leaked + detaches u s.trace

theorem cnt_append (u : Nat) (a b : List Lk) : cnt u (a ++ b) = cnt u a + cnt u b := by
  induction a with
  | nil => simp [cnt]
  | cons x a ih => simp only [List.cons_append, cnt, ih]; omega

theorem cntOwned_append (u : Nat) (a b : List (Lk × Bool)) :
    cntOwned u (a ++ b) = cntOwned u a + cntOwned u b := by
  induction a with
  | nil => simp [cntOwned]
  | cons x a ih => simp only [List.cons_append, cntOwned, ih]; omega

theorem detaches_append (u : Nat) (a b : List Ev) : detaches u (a ++ b) = detaches u a + detaches u b := by
  induction a with
  | nil => simp [detaches]
  | cons x a ih => cases x <;> simp only [List.cons_append, detaches, ih] <;> omega

theorem cnt_perm (u : Nat) {a b : List Lk} (h : a.Perm b) : cnt u a = cnt u b := by
  induction h with
  | nil => rfl
  | cons x _ ih => simp [cnt, ih]
  | swap x y l => simp only [cnt]; omega
  | trans _ _ h1 h2 => exact h1.trans h2

theorem cnt_erase (u : Nat) (l : Lk) : ∀ (ls : List Lk), l ∈ ls →
    cnt u (ls.erase l) + (if l.uid = u then 1 else 0) = cnt u ls := by
  intro ls h
  have := cnt_perm u (List.perm_cons_erase h)
  simp only [cnt] at this
  omega

theorem cntOwned_eraseIdx (u : Nat) (x : Lk × Bool) : ∀ (ls : List (Lk × Bool)) (i : Nat), ls[i]? = some x →
    cntOwned u (ls.eraseIdx i) + (if x.1.uid = u then 1 else 0) = cntOwned u ls
  | [], i, h => by simp at h
  | y :: ls, 0, h => by
      simp only [List.getElem?_cons_zero, Option.some.injEq] at h
      subst h
      simp only [List.eraseIdx_zero, List.tail_cons, cntOwned]
      omega
  | y :: ls, i + 1, h => by
      simp only [List.getElem?_cons_succ] at h
      have := cntOwned_eraseIdx u x ls i h
      simp only [List.eraseIdx_cons_succ, cntOwned]
      omega

theorem cnt_eraseIdx (u : Nat) (x : Lk) : ∀ (ls : List Lk) (i : Nat), ls[i]? = some x →
    cnt u (ls.eraseIdx i) + (if x.uid = u then 1 else 0) = cnt u ls
  | [], i, h => by simp at h
  | y :: ls, 0, h => by
      simp only [List.getElem?_cons_zero, Option.some.injEq] at h
      subst h
      simp only [List.eraseIdx_zero, List.tail_cons, cnt]
      omega
  | y :: ls, i + 1, h => by
      simp only [List.getElem?_cons_succ] at h
      have := cnt_eraseIdx u x ls i h
      simp only [List.eraseIdx_cons_succ, cnt]
      omega

theorem cntProgs_set (u : Nat) (q q' : Prog) : ∀ (ps : List Prog) (p : Nat), ps[p]? = some q →
    cntProgs u (ps.set p q') + cnt u q.links = cntProgs u ps + cnt u q'.links
  | [], p, h => by simp at h
  | y :: ps, 0, h => by
      simp only [List.getElem?_cons_zero, Option.some.injEq] at h
      subst h
      simp only [List.set_cons_zero, cntProgs]
      omega
  | y :: ps, p + 1, h => by
      simp only [List.getElem?_cons_succ] at h
      have := cntProgs_set u q q' ps p h
      simp only [List.set_cons_succ, cntProgs]
      omega

theorem cnt_pos (u : Nat) : ∀ (ls : List Lk), 0 < cnt u ls → ∃ l ∈ ls, l.uid = u
  | [], h => by simp [cnt] at h
  | l :: ls, h => by
      by_cases e : l.uid = u
      · exact ⟨l, by simp, e⟩
      · simp only [cnt, if_neg e, Nat.zero_add] at h
        obtain ⟨x, hx, e⟩ := cnt_pos u ls h
        exact ⟨x, by simp [hx], e⟩

theorem cnt_mem (u : Nat) (l : Lk) (e : l.uid = u) : ∀ (ls : List Lk), l ∈ ls → 0 < cnt u ls := by
  intro ls h
  have := cnt_erase u l ls h
  rw [if_pos e] at this
  omega

theorem cntOwned_pos (u : Nat) : ∀ (ls : List (Lk × Bool)), 0 < cntOwned u ls → ∃ x ∈ ls, x.1.uid = u
  | [], h => by simp [cntOwned] at h
  | l :: ls, h => by
      by_cases e : l.1.uid = u
      · exact ⟨l, by simp, e⟩
      · simp only [cntOwned, if_neg e, Nat.zero_add] at h
        obtain ⟨x, hx, e⟩ := cntOwned_pos u ls h
        exact ⟨x, by simp [hx], e⟩

theorem cntOwned_mem (u : Nat) (l : Lk × Bool) (e : l.1.uid = u) : ∀ (ls : List (Lk × Bool)), l ∈ ls →
    0 < cntOwned u ls
  | [], h => by simp at h
  | x :: ls, h => by
      simp only [cntOwned]
      rcases List.mem_cons.mp h with rfl | h
      · simp [e]; omega
      · have := cntOwned_mem u l e ls h
        omega

theorem cntProgs_pos (u : Nat) : ∀ (ps : List Prog), 0 < cntProgs u ps → ∃ q ∈ ps, 0 < cnt u q.links
  | [], h => by simp [cntProgs] at h
  | q :: ps, h => by
      by_cases e : 0 < cnt u q.links
      · exact ⟨q, by simp, e⟩
      · simp only [cntProgs] at h
        obtain ⟨x, hx, e⟩ := cntProgs_pos u ps (by omega)
        exact ⟨x, by simp [hx], e⟩

theorem cntProgs_mem (u : Nat) (q : Prog) (e : 0 < cnt u q.links) : ∀ (ps : List Prog), q ∈ ps →
    0 < cntProgs u ps
  | [], h => by simp at h
  | x :: ps, h => by
      simp only [cntProgs]
      rcases List.mem_cons.mp h with rfl | h
      · omega
      · have := cntProgs_mem u q e ps h
        omega

/-! ## The helpers preserve the count -/

theorem dropLk_total (env : Env) (w : Bool) (l : Lk) (s : St) (u : Nat) :
    total (dropLk env w l s) u = total s u + (if l.uid = u then 1 else 0) := by
  cases w
  · simp only [dropLk, Bool.false_eq_true, if_false, total, cnt]; omega
  · simp only [dropLk, if_true, total, detachBase, detaches_append, detaches]; omega

/-- The parts a helper leaves alone. -/
structure Keeps (s s' : St) : Prop where
  progs : s'.progs = s.progs
  owned : s'.owned = s.owned
  pinned : s'.pinned = s.pinned
  nextUid : s'.nextUid = s.nextUid
  nextFd : s'.nextFd = s.nextFd

theorem Keeps.refl (s : St) : Keeps s s := ⟨rfl, rfl, rfl, rfl, rfl⟩

theorem Keeps.trans {a b c : St} (h : Keeps a b) (h' : Keeps b c) : Keeps a c :=
  ⟨h'.1.trans h.1, h'.2.trans h.2, h'.3.trans h.3, h'.4.trans h.4, h'.5.trans h.5⟩

theorem dropLk_keeps (env : Env) (w : Bool) (l : Lk) (s : St) : Keeps s (dropLk env w l s) := by
  cases w <;> exact ⟨rfl, rfl, rfl, rfl, rfl⟩

theorem dropAll_total (env : Env) (w : Bool) (u : Nat) : ∀ (ls : List Lk) (s : St),
    total (dropAll env w ls s) u = total s u + cnt u ls
  | [], s => by simp [dropAll, cnt]
  | l :: ls, s => by
      simp only [dropAll, dropAll_total env w u ls, dropLk_total, cnt]
      omega

theorem dropAll_keeps (env : Env) (w : Bool) : ∀ (ls : List Lk) (s : St), Keeps s (dropAll env w ls s)
  | [], s => Keeps.refl s
  | l :: ls, s => (dropLk_keeps env w l s).trans (dropAll_keeps env w ls _)

theorem removeAll_total (env : Env) (w : Bool) (u : Nat) : ∀ (ls : List Lk) (s : St),
    total (removeAll env w ls s).2 u = total s u + cnt u ls
  | [], s => by simp [removeAll, cnt]
  | l :: ls, s => by
      rw [removeAll]
      split
      · rw [removeAll_total env w u ls]
        simp only [total, detachBase, detaches_append, detaches, cnt]
        omega
      · dsimp only
        rw [dropAll_total env w u ls]
        simp only [total, detachBase, detaches_append, detaches, cnt]
        omega

theorem removeAll_keeps (env : Env) (w : Bool) : ∀ (ls : List Lk) (s : St),
    Keeps s (removeAll env w ls s).2
  | [], s => Keeps.refl s
  | l :: ls, s => by
      rw [removeAll]
      split
      · exact Keeps.trans (b := { s with trace := (detachBase env l s.trace).2 }) ⟨rfl, rfl, rfl, rfl, rfl⟩
          (removeAll_keeps env w ls _)
      · exact Keeps.trans (b := { s with trace := (detachBase env l s.trace).2 }) ⟨rfl, rfl, rfl, rfl, rfl⟩
          (dropAll_keeps env w ls _)

/-! ### What dropping adds to the trace -/

theorem dropAll_trace (env : Env) (w : Bool) : ∀ (ls : List Lk) (s : St),
    ∃ evs, (dropAll env w ls s).trace = s.trace ++ evs ∧ OnlyDetaches evs ∧
      detachedIn evs = (if w then ls.map (·.uid) else []) ∧
      (dropAll env w ls s).leaked = (if w then [] else ls.reverse) ++ s.leaked
  | [], s => ⟨[], by simp [dropAll], by simp [OnlyDetaches], by cases w <;> simp [detachedIn],
      by cases w <;> simp [dropAll]⟩
  | l :: ls, s => by
      obtain ⟨evs, h1, h2, h3, h4⟩ := dropAll_trace env w ls (dropLk env w l s)
      cases w
      · simp only [dropLk, Bool.false_eq_true, if_false] at h1 h3 h4 ⊢
        exact ⟨evs, by simpa [dropAll, dropLk] using h1, h2, h3, by simp [dropAll, dropLk, h4]⟩
      · simp only [dropLk, if_true] at h1 h3 h4 ⊢
        refine ⟨.detach l.uid (takesEffect env s.trace l) :: evs, ?_, ?_, ?_, ?_⟩
        · simpa [dropAll, dropLk, detachBase] using h1
        · intro e he
          rcases List.mem_cons.mp he with rfl | he
          · exact ⟨_, _, rfl⟩
          · exact h2 e he
        · simp [detachedIn, h3]
        · simpa [dropAll, dropLk] using h4

theorem removeAll_trace (env : Env) (w : Bool) : ∀ (ls : List Lk) (s : St),
    ∃ evs, (removeAll env w ls s).2.trace = s.trace ++ evs ∧ OnlyDetaches evs ∧
      ((w = true ∨ (removeAll env w ls s).1 = true) →
        detachedIn evs = ls.map (·.uid) ∧ (removeAll env w ls s).2.leaked = s.leaked)
  | [], s => ⟨[], by simp [removeAll], by simp [OnlyDetaches], by simp [detachedIn, removeAll]⟩
  | l :: ls, s => by
      rw [removeAll]
      split
      · obtain ⟨evs, h1, h2, h3⟩ := removeAll_trace env w ls
          { s with trace := s.trace ++ [.detach l.uid (takesEffect env s.trace l)] }
        refine ⟨.detach l.uid (takesEffect env s.trace l) :: evs, by simpa [detachBase] using h1, ?_, ?_⟩
        · intro e he
          rcases List.mem_cons.mp he with rfl | he
          · exact ⟨_, _, rfl⟩
          · exact h2 e he
        · intro hw
          obtain ⟨h4, h5⟩ := h3 hw
          exact ⟨by simp [detachedIn, h4], by simpa [detachBase] using h5⟩
      · obtain ⟨evs, h1, h2, h3, h4⟩ := dropAll_trace env w ls
          { s with trace := s.trace ++ [.detach l.uid (takesEffect env s.trace l)] }
        refine ⟨.detach l.uid (takesEffect env s.trace l) :: evs, by simpa [detachBase] using h1, ?_, ?_⟩
        · intro e he
          rcases List.mem_cons.mp he with rfl | he
          · exact ⟨_, _, rfl⟩
          · exact h2 e he
        · intro hw
          have hw : w = true := by simpa using hw
          subst hw
          simp only [if_true] at h3 h4
          exact ⟨by simp [detachedIn, h3], by simpa [detachBase] using h4⟩

theorem detaches_of_detachedIn (u : Nat) : ∀ (t : List Ev), u ∈ detachedIn t → 0 < detaches u t
  | [], h => by simp [detachedIn] at h
  | e :: t, h => by
      cases e <;> simp only [detachedIn, detaches, List.mem_cons] at h ⊢
      case detach v d =>
        rcases h with rfl | h
        · simp; omega
        · have := detaches_of_detachedIn u t h; omega
      all_goals exact detaches_of_detachedIn u t h

/-! ## The invariant -/

/-- Attachments made in a trace. -/
def attaches (u : Nat) : List Ev → Nat
  | [] => 0
  | .attach v :: t => (if v = u then 1 else 0) + attaches u t
  | _ :: t => attaches u t

theorem attaches_append (u : Nat) (a b : List Ev) : attaches u (a ++ b) = attaches u a + attaches u b := by
  induction a with
  | nil => simp [attaches]
  | cons x a ih => cases x <;> simp only [List.cons_append, attaches, ih] <;> omega

theorem attaches_of_onlyDetaches (u : Nat) : ∀ (t : List Ev), OnlyDetaches t → attaches u t = 0
  | [], h => rfl
  | e :: t, h => by
      obtain ⟨v, d, rfl⟩ := h e (by simp)
      simp only [attaches]
      exact attaches_of_onlyDetaches u t (fun e he => h e (by simp [he]))

theorem attached_iff (u : Nat) : ∀ (t : List Ev), Attached u t ↔ 0 < attaches u t
  | [] => by simp [Attached, attaches]
  | e :: t => by
      have ih := attached_iff u t
      simp only [Attached] at ih
      cases e <;> simp only [Attached, attaches, List.mem_cons, reduceCtorEq, false_or, Ev.attach.injEq, ih]
      rename_i v
      by_cases hv : v = u
      · simp [hv]; omega
      · simp [hv, Ne.symm hv]

/-- What holds in every reachable state. -/
structure Inv (s : St) : Prop where
  total : ∀ u, total s u = attaches u s.trace
  attaches : ∀ u, attaches u s.trace = if u < s.nextUid then 1 else 0
  dropped : ∀ q ∈ s.progs, q.dropped = true → q.links = [] ∧ q.fd = none

theorem setProg_total (s : St) (p : Nat) (q q' : Prog) (h : s.progs[p]? = some q) (u : Nat) :
    total (setProg s p q') u + cnt u q.links = total s u + cnt u q'.links := by
  have := cntProgs_set u q q' s.progs p h
  simp only [total, setProg]
  omega

theorem set_dropped {s : St} (hi : Inv s) {p : Nat} {q' : Prog}
    (h : q'.dropped = true → q'.links = [] ∧ q'.fd = none) :
    ∀ x ∈ s.progs.set p q', x.dropped = true → x.links = [] ∧ x.fd = none := by
  intro x hx hd
  rcases List.mem_or_eq_of_mem_set hx with hx | rfl
  · exact hi.dropped x hx hd
  · exact h hd

/-- A new attachment or none: the pieces to check for a step. -/
theorem Inv.of {s s' : St} (hi : Inv s)
    (h1 : ∀ u, Links.total s' u = Links.total s u)
    (h2 : ∀ u, Links.attaches u s'.trace = Links.attaches u s.trace)
    (h3 : s'.nextUid = s.nextUid)
    (h4 : ∀ x ∈ s'.progs, x.dropped = true → x.links = [] ∧ x.fd = none) : Inv s' :=
  ⟨fun u => by rw [h1, h2, hi.total], fun u => by rw [h2, h3, hi.attaches], h4⟩

theorem dropLk_attaches (env : Env) (w : Bool) (l : Lk) (s : St) (u : Nat) :
    attaches u (dropLk env w l s).trace = attaches u s.trace := by
  cases w <;> simp [dropLk, detachBase, attaches_append, attaches]

theorem removeAll_attaches (env : Env) (w : Bool) (ls : List Lk) (s : St) (u : Nat) :
    attaches u (removeAll env w ls s).2.trace = attaches u s.trace := by
  obtain ⟨evs, h1, h2, _⟩ := removeAll_trace env w ls s
  rw [h1, attaches_append, attaches_of_onlyDetaches u evs h2]; rfl

/-- Inserting a link: the attachment is counted once more. -/
theorem insertLk_spec (env : Env) (p : Nat) (q : Prog) (l : Lk) (s : St) (h : s.progs[p]? = some q)
    (hq : q.dropped = false) (hd : ∀ x ∈ s.progs, x.dropped = true → x.links = [] ∧ x.fd = none) :
    (∀ u, total (insertLk env p q l s).2 u = total s u + (if l.uid = u then 1 else 0)) ∧
    (∀ u, attaches u (insertLk env p q l s).2.trace = attaches u s.trace) ∧
    (insertLk env p q l s).2.nextUid = s.nextUid ∧
    (insertLk env p q l s).2.owned = s.owned ∧
    (∀ x ∈ (insertLk env p q l s).2.progs, x.dropped = true → x.links = [] ∧ x.fd = none) := by
  unfold insertLk
  split
  · refine ⟨fun u => dropLk_total env _ l s u, fun u => dropLk_attaches env _ l s u,
      (dropLk_keeps env _ l s).nextUid, (dropLk_keeps env _ l s).owned, ?_⟩
    dsimp only
    rw [(dropLk_keeps env _ l s).progs]
    exact hd
  · refine ⟨fun u => ?_, fun u => rfl, rfl, rfl, ?_⟩
    · have := setProg_total s p q { q with links := l :: q.links } h u
      simp only [cnt] at this
      dsimp only
      omega
    · intro x hx hdx
      rcases List.mem_or_eq_of_mem_set hx with hx | rfl
      · exact hd x hx hdx
      · simp [hq] at hdx

theorem takeOwned_total {s s' : St} {i : Nat} {l : Lk} {w : Bool} (h : takeOwned s i = some (l, w, s')) :
    (∀ u, total s' u + (if l.uid = u then 1 else 0) = total s u) ∧ s'.trace = s.trace ∧
    s'.nextUid = s.nextUid ∧ s'.progs = s.progs ∧ s'.leaked = s.leaked := by
  unfold takeOwned at h
  split at h
  · cases h
  · rename_i l' w' hg
    simp only [Option.some.injEq, Prod.mk.injEq] at h
    obtain ⟨rfl, rfl, rfl⟩ := h
    refine ⟨fun u => ?_, rfl, rfl, rfl, rfl⟩
    have := cntOwned_eraseIdx u (l', w') s.owned i hg
    simp only [total] at this ⊢
    omega

/-- What `unload` leaves behind, in every case. -/
theorem unload_spec (env : Env) (hf : Env.Fair env) (p : Nat) (q : Prog) (s : St) (h : s.progs[p]? = some q) :
    (∀ u, total (unload env p q s).2 u = total s u) ∧
    (∀ u, attaches u (unload env p q s).2.trace = attaches u s.trace) ∧
    (unload env p q s).2.nextUid = s.nextUid ∧ (unload env p q s).2.owned = s.owned ∧
    (unload env p q s).2.pinned = s.pinned ∧ (unload env p q s).2.nextFd = s.nextFd ∧
    (unload env p q s).2.progs = s.progs.set p
      { q with links := [], fd := if (unload env p q s).1 = .ok then none else q.fd } := by
  have hlen : p < s.progs.length := by
    rcases Nat.lt_or_ge p s.progs.length with h' | h'
    · exact h'
    · rw [List.getElem?_eq_none h'] at h; cases h
  have hk := removeAll_keeps env q.wrapper (env.order q.links) (setProg s p { q with links := [] })
  have ht := fun u => removeAll_total env q.wrapper u (env.order q.links) (setProg s p { q with links := [] })
  have ha := fun u => removeAll_attaches env q.wrapper (env.order q.links) (setProg s p { q with links := [] }) u
  have h0 := fun u => setProg_total s p q { q with links := [] } h u
  unfold unload
  generalize removeAll env q.wrapper (env.order q.links) (setProg s p { q with links := [] }) = r at hk ht ha
  obtain ⟨ok, s1⟩ := r
  dsimp only at hk ht ha ⊢
  have htot : ∀ u, total s1 u = total s u := by
    intro u
    have h1 := h0 u
    have h2 := ht u
    rw [cnt_perm u (hf q.links)] at h2
    simp only [cnt] at h1
    omega
  have hp : s1.progs = s.progs.set p { q with links := [] } := hk.progs
  cases ok
  · simp only [Bool.not_false, if_true]
    exact ⟨htot, ha, hk.nextUid, hk.owned, hk.pinned, hk.nextFd, by simpa using hp⟩
  · simp only [Bool.not_true, Bool.false_eq_true, if_false]
    cases hfd : q.fd with
    | none =>
      dsimp only
      refine ⟨htot, ha, hk.nextUid, hk.owned, hk.pinned, hk.nextFd, ?_⟩
      rw [hp]
      simp [hfd]
    | some fd =>
      dsimp only
      refine ⟨fun u => ?_, fun u => ?_, hk.nextUid, hk.owned, hk.pinned, hk.nextFd, ?_⟩
      · have hg : s1.progs[p]? = some { q with links := [] } := by
          rw [hp]; simp [hlen]
        have h3 := setProg_total s1 p { q with links := [] } { q with links := [], fd := none } hg u
        have h4 := htot u
        simp only [total, setProg, detaches_append, detaches, cnt] at h3 h4 ⊢
        omega
      · rw [attaches_append]
        simp only [attaches]
        exact ha u
      · simp only [setProg, hp, List.set_set, if_true]

theorem find_mem {ls : List Lk} {id : Nat} {l : Lk} (h : ls.find? (·.id = id) = some l) : l ∈ ls :=
  List.mem_of_find?_eq_some h

theorem step_inv (env : Env) (hf : Env.Fair env) (s : St) (op : Op) (hi : Inv s) : Inv (step env s op).2 := by
  cases op with
  | load p ok =>
    simp only [step]
    split
    · exact hi
    rename_i q hq
    split
    · exact hi
    rename_i hd
    repeat' split
    · exact hi
    · exact hi
    · refine hi.of (fun u => ?_) (fun u => ?_) rfl (set_dropped hi (fun h => absurd h hd))
      · have := setProg_total s p q { q with fd := some s.nextFd } hq u
        simp only [total, setProg, detaches_append, detaches] at this ⊢
        omega
      · simp [attaches_append, attaches]
    · refine hi.of (fun u => ?_) (fun u => ?_) rfl hi.dropped
      · simp [total, detaches_append, detaches]
      · simp [attaches_append, attaches]
  | attach p ok id isFd usesFd reports =>
    simp only [step]
    split
    · exact hi
    rename_i q hq
    split
    · exact hi
    rename_i hd
    split
    · exact hi
    rename_i fd hfd
    split
    · exact hi
    have hs := insertLk_spec env p q ⟨s.nextUid, id, isFd, if usesFd then some fd else none, reports⟩
      { s with trace := s.trace ++ [.attach s.nextUid], nextUid := s.nextUid + 1 } hq (by simpa using hd) hi.dropped
    obtain ⟨h1, h2, h3, h4, h5⟩ := hs
    refine ⟨fun u => ?_, fun u => ?_, h5⟩
    · rw [h1, h2]
      have := hi.total u
      simp only [total, detaches_append, detaches, attaches_append, attaches] at this ⊢
      omega
    · rw [h2, h3]
      have := hi.attaches u
      dsimp only
      simp only [attaches_append, attaches, Nat.add_zero]
      rw [this]
      clear h1 h2 h3 h4 h5
      repeat' split
      all_goals omega
  | detach p id =>
    simp only [step]
    split
    · exact hi
    rename_i q hq
    split
    · exact hi
    rename_i hd
    split
    · exact hi
    rename_i l hl
    refine hi.of (fun u => ?_) (fun u => ?_) rfl (set_dropped hi (fun h => absurd h hd))
    · have h1 := setProg_total s p q { q with links := q.links.erase l } hq u
      have h2 := cnt_erase u l q.links (find_mem hl)
      simp only [total, setProg, detachBase, detaches_append, detaches] at h1 ⊢
      omega
    · simp [detachBase, attaches_append, attaches, setProg]
  | take p id =>
    simp only [step]
    split
    · exact hi
    rename_i q hq
    split
    · exact hi
    rename_i hd
    split
    · exact hi
    rename_i l hl
    refine hi.of (fun u => ?_) (fun u => rfl) rfl (set_dropped hi (fun h => absurd h hd))
    have h1 := setProg_total s p q { q with links := q.links.erase l } hq u
    have h2 := cnt_erase u l q.links (find_mem hl)
    simp only [total, setProg, cntOwned_append, cntOwned] at h1 ⊢
    omega
  | unload p =>
    simp only [step]
    split
    · exact hi
    rename_i q hq
    split
    · exact hi
    rename_i hd
    obtain ⟨h1, h2, h3, h4, h5, h6, h7⟩ := unload_spec env hf p q s hq
    refine hi.of h1 h2 h3 ?_
    rw [h7]
    exact set_dropped hi (fun h => absurd h hd)
  | dropProgram p =>
    simp only [step]
    split
    · exact hi
    rename_i q hq
    split
    · exact hi
    rename_i hd
    obtain ⟨h1, h2, h3, h4, h5, h6, h7⟩ := unload_spec env hf p q s hq
    generalize (unload env p q s).2 = s1 at *
    have hlen : p < s.progs.length := by
      rcases Nat.lt_or_ge p s.progs.length with h' | h'
      · exact h'
      · rw [List.getElem?_eq_none h'] at hq; cases hq
    generalize (if (unload env p q s).1 = .ok then none else q.fd) = fd1 at h7
    have hg : s1.progs[p]? = some { q with links := [], fd := fd1 } := by
      rw [h7]; simp [hlen]
    rw [hg]
    dsimp only
    have hinv : Inv s1 := by
      refine hi.of h1 h2 h3 ?_
      rw [h7]
      exact set_dropped hi (fun h => absurd h hd)
    refine hinv.of (fun u => ?_) (fun u => ?_) rfl (set_dropped hinv (fun _ => ⟨rfl, rfl⟩))
    · have h8 := setProg_total s1 p _ { q with links := [], fd := none, dropped := true } hg u
      simp only [cnt] at h8
      cases fd1 <;> simp only [total, setProg, detaches_append, detaches] at h8 ⊢ <;> omega
    · cases fd1 <;> simp [attaches_append, attaches]
  | dropLink i =>
    simp only [step]
    split
    · exact hi
    rename_i l w s' ht
    obtain ⟨h1, h2, h3, h4, h5⟩ := takeOwned_total ht
    refine hi.of (fun u => ?_) (fun u => ?_) ?_ ?_
    · rw [dropLk_total]; exact h1 u
    · rw [dropLk_attaches, h2]
    · rw [(dropLk_keeps env w l s').nextUid, h3]
    · dsimp only
      rw [(dropLk_keeps env w l s').progs, h4]
      exact hi.dropped
  | detachLink i =>
    simp only [step]
    split
    · exact hi
    rename_i l w s' ht
    obtain ⟨h1, h2, h3, h4, h5⟩ := takeOwned_total ht
    refine hi.of (fun u => ?_) (fun u => ?_) h3 (by dsimp only; rw [h4]; exact hi.dropped)
    · have := h1 u
      simp only [detachBase, total, detaches_append, detaches] at this ⊢
      omega
    · simp [detachBase, attaches_append, attaches, h2]
  | forgetLink i =>
    simp only [step]
    split
    · exact hi
    rename_i l w s' ht
    obtain ⟨h1, h2, h3, h4, h5⟩ := takeOwned_total ht
    refine hi.of (fun u => ?_) (fun u => by dsimp only; rw [h2]) h3 (by dsimp only; rw [h4]; exact hi.dropped)
    have := h1 u
    simp only [total, cnt] at this ⊢
    omega
  | pinLink i ok =>
    simp only [step]
    split
    · exact hi
    rename_i l w s' ht
    obtain ⟨h1, h2, h3, h4, h5⟩ := takeOwned_total ht
    repeat' split
    · exact hi
    · refine hi.of (fun u => ?_) (fun u => by dsimp only; rw [h2]) h3 (by dsimp only; rw [h4]; exact hi.dropped)
      have := h1 u
      simp only [total, cnt_append, cnt] at this ⊢
      omega
    · refine hi.of (fun u => ?_) (fun u => ?_) h3 (by dsimp only; rw [h4]; exact hi.dropped)
      · have := h1 u
        simp only [detachBase, total, detaches_append, detaches] at this ⊢
        omega
      · simp [detachBase, attaches_append, attaches, h2]
  | unpinLink i ok =>
    simp only [step]
    split
    · exact hi
    rename_i l hl
    split
    · refine hi.of (fun u => ?_) (fun u => rfl) rfl hi.dropped
      have := cnt_eraseIdx u l s.pinned i hl
      simp only [total, cntOwned_append, cntOwned] at this ⊢
      omega
    · exact hi
  | attachTo p i ok id =>
    simp only [step]
    split
    case h_2 => exact hi
    rename_i q l w s' hq ht
    obtain ⟨h1, h2, h3, h4, h5⟩ := takeOwned_total ht
    split
    · exact hi
    rename_i hd
    split
    · refine hi.of (fun u => ?_) (fun u => ?_) ?_ ?_
      · rw [dropLk_total]; exact h1 u
      · rw [dropLk_attaches, h2]
      · rw [(dropLk_keeps env w l s').nextUid, h3]
      · dsimp only
        rw [(dropLk_keeps env w l s').progs, h4]
        exact hi.dropped
    rename_i fd hfd
    split
    · have key : ∀ l' : Lk, l'.uid = l.uid →
          Inv (insertLk env p q l' { s' with trace := s'.trace ++ [.replace l.uid ok] }).2 := by
        intro l' hl'
        obtain ⟨g1, g2, g3, g4, g5⟩ := insertLk_spec env p q l'
          { s' with trace := s'.trace ++ [.replace l.uid ok] } (by rw [← hq]; exact congrArg (·[p]?) h4)
          (by simpa using hd) (by dsimp only; rw [h4]; exact hi.dropped)
        refine hi.of (fun u => ?_) (fun u => ?_) (by rw [g3]; exact h3) g5
        · rw [g1, hl']
          have := h1 u
          simp only [total, detaches_append, detaches] at this ⊢
          omega
        · rw [g2, attaches_append, h2]
          simp [attaches]
      apply key
      split <;> rfl
    · split
      · refine hi.of (fun u => ?_) (fun u => ?_) ?_ ?_
        · rw [dropLk_total]
          have := h1 u
          simp only [total, detaches_append, detaches] at this ⊢
          omega
        · rw [dropLk_attaches, attaches_append, h2]
          simp [attaches]
        · rw [(dropLk_keeps env true l _).nextUid]; exact h3
        · dsimp only
          rw [(dropLk_keeps env true l _).progs]
          dsimp only
          rw [h4]
          exact hi.dropped
      · refine hi.of (fun u => ?_) (fun u => ?_) h3 (by dsimp only; rw [h4]; exact hi.dropped)
        · have := h1 u
          simp only [total, cnt, detaches_append, detaches] at this ⊢
          omega
        · rw [attaches_append, h2]
          simp [attaches]

theorem init_inv (kinds : List (Bool × Bool)) : Inv (initSt kinds) := by
  have hl : ∀ q ∈ (initSt kinds).progs, q.links = [] ∧ q.dropped = false := by
    intro q hq
    simp only [initSt, List.mem_map] at hq
    obtain ⟨⟨⟨o, w⟩, i⟩, _, rfl⟩ := hq
    exact ⟨rfl, rfl⟩
  have hc : ∀ u (ps : List Prog), (∀ q ∈ ps, q.links = [] ∧ q.dropped = false) → cntProgs u ps = 0 := by
    intro u ps
    induction ps with
    | nil => intro _; rfl
    | cons q ps ih =>
      intro h
      simp only [cntProgs, (h q (by simp)).1, cnt, ih (fun q hq => h q (by simp [hq]))]
  refine ⟨fun u => ?_, fun u => ?_, fun q hq hd => ?_⟩
  · have := hc u _ hl
    simp only [total, this]
    simp [initSt, cntOwned, cnt, detaches, attaches]
  · simp [initSt, attaches]
  · rw [(hl q hq).2] at hd; cases hd

theorem run_inv (env : Env) (hf : Env.Fair env) : ∀ (ops : List Op) (s : St), Inv s → Inv (run env ops s).2
  | [], s, h => h
  | op :: ops, s, h => by
      simp only [run]
      exact run_inv env hf ops _ (step_inv env hf s op h)


/-! ## C34: every attachment is detached at most once, and nothing is lost -/

/-- C34, at most once: whatever the history, the number of programs, the kernel's answers and the iteration
    order of the link sets, no attachment is asked to detach twice. -/
theorem C34_at_most_once (env : Env) (hf : Env.Fair env) (kinds : List (Bool × Bool)) (ops : List Op) (u : Nat) :
    detaches u (run env ops (initSt kinds)).2.trace ≤ 1 := by
  have hi := run_inv env hf ops _ (init_inv kinds)
  have h1 := hi.total u
  have h2 := hi.attaches u
  simp only [total] at h1
  rw [h2] at h1
  split at h1 <;> omega

/-- C34, accounted for: an attachment that was made is tracked by a living program, held by the user, pinned,
    given up without being detached, or was asked to detach exactly once; and while it is tracked, held or pinned
    it was never asked to detach. -/
theorem C34_accounted_for (env : Env) (hf : Env.Fair env) (kinds : List (Bool × Bool)) (ops : List Op)
    (s : St) (hs : s = (run env ops (initSt kinds)).2) (u : Nat) :
    (Attached u s.trace →
      Tracked s u ∨ Owned s u ∨ Pinned s u ∨ (∃ l ∈ s.leaked, l.uid = u) ∨ detaches u s.trace = 1) ∧
    (Tracked s u ∨ Owned s u ∨ Pinned s u → Attached u s.trace ∧ detaches u s.trace = 0) := by
  have hi : Inv s := hs ▸ run_inv env hf ops _ (init_inv kinds)
  have h1 := hi.total u
  have h2 := hi.attaches u
  constructor
  · intro ha
    rw [attached_iff] at ha
    have h3 : attaches u s.trace = 1 := by
      rw [h2] at ha ⊢
      split at ha
      · rename_i hlt; rw [if_pos hlt]
      · omega
    rw [h3] at h1
    simp only [total] at h1
    rcases Nat.eq_zero_or_pos (cntProgs u s.progs) with c1 | c1
    rcases Nat.eq_zero_or_pos (cntOwned u s.owned) with c2 | c2
    rcases Nat.eq_zero_or_pos (cnt u s.pinned) with c3 | c3
    rcases Nat.eq_zero_or_pos (cnt u s.leaked) with c4 | c4
    · exact .inr (.inr (.inr (.inr (by omega))))
    · exact .inr (.inr (.inr (.inl (cnt_pos u _ c4))))
    · exact .inr (.inr (.inl (cnt_pos u _ c3)))
    · exact .inr (.inl (cntOwned_pos u _ c2))
    · obtain ⟨q, hq, hc⟩ := cntProgs_pos u _ c1
      obtain ⟨l, hl, hu⟩ := cnt_pos u _ hc
      refine .inl ⟨q, hq, ?_, l, hl, hu⟩
      cases hd : q.dropped
      · rfl
      · rw [(hi.dropped q hq hd).1] at hl; cases hl
  · intro h
    have hp : 0 < cntProgs u s.progs + cntOwned u s.owned + cnt u s.pinned := by
      rcases h with ⟨q, hq, _, l, hl, hu⟩ | ⟨x, hx, hu⟩ | ⟨l, hl, hu⟩
      · have := cntProgs_mem u q (cnt_mem u l hu _ hl) _ hq; omega
      · have := cntOwned_mem u x hu _ hx; omega
      · have := cnt_mem u l hu _ hl; omega
    rw [attached_iff]
    simp only [total] at h1
    rw [h2] at h1 ⊢
    split at h1 <;> rename_i hlt
    · rw [if_pos hlt]; omega
    · omega

/-! ### Nothing is given up by accident -/

/-- Nothing has been given up, and nothing held would be given up by dropping it. -/
structure Tidy (s : St) : Prop where
  progs : ∀ q ∈ s.progs, q.wrapper = true
  owned : ∀ x ∈ s.owned, x.2 = true
  leaked : s.leaked = []

theorem removeAll_leaked (env : Env) (ls : List Lk) (s : St) :
    (removeAll env true ls s).2.leaked = s.leaked := by
  obtain ⟨_, _, _, h⟩ := removeAll_trace env true ls s
  exact (h (.inl rfl)).2

theorem unload_leaked (env : Env) (p : Nat) (q : Prog) (s : St) (hw : q.wrapper = true) :
    (unload env p q s).2.leaked = s.leaked := by
  have h := removeAll_leaked env (env.order q.links) (setProg s p { q with links := [] })
  rw [← hw] at h
  unfold unload
  generalize removeAll env q.wrapper (env.order q.links) (setProg s p { q with links := [] }) = r at h
  obtain ⟨ok, s1⟩ := r
  dsimp only at h ⊢
  repeat' split
  all_goals exact h

theorem insertLk_tidy (env : Env) (p : Nat) (q : Prog) (l : Lk) (s : St) (h : Tidy s) (hw : q.wrapper = true) :
    Tidy (insertLk env p q l s).2 := by
  unfold insertLk
  split
  · rw [hw]
    exact ⟨h.progs, h.owned, h.leaked⟩
  · refine ⟨fun x hx => ?_, h.owned, h.leaked⟩
    rcases List.mem_or_eq_of_mem_set hx with hx | rfl
    · exact h.progs x hx
    · exact hw

theorem set_wrapper {s : St} (h : Tidy s) {p : Nat} {q' : Prog} (hw : q'.wrapper = true) :
    ∀ x ∈ s.progs.set p q', x.wrapper = true := by
  intro x hx
  rcases List.mem_or_eq_of_mem_set hx with hx | rfl
  · exact h.progs x hx
  · exact hw

theorem takeOwned_tidy {s s' : St} {i : Nat} {l : Lk} {w : Bool} (ht : takeOwned s i = some (l, w, s'))
    (h : Tidy s) : Tidy s' ∧ w = true := by
  unfold takeOwned at ht
  split at ht
  · cases ht
  · rename_i l' w' hg
    simp only [Option.some.injEq, Prod.mk.injEq] at ht
    obtain ⟨rfl, rfl, rfl⟩ := ht
    refine ⟨⟨h.progs, fun x hx => h.owned x (List.mem_of_mem_eraseIdx hx), h.leaked⟩, ?_⟩
    exact h.owned _ (List.mem_of_getElem? hg)

theorem step_tidy (env : Env) (hf : Env.Fair env) (s : St) (op : Op) (hc : Careful op = true) (h : Tidy s) :
    Tidy (step env s op).2 := by
  cases op with
  | load p ok =>
    simp only [step]
    split
    · exact h
    rename_i q hq
    have hw := h.progs q (List.mem_of_getElem? hq)
    repeat' split
    any_goals exact h
    · exact ⟨set_wrapper h hw, h.owned, h.leaked⟩
    · exact ⟨h.progs, h.owned, h.leaked⟩
  | attach p ok id isFd usesFd reports =>
    simp only [step]
    split
    · exact h
    rename_i q hq
    have hw := h.progs q (List.mem_of_getElem? hq)
    repeat' split
    any_goals exact h
    all_goals exact insertLk_tidy env p q _ { s with trace := _, nextUid := _ } ⟨h.progs, h.owned, h.leaked⟩ hw
  | detach p id =>
    simp only [step]
    split
    · exact h
    rename_i q hq
    have hw := h.progs q (List.mem_of_getElem? hq)
    repeat' split
    any_goals exact h
    all_goals exact ⟨set_wrapper h hw, h.owned, h.leaked⟩
  | take p id =>
    simp only [step]
    split
    · exact h
    rename_i q hq
    have hw := h.progs q (List.mem_of_getElem? hq)
    repeat' split
    any_goals exact h
    refine ⟨set_wrapper h hw, fun x hx => ?_, h.leaked⟩
    rcases List.mem_append.mp hx with hx | hx
    · exact h.owned x hx
    · simp only [List.mem_singleton] at hx
      rw [hx]; exact hw
  | unload p =>
    simp only [step]
    split
    · exact h
    rename_i q hq
    have hw := h.progs q (List.mem_of_getElem? hq)
    split
    · exact h
    obtain ⟨h1, h2, h3, h4, h5, h6, h7⟩ := unload_spec env hf p q s hq
    refine ⟨?_, by rw [h4]; exact h.owned, by rw [unload_leaked env p q s hw]; exact h.leaked⟩
    rw [h7]
    exact set_wrapper h hw
  | dropProgram p =>
    simp only [step]
    split
    · exact h
    rename_i q hq
    have hw := h.progs q (List.mem_of_getElem? hq)
    split
    · exact h
    obtain ⟨h1, h2, h3, h4, h5, h6, h7⟩ := unload_spec env hf p q s hq
    have ht : Tidy (unload env p q s).2 := by
      refine ⟨?_, by rw [h4]; exact h.owned, by rw [unload_leaked env p q s hw]; exact h.leaked⟩
      rw [h7]
      exact set_wrapper h hw
    split
    · exact ht
    rename_i q' hq'
    exact ⟨set_wrapper ht (ht.progs q' (List.mem_of_getElem? hq')), ht.owned, ht.leaked⟩
  | dropLink i =>
    simp only [step]
    split
    · exact h
    rename_i l w s' ht
    obtain ⟨h', rfl⟩ := takeOwned_tidy ht h
    exact ⟨h'.progs, h'.owned, h'.leaked⟩
  | detachLink i =>
    simp only [step]
    split
    · exact h
    rename_i l w s' ht
    obtain ⟨h', rfl⟩ := takeOwned_tidy ht h
    exact ⟨h'.progs, h'.owned, h'.leaked⟩
  | forgetLink i => cases hc
  | pinLink i ok =>
    simp only [step]
    split
    · exact h
    rename_i l w s' ht
    obtain ⟨h', rfl⟩ := takeOwned_tidy ht h
    repeat' split
    · exact h
    · exact ⟨h'.progs, h'.owned, h'.leaked⟩
    · exact ⟨h'.progs, h'.owned, h'.leaked⟩
  | unpinLink i ok =>
    simp only [step]
    repeat' split
    · exact h
    · refine ⟨h.progs, fun x hx => ?_, h.leaked⟩
      rcases List.mem_append.mp hx with hx | hx
      · exact h.owned x hx
      · simp only [List.mem_singleton] at hx
        rw [hx]
    · exact h
  | attachTo p i ok id =>
    simp only [Careful] at hc
    subst hc
    simp only [step]
    split
    case h_2 => exact h
    rename_i q l w s' hq ht
    have hw := h.progs q (List.mem_of_getElem? hq)
    obtain ⟨h', rfl⟩ := takeOwned_tidy ht h
    split
    · exact h
    split
    · exact ⟨h'.progs, h'.owned, h'.leaked⟩
    · simp only [if_true]
      exact insertLk_tidy env p q _ { s' with trace := _ } ⟨h'.progs, h'.owned, h'.leaked⟩ hw

theorem run_tidy (env : Env) (hf : Env.Fair env) : ∀ (ops : List Op) (s : St),
    (∀ op ∈ ops, Careful op = true) → Tidy s → Tidy (run env ops s).2
  | [], s, _, h => h
  | op :: ops, s, hc, h => by
      simp only [run]
      exact run_tidy env hf ops _ (fun o ho => hc o (by simp [ho])) (step_tidy env hf s op (hc op (by simp)) h)

/-- C34, nothing is lost: with programs whose links detach when dropped (all but `LircMode2`), in a history that
    never forgets a link on purpose and where no replacement of a link's program fails, every attachment is
    tracked by a living program, held by the user, pinned, or was asked to detach exactly once. -/
theorem C34_none_lost_partial (env : Env) (hf : Env.Fair env) (kinds : List (Bool × Bool)) (ops : List Op)
    (hk : ∀ k ∈ kinds, k.2 = true) (hc : ∀ op ∈ ops, Careful op = true)
    (s : St) (hs : s = (run env ops (initSt kinds)).2) (u : Nat) (ha : Attached u s.trace) :
    Tracked s u ∨ Owned s u ∨ Pinned s u ∨ detaches u s.trace = 1 := by
  have ht : Tidy s := by
    rw [hs]
    refine run_tidy env hf ops _ hc ⟨?_, by simp [initSt], rfl⟩
    intro q hq
    simp only [initSt, List.mem_map] at hq
    obtain ⟨⟨⟨o, w⟩, i⟩, hm, rfl⟩ := hq
    exact hk (o, w) (List.fst_mem_of_mem_zipIdx hm)
  rcases (C34_accounted_for env hf kinds ops s hs u).1 ha with h | h | h | ⟨l, hl, _⟩ | h
  · exact .inl h
  · exact .inr (.inl h)
  · exact .inr (.inr (.inl h))
  · rw [ht.leaked] at hl; cases hl
  · exact .inr (.inr (.inr h))

/-! ### Dropping a program -/

theorem unload_trace (env : Env) (hf : Env.Fair env) (p : Nat) (q : Prog) (s : St) :
    ∃ evs, (unload env p q s).2.trace = s.trace ++ evs ++
        (if (unload env p q s).1 = .ok then q.fd.toList.map Ev.close else []) ∧ OnlyDetaches evs ∧
      ((q.wrapper = true ∨ (unload env p q s).1 = .ok) → (detachedIn evs).Perm (q.links.map (·.uid))) := by
  obtain ⟨evs, h1, h2, h3⟩ := removeAll_trace env q.wrapper (env.order q.links) (setProg s p { q with links := [] })
  refine ⟨evs, ?_, h2, ?_⟩
  · unfold unload
    generalize removeAll env q.wrapper (env.order q.links) (setProg s p { q with links := [] }) = r at h1
    obtain ⟨ok, s1⟩ := r
    dsimp only at h1 ⊢
    cases ok
    · simpa [setProg] using h1
    · cases hfd : q.fd with
      | none => simpa [setProg] using h1
      | some fd => simp [h1, setProg]
  · intro hw
    have : q.wrapper = true ∨
        (removeAll env q.wrapper (env.order q.links) (setProg s p { q with links := [] })).1 = true := by
      rcases hw with hw | hw
      · exact .inl hw
      · right
        unfold unload at hw
        generalize removeAll env q.wrapper (env.order q.links) (setProg s p { q with links := [] }) = r at hw ⊢
        obtain ⟨ok, s1⟩ := r
        cases ok
        · simp at hw
        · rfl
    rw [(h3 this).1]
    exact (hf q.links).map _

/-- C34, dropping a program: every attachment a program tracks when it is dropped has been asked to detach, exactly
    once, when the drop is over, even if some of them fail to detach. (Not so for `LircMode2`.) -/
theorem C34_drop_detaches (env : Env) (hf : Env.Fair env) (kinds : List (Bool × Bool)) (ops : List Op)
    (s : St) (hs : s = (run env ops (initSt kinds)).2) (p : Nat) (q : Prog) (hq : s.progs[p]? = some q)
    (hd : q.dropped = false) (hw : q.wrapper = true) (l : Lk) (hl : l ∈ q.links) :
    detaches l.uid (step env s (.dropProgram p)).2.trace = 1 := by
  have hle : detaches l.uid (step env s (.dropProgram p)).2.trace ≤ 1 := by
    have hi := step_inv env hf s (.dropProgram p) (hs ▸ run_inv env hf ops _ (init_inv kinds))
    have h1 := hi.total l.uid
    have h2 := hi.attaches l.uid
    simp only [total] at h1
    rw [h2] at h1
    split at h1 <;> omega
  have hge : 0 < detaches l.uid (step env s (.dropProgram p)).2.trace := by
    have hm : 0 < detaches l.uid (unload env p q s).2.trace := by
      obtain ⟨evs, h1, _, h3⟩ := unload_trace env hf p q s
      have : l.uid ∈ detachedIn evs := (h3 (.inl hw)).mem_iff.mpr (List.mem_map_of_mem hl)
      have := detaches_of_detachedIn _ _ this
      rw [h1, detaches_append, detaches_append]
      omega
    simp only [step, hq, hd, Bool.false_eq_true, if_false]
    split
    · exact hm
    · rename_i q' _
      cases q'.fd
      · exact hm
      · simp only [detaches_append]; omega
  omega

/-! ### Taken links -/

theorem step_owned (env : Env) (hf : Env.Fair env) (s : St) (op : Op) (hop : ProgramOnly op = true) (x : Lk × Bool)
    (hx : x ∈ s.owned) : x ∈ (step env s op).2.owned := by
  cases op with
  | load p ok =>
    simp only [step]
    repeat' split
    all_goals exact hx
  | attach p ok id isFd usesFd reports =>
    simp only [step]
    repeat' split
    any_goals exact hx
    all_goals
      unfold insertLk
      split
      · dsimp only
        rw [(dropLk_keeps env _ _ _).owned]
        exact hx
      · exact hx
  | detach p id =>
    simp only [step]
    repeat' split
    all_goals exact hx
  | take p id =>
    simp only [step]
    repeat' split
    any_goals exact hx
    exact List.mem_append_left _ hx
  | unload p =>
    simp only [step]
    split
    · exact hx
    rename_i q hq
    split
    · exact hx
    rw [(unload_spec env hf p q s hq).2.2.2.1]
    exact hx
  | dropProgram p =>
    simp only [step]
    split
    · exact hx
    rename_i q hq
    split
    · exact hx
    split
    · rw [(unload_spec env hf p q s hq).2.2.2.1]
      exact hx
    · have : x ∈ (unload env p q s).2.owned := by
        rw [(unload_spec env hf p q s hq).2.2.2.1]
        exact hx
      exact this
  | dropLink i => cases hop
  | detachLink i => cases hop
  | forgetLink i => cases hop
  | pinLink i ok => cases hop
  | unpinLink i ok => cases hop
  | attachTo p i ok id => cases hop

theorem run_owned (env : Env) (hf : Env.Fair env) (x : Lk × Bool) : ∀ (ops : List Op) (s : St),
    (∀ op ∈ ops, ProgramOnly op = true) → x ∈ s.owned → x ∈ (run env ops s).2.owned
  | [], s, _, h => h
  | op :: ops, s, hop, h => by
      simp only [run]
      exact run_owned env hf x ops _ (fun o ho => hop o (by simp [ho])) (step_owned env hf s op (hop op (by simp)) x h)

theorem run_append (env : Env) : ∀ (a b : List Op) (s : St), (run env (a ++ b) s).2 = (run env b (run env a s).2).2
  | [], b, s => rfl
  | op :: a, b, s => by
      simp only [List.cons_append, run]
      exact run_append env a b _

/-- C34, taken links: a link the user took stays with the user and is not asked to detach, whatever is done to the
    programs afterwards: attaching and detaching other links, unloading, dropping. -/
theorem C34_taken_stays (env : Env) (hf : Env.Fair env) (kinds : List (Bool × Bool)) (ops more : List Op)
    (hmore : ∀ op ∈ more, ProgramOnly op = true) (u : Nat)
    (ho : Owned (run env ops (initSt kinds)).2 u) :
    Owned (run env (ops ++ more) (initSt kinds)).2 u ∧
    detaches u (run env (ops ++ more) (initSt kinds)).2.trace = 0 := by
  obtain ⟨x, hx, hu⟩ := ho
  have h : Owned (run env (ops ++ more) (initSt kinds)).2 u := by
    rw [run_append]
    exact ⟨x, run_owned env hf x more _ hmore hx, hu⟩
  exact ⟨h, ((C34_accounted_for env hf kinds (ops ++ more) _ rfl u).2 (.inr (.inl h))).2⟩

/-! ### Whether the request takes effect -/

/-- No link names a program descriptor, and every request so far was carried out. -/
structure Clean (s : St) : Prop where
  progs : ∀ q ∈ s.progs, ∀ l ∈ q.links, l.needs = none
  owned : ∀ x ∈ s.owned, x.1.needs = none
  pinned : ∀ l ∈ s.pinned, l.needs = none
  trace : ∀ u d, Ev.detach u d ∈ s.trace → d = true

theorem detachBase_clean {env : Env} (hw : ∀ u, env.works u = true) {l : Lk} (hl : l.needs = none) {t : List Ev}
    (ht : ∀ u d, Ev.detach u d ∈ t → d = true) :
    (detachBase env l t).1 = true ∧ ∀ u d, Ev.detach u d ∈ (detachBase env l t).2 → d = true := by
  have he : takesEffect env t l = true := by simp [takesEffect, hw, hl]
  refine ⟨by simp [detachBase, he], fun u d h => ?_⟩
  simp only [detachBase, List.mem_append, List.mem_singleton, he, Ev.detach.injEq] at h
  rcases h with h | ⟨_, h⟩
  · exact ht u d h
  · exact h

theorem dropLk_clean {env : Env} (hw : ∀ u, env.works u = true) {w : Bool} {l : Lk} (hl : l.needs = none) {s : St}
    (h : Clean s) : Clean (dropLk env w l s) := by
  cases w
  · exact ⟨h.progs, h.owned, h.pinned, h.trace⟩
  · exact ⟨h.progs, h.owned, h.pinned, (detachBase_clean hw hl h.trace).2⟩

theorem removeAll_clean {env : Env} (hw : ∀ u, env.works u = true) (w : Bool) : ∀ (ls : List Lk) (s : St),
    (∀ l ∈ ls, l.needs = none) → Clean s →
    (removeAll env w ls s).1 = true ∧ Clean (removeAll env w ls s).2
  | [], s, _, h => ⟨rfl, h⟩
  | l :: ls, s, hl, h => by
      have hd := detachBase_clean hw (hl l (by simp)) h.trace
      rw [removeAll, if_pos hd.1]
      exact removeAll_clean hw w ls { s with trace := (detachBase env l s.trace).2 } (fun x hx => hl x (by simp [hx]))
        ⟨h.progs, h.owned, h.pinned, hd.2⟩

theorem set_clean {s : St} (h : Clean s) {p : Nat} {q' : Prog} (hq : ∀ l ∈ q'.links, l.needs = none) :
    ∀ q ∈ s.progs.set p q', ∀ l ∈ q.links, l.needs = none := by
  intro x hx
  rcases List.mem_or_eq_of_mem_set hx with hx | rfl
  · exact h.progs x hx
  · exact hq

theorem unload_clean {env : Env} (hf : Env.Fair env) (hw : ∀ u, env.works u = true) {p : Nat} {q : Prog} {s : St}
    (hq : s.progs[p]? = some q) (h : Clean s) :
    Clean (unload env p q s).2 ∧ (unload env p q s).1 = (if q.fd.isSome then .ok else .notLoaded) := by
  have hn := h.progs q (List.mem_of_getElem? hq)
  have hr := removeAll_clean hw q.wrapper (env.order q.links) (setProg s p { q with links := [] })
    (fun l hl => hn l ((hf q.links).mem_iff.mp hl)) ⟨set_clean h (by simp), h.owned, h.pinned, h.trace⟩
  unfold unload
  generalize removeAll env q.wrapper (env.order q.links) (setProg s p { q with links := [] }) = r at hr
  obtain ⟨ok, s1⟩ := r
  obtain ⟨ho, hr⟩ := hr
  dsimp only at ho hr ⊢
  subst ho
  simp only [Bool.not_true, Bool.false_eq_true, if_false]
  cases q.fd with
  | none => exact ⟨hr, rfl⟩
  | some fd =>
    refine ⟨⟨set_clean hr (by simp), hr.owned, hr.pinned, fun u d hm => ?_⟩, rfl⟩
    simp only [List.mem_append, List.mem_singleton, reduceCtorEq, or_false] at hm
    exact hr.trace u d hm

theorem takeOwned_clean {s s' : St} {i : Nat} {l : Lk} {w : Bool} (ht : takeOwned s i = some (l, w, s'))
    (h : Clean s) : Clean s' ∧ l.needs = none := by
  unfold takeOwned at ht
  split at ht
  · cases ht
  · rename_i l' w' hg
    simp only [Option.some.injEq, Prod.mk.injEq] at ht
    obtain ⟨rfl, rfl, rfl⟩ := ht
    refine ⟨⟨h.progs, fun x hx => h.owned x (List.mem_of_mem_eraseIdx hx), h.pinned, h.trace⟩, ?_⟩
    exact h.owned _ (List.mem_of_getElem? hg)

theorem insertLk_clean {env : Env} (hw : ∀ u, env.works u = true) {p : Nat} {q : Prog} {l : Lk} {s : St}
    (hq : ∀ l ∈ q.links, l.needs = none) (hl : l.needs = none) (h : Clean s) :
    Clean (insertLk env p q l s).2 := by
  unfold insertLk
  split
  · exact dropLk_clean hw hl h
  · refine ⟨set_clean h (fun x hx => ?_), h.owned, h.pinned, h.trace⟩
    rcases List.mem_cons.mp hx with rfl | hx
    · exact hl
    · exact hq x hx

/-- The attachment is not made through netlink XDP. -/
def NotXdpNetlink : Op → Bool
  | .attach _ _ _ _ usesFd _ => !usesFd
  | _ => true

theorem trace_snoc {t : List Ev} {e : Ev} (h : ∀ u d, Ev.detach u d ∈ t → d = true)
    (he : ∀ u d, e ≠ .detach u d) : ∀ u d, Ev.detach u d ∈ t ++ [e] → d = true := by
  intro u d hm
  rcases List.mem_append.mp hm with hm | hm
  · exact h u d hm
  · simp only [List.mem_singleton] at hm
    exact absurd hm.symm (he u d)

theorem step_clean (env : Env) (hf : Env.Fair env) (hw : ∀ u, env.works u = true) (s : St) (op : Op)
    (hn : NotXdpNetlink op = true) (h : Clean s) : Clean (step env s op).2 := by
  cases op with
  | load p ok =>
    simp only [step]
    split
    · exact h
    rename_i q hq
    have hl := h.progs q (List.mem_of_getElem? hq)
    repeat' split
    any_goals exact h
    · exact ⟨set_clean h hl, h.owned, h.pinned, trace_snoc h.trace (by simp)⟩
    · exact ⟨h.progs, h.owned, h.pinned, trace_snoc h.trace (by simp)⟩
  | attach p ok id isFd usesFd reports =>
    have hn : usesFd = false := by simpa [NotXdpNetlink] using hn
    subst hn
    simp only [step]
    split
    · exact h
    rename_i q hq
    have hl := h.progs q (List.mem_of_getElem? hq)
    repeat' split
    any_goals exact h
    any_goals contradiction
    exact insertLk_clean hw hl rfl
      (s := { s with trace := s.trace ++ [.attach s.nextUid], nextUid := s.nextUid + 1 })
      ⟨h.progs, h.owned, h.pinned, trace_snoc h.trace (by simp)⟩
  | detach p id =>
    simp only [step]
    split
    · exact h
    rename_i q hq
    have hl := h.progs q (List.mem_of_getElem? hq)
    split
    · exact h
    split
    · exact h
    rename_i l hlm
    exact ⟨set_clean h (fun x hx => hl x (List.mem_of_mem_erase hx)), h.owned, h.pinned,
      (detachBase_clean hw (hl l (find_mem hlm)) h.trace).2⟩
  | take p id =>
    simp only [step]
    split
    · exact h
    rename_i q hq
    have hl := h.progs q (List.mem_of_getElem? hq)
    split
    · exact h
    split
    · exact h
    rename_i l hlm
    refine ⟨set_clean h (fun x hx => hl x (List.mem_of_mem_erase hx)), fun x hx => ?_, h.pinned, h.trace⟩
    rcases List.mem_append.mp hx with hx | hx
    · exact h.owned x hx
    · simp only [List.mem_singleton] at hx
      rw [hx]
      exact hl l (find_mem hlm)
  | unload p =>
    simp only [step]
    split
    · exact h
    rename_i q hq
    split
    · exact h
    exact (unload_clean hf hw hq h).1
  | dropProgram p =>
    simp only [step]
    split
    · exact h
    rename_i q hq
    split
    · exact h
    have hu := (unload_clean hf hw hq h).1
    split
    · exact hu
    rename_i q' hq'
    refine ⟨set_clean hu (hu.progs q' (List.mem_of_getElem? hq')), hu.owned, hu.pinned, ?_⟩
    cases q'.fd
    · exact hu.trace
    · exact trace_snoc hu.trace (by simp)
  | dropLink i =>
    simp only [step]
    split
    · exact h
    rename_i l w s' ht
    obtain ⟨h', hl⟩ := takeOwned_clean ht h
    exact dropLk_clean hw hl h'
  | detachLink i =>
    simp only [step]
    split
    · exact h
    rename_i l w s' ht
    obtain ⟨h', hl⟩ := takeOwned_clean ht h
    exact ⟨h'.progs, h'.owned, h'.pinned, (detachBase_clean hw hl h'.trace).2⟩
  | forgetLink i =>
    simp only [step]
    split
    · exact h
    rename_i l w s' ht
    obtain ⟨h', hl⟩ := takeOwned_clean ht h
    exact ⟨h'.progs, h'.owned, h'.pinned, h'.trace⟩
  | pinLink i ok =>
    simp only [step]
    split
    · exact h
    rename_i l w s' ht
    obtain ⟨h', hl⟩ := takeOwned_clean ht h
    repeat' split
    · exact h
    · refine ⟨h'.progs, h'.owned, fun x hx => ?_, h'.trace⟩
      rcases List.mem_append.mp hx with hx | hx
      · exact h'.pinned x hx
      · simp only [List.mem_singleton] at hx
        rw [hx]; exact hl
    · exact ⟨h'.progs, h'.owned, h'.pinned, (detachBase_clean hw hl h'.trace).2⟩
  | unpinLink i ok =>
    simp only [step]
    split
    · exact h
    rename_i l hl
    split
    · refine ⟨h.progs, fun x hx => ?_, fun x hx => h.pinned x (List.mem_of_mem_eraseIdx hx), h.trace⟩
      rcases List.mem_append.mp hx with hx | hx
      · exact h.owned x hx
      · simp only [List.mem_singleton] at hx
        rw [hx]; exact h.pinned l (List.mem_of_getElem? hl)
    · exact h
  | attachTo p i ok id =>
    simp only [step]
    split
    case h_2 => exact h
    rename_i q l w s' hq ht
    have hlq := h.progs q (List.mem_of_getElem? hq)
    obtain ⟨h', hl⟩ := takeOwned_clean ht h
    split
    · exact h
    split
    · exact dropLk_clean hw hl h'
    rename_i fd hfd
    have hs : Clean { s' with trace := s'.trace ++ [.replace l.uid ok] } :=
      ⟨h'.progs, h'.owned, h'.pinned, trace_snoc h'.trace (by simp)⟩
    split
    · refine insertLk_clean hw hlq ?_ hs
      split
      · exact hl
      · simp [hl]
    · split
      · exact dropLk_clean (w := true) hw hl hs
      · exact ⟨hs.progs, hs.owned, hs.pinned, hs.trace⟩

theorem run_clean (env : Env) (hf : Env.Fair env) (hw : ∀ u, env.works u = true) : ∀ (ops : List Op) (s : St),
    (∀ op ∈ ops, NotXdpNetlink op = true) → Clean s → Clean (run env ops s).2
  | [], s, _, h => h
  | op :: ops, s, hc, h => by
      simp only [run]
      exact run_clean env hf hw ops _ (fun o ho => hc o (by simp [ho])) (step_clean env hf hw s op (hc op (by simp)) h)

/-- C34, detaching takes effect: apart from XDP programs attached through netlink, if the kernel carries out every
    valid request then every request the library makes is carried out. -/
theorem C34_takes_effect_partial (env : Env) (hf : Env.Fair env) (hw : ∀ u, env.works u = true)
    (kinds : List (Bool × Bool)) (ops : List Op) (hx : ∀ op ∈ ops, NotXdpNetlink op = true) (u : Nat)
    (hd : 0 < detaches u (run env ops (initSt kinds)).2.trace) : Gone u (run env ops (initSt kinds)).2.trace := by
  have hc : Clean (run env ops (initSt kinds)).2 := by
    refine run_clean env hf hw ops _ hx ⟨?_, by simp [initSt], by simp [initSt], by simp [initSt]⟩
    intro q hq
    simp only [initSt, List.mem_map] at hq
    obtain ⟨⟨⟨o, w⟩, i⟩, hm, rfl⟩ := hq
    simp
  have key : ∀ t : List Ev, 0 < detaches u t → ∃ d, Ev.detach u d ∈ t := by
    intro t
    induction t with
    | nil => intro h; simp [detaches] at h
    | cons e t ih =>
      intro h
      cases e with
      | detach v d =>
        simp only [detaches] at h
        by_cases hv : v = u
        · exact ⟨d, by simp [hv]⟩
        · rw [if_neg hv, Nat.zero_add] at h
          obtain ⟨d', h'⟩ := ih h
          exact ⟨d', by simp [h']⟩
      | load _ => obtain ⟨d', h'⟩ := ih (by simpa [detaches] using h); exact ⟨d', by simp [h']⟩
      | attach _ => obtain ⟨d', h'⟩ := ih (by simpa [detaches] using h); exact ⟨d', by simp [h']⟩
      | replace _ _ => obtain ⟨d', h'⟩ := ih (by simpa [detaches] using h); exact ⟨d', by simp [h']⟩
      | close _ => obtain ⟨d', h'⟩ := ih (by simpa [detaches] using h); exact ⟨d', by simp [h']⟩
  obtain ⟨d, hm⟩ := key _ hd
  have := hc.trace u d hm
  subst this
  exact hm

/-! ### Where the property fails -/

/-- An environment in which everything works and sets keep insertion order. -/
def goodEnv : Env := ⟨fun _ => true, id⟩

theorem goodEnv_fair : Env.Fair goodEnv := fun ls => List.Perm.refl ls

/-- The documentation of `LircMode2::take_link` says that dropping the returned link detaches it
    (`/repo/aya/src/programs/lirc_mode2.rs:99-105`). It does not: the attachment is never asked to detach although
    the link and the program are both gone. -/
theorem C34_lirc_violated :
    let r := run goodEnv [.load 0 true, .attach 0 true 7 false false true, .take 0 7, .dropLink 0, .dropProgram 0]
      (initSt [(true, false)])
    r.1 = [.ok, .linkId 7, .ok, .ok, .ok] ∧ Attached 0 r.2.trace ∧ detaches 0 r.2.trace = 0 ∧
      r.2.owned = [] ∧ r.2.pinned = [] := by
  decide +kernel

/-- An XDP program attached through netlink: the link keeps only the number of the program's descriptor. If the
    program goes before the taken link, the request to detach names a closed descriptor and the interface stays
    attached although the kernel works. -/
theorem C34_xdp_netlink_violated :
    let r := run goodEnv [.load 0 true, .attach 0 true 7 false true false, .take 0 7, .dropProgram 0, .dropLink 0]
      (initSt [(true, true)])
    r.1 = [.ok, .linkId 7, .ok, .ok, .ok] ∧ Attached 0 r.2.trace ∧ ¬ Gone 0 r.2.trace ∧
      r.2.owned = [] ∧ r.2.pinned = [] := by
  decide +kernel

/-- If replacing the program of a netlink link fails, the link is gone and the attachment stays
    (`/repo/aya/src/programs/xdp.rs:225-238`, `/repo/aya/src/programs/tc.rs:340-357`). -/
theorem C34_replace_failure_violated :
    let r := run goodEnv [.load 0 true, .load 1 true, .attach 0 true 7 false false false, .take 0 7,
        .attachTo 1 0 false 8, .dropProgram 0, .dropProgram 1] (initSt [(true, true), (true, true)])
    r.1 = [.ok, .ok, .linkId 7, .ok, .syscallError, .ok, .ok] ∧ Attached 0 r.2.trace ∧ detaches 0 r.2.trace = 0 ∧
      r.2.owned = [] ∧ r.2.pinned = [] := by
  decide +kernel

/-- A non-trivial history: two programs, four attachments; one link taken and dropped later, one pinned, one moved
    to the other program, one whose detaching fails when its program is dropped. -/
def badEnv : Env := ⟨fun u => u != 1, List.reverse⟩

def sampleOps : List Op :=
  [.load 0 true, .load 1 true, .attach 0 true 10 true false false, .attach 0 true 11 false false true,
   .attach 0 true 12 true false false, .attach 0 true 13 false false true, .take 0 10, .take 0 12, .take 0 13,
   .pinLink 0 true, .attachTo 1 1 true 21, .dropProgram 0, .unload 1, .dropLink 0]

example : Env.Fair badEnv := fun ls => List.reverse_perm ls

example :
    let r := run badEnv sampleOps (initSt [(true, true), (true, true)])
    r.1 = [.ok, .ok, .linkId 10, .linkId 11, .linkId 12, .linkId 13, .ok, .ok, .ok, .ok, .linkId 21, .ok, .ok, .ok] ∧
    r.2.trace = [.load (some 2), .load (some 3), .attach 0, .attach 1, .attach 2, .attach 3, .replace 3 true,
      .detach 1 false, .close 2, .detach 3 true, .close 3, .detach 2 true] ∧
    r.2.pinned.map (·.uid) = [0] ∧ ∀ op ∈ sampleOps, Careful op = true := by
  decide +kernel

end Verif.Links
