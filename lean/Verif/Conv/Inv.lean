import Verif.Conv.Run
/-!
# Descriptors and what they stand for

The invariant: every descriptor belongs to exactly one link at hand, and stands for the attachment that link stands for.
-/
set_option linter.unusedVariables false
set_option linter.unusedSimpArgs false
namespace Verif.Conv
open Verif.Conv.Spec (K Obj Shape Op Out Have By A offers accepts convertible)

/-- The open descriptors are those of `l`, the attachments without link those of `d`. -/
structure Own (k : K) (l : List (Nat × Obj)) (d : List Nat) : Prop where
  fds : k.fds.Perm l
  nodup : (k.fds.map (·.1)).Nodup
  direct : k.direct.Perm d
  dnodup : k.direct.Nodup
  bound : ∀ u ∈ k.direct, u < k.made.length

variable {k : K} {l l' : List (Nat × Obj)} {d d' : List Nat}

theorem Own.mono (h : Own k l d) (hl : l.Perm l') (hd : d.Perm d') : Own k l' d' :=
  ⟨h.fds.trans hl, h.nodup, h.direct.trans hd, h.dnodup, h.bound⟩

theorem find_of_nodup {fds : List (Nat × Obj)} {fd : Nat} {o : Obj} (hn : (fds.map (·.1)).Nodup) (h : (fd, o) ∈ fds) :
    fds.find? (·.1 = fd) = some (fd, o) := by
  induction fds with
  | nil => cases h
  | cons e fds ih =>
    simp only [List.map_cons, List.nodup_cons] at hn
    rcases List.mem_cons.1 h with h | h
    · subst h
      simp
    · have hne : e.1 ≠ fd := fun he => hn.1 (he ▸ List.mem_map_of_mem (f := (·.1)) h)
      rw [List.find?_cons_of_neg (by simpa using hne)]
      exact ih hn.2 h

theorem Own.at {fd : Nat} {o : Obj} (h : Own k ((fd, o) :: l) d) : k.at fd = some o := by
  have := find_of_nodup h.nodup (h.fds.mem_iff.2 (List.mem_cons_self ..))
  simp [K.at, this]

theorem filter_ne {l : List (Nat × Obj)} {fd : Nat} (h : fd ∉ l.map (·.1)) : l.filter (·.1 ≠ fd) = l := by
  refine List.filter_eq_self.2 (fun e he => ?_)
  simp only [ne_eq, decide_not, Bool.not_eq_true', decide_eq_false_iff_not]
  exact fun h' => h (h' ▸ List.mem_map_of_mem (f := (·.1)) he)

theorem Own.close {pick : List (Nat × Obj) → Nat} {fail : Option Nat} {fd : Nat} {o : Obj} (h : Own k ((fd, o) :: l) d) :
    Own ((Spec.os pick fail).close fd k) l d := by
  have hn : (((fd, o) :: l).map (·.1)).Nodup := (h.fds.map _).nodup_iff.1 h.nodup
  refine ⟨?_, ?_, h.direct, h.dnodup, h.bound⟩
  · have := h.fds.filter (fun e => decide (e.1 ≠ fd))
    rw [List.filter_cons_of_neg (by simp), filter_ne (List.nodup_cons.1 hn).1] at this
    exact this
  · exact h.nodup.sublist (List.filter_sublist.map _)

theorem Own.closes {pick : List (Nat × Obj) → Nat} {fail : Option Nat} : ∀ (os : List (Nat × Obj)) {k : K}, Own k (os ++ l) d →
    Own ((os.map (·.1)).foldl (fun s fd => (Spec.os pick fail).close fd s) k) l d
  | [], _, h => h
  | (fd, o) :: os, k, h => by
    simp only [List.map_cons, List.foldl_cons]
    exact Own.closes os (Own.close (o := o) h)

theorem Own.disable {pick : List (Nat × Obj) → Nat} {fail : Option Nat} {fd u : Nat} {on : Bool}
    (h : Own k ((fd, .perf u on) :: l) d) : Own ((Spec.os pick fail).disable fd k) ((fd, .perf u false) :: l) d := by
  have hn : (((fd, Obj.perf u on) :: l).map (·.1)).Nodup := (h.fds.map _).nodup_iff.1 h.nodup
  refine ⟨?_, ?_, h.direct, h.dnodup, h.bound⟩
  · have := h.fds.map (fun e : Nat × Obj => if e.1 = fd then (e.1, match e.2 with
      | .perf u _ => Obj.perf u false
      | o => o) else e)
    refine this.trans (List.Perm.of_eq ?_)
    simp only [List.map_cons, if_true, List.cons.injEq, true_and]
    refine (List.map_congr_left (g := id) fun e he => ?_).trans (List.map_id l)
    have : e.1 ≠ fd := fun h' => (List.nodup_cons.1 hn).1 (h' ▸ List.mem_map_of_mem (f := (·.1)) he)
    simp [this]
  · have : ((Spec.os pick fail).disable fd k).fds.map (·.1) = k.fds.map (·.1) := by
      simp only [Spec.os, List.map_map]
      refine List.map_congr_left (fun e _ => ?_)
      simp only [Function.comp]
      split <;> rfl
    rw [this]; exact h.nodup

theorem Own.detachPerf {pick : List (Nat × Obj) → Nat} {fail : Option Nat} {fd u : Nat} {on : Bool}
    (h : Own k ((fd, .perf u on) :: l) d) : Own (detachPerf (Spec.os pick fail) fd k) l d :=
  Own.close (Own.disable h)

theorem Own.detachPerfs {pick : List (Nat × Obj) → Nat} {fail : Option Nat} : ∀ (fds us : List Nat) {k : K}, fds.length = us.length →
    Own k ((fds.zip us).map (fun p => (p.1, .perf p.2 true)) ++ l) d →
    Own (fds.foldl (fun s fd => Verif.Conv.detachPerf (Spec.os pick fail) fd s) k) l d
  | [], _, _, _, h => by simpa using h
  | fd :: fds, [], _, hl, _ => by simp at hl
  | fd :: fds, u :: us, k, hl, h => by
    simp only [List.foldl_cons]
    exact Own.detachPerfs fds us (by simpa using hl) (Own.detachPerf (u := u) (on := true) (by simpa using h))

theorem Own.detach {pick : List (Nat × Obj) → Nat} {u : Nat} (h : Own k l (u :: d)) :
    Own ((Spec.os pick none).detach u k).2 l d := by
  refine ⟨h.fds, h.nodup, ?_, h.dnodup.sublist List.filter_sublist, fun v hv => h.bound v (List.filter_sublist.mem hv)⟩
  have hn : (u :: d).Nodup := h.direct.nodup_iff.1 h.dnodup
  have := h.direct.filter (fun v => decide (v ≠ u))
  have e : d.filter (fun v => decide (v ≠ u)) = d := List.filter_eq_self.2 (fun v hv => by
    simp only [ne_eq, decide_not, Bool.not_eq_true', decide_eq_false_iff_not]
    exact fun h' => (List.nodup_cons.1 hn).1 (h' ▸ hv))
  rw [List.filter_cons_of_neg (by simp), e] at this
  exact this

theorem Own.open {pick : List (Nat × Obj) → Nat} (hp : Spec.Fresh pick) {o : Obj} (h : Own k l d) :
    Own (k.open pick o).2 (((k.open pick o).1, o) :: l) d := by
  refine ⟨?_, ?_, h.direct, h.dnodup, h.bound⟩
  · exact (List.perm_append_comm (l₁ := k.fds)).trans (h.fds.cons _)
  · simp only [K.open, List.map_append, List.map_cons, List.map_nil]
    refine List.nodup_append.2 ⟨h.nodup, by simp, fun x hx y hy => ?_⟩
    obtain ⟨e, he, rfl⟩ := List.mem_map.1 hx
    rw [List.mem_singleton.1 hy]
    exact hp _ e he

theorem Own.made {made : List (Nat × Nat)} (h : Own k l d) (hm : k.made.length ≤ made.length) :
    Own { k with made := made } l d :=
  ⟨h.fds, h.nodup, h.direct, h.dnodup, fun u hu => Nat.lt_of_lt_of_le (h.bound u hu) hm⟩

theorem Own.files {files : List (Nat × Nat)} (h : Own k l d) : Own { k with files := files } l d :=
  ⟨h.fds, h.nodup, h.direct, h.dnodup, h.bound⟩

/-! ## Links at hand -/

/-- A link at hand and what it means. -/
inductive Match (made : List (Nat × Nat)) : Handle → Have → Prop where
  | fd {k fd u p t} : made[u]? = some (p, t) → (convertible k = true → accepts k t = true) →
      Match made (.typed k (.fd fd)) (.typed k .link [u])
  | direct {k u} : k ≠ .iter → Match made (.typed k (.direct u)) (.typed k .direct [u])
  | perf {k fd u} : k ≠ .iter → Match made (.typed k (.perf fd)) (.typed k .perf [u])
  | fds {k fds us} : k ≠ .iter → fds.length = us.length → (∀ u ∈ us, u < made.length) →
      Match made (.typed k (.fds fds)) (.typed k .links us)
  | perfs {k fds us} : k ≠ .iter → fds.length = us.length → Match made (.typed k (.perfs fds)) (.typed k .perfs us)
  | fdLink {fd u} : u < made.length → Match made (.fdLink fd) (.fdLink u)
  | pinned {path fd u} : u < made.length → Match made (.pinned path fd) (.pinned path u)
  | file {fd u} : Match made (.file fd) (.out u)

theorem Match.grow {made : List (Nat × Nat)} {more : List (Nat × Nat)} {h : Handle} {v : Have} (m : Match made h v) :
    Match (made ++ more) h v := by
  have hl : made.length ≤ (made ++ more).length := by simp
  cases m with
  | fd e f => exact .fd (by rw [List.getElem?_append_left (List.getElem?_eq_some_iff.1 e).1]; exact e) f
  | direct e => exact .direct e
  | perf e => exact .perf e
  | fds e f g => exact .fds e f (fun u hu => Nat.lt_of_lt_of_le (g u hu) hl)
  | perfs e f => exact .perfs e f
  | fdLink e => exact .fdLink (Nat.lt_of_lt_of_le e hl)
  | pinned e => exact .pinned (Nat.lt_of_lt_of_le e hl)
  | file => exact .file

/-- The descriptors of a link at hand and what they stand for. -/
def objs : Handle × Have → List (Nat × Obj)
  | (.typed _ (.fd fd), .typed _ _ [u]) => [(fd, .link u)]
  | (.typed _ (.perf fd), .typed _ _ [u]) => [(fd, .perf u true)]
  | (.typed _ (.fds fds), .typed _ _ us) => (fds.zip us).map (fun p => (p.1, .link p.2))
  | (.typed _ (.perfs fds), .typed _ _ us) => (fds.zip us).map (fun p => (p.1, .perf p.2 true))
  | (.fdLink fd, .fdLink u) => [(fd, .link u)]
  | (.pinned _ fd, .pinned _ u) => [(fd, .link u)]
  | (.file fd, .out u) => [(fd, .out u)]
  | _ => []

/-- The attachments without a link that it stands for. -/
def directs : Handle × Have → List Nat
  | (.typed _ (.direct u), _) => [u]
  | _ => []

/-- The state of the code and what it means. -/
structure Rel (gs : List (Handle × Have)) (s : St) (a : A) : Prop where
  hs : s.hs = gs.map (·.1)
  have_ : a.have_ = gs.map (·.2)
  matches_ : ∀ g ∈ gs, Match a.made g.1 g.2
  own : Own s.k (gs.flatMap objs) (gs.flatMap directs ++ a.left)
  files : s.k.files = a.files
  made : s.k.made = a.made
  named : ∀ f ∈ a.files, f.2 < a.made.length

variable {gs : List (Handle × Have)} {s : St} {a : A}

theorem eraseIdx_perm {α : Type} {x : α} : ∀ {l : List α} {i : Nat}, l[i]? = some x → l.Perm (x :: l.eraseIdx i)
  | [], _, h => by simp at h
  | y :: l, 0, h => by simp at h; simp [h]
  | y :: l, i + 1, h => by
    have := eraseIdx_perm (l := l) (i := i) (by simpa using h)
    exact (this.cons y).trans (List.Perm.swap ..)

theorem Rel.take (r : Rel gs s a) {i : Nat} {g : Handle × Have} (hg : gs[i]? = some g) :
    Own s.k (objs g ++ (gs.eraseIdx i).flatMap objs) (directs g ++ ((gs.eraseIdx i).flatMap directs ++ a.left)) := by
  refine r.own.mono ?_ ?_
  · exact (eraseIdx_perm hg).flatMap_right objs |>.trans (by simp)
  · refine (((eraseIdx_perm hg).flatMap_right directs).append_right a.left).trans (by simp)

theorem Rel.at (r : Rel gs s a) (i : Nat) :
    (gs[i]? = none ∧ s.hs[i]? = none ∧ a.have_[i]? = none) ∨
    ∃ h v, gs[i]? = some (h, v) ∧ s.hs[i]? = some h ∧ a.have_[i]? = some v ∧ Match a.made h v := by
  rw [r.hs, r.have_]
  rcases e : gs[i]? with _ | ⟨h, v⟩
  · exact .inl ⟨rfl, by simp [e], by simp [e]⟩
  · exact .inr ⟨h, v, rfl, by simp [e], by simp [e], r.matches_ _ (List.mem_of_getElem? e)⟩

theorem eraseIdx_map {α β : Type} (f : α → β) : ∀ (l : List α) (i : Nat), (l.eraseIdx i).map f = (l.map f).eraseIdx i
  | [], _ => by simp
  | _ :: _, 0 => by simp
  | x :: l, i + 1 => by simp [eraseIdx_map f l i]

theorem mem_eraseIdx {α : Type} {l : List α} {i : Nat} {x : α} (h : x ∈ l.eraseIdx i) : x ∈ l :=
  List.mem_of_mem_eraseIdx h

/-- A link is consumed and others are made. -/
theorem Rel.next (r : Rel gs s a) (i : Nat) (new : List (Handle × Have)) {k' : K} {a' : A}
    (hhave : a'.have_ = a.have_.eraseIdx i ++ new.map (·.2)) (hmade : a'.made = a.made) (hk : k'.made = a.made)
    (hfiles : k'.files = a'.files) (hnamed : ∀ f ∈ a'.files, f.2 < a.made.length)
    (hnew : ∀ g ∈ new, Match a.made g.1 g.2)
    (hown : Own k' (new.flatMap objs ++ (gs.eraseIdx i).flatMap objs)
      (new.flatMap directs ++ ((gs.eraseIdx i).flatMap directs ++ a'.left))) :
    Rel (gs.eraseIdx i ++ new) ⟨s.hs.eraseIdx i ++ new.map (·.1), k'⟩ a' := by
  refine ⟨by simp [eraseIdx_map, r.hs], by simp [eraseIdx_map, hhave, r.have_], fun g hg => ?_, ?_, hfiles, by rw [hk, hmade], by
    rw [hmade]; exact hnamed⟩
  · rw [hmade]
    rcases List.mem_append.1 hg with h | h
    · exact r.matches_ g (mem_eraseIdx h)
    · exact hnew g h
  · rw [List.flatMap_append, List.flatMap_append, List.append_assoc]
    refine hown.mono List.perm_append_comm ?_
    rw [← List.append_assoc, ← List.append_assoc]
    exact List.perm_append_comm.append_right _

end Verif.Conv
