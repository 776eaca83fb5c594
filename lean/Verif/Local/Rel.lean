import Verif.Local.Run
import Verif.Maps.Props

/-!
# Storage of sockets, inodes and cgroups: cells and values
-/
set_option linter.unusedSimpArgs false
set_option linter.unusedVariables false
namespace Verif.Local
open Spec Verif.Bytes

/-- A cell and what a program points to. `γ` gives the cells of lost values. -/
def PMatch (γ : Nat → Nat) (k : K) (n : Nat) : Option (Nat × Nat) → Option Ptr → Prop
  | none, none => True
  | some p, some (.to m s c) => k.at_ m s = some p.1 ∧ p.2 = c
  | some p, some (.lost g c) => g < n ∧ γ g = p.1 ∧ p.2 = c
  | _, _ => False

structure RelV (γ : Nat → Nat) (k : K) (ps : List (Nat × Nat)) (a : A) : Prop where
  val : ∀ m s, a.val m s = (k.at_ m s).map k.cells
  below : ∀ m s id, k.at_ m s = some id → id < k.next
  one : ∀ m s m' s' id, k.at_ m s = some id → k.at_ m' s' = some id → m = m' ∧ s = s'
  sizes : ∀ m s f, a.val m s = some f → ∃ t, a.world.tables[m]? = some t ∧ ∀ c, (f c).length = t.vsize
  lost : ∀ (g : Nat) f, a.lost[g]? = some f → f = k.cells (γ g) ∧ γ g < k.next ∧ ∀ m s, k.at_ m s ≠ some (γ g)
  lostOne : ∀ g g', g < a.lost.length → g' < a.lost.length → γ g = γ g' → g = g'
  ptrs : ∀ i : Nat, PMatch γ k a.lost.length ps[i]? a.ptrs[i]?

theorem RelV.init (γ : Nat → Nat) : RelV γ {} [] {} where
  val _ _ := rfl
  below _ _ _ h := nomatch h
  one _ _ _ _ _ h := nomatch h
  sizes _ _ _ h := nomatch h
  lost _ _ h := nomatch h
  lostOne _ _ h := nomatch h
  ptrs _ := trivial

/-- Only what is in the world, and handles, have changed. -/
theorem RelV.other {γ : Nat → Nat} {k : K} {ps : List (Nat × Nat)} {a : A} (r : RelV γ k ps a) (k' : K) (a' : A)
    (h1 : k'.cells = k.cells) (h2 : k'.next = k.next) (h3 : k'.at_ = k.at_)
    (g1 : a'.val = a.val) (g2 : a'.lost = a.lost) (g3 : a'.ptrs = a.ptrs)
    (ht : ∀ (m : Nat) t, a.world.tables[m]? = some t → a'.world.tables[m]? = some t) : RelV γ k' ps a' where
  val m s := by rw [g1, h1, h3]; exact r.val m s
  below := by rw [h2, h3]; exact r.below
  one := by rw [h3]; exact r.one
  sizes m s f h := by
    rw [g1] at h
    obtain ⟨t, e, q⟩ := r.sizes m s f h
    exact ⟨t, ht _ _ e, q⟩
  lost := by rw [g2, h1, h2, h3]; exact r.lost
  lostOne := by rw [g2]; exact r.lostOne
  ptrs i := by
    have := r.ptrs i
    rw [g2, g3]
    rcases e : ps[i]? with _ | p <;> rcases e' : a.ptrs[i]? with _ | (⟨m, s, c⟩ | ⟨g, c⟩) <;> rw [e, e'] at this <;>
      simp only [PMatch, h3] at this ⊢ <;> exact this

/-- Another pointer to the value of a slot. -/
theorem RelV.point {γ : Nat → Nat} {k : K} {ps : List (Nat × Nat)} {a : A} (r : RelV γ k ps a) (m : Nat) (s : Slot) (id c : Nat)
    (h : k.at_ m s = some id) : RelV γ k (ps ++ [(id, c)]) { a with ptrs := a.ptrs ++ [.to m s c] } where
  val := r.val
  below := r.below
  one := r.one
  sizes := r.sizes
  lost := r.lost
  lostOne := r.lostOne
  ptrs i := by
    have hl : ps.length = a.ptrs.length := by
      rcases Nat.lt_trichotomy ps.length a.ptrs.length with q | q | q
      · have := r.ptrs ps.length
        rw [List.getElem?_eq_none (Nat.le_refl _), List.getElem?_eq_getElem q] at this
        exact (by simpa [PMatch] using this : False).elim
      · exact q
      · have := r.ptrs a.ptrs.length
        rw [List.getElem?_eq_none (l := a.ptrs) (Nat.le_refl _), List.getElem?_eq_getElem q] at this
        exact (by simpa [PMatch] using this : False).elim
    rcases Nat.lt_trichotomy i ps.length with q | q | q
    · rw [List.getElem?_append_left q, List.getElem?_append_left (by omega)]
      exact r.ptrs i
    · subst q
      rw [List.getElem?_concat_length, hl, List.getElem?_concat_length]
      exact ⟨h, rfl⟩
    · rw [List.getElem?_eq_none (by simp; omega), List.getElem?_eq_none (by simp; omega)]
      trivial

/-- A value where there was none, in a new cell. -/
theorem RelV.putNew {γ : Nat → Nat} {k : K} {ps : List (Nat × Nat)} {a : A} (r : RelV γ k ps a) (m : Nat) (s : Slot) (f : Nat → Spec.Bytes)
    (h : k.at_ m s = none) (hs : ∃ t, a.world.tables[m]? = some t ∧ ∀ c, (f c).length = t.vsize) :
    RelV γ (k.put m s f) ps (a.change m s f) where
  val m' s' := by
    simp only [A.change, K.put]
    by_cases e : m' = m ∧ s' = s
    · simp only [e, and_self, if_true, Option.map_some]
    · simp only [e, if_false]
      rw [r.val m' s']
      rcases q : k.at_ m' s' with _ | id
      · rfl
      · have := r.below _ _ _ q
        simp only [Option.map_some]
        rw [if_neg (by omega)]
  below m' s' id e := by
    simp only [K.put] at e ⊢
    split at e
    · cases e; omega
    · have := r.below _ _ _ e; omega
  one m1 s1 m2 s2 id e1 e2 := by
    simp only [K.put] at e1 e2
    split at e1 <;> split at e2
    · rename_i p q; exact ⟨p.1.trans q.1.symm, p.2.trans q.2.symm⟩
    · cases e1; have := r.below _ _ _ e2; omega
    · cases e2; have := r.below _ _ _ e1; omega
    · exact r.one _ _ _ _ _ e1 e2
  sizes m' s' f' e := by
    simp only [A.change] at e ⊢
    split at e
    · rename_i q; cases e; rw [q.1]; exact hs
    · exact r.sizes _ _ _ e
  lost g f' e := by
    obtain ⟨h1, h2, h3⟩ := r.lost g f' e
    simp only [K.put]
    refine ⟨by rw [if_neg (by omega)]; exact h1, by omega, fun m' s' q => ?_⟩
    split at q
    · simp only [Option.some.injEq] at q; omega
    · exact h3 _ _ q
  lostOne := r.lostOne
  ptrs i := by
    have := r.ptrs i
    simp only [A.change]
    rcases e : ps[i]? with _ | p <;> rcases e' : a.ptrs[i]? with _ | (⟨m', s', c⟩ | ⟨g, c⟩) <;> rw [e, e'] at this <;>
      simp only [PMatch, K.put] at this ⊢
    · refine ⟨?_, this.2⟩
      rw [if_neg]
      · exact this.1
      · rintro ⟨rfl, rfl⟩; rw [h] at this; cases this.1
    · exact this

/-- The value kept for a slot is written to in place. -/
theorem RelV.write {γ : Nat → Nat} {k : K} {ps : List (Nat × Nat)} {a : A} (r : RelV γ k ps a) (m : Nat) (s : Slot) (id : Nat)
    (f : Nat → Spec.Bytes) (h : k.at_ m s = some id) (hs : ∃ t, a.world.tables[m]? = some t ∧ ∀ c, (f c).length = t.vsize) :
    RelV γ (k.write id f) ps (a.change m s f) where
  val m' s' := by
    simp only [A.change, K.write]
    by_cases e : m' = m ∧ s' = s
    · simp only [e, and_self, if_true, h, Option.map_some]
    · simp only [e, if_false]
      rw [r.val m' s']
      rcases q : k.at_ m' s' with _ | id'
      · rfl
      · simp only [Option.map_some]
        rw [if_neg]
        rintro rfl
        exact e (r.one _ _ _ _ _ q h)
  below := r.below
  one := r.one
  sizes m' s' f' e := by
    simp only [A.change] at e ⊢
    split at e
    · rename_i q; cases e; rw [q.1]; exact hs
    · exact r.sizes _ _ _ e
  lost g f' e := by
    obtain ⟨h1, h2, h3⟩ := r.lost g f' e
    simp only [K.write]
    refine ⟨?_, h2, h3⟩
    rw [if_neg]
    · exact h1
    · rintro q; exact h3 m s (q ▸ h)
  lostOne := r.lostOne
  ptrs i := by
    have := r.ptrs i
    simp only [A.change]
    rcases e : ps[i]? with _ | p <;> rcases e' : a.ptrs[i]? with _ | (⟨m', s', c⟩ | ⟨g, c⟩) <;> rw [e, e'] at this <;>
      simp only [PMatch, K.write] at this ⊢ <;> exact this

/-- A lost value is written to. -/
theorem RelV.writeLost {γ : Nat → Nat} {k : K} {ps : List (Nat × Nat)} {a : A} (r : RelV γ k ps a) (g : Nat) (hg : g < a.lost.length)
    (u : (Nat → Spec.Bytes) → Nat → Spec.Bytes) :
    RelV γ (k.write (γ g) (u (k.cells (γ g)))) ps { a with lost := a.lost.modify g u } where
  val m' s' := by
    simp only [K.write]
    rw [r.val m' s']
    rcases q : k.at_ m' s' with _ | id'
    · rfl
    · simp only [Option.map_some]
      rw [if_neg]
      rintro rfl
      exact (r.lost g _ (List.getElem?_eq_getElem hg)).2.2 _ _ q
  below := r.below
  one := r.one
  sizes := r.sizes
  lost g' f' e := by
    simp only [List.getElem?_modify] at e
    simp only [K.write]
    rcases q : a.lost[g']? with _ | f
    · rw [q] at e; cases e
    · rw [q] at e
      obtain ⟨h1, h2, h3⟩ := r.lost g' f q
      refine ⟨?_, h2, h3⟩
      by_cases e2 : g = g'
      · subst e2
        rw [if_pos rfl]
        simp only [if_true, Option.map_eq_map, Option.map_some, Option.some.injEq] at e
        rw [← h1]; exact e.symm
      · simp only [e2, if_false, Option.map_eq_map, Option.map_some, Option.some.injEq, id] at e
        rw [if_neg, ← e, h1]
        · rintro q2
          obtain ⟨hl, _⟩ := List.getElem?_eq_some_iff.mp q
          exact e2 (r.lostOne _ _ hl hg q2).symm
  lostOne := by simp only [List.length_modify]; exact r.lostOne
  ptrs i := by
    have := r.ptrs i
    simp only [List.length_modify]
    rcases e : ps[i]? with _ | p <;> rcases e' : a.ptrs[i]? with _ | (⟨m', s', c⟩ | ⟨g, c⟩) <;> rw [e, e'] at this <;>
      simp only [PMatch, K.write] at this ⊢ <;> exact this

/-- A value is removed. -/
theorem RelV.erase {γ : Nat → Nat} {k : K} {ps : List (Nat × Nat)} {a : A} (r : RelV γ k ps a) (m : Nat) (s : Slot) (id : Nat)
    (h : k.at_ m s = some id) :
    RelV (fun g => if g = a.lost.length then id else γ g) (k.erase m s) ps (a.renew m s none) := by
  have hv : a.val m s = some (k.cells id) := by rw [r.val, h]; rfl
  have hne : ∀ m' s', ¬ (m' = m ∧ s' = s) → k.at_ m' s' ≠ some id := fun m' s' q e => q (r.one _ _ _ _ _ e h)
  have e0 : a.renew m s none = { a with
        val := fun m' s' => if m' = m ∧ s' = s then none else a.val m' s'
        lost := a.lost ++ [k.cells id]
        ptrs := a.ptrs.map (Ptr.detach m s a.lost.length) } := by simp only [A.renew, hv]
  rw [e0]
  refine ⟨fun m' s' => ?_, fun m' s' id' e => ?_, fun m1 s1 m2 s2 id' e1 e2 => ?_, fun m' s' f e => ?_, fun g f e => ?_,
    fun g g' l l' e => ?_, fun i => ?_⟩
  · simp only [K.erase]
    by_cases e : m' = m ∧ s' = s
    · simp only [e, and_self, if_true, Option.map_none]
    · simp only [e, if_false]; exact r.val _ _
  · simp only [K.erase] at e ⊢
    split at e
    · cases e
    · exact r.below _ _ _ e
  · simp only [K.erase] at e1 e2
    split at e1
    · cases e1
    · split at e2
      · cases e2
      · exact r.one _ _ _ _ _ e1 e2
  · simp only at e ⊢
    split at e
    · cases e
    · exact r.sizes _ _ _ e
  · simp only [K.erase]
    by_cases q : g = a.lost.length
    · subst q
      simp only [List.getElem?_concat_length, Option.some.injEq] at e
      simp only [if_true]
      refine ⟨e.symm, r.below _ _ _ h, fun m' s' e' => ?_⟩
      split at e'
      · cases e'
      · rename_i q; exact hne _ _ q e'
    · simp only [q, if_false]
      have hl : g < a.lost.length := by
        have := (List.getElem?_eq_some_iff.mp e).1
        simp only [List.length_append, List.length_singleton] at this
        omega
      rw [List.getElem?_append_left hl] at e
      obtain ⟨h1, h2, h3⟩ := r.lost g f e
      refine ⟨h1, h2, fun m' s' e' => ?_⟩
      split at e'
      · cases e'
      · exact h3 _ _ e'
  · simp only [List.length_append, List.length_singleton] at l l'
    by_cases q : g = a.lost.length <;> by_cases q' : g' = a.lost.length <;> simp only [q, q', if_true, if_false] at e
    · omega
    · have hl : g' < a.lost.length := by omega
      exact ((r.lost g' _ (List.getElem?_eq_getElem hl)).2.2 m s (e ▸ h)).elim
    · have hl : g < a.lost.length := by omega
      exact ((r.lost g _ (List.getElem?_eq_getElem hl)).2.2 m s (e ▸ h)).elim
    · exact r.lostOne _ _ (by omega) (by omega) e
  · have := r.ptrs i
    simp only [List.getElem?_map, List.length_append, List.length_singleton]
    rcases e : ps[i]? with _ | p <;> rcases e' : a.ptrs[i]? with _ | (⟨m', s', c⟩ | ⟨g, c⟩) <;> rw [e, e'] at this <;>
      simp only [PMatch] at this
    · exact trivial
    · simp only [Option.map_some, Ptr.detach]
      by_cases q : m' = m ∧ s' = s
      · simp only [q, and_self, if_true, PMatch]
        rw [q.1, q.2, h] at this
        exact ⟨by omega, by simpa using this.1, this.2⟩
      · simp only [q, if_false, PMatch, K.erase]
        exact this
    · simp only [Option.map_some, Ptr.detach, PMatch]
      refine ⟨by omega, ?_, this.2.2⟩
      rw [if_neg (by omega)]; exact this.2.1

theorem renew_some (a : A) (m : Nat) (s : Slot) (f : Nat → Spec.Bytes) : a.renew m s (some f) = (a.renew m s none).change m s f := by
  rcases e : a.val m s with _ | old <;> simp only [A.renew, e, A.change] <;> congr 1 <;> funext m' s' <;>
    (by_cases q : m' = m ∧ s' = s <;> simp [q])

/-- Another value is kept for a slot. -/
theorem RelV.replace {γ : Nat → Nat} {k : K} {ps : List (Nat × Nat)} {a : A} (r : RelV γ k ps a) (m : Nat) (s : Slot) (f : Nat → Spec.Bytes)
    (hs : ∃ t, a.world.tables[m]? = some t ∧ ∀ c, (f c).length = t.vsize) :
    ∃ γ', RelV γ' (k.put m s f) ps (a.renew m s (some f)) := by
  rcases e : k.at_ m s with _ | id
  · refine ⟨γ, ?_⟩
    have : a.renew m s (some f) = a.change m s f := by
      have hv : a.val m s = none := by rw [r.val, e]; rfl
      simp only [A.renew, hv, A.change]
    rw [this]
    exact r.putNew m s f e hs
  · refine ⟨fun g => if g = a.lost.length then id else γ g, ?_⟩
    · have h1 := r.erase m s id e
      have hw : (a.renew m s none).world = a.world := by
        simp only [A.renew]; split <;> rfl
      have h2 := h1.putNew m s f (by simp [K.erase]) (by rw [hw]; exact hs)
      rw [renew_some]
      have : (k.erase m s).put m s f = k.put m s f := by
        simp only [K.erase, K.put]
        congr 1
        funext m' s'
        by_cases q : m' = m ∧ s' = s <;> simp [q]
      rw [this] at h2
      exact h2

/-! ## Values of all CPUs -/

theorem spread_read (cpus vsize : Nat) (f : Nat → Spec.Bytes) (hp : 0 < vsize) (hf : ∀ c, (f c).length = vsize) :
    Maps.fromKernelMem vsize (spread cpus vsize f) = some ((List.range cpus).map f) := by
  have hv : ∀ v ∈ (List.range cpus).map f, v.length = vsize := by
    intro v hv
    obtain ⟨c, _, rfl⟩ := List.mem_map.mp hv
    exact hf c
  obtain ⟨mem, h1, h2⟩ := Maps.C29_round_trip cpus vsize ((List.range cpus).map f) hp (by simp) hv
  rw [Maps.buildKernelMem_eq cpus vsize _ (by simp) hv] at h1
  have : spread cpus vsize f = mem := by
    simp only [Option.some.injEq] at h1
    rw [← h1, spread, List.map_map]
    congr 1
    apply List.map_congr_left
    intro c _
    simp only [Function.comp, Maps.padded, hf]
    rfl
  rw [this]; exact h2

theorem piece_build (cpus vsize : Nat) (values : List Spec.Bytes) (hn : values.length = cpus) (hv : ∀ v ∈ values, v.length = vsize) :
    ∃ mem, Maps.buildKernelMem cpus vsize values = some mem ∧ ∀ c v, values[c]? = some v → piece vsize mem c = v := by
  obtain ⟨mem, stride, h1, h2, h3, h4⟩ := Maps.C29_layout cpus vsize values hn hv
  refine ⟨mem, h1, fun c v e => ?_⟩
  have h := h4 c v e
  have es : stride = wide vsize := Maps.stride_unique h2
  have hl := hv v (List.mem_of_getElem? e)
  have hw : vsize ≤ stride := h2.2.1
  rw [Maps.Spec.slot] at h
  rw [piece, ← es]
  have : ((mem.drop (c * stride)).take stride).take vsize = (mem.drop (c * stride)).take vsize := by
    rw [List.take_take, Nat.min_eq_left hw]
  rw [← this, h, ← hl, List.take_left]

end Verif.Local
