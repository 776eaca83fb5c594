import Verif.Mapped.Run

/-!
# Memory shared with the kernel: what is held

`Holds k0 k R F O`: compared with `k0`, the process has the ranges `R` mapped, the descriptors `F` open and the events `O` enabled, and nothing
else; and there was no fault.
-/
set_option linter.unusedSimpArgs false
set_option linter.unusedVariables false
namespace Verif.Mapped
open Spec

/-- Addresses, and whether they can be written. -/
structure Range where
  addr : Nat
  len : Nat
  write : Bool
deriving DecidableEq, Repr

def Range.has (r : Range) (x : Nat) : Prop := r.addr ≤ x ∧ x < r.addr + r.len

def Range.apart (r q : Range) : Prop := ∀ x, r.has x → ¬ q.has x

structure Holds (k0 k : K) (R : List Range) (F O : List Nat) : Prop where
  own : ∀ r ∈ R, ∀ x, r.has x → k.mem x = some r.write
  free : ∀ r ∈ R, ∀ x, r.has x → k0.mem x = none
  rest : ∀ x, (∀ r ∈ R, ¬ r.has x) → k.mem x = k0.mem x
  apart : R.Pairwise Range.apart
  fown : ∀ f ∈ F, (k.fds f).isSome
  ffree : ∀ f ∈ F, k0.fds f = none
  frest : ∀ f, f ∉ F → k.fds f = k0.fds f
  fnodup : F.Nodup
  on : ∀ f ∈ O, k.on f = true
  onfree : ∀ f ∈ O, k0.on f = false
  onrest : ∀ f, f ∉ O → k.on f = k0.on f
  clean : ∀ f, k0.on f = true → (k0.fds f).isSome
  osub : ∀ f ∈ O, f ∈ F
  onodup : O.Nodup
  faults : k.faults = 0

theorem Range.apart_symm {r q : Range} (h : r.apart q) : q.apart r := fun x hx hy => h x hy hx

theorem Holds.perm {k0 k : K} {R R' : List Range} {F F' O O' : List Nat} (h : Holds k0 k R F O) (hR : R.Perm R') (hF : F.Perm F')
    (hO : O.Perm O') : Holds k0 k R' F' O' where
  own r hr := h.own r (hR.mem_iff.mpr hr)
  free r hr := h.free r (hR.mem_iff.mpr hr)
  rest x hx := h.rest x (fun r hr => hx r (hR.mem_iff.mp hr))
  apart := (hR.pairwise_iff (fun a => Range.apart_symm a)).mp h.apart
  fown f hf := h.fown f (hF.mem_iff.mpr hf)
  ffree f hf := h.ffree f (hF.mem_iff.mpr hf)
  frest f hf := h.frest f (fun hc => hf (hF.mem_iff.mp hc))
  fnodup := hF.nodup_iff.mp h.fnodup
  on f hf := h.on f (hO.mem_iff.mpr hf)
  onfree f hf := h.onfree f (hO.mem_iff.mpr hf)
  onrest f hf := h.onrest f (fun hc => hf (hO.mem_iff.mp hc))
  clean := h.clean
  osub f hf := hF.mem_iff.mp (h.osub f (hO.mem_iff.mpr hf))
  onodup := hO.nodup_iff.mp h.onodup
  faults := h.faults

/-- An access within a range is no fault. -/
theorem Holds.access {k0 k : K} {R : List Range} {F O : List Nat} (h : Holds k0 k R F O) (a : Access) (r : Range) (hr : r ∈ R)
    (hal : a.addr % a.align = 0) (hlo : r.addr ≤ a.addr) (hhi : a.addr + a.len ≤ r.addr + r.len) (hw : a.write = true → r.write = true) :
    k.access a = k := by
  unfold K.access
  rw [if_pos]
  exact ⟨hal, fun x h1 h2 => ⟨r.write, h.own r hr x ⟨by omega, by omega⟩, hw⟩⟩

/-- A range that is free is mapped. -/
theorem Holds.mapped {k0 k : K} {R : List Range} {F O : List Nat} (h : Holds k0 k R F O) (a len : Nat) (write : Bool)
    (hfree : ∀ x, a ≤ x → x < a + len → k.mem x = none) :
    Holds k0 { k with mem := fun x => if a ≤ x ∧ x < a + len then some write else k.mem x } (⟨a, len, write⟩ :: R) F O := by
  have hap : ∀ r ∈ R, Range.apart ⟨a, len, write⟩ r := by
    intro r hr x hx hy
    have h1 := h.own r hr x hy
    rw [hfree x hx.1 hx.2] at h1
    cases h1
  exact
    { own := by
        intro r hr x hx
        rcases List.mem_cons.mp hr with rfl | hr
        · simp only [if_pos (show a ≤ x ∧ x < a + len from hx)]
        · have hn : ¬ (a ≤ x ∧ x < a + len) := fun hc => hap r hr x hc hx
          simp only [if_neg hn]
          exact h.own r hr x hx
      free := by
        intro r hr x hx
        rcases List.mem_cons.mp hr with rfl | hr
        · have h1 := hfree x hx.1 hx.2
          by_cases hc : ∃ q ∈ R, q.has x
          · obtain ⟨q, hq, hqx⟩ := hc
            exact h.free q hq x hqx
          · rw [← h.rest x (fun q hq hqx => hc ⟨q, hq, hqx⟩)]
            exact h1
        · exact h.free r hr x hx
      rest := by
        intro x hx
        have hn : ¬ (a ≤ x ∧ x < a + len) := fun hc => hx _ List.mem_cons_self hc
        simp only [if_neg hn]
        exact h.rest x (fun r hr => hx r (List.mem_cons_of_mem _ hr))
      apart := List.pairwise_cons.mpr ⟨hap, h.apart⟩
      fown := h.fown, ffree := h.ffree, frest := h.frest, fnodup := h.fnodup, on := h.on, onfree := h.onfree, onrest := h.onrest, clean := h.clean, osub := h.osub, onodup := h.onodup,
      faults := h.faults }

/-- A range is unmapped. -/
theorem Holds.unmapped {k0 k : K} {R : List Range} {F O : List Nat} (r : Range) (h : Holds k0 k (r :: R) F O) :
    Holds k0 { k with mem := fun x => if r.addr ≤ x ∧ x < r.addr + r.len then none else k.mem x } R F O := by
  have hap := List.pairwise_cons.mp h.apart
  exact
    { own := by
        intro q hq x hx
        have hn : ¬ (r.addr ≤ x ∧ x < r.addr + r.len) := fun hc => hap.1 q hq x hc hx
        simp only [if_neg hn]
        exact h.own q (List.mem_cons_of_mem _ hq) x hx
      free := fun q hq => h.free q (List.mem_cons_of_mem _ hq)
      rest := by
        intro x hx
        by_cases hc : r.addr ≤ x ∧ x < r.addr + r.len
        · simp only [if_pos hc]
          exact (h.free r List.mem_cons_self x hc).symm
        · simp only [if_neg hc]
          exact h.rest x (fun q hq => by
            rcases List.mem_cons.mp hq with rfl | hq
            · exact hc
            · exact hx q hq)
      apart := hap.2
      fown := h.fown, ffree := h.ffree, frest := h.frest, fnodup := h.fnodup, on := h.on, onfree := h.onfree, onrest := h.onrest, clean := h.clean, osub := h.osub, onodup := h.onodup,
      faults := h.faults }

/-- A descriptor is closed. -/
theorem Holds.closed {k0 k : K} {R : List Range} {F O : List Nat} (f : Nat) (h : Holds k0 k R (f :: F) O) (hO : f ∉ O) :
    Holds k0 { k with fds := fun x => if x = f then none else k.fds x } R F O := by
  have hnd := List.nodup_cons.mp h.fnodup
  exact
    { own := h.own, free := h.free, rest := h.rest, apart := h.apart
      fown := by
        intro g hg
        have hne : g ≠ f := fun e => hnd.1 (e ▸ hg)
        simp only [if_neg hne]
        exact h.fown g (List.mem_cons_of_mem _ hg)
      ffree := fun g hg => h.ffree g (List.mem_cons_of_mem _ hg)
      frest := by
        intro g hg
        by_cases hc : g = f
        · simp only [if_pos hc]
          rw [hc]
          exact (h.ffree f List.mem_cons_self).symm
        · simp only [if_neg hc]
          exact h.frest g (fun hm => by
            rcases List.mem_cons.mp hm with e | hm
            · exact hc e
            · exact hg hm)
      fnodup := hnd.2
      on := h.on, onfree := h.onfree, onrest := h.onrest, clean := h.clean
      osub := by
        intro g hg
        rcases List.mem_cons.mp (h.osub g hg) with rfl | hm
        · exact absurd hg hO
        · exact hm
      onodup := h.onodup
      faults := h.faults }

/-- A descriptor is opened; what it names is not enabled. -/
theorem Holds.opened {k0 k : K} {R : List Range} {F O : List Nat} (f : Nat) (x : Obj) (h : Holds k0 k R F O) (hf : k.fds f = none) :
    Holds k0 { k with fds := fun g => if g = f then some x else k.fds g } R (f :: F) O := by
  have hnot : f ∉ F := fun hc => by
    have := h.fown f hc
    rw [hf] at this
    cases this
  exact
    { own := h.own, free := h.free, rest := h.rest, apart := h.apart
      fown := by
        intro g hg
        by_cases hc : g = f
        · simp only [if_pos hc, Option.isSome]
        · simp only [if_neg hc]
          rcases List.mem_cons.mp hg with e | hg
          · exact absurd e hc
          · exact h.fown g hg
      ffree := by
        intro g hg
        rcases List.mem_cons.mp hg with rfl | hg
        · rw [← h.frest g hnot]
          exact hf
        · exact h.ffree g hg
      frest := by
        intro g hg
        have hc : g ≠ f := fun e => hg (e ▸ List.mem_cons_self)
        simp only [if_neg hc]
        exact h.frest g (fun hm => hg (List.mem_cons_of_mem _ hm))
      fnodup := List.nodup_cons.mpr ⟨hnot, h.fnodup⟩
      on := h.on, onfree := h.onfree, onrest := h.onrest, clean := h.clean
      osub := fun g hg => List.mem_cons_of_mem _ (h.osub g hg)
      onodup := h.onodup
      faults := h.faults }

/-- What is not open is not enabled. -/
theorem Holds.off {k0 k : K} {R : List Range} {F O : List Nat} (h : Holds k0 k R F O) (f : Nat) (hf : k.fds f = none) : k.on f = false := by
  have h1 : f ∉ F := fun hc => by
    have := h.fown f hc
    rw [hf] at this
    cases this
  have h2 : f ∉ O := fun hc => h1 (h.osub f hc)
  rw [h.onrest f h2]
  cases e : k0.on f
  · rfl
  · have h3 := h.clean f e
    rw [← h.frest f h1, hf] at h3
    cases h3

/-- An event is enabled. -/
theorem Holds.enabled {k0 k : K} {R : List Range} {F O : List Nat} (f : Nat) (h : Holds k0 k R F O) (hF : f ∈ F) (hO : f ∉ O) :
    Holds k0 { k with on := fun x => if x = f then true else k.on x } R F (f :: O) :=
  { own := h.own, free := h.free, rest := h.rest, apart := h.apart, fown := h.fown, ffree := h.ffree, frest := h.frest, fnodup := h.fnodup
    on := by
      intro g hg
      by_cases hc : g = f
      · simp only [if_pos hc]
      · simp only [if_neg hc]
        rcases List.mem_cons.mp hg with e | hg
        · exact absurd e hc
        · exact h.on g hg
    onfree := by
      intro g hg
      rcases List.mem_cons.mp hg with rfl | hg
      · cases e : k0.on g
        · rfl
        · have h1 := h.clean g e
          rw [h.ffree g hF] at h1
          cases h1
      · exact h.onfree g hg
    onrest := by
      intro g hg
      have hc : g ≠ f := fun e => hg (e ▸ List.mem_cons_self)
      simp only [if_neg hc]
      exact h.onrest g (fun hm => hg (List.mem_cons_of_mem _ hm))
    clean := h.clean
    osub := by
      intro g hg
      rcases List.mem_cons.mp hg with rfl | hg
      · exact hF
      · exact h.osub g hg
    onodup := List.nodup_cons.mpr ⟨hO, h.onodup⟩
    faults := h.faults }

/-- An event is disabled. -/
theorem Holds.disabled {k0 k : K} {R : List Range} {F O : List Nat} (f : Nat) (h : Holds k0 k R F (f :: O)) :
    Holds k0 { k with on := fun x => if x = f then false else k.on x } R F O := by
  have hnd := List.nodup_cons.mp h.onodup
  exact
    { own := h.own, free := h.free, rest := h.rest, apart := h.apart, fown := h.fown, ffree := h.ffree, frest := h.frest, fnodup := h.fnodup
      on := by
        intro g hg
        have hc : g ≠ f := fun e => hnd.1 (e ▸ hg)
        simp only [if_neg hc]
        exact h.on g (List.mem_cons_of_mem _ hg)
      onfree := fun g hg => h.onfree g (List.mem_cons_of_mem _ hg)
      onrest := by
        intro g hg
        by_cases hc : g = f
        · simp only [if_pos hc]
          rw [hc]
          exact (h.onfree f List.mem_cons_self).symm
        · simp only [if_neg hc]
          exact h.onrest g (fun hm => by
            rcases List.mem_cons.mp hm with e | hm
            · exact hc e
            · exact hg hm)
      clean := h.clean
      osub := fun g hg => h.osub g (List.mem_cons_of_mem _ hg)
      onodup := hnd.2
      faults := h.faults }

/-- An event that is not enabled is disabled: nothing changes. -/
theorem disabled_off (k : K) (f : Nat) (h : k.on f = false) : { k with on := fun x => if x = f then false else k.on x } = k := by
  have e : (fun x => if x = f then false else k.on x) = k.on := by
    funext g
    by_cases hc : g = f
    · simp only [if_pos hc]
      rw [hc, h]
    · simp only [if_neg hc]
  rw [e]

/-- Nothing held: everything is as it was. -/
theorem Holds.nothing {k0 k : K} (h : Holds k0 k [] [] []) : k.mem = k0.mem ∧ k.fds = k0.fds ∧ k.on = k0.on ∧ k.faults = 0 :=
  ⟨funext fun x => h.rest x (fun _ hr => (nomatch hr)), funext fun f => h.frest f (fun hc => nomatch hc),
    funext fun f => h.onrest f (fun hc => nomatch hc), h.faults⟩

/-- In the beginning. -/
theorem Holds.init (k : K) (hc : ∀ f, k.on f = true → (k.fds f).isSome) (hf : k.faults = 0) : Holds k k [] [] [] :=
  { own := fun _ hr => (nomatch hr), free := fun _ hr => (nomatch hr), rest := fun _ _ => rfl, apart := List.Pairwise.nil,
    fown := fun _ hr => (nomatch hr), ffree := fun _ hr => (nomatch hr), frest := fun _ _ => rfl, fnodup := List.Pairwise.nil,
    on := fun _ hr => (nomatch hr), onfree := fun _ hr => (nomatch hr), onrest := fun _ _ => rfl, clean := hc,
    osub := fun _ hr => (nomatch hr), onodup := List.Pairwise.nil, faults := hf }

/-- What is enabled is open. -/
theorem Holds.clean_now {k0 k : K} {R : List Range} {F O : List Nat} (h : Holds k0 k R F O) (f : Nat) (hf : k.on f = true) :
    (k.fds f).isSome := by
  cases e : k.fds f
  · rw [h.off f e] at hf
    cases hf
  · rfl

end Verif.Mapped
