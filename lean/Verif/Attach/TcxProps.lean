import Verif.Attach.TcxSpec
import Verif.Common.Except

set_option linter.unusedVariables false
set_option linter.unusedSimpArgs false

/-!
# C69: classifiers run in the order asked for
-/
namespace Verif.Attach.Tcx
open Spec
open Verif.Util (TcAttachType)

theorem insertIdx_split {α : Type} (front back : List α) (e : α) :
    (front ++ back).insertIdx front.length e = front ++ e :: back := by
  induction front with
  | nil => simp
  | cons a as ih => simp [ih]

theorem findIdx_split {es : List Entry} {q : Entry → Bool} {k : Nat} (h : es.findIdx? q = some k) :
    ∃ front x back, es = front ++ x :: back ∧ q x = true ∧ (∀ y ∈ front, ¬ q y = true) ∧ front.length = k := by
  induction es generalizing k with
  | nil => simp at h
  | cons a as ih =>
    rw [List.findIdx?_cons] at h
    by_cases ha : q a = true
    · simp only [ha, if_true, Option.some.injEq] at h
      exact ⟨[], a, as, rfl, ha, by simp, by simpa using h⟩
    · simp only [ha, Bool.false_eq_true, if_false, Option.map_eq_some_iff] at h
      obtain ⟨k', hk, rfl⟩ := h
      obtain ⟨front, x, back, rfl, hx, hf, hl⟩ := ih hk
      refine ⟨a :: front, x, back, rfl, hx, ?_, by simp [hl]⟩
      intro y hy
      rcases List.mem_cons.mp hy with rfl | hy
      · simpa using ha
      · exact hf y hy

/-- The position found for an order, in terms of what it means. -/
theorem position_placed {w : World} {i t : Nat} {say : Say} {o : LinkOrder} {x : Where} {r : Option (Option Nat × Nat)}
    {k : Nat} (e : Entry) (ho : say.order = .ok o) (hm : say.Means w x) (hc : Consistent w)
    (h0 : say.byProgram = true → say.needs ≠ some 0)
    (hr : relative w o.flags o.linkRef.value = .ok r) (hk : position (w.list i t) o.flags r = .ok k) :
    Placed (w.list i t) e ((w.list i t).insertIdx k e) x := by
  have key : ∀ (a : Anchor) (rr : Option Nat × Nat), (∀ y ∈ w.list i t, isRel rr y = true ↔ a.is y) → ∀ k',
      (w.list i t).findIdx? (isRel rr) = some k' → ∃ front y back, w.list i t = front ++ y :: back ∧ a.is y ∧
        (∀ z ∈ front, ¬ a.is z) ∧ front.length = k' := by
    intro a rr hrr k' hk'
    obtain ⟨front, y, back, he, hy, hf, hl⟩ := findIdx_split hk'
    refine ⟨front, y, back, he, (hrr y (by rw [he]; simp)).mp hy, ?_, hl⟩
    intro z hz haz
    exact hf z hz ((hrr z (by rw [he]; simp [hz])).mpr haz)
  have before : ∀ (a : Anchor) (rr : Option Nat × Nat), (∀ y ∈ w.list i t, isRel rr y = true ↔ a.is y) →
      (w.list i t).findIdx? (isRel rr) = some k → Placed (w.list i t) e ((w.list i t).insertIdx k e) (.before a) := by
    intro a rr hrr hk'
    obtain ⟨front, y, back, he, hy, hf, hl⟩ := key a rr hrr k hk'
    refine ⟨front, y, back, he, hy, hf, ?_⟩
    rw [he, ← hl, insertIdx_split]
  have after : ∀ (a : Anchor) (rr : Option Nat × Nat) (k' : Nat), (∀ y ∈ w.list i t, isRel rr y = true ↔ a.is y) →
      (w.list i t).findIdx? (isRel rr) = some k' → k = k' + 1 →
      Placed (w.list i t) e ((w.list i t).insertIdx k e) (.after a) := by
    intro a rr k' hrr hk' hkk
    obtain ⟨front, y, back, he, hy, hf, hl⟩ := key a rr hrr k' hk'
    refine ⟨front, y, back, he, hy, hf, ?_⟩
    have : front ++ y :: back = (front ++ [y]) ++ back := by simp
    rw [he, this, hkk, ← hl, show front.length + 1 = (front ++ [y]).length by simp, insertIdx_split]
    simp
  have relLink : ∀ l p, w.linkProg l = some p → ∀ y ∈ w.list i t, isRel (some l, p) y = true ↔ (Anchor.link l).is y := by
    intro l p hlp y hy
    simp only [isRel, Anchor.is, Option.isNone_some, Bool.false_or, Bool.and_eq_true, beq_iff_eq]
    constructor
    · exact fun h => h.2
    · intro h
      refine ⟨?_, h⟩
      have := hc i t y l hy h
      rw [hlp] at this
      exact (Option.some.inj this).symm
  have relProg : ∀ p, ∀ y ∈ w.list i t, isRel (none, p) y = true ↔ (Anchor.prog p).is y := by
    intro p y hy
    simp [isRel, Anchor.is]
  cases say with
  | default =>
    simp only [Say.order, Except.ok.injEq] at ho
    subst ho
    simp only [Say.Means] at hm
    subst hm
    simp [relative, LinkOrder.default, LinkRef.value] at hr
    subst hr
    simp [position, LinkOrder.default] at hk
    subst hk
    simp [Placed, List.insertIdx_length_self]
  | first =>
    simp only [Say.order, Except.ok.injEq] at ho
    subst ho
    simp only [Say.Means] at hm
    subst hm
    simp [relative, LinkOrder.first, LinkRef.value] at hr
    subst hr
    simp [position, LinkOrder.first] at hk
    subst hk
    simp [Placed]
  | last =>
    simp only [Say.order, Except.ok.injEq] at ho
    subst ho
    simp only [Say.Means] at hm
    subst hm
    simp [relative, LinkOrder.last, LinkRef.value] at hr
    subst hr
    simp [position, LinkOrder.last] at hk
    subst hk
    simp [Placed, List.insertIdx_length_self]
  | beforeLink l =>
    obtain ⟨f, l', rfl, hf, rfl⟩ := hm
    simp only [Say.order, LinkOrder.beforeLink, linkFd, Except.map, Except.ok.injEq] at ho
    subst ho
    simp only [relative, LinkRef.value] at hr
    simp [hf] at hr
    cases hp : w.linkProg l' with
    | none => simp [hp] at hr
    | some p =>
      simp [hp] at hr
      subst hr
      simp only [position] at hk
      cases hi : (w.list i t).findIdx? (isRel (some l', p)) with
      | none => simp [hi] at hk
      | some k' =>
        simp [hi] at hk
        subst hk
        exact before _ _ (relLink l' p hp) hi
  | afterLink l =>
    obtain ⟨f, l', rfl, hf, rfl⟩ := hm
    simp only [Say.order, LinkOrder.afterLink, linkFd, Except.map, Except.ok.injEq] at ho
    subst ho
    simp only [relative, LinkRef.value] at hr
    simp [hf] at hr
    cases hp : w.linkProg l' with
    | none => simp [hp] at hr
    | some p =>
      simp [hp] at hr
      subst hr
      simp only [position] at hk
      cases hi : (w.list i t).findIdx? (isRel (some l', p)) with
      | none => simp [hi] at hk
      | some k' =>
        simp [hi] at hk
        exact after _ _ k' (relLink l' p hp) hi hk.symm
  | beforeProgram p =>
    obtain ⟨f, q, hpf, hf, rfl⟩ := hm
    have h0 : f ≠ 0 := by
      have := h0 rfl
      simpa [Say.needs, hpf] using this
    simp only [Say.order, LinkOrder.beforeProgram, progFd, hpf, Except.map, Except.ok.injEq] at ho
    subst ho
    simp [relative, LinkRef.value, hf, h0] at hr
    subst hr
    simp only [position] at hk
    cases hi : (w.list i t).findIdx? (isRel (none, q)) with
    | none => simp [hi] at hk
    | some k' =>
      simp [hi] at hk
      subst hk
      exact before _ _ (relProg q) hi
  | afterProgram p =>
    obtain ⟨f, q, hpf, hf, rfl⟩ := hm
    have h0 : f ≠ 0 := by
      have := h0 rfl
      simpa [Say.needs, hpf] using this
    simp only [Say.order, LinkOrder.afterProgram, progFd, hpf, Except.map, Except.ok.injEq] at ho
    subst ho
    simp [relative, LinkRef.value, hf, h0] at hr
    subst hr
    simp only [position] at hk
    cases hi : (w.list i t).findIdx? (isRel (none, q)) with
    | none => simp [hi] at hk
    | some k' =>
      simp [hi] at hk
      exact after _ _ k' (relProg q) hi hk.symm
  | beforeProgramId q =>
    simp only [Say.order, Except.ok.injEq] at ho
    subst ho
    simp only [Say.Means] at hm
    subst hm
    simp only [relative, LinkOrder.beforeProgramId, LinkRef.value] at hr
    cases hq : w.exists_ q with
    | false => simp [hq] at hr
    | true =>
      simp [hq] at hr
      subst hr
      simp only [position, LinkOrder.beforeProgramId] at hk
      cases hi : (w.list i t).findIdx? (isRel (none, q)) with
      | none => simp [hi] at hk
      | some k' =>
        simp [hi] at hk
        subst hk
        exact before _ _ (relProg q) hi
  | afterProgramId q =>
    simp only [Say.order, Except.ok.injEq] at ho
    subst ho
    simp only [Say.Means] at hm
    subst hm
    simp only [relative, LinkOrder.afterProgramId, LinkRef.value] at hr
    cases hq : w.exists_ q with
    | false => simp [hq] at hr
    | true =>
      simp [hq] at hr
      subst hr
      simp only [position, LinkOrder.afterProgramId] at hk
      cases hi : (w.list i t).findIdx? (isRel (none, q)) with
      | none => simp [hi] at hk
      | some k' =>
        simp [hi] at hk
        exact after _ _ k' (relProg q) hi hk.symm

theorem means_later {w0 w : World} {say : Say} {x : Where} (h : ∀ f, say.needs = some f → w.fd f = w0.fd f)
    (hm : say.Means w0 x) : say.Means w x := by
  cases say with
  | beforeLink l =>
    obtain ⟨f, k, rfl, hf, rfl⟩ := hm
    exact ⟨f, k, rfl, by rw [h f rfl, hf], rfl⟩
  | afterLink l =>
    obtain ⟨f, k, rfl, hf, rfl⟩ := hm
    exact ⟨f, k, rfl, by rw [h f rfl, hf], rfl⟩
  | beforeProgram p =>
    obtain ⟨f, k, hp, hf, rfl⟩ := hm
    exact ⟨f, k, hp, by rw [h f hp, hf], rfl⟩
  | afterProgram p =>
    obtain ⟨f, k, hp, hf, rfl⟩ := hm
    exact ⟨f, k, hp, by rw [h f hp, hf], rfl⟩
  | _ => exact hm

theorem hook_type {t : TcAttachType} {ty : Nat} (h : tcxAttachType t = .ok ty) : hook t = some ty := by
  cases t <;> simp_all [tcxAttachType, hook]

/-- What creating a link comes to. -/
theorem sys_linkCreate {K : Kernel} {w : World} {f i t flags v P : Nat} (hp : w.fd f = some (.prog P)) :
    (∃ e, sys K w (.linkCreate f i t flags v) = (.error e, w)) ∨
    ∃ r k w', relative w flags v = .ok r ∧ position (w.list i t) flags r = .ok k ∧ K.tcx = true ∧
      (∀ e ∈ w.list i t, e.prog ≠ P) ∧
      sys K w (.linkCreate f i t flags v) = (.ok (K.newFd w, 0), w') ∧
      w'.list = (setList w i t ((w.list i t).insertIdx k ⟨some (K.newLink w), P⟩)).list ∧
      w'.fd = (setFd w (K.newFd w) (some (.link (K.newLink w)))).fd ∧
      w'.linkProg = (fun l => if l = K.newLink w then some P else w.linkProg l) := by
  cases hr : K.refuse w (.linkCreate f i t flags v) with
  | some e => exact .inl ⟨e, by simp [sys, hr]⟩
  | none =>
    simp only [sys, hr, hp, linkCreate]
    cases ht : K.tcx with
    | false => exact .inl ⟨22, by simp⟩
    | true =>
      cases hrel : relative w flags v with
      | error e => exact .inl ⟨e, by simp⟩
      | ok r =>
        by_cases h1 : (w.list i t).any (fun e => e.prog == P) = true
        · exact .inl ⟨17, by simp [h1]⟩
        · by_cases h2 : (w.list i t).length ≥ 64
          · exact .inl ⟨34, by simp only [h1, h2]; simp⟩
          · cases hk : position (w.list i t) flags r with
            | error e => exact .inl ⟨e, by simp only [h1, h2, hk]; simp⟩
            | ok k =>
              refine .inr ⟨r, k, { setFd (setList w i t ((w.list i t).insertIdx k ⟨some (K.newLink w), P⟩)) (K.newFd w)
                (some (.link (K.newLink w))) with linkProg := fun l => if l = K.newLink w then some P else w.linkProg l },
                rfl, hk, rfl, ?_, by simp only [h1, h2, hk]; simp; rfl, rfl, rfl, rfl⟩
              intro e he hc
              exact h1 (List.any_eq_true.mpr ⟨e, he, by simpa using hc⟩)

/-- **C69.** A classifier attached with an order stands where the order says, in the list of its interface and direction;
no other list changes. The order may have been made earlier: the link or program it was made from must still be open under
the same descriptor, which must not be 0 for a program. -/
theorem C69_order_partial (K : Kernel) (w0 w w' : World) (p p' : Prog) (f P i : Nat) (t : TcAttachType) (id : Id)
    (say : Say) (o : LinkOrder) (x : Where)
    (ho : say.order = .ok o) (hm : say.Means w0 x)
    (hlive : ∀ f, say.needs = some f → w.fd f = w0.fd f) (h0 : say.byProgram = true → say.needs ≠ some 0)
    (hw : Holds w p f P) (hc : Consistent w)
    (h : doAttach (sys K) p i t (.tcxOrder o) true w = (.ok id, p', w')) :
    ∃ ty e, hook t = some ty ∧ e.prog = P ∧ e.link.isSome = true ∧ Placed (w.list i ty) e (w'.list i ty) x ∧
      (∀ i' t', ¬ (i' = i ∧ t' = ty) → w'.list i' t' = w.list i' t') := by
  simp only [doAttach, hw.fd] at h
  cases ht : tcxAttachType t with
  | error e => simp [ht] at h
  | ok ty =>
    simp only [ht] at h
    rcases sys_linkCreate (K := K) (i := i) (t := ty) (flags := o.flags) (v := o.linkRef.value) hw.prog with
      ⟨e, he⟩ | ⟨r, k, w1, hr, hk, -, -, hs, hl, -, -⟩
    · simp [he] at h
    · simp only [hs, insert] at h
      split at h
      · simp at h
      · simp only [Prod.mk.injEq, Except.ok.injEq] at h
        obtain ⟨h1, h2, h3⟩ := h
        subst h3
        refine ⟨ty, ⟨some (K.newLink w), P⟩, hook_type ht, rfl, rfl, ?_, ?_⟩
        · rw [hl]
          simp only [setList, and_self, if_true]
          exact position_placed _ ho (means_later hlive hm) hc h0 hr hk
        · intro i' t' hne
          rw [hl]
          simp [setList, hne]

/-- **C69.** A failed attachment changes nothing. -/
theorem C69_order_failed (K : Kernel) (w w' : World) (p p' : Prog) (f P i : Nat) (t : TcAttachType) (e : Err)
    (o : LinkOrder) (hw : Holds w p f P) (hf : K.Fresh w)
    (h : doAttach (sys K) p i t (.tcxOrder o) true w = (.error e, p', w')) : w' = w ∧ p' = p := by
  simp only [doAttach, hw.fd] at h
  cases ht : tcxAttachType t with
  | error e =>
    simp only [ht, Prod.mk.injEq] at h
    exact ⟨h.2.2.symm, h.2.1.symm⟩
  | ok ty =>
    simp only [ht] at h
    rcases sys_linkCreate (K := K) (i := i) (t := ty) (flags := o.flags) (v := o.linkRef.value) hw.prog with
      ⟨e, he⟩ | ⟨r, k, w1, hr, hk, -, -, hs, hl, -, -⟩
    · simp only [he, Prod.mk.injEq] at h
      exact ⟨h.2.2.symm, h.2.1.symm⟩
    · simp only [hs, insert] at h
      split at h
      · rename_i hany
        simp only [List.any_eq_true, beq_iff_eq] at hany
        obtain ⟨l, hl, hid⟩ := hany
        cases l with
        | nl => simp [Inner.id] at hid
        | fd g =>
          simp only [Inner.id, Id.fd.injEq] at hid
          obtain ⟨l, hl⟩ := hw.links g hl
          rw [hid, hf.fd] at hl
          simp at hl
      · simp at h

/-- **C69.** Detaching takes exactly this link's entry out of the lists; the others keep their order. -/
theorem C69_detached (K : Kernel) (w : World) (p : Prog) (g L : Nat) (hg : w.fd g = some (.link L))
    (hl : p.links.find? (fun l => l.id == Id.fd g) = some (.fd g)) :
    ∃ w', detach (sys K) p (.fd g) w = (.ok (), { p with links := p.links.erase (.fd g) }, w') ∧
      ∀ i t, w'.list i t = (w.list i t).filter (fun e => e.link != some L) := by
  refine ⟨_, by simp only [detach, hl, Inner.detach]; rfl, ?_⟩
  intro i t
  simp [sys, hg, unlink, setFd]

theorem filter_insertIdx {es : List Entry} {e : Entry} {q : Entry → Bool} (hq : ∀ y ∈ es, q y = true) (he : q e = false) :
    ∀ k, k ≤ es.length → (es.insertIdx k e).filter q = es := by
  induction es with
  | nil =>
    intro k hk
    have : k = 0 := by simpa using hk
    subst this
    simp [he]
  | cons a as ih =>
    intro k hk
    cases k with
    | zero => simp [he, List.filter_eq_self.mpr hq]
    | succ k =>
      have := ih (fun y hy => hq y (by simp [hy])) k (by simpa using hk)
      simp [this, hq a (by simp)]

theorem position_le {es : List Entry} {flags k : Nat} {r : Option (Option Nat × Nat)} (h : position es flags r = .ok k) :
    k ≤ es.length := by
  unfold position at h
  split at h
  · split at h
    · split at h
      · simp at h
      · simp at h; omega
    · split at h
      · simp at h; omega
      · simp at h
  · split at h
    · split at h <;> simp at h
    · rename_i k' hk'
      have hlt : k' < es.length := by
        rw [List.findIdx?_eq_some_iff_getElem] at hk'
        exact hk'.1
      split at h
      · split at h
        · simp at h
        · simp at h; omega
      · split at h
        · simp at h; omega
        · simp at h

/-- **C69.** Attaching and then detaching leaves every list as it was. -/
theorem C69_round_trip (K : Kernel) (w w' : World) (p p' : Prog) (f P i : Nat) (t : TcAttachType) (id : Id)
    (o : LinkOrder) (hw : Holds w p f P) (hf : K.Fresh w)
    (h : doAttach (sys K) p i t (.tcxOrder o) true w = (.ok id, p', w')) :
    ∃ w'', detach (sys K) p' id w' = (.ok (), p, w'') ∧ w''.list = w.list := by
  simp only [doAttach, hw.fd] at h
  cases ht : tcxAttachType t with
  | error e => simp [ht] at h
  | ok ty =>
    simp only [ht] at h
    rcases sys_linkCreate (K := K) (i := i) (t := ty) (flags := o.flags) (v := o.linkRef.value) hw.prog with
      ⟨e, he⟩ | ⟨r, k, w1, hr, hk, -, -, hs, hl, hfd, -⟩
    · simp [he] at h
    · simp only [hs, insert] at h
      split at h
      · simp at h
      · rename_i hany
        simp only [Prod.mk.injEq, Except.ok.injEq] at h
        obtain ⟨h1, h2, h3⟩ := h
        subst h1 h2 h3
        have hnone : p.links.find? (fun l => l.id == (Inner.fd (K.newFd w)).id) = none := by
          rw [List.find?_eq_none]
          intro l hl hc
          exact hany (List.any_eq_true.mpr ⟨l, hl, hc⟩)
        have hmem : Inner.fd (K.newFd w) ∉ p.links := by
          intro hm
          have := List.find?_eq_none.mp hnone _ hm
          simp at this
        simp only [detach, List.find?_append, hnone, Option.none_or, List.find?_cons, beq_self_eq_true, Inner.detach]
        refine ⟨_, Prod.ext rfl (Prod.ext ?_ rfl), ?_⟩
        · simp only
          rw [List.erase_append_right _ hmem]
          simp
        · have hnew : w1.fd (K.newFd w) = some (.link (K.newLink w)) := by rw [hfd]; simp [setFd]
          simp only [sys, hnew]
          funext i' t'
          simp only [unlink, setFd, hl, setList]
          split
          · rename_i hh
            obtain ⟨rfl, rfl⟩ := hh
            apply filter_insertIdx
            · intro y hy
              simpa using hf.link _ _ y hy
            · simp
            · exact position_le hk
          · rw [List.filter_eq_self]
            intro y hy
            simpa using hf.link _ _ y hy

/-- **C69.** Replacing the program of a link keeps its position. -/
theorem C69_replaced (K : Kernel) (w w' : World) (p p' : Prog) (f P g L : Nat) (id : Id)
    (hw : Holds w p f P) (hg : w.fd g = some (.link L))
    (h : attachToLink (sys K) p (.fd g) w = (.ok id, p', w')) :
    id = .fd g ∧ p'.links = p.links ++ [.fd g] ∧
      ∀ i t, w'.list i t = (w.list i t).map (fun e => if e.link = some L then { e with prog := P } else e) := by
  simp only [attachToLink, hw.fd] at h
  have hs : (∃ e, sys K w (.linkUpdate g f) = (.error e, w)) ∨
      sys K w (.linkUpdate g f) = (.ok (0, 0), relink w L P) := by
    simp only [sys]
    cases hr : K.refuse w (.linkUpdate g f) with
    | some e => exact .inl ⟨e, by simp⟩
    | none => exact .inr (by simp [hg, hw.prog])
  rcases hs with ⟨e, he⟩ | ho
  · simp [he] at h
  · simp only [ho, insert] at h
    split at h
    · simp at h
    · simp only [Prod.mk.injEq, Except.ok.injEq] at h
      obtain ⟨h1, h2, h3⟩ := h
      subst h2 h3
      exact ⟨h1.symm, rfl, fun _ _ => rfl⟩

/-- **C69.** Attaching without options: last in the list where the kernel has them and the direction is not a custom one,
otherwise a filter with kernel-chosen priority and handle; an unknown interface is an error and nothing happens. -/
theorem C69_default {σ : Type} (sys : Sys σ) (at66 : Bool) (index : List Char → Nat) (p : Prog) (name : List Char)
    (t : TcAttachType) (s : σ) :
    attach sys at66 index p name t s =
      if '\x00' ∈ name ∨ index name = 0 then (.error .io, p, s)
      else if at66 = true ∧ hook t ≠ none then doAttach sys p (index name) t (.tcxOrder LinkOrder.default) true s
      else doAttach sys p (index name) t (.netlink 0 0 none) true s := by
  by_cases h1 : '\x00' ∈ name
  · cases t <;> cases at66 <;> simp [attach, attachWithOptions, ifIndexOf, isCustom, h1]
  · by_cases h2 : index name = 0
    · cases t <;> cases at66 <;> simp [attach, attachWithOptions, ifIndexOf, isCustom, h1, h2]
    · cases t <;> cases at66 <;> simp [attach, attachWithOptions, ifIndexOf, isCustom, hook, h1, h2]

/-! ### Runs -/

/-- Programs 70 to 73; links 500 and 501 run 71 and 72 on the incoming side of interface 2. -/
def k66 : Kernel :=
  { tcx := true, refuse := fun _ _ => none, filter := fun _ _ => .error 95, newFd := fun _ => 20, newLink := fun _ => 900 }
def w0 : World :=
  { fd := fun f => if f = 4 then some (.prog 70) else if f = 5 then some (.prog 71) else if f = 8 then some (.link 500)
      else if f = 9 then some (.link 501) else if f = 0 then some (.prog 72) else none
    exists_ := fun p => 70 ≤ p && p ≤ 73
    linkProg := fun l => if l = 500 then some 71 else if l = 501 then some 72 else none
    list := fun i t => if i = 2 ∧ t = 46 then [⟨some 500, 71⟩, ⟨some 501, 72⟩] else [] }
def prog0 : Prog := ⟨some 4, none, []⟩

private theorem holds0 : Holds w0 prog0 4 70 := ⟨rfl, rfl, by intro g hg; simp [prog0] at hg⟩
private theorem consistent0 : Consistent w0 := by
  intro i t e l he hl
  simp only [w0] at he ⊢
  split at he
  · simp only [List.mem_cons, List.not_mem_nil, or_false] at he
    rcases he with rfl | rfl <;> (simp at hl; subst hl; decide)
  · simp at he
private theorem fresh0 : k66.Fresh w0 := by
  refine ⟨rfl, ?_⟩
  intro i t e he
  simp only [w0] at he
  split at he
  · simp only [List.mem_cons, List.not_mem_nil, or_false] at he
    rcases he with rfl | rfl <;> decide
  · simp at he

private def after (say : Say) (w : World) : List Entry :=
  match say.order with
  | .error _ => []
  | .ok o => (doAttach (sys k66) prog0 2 .ingress (.tcxOrder o) true w).2.2.list 2 46

example : after .first w0 = [⟨some 900, 70⟩, ⟨some 500, 71⟩, ⟨some 501, 72⟩] ∧
    after .default w0 = [⟨some 500, 71⟩, ⟨some 501, 72⟩, ⟨some 900, 70⟩] ∧
    after (.beforeLink (.fd 9)) w0 = [⟨some 500, 71⟩, ⟨some 900, 70⟩, ⟨some 501, 72⟩] ∧
    after (.afterProgram ⟨some 5, none, []⟩) w0 = [⟨some 500, 71⟩, ⟨some 900, 70⟩, ⟨some 501, 72⟩] ∧
    after (.afterProgramId 72) w0 = [⟨some 500, 71⟩, ⟨some 501, 72⟩, ⟨some 900, 70⟩] := by decide +kernel

/-- **C69, violated.** An order made from a link keeps its descriptor number, not the link: the link can be closed before
the order is used, and when its number has been given to another link the classifier is placed next to that one. -/
theorem C69_stale_order_violated :
    ∃ (w0 w : World) (o : LinkOrder), (Say.beforeLink (.fd 9)).order = .ok o ∧
      (Say.beforeLink (.fd 9)).Means w0 (.before (.link 501)) ∧ w.fd 9 = some (.link 500) ∧
      w.list 2 46 = [⟨some 500, 71⟩, ⟨some 501, 72⟩] ∧
      (doAttach (sys k66) prog0 2 .ingress (.tcxOrder o) true w).1 = .ok (.fd 20) ∧
      (doAttach (sys k66) prog0 2 .ingress (.tcxOrder o) true w).2.2.list 2 46 =
        [⟨some 900, 70⟩, ⟨some 500, 71⟩, ⟨some 501, 72⟩] :=
  ⟨w0, setFd w0 9 (some (.link 500)), ⟨.fd 9, 8 ||| 8192⟩, rfl, ⟨9, 501, rfl, rfl, rfl⟩, rfl, by decide +kernel,
    by decide +kernel, by decide +kernel⟩

/-- **C69, violated.** An order made from a program whose descriptor is 0 is taken for "first" or "last". -/
theorem C69_fd_zero_violated :
    ∃ (w : World) (p : Prog) (o : LinkOrder), (Say.beforeProgram p).order = .ok o ∧
      (Say.beforeProgram p).Means w (.before (.prog 72)) ∧
      w.list 2 46 = [⟨some 500, 71⟩, ⟨some 501, 72⟩] ∧
      (doAttach (sys k66) prog0 2 .ingress (.tcxOrder o) true w).1 = .ok (.fd 20) ∧
      (doAttach (sys k66) prog0 2 .ingress (.tcxOrder o) true w).2.2.list 2 46 =
        [⟨some 900, 70⟩, ⟨some 500, 71⟩, ⟨some 501, 72⟩] :=
  ⟨w0, ⟨some 0, none, []⟩, ⟨.fd 0, 8⟩, rfl, ⟨0, 72, rfl, rfl, rfl⟩, by decide +kernel, by decide +kernel,
    by decide +kernel⟩

/-- Orders from netlink links or programs that are not loaded are refused. -/
example : (match (Say.beforeLink (.nl 2 .ingress 1 1 none)).order with | .error .invalidLink => true | _ => false) = true ∧
    (match (Say.afterProgram ⟨none, none, []⟩).order with | .error .notLoaded => true | _ => false) = true := by decide

end Verif.Attach.Tcx
