import Verif.Attach.XdpSpec
import Verif.Common.Except

set_option linter.unusedVariables false
set_option linter.unusedSimpArgs false

/-!
# C68: an XDP program gets the place it was asked for, and only its own program is removed
-/
namespace Verif.Attach.Xdp
open Spec
open Verif.Netlink (XdpMode)

theorem flagsPlace_mode (K : Kernel) (i : Nat) (m : XdpMode) : flagsPlace K i m.flags = place K i m := by
  cases m <;> simp [flagsPlace, place, XdpMode.flags]

theorem flagsPlace_one (K : Kernel) (i : Nat) (m : XdpMode) : flagsPlace K i (m.flags ||| 1) = place K i m := by
  cases m <;> simp [flagsPlace, place, XdpMode.flags]

theorem flagsPlace_replace (K : Kernel) (i : Nat) (m : XdpMode) :
    flagsPlace K i (m.flags ||| 1 ||| 16) = place K i m := by
  cases m <;> simp [flagsPlace, place, XdpMode.flags]

theorem bits (m : XdpMode) : (m.flags ||| 1) &&& 16 = 0 ∧ (m.flags ||| 1) &&& 1 = 1 ∧
    (m.flags ||| 1 ||| 16) &&& 16 = 16 ∧ (m.flags ||| 1 ||| 16) &&& 1 = 1 := by
  cases m <;> decide

/-- What creating a link comes to. -/
theorem sys_linkCreate {K : Kernel} {w : World} {f i a P : Nat} {m : XdpMode} (hp : w.fd f = some (.prog P)) :
    (∃ e, sys K w (.linkCreate f i a m.flags) = (.error e, w)) ∨
    (w.place i (place K i m) = none ∧ sys K w (.linkCreate f i a m.flags) =
      (.ok (K.newFd w), setFd (setPlace w i (place K i m) (some (.link (K.newLink w) P))) (K.newFd w)
        (some (.link (K.newLink w))))) := by
  unfold sys
  cases hr : K.refuse w (.linkCreate f i a m.flags) with
  | some e => exact .inl ⟨e, by simp⟩
  | none =>
    simp only [World.prog, hp, linkCreate, flagsPlace_mode]
    by_cases h1 : K.links = true
    · by_cases h2 : (w.place i (place K i m)).isSome = true
      · exact .inl ⟨16, by simp [h1, h2]⟩
      · by_cases h3 : blocked w i (place K i m) = true
        · exact .inl ⟨17, by simp [h1, h2, h3]⟩
        · refine .inr ⟨by simpa using h2, by simp [h1, h2, h3]⟩
    · exact .inl ⟨22, by simp [h1]⟩

/-- What setting a program over netlink comes to. -/
theorem sys_setXdp {K : Kernel} {w : World} {f i P : Nat} {m : XdpMode} (hp : w.fd f = some (.prog P)) :
    (∃ e, netlinkSetXdpFd (sys K) i (some f) none m w = (.error e, w)) ∨
    (w.place i (place K i m) = none ∧ netlinkSetXdpFd (sys K) i (some f) none m w =
      (.ok 0, setPlace w i (place K i m) (some (.prog P)))) := by
  unfold netlinkSetXdpFd sys
  cases hr : K.refuse w (.setXdp i (some f) none (m.flags ||| 1)) with
  | some e => exact .inl ⟨e, by simp [hr]⟩
  | none =>
    simp only [hr, World.optProg, World.prog, hp, Option.map_some, setXdp, flagsPlace_one, bits]
    cases hc : w.place i (place K i m) with
    | some o =>
      cases o with
      | link l p => exact .inl ⟨16, by simp⟩
      | prog p => exact .inl ⟨16, by simp⟩
    | none =>
      by_cases hb : blocked w i (place K i m) = true
      · exact .inl ⟨17, by simp [hb]⟩
      · exact .inr ⟨rfl, by simp [hb]⟩

/-- Removing a program over netlink, with the expected program named. -/
theorem sys_remove {K : Kernel} {w : World} {f i P : Nat} {m : XdpMode} (hK : K.Frees) (hr : K.replace = true)
    (hp : w.fd f = some (.prog P)) :
    (netlinkSetXdpFd (sys K) i none (some f) m w).2 =
      if w.place i (place K i m) = some (.prog P) then setPlace w i (place K i m) none else w := by
  unfold netlinkSetXdpFd sys
  simp only [hK.2, World.optProg, World.prog, hp, Option.map_some, setXdp, flagsPlace_replace, bits, hr]
  cases hc : w.place i (place K i m) with
  | none => simp
  | some o =>
    cases o with
    | link l p => simp
    | prog p =>
      by_cases h : p = P
      · subst h; simp
      · simp [h]

/-- Removing whatever program is there. -/
theorem sys_remove_any {K : Kernel} {w : World} {i : Nat} {m : XdpMode} (hK : K.Frees) {P : Nat}
    (hw : w.place i (place K i m) = some (.prog P)) :
    (netlinkSetXdpFd (sys K) i none none m w).2 = setPlace w i (place K i m) none := by
  unfold netlinkSetXdpFd sys
  simp only [hK.2, World.optProg, setXdp, flagsPlace_one, bits, hw]
  simp

theorem setPlace_back {w : World} {i : Nat} {m : Place} {o : Option Occ} (h : w.place i m = none) :
    (setPlace (setPlace w i m o) i m none) = w := by
  unfold setPlace
  congr 1
  funext i' m'
  simp only
  split
  · rename_i h'
    obtain ⟨rfl, rfl⟩ := h'
    exact h.symm
  · rfl

theorem setPlace_self {w : World} {i : Nat} {m : Place} {o : Option Occ} : (setPlace w i m o).place i m = o := by
  simp [setPlace]

/-- **C68.** An XDP program that is attached sits in the place asked for, which was free; no other place of any
interface changes, and detaching works by the identifier returned. -/
theorem C68_attached (K : Kernel) (w w' : World) (p p' : Prog) (f P i : Nat) (m : XdpMode) (id : Id)
    (hw : Holds w p f P) (hf : K.Fresh w)
    (h : attachToIfIndex (sys K) K.replace p i m w = (.ok id, p', w')) :
    w.place i (place K i m) = none ∧
    (∃ o, o.program = P ∧ w'.place = (setPlace w i (place K i m) (some o)).place) ∧
    (∃ l, l.id = id ∧ p'.links = p.links ++ [l] ∧ p'.fd = p.fd ∧ p'.attachType = p.attachType) ∧
    Holds w' p' f P := by
  unfold attachToIfIndex at h
  simp only [hw.fd] at h
  rcases sys_linkCreate (K := K) (i := i) (a := p.attachType) (m := m) hw.prog with ⟨e, he⟩ | ⟨hn, ho⟩
  · simp only [he] at h
    split at h
    · simp at h
    · rcases sys_setXdp (K := K) (i := i) (m := m) hw.prog with ⟨e, he⟩ | ⟨hn, ho⟩
      · simp [he] at h
      · simp only [ho, insert] at h
        split at h
        · simp at h
        · simp only [Prod.mk.injEq, Except.ok.injEq] at h
          obtain ⟨h1, h2, h3⟩ := h
          subst h2 h3
          refine ⟨hn, ⟨.prog P, rfl, rfl⟩, ⟨_, h1, rfl, rfl, rfl⟩, hw.fd, hw.prog, ?_⟩
          intro g hg
          simp only [List.mem_append, List.mem_singleton, reduceCtorEq, or_false] at hg
          exact hw.links g hg
  · simp only [ho, insert] at h
    split at h
    · simp at h
    · simp only [Prod.mk.injEq, Except.ok.injEq] at h
      obtain ⟨h1, h2, h3⟩ := h
      subst h2 h3
      have hne : f ≠ K.newFd w := by
        intro e
        have := hf.fd
        rw [← e, hw.prog] at this
        simp at this
      refine ⟨hn, ⟨.link (K.newLink w) P, rfl, rfl⟩, ⟨_, h1, rfl, rfl, rfl⟩, hw.fd, ?_, ?_⟩
      · simp [setFd, setPlace, hne, hw.prog]
      · intro g hg
        simp only [List.mem_append, List.mem_singleton, Inner.fd.injEq] at hg
        by_cases hg' : g = K.newFd w
        · exact ⟨K.newLink w, by simp [setFd, hg']⟩
        · rcases hg with hg | hg
          · obtain ⟨l, hl⟩ := hw.links g hg
            exact ⟨l, by simp [setFd, setPlace, hg', hl]⟩
          · exact absurd hg hg'

/-- **C68.** If attaching fails, everything is as before. -/
theorem C68_attach_failed (K : Kernel) (w w' : World) (p p' : Prog) (f P i : Nat) (m : XdpMode) (e : Err)
    (hw : Holds w p f P) (hf : K.Fresh w) (hK : K.Frees)
    (h : attachToIfIndex (sys K) K.replace p i m w = (.error e, p', w')) : w' = w ∧ p' = p := by
  unfold attachToIfIndex at h
  simp only [hw.fd] at h
  rcases sys_linkCreate (K := K) (i := i) (a := p.attachType) (m := m) hw.prog with ⟨e, he⟩ | ⟨hn, ho⟩
  · simp only [he] at h
    split at h
    · simp only [Prod.mk.injEq] at h
      exact ⟨h.2.2.symm, h.2.1.symm⟩
    · rcases sys_setXdp (K := K) (i := i) (m := m) hw.prog with ⟨e, he⟩ | ⟨hn, ho⟩
      · simp only [he, Prod.mk.injEq] at h
        exact ⟨h.2.2.symm, h.2.1.symm⟩
      · simp only [ho, insert] at h
        split at h
        · simp only [Prod.mk.injEq, Inner.detach] at h
          obtain ⟨-, h2, h3⟩ := h
          refine ⟨?_, h2.symm⟩
          rw [← h3]
          by_cases hr : K.replace = true
          · simp only [hr, if_true]
            rw [sys_remove (P := P) (w := setPlace w i (place K i m) (some (.prog P))) hK hr hw.prog, setPlace_self, if_pos rfl, setPlace_back hn]
          · simp only [hr, Bool.false_eq_true, if_false]
            rw [sys_remove_any hK setPlace_self, setPlace_back hn]
        · simp at h
  · simp only [ho, insert] at h
    split at h
    · rename_i hany
      simp only [List.any_eq_true, beq_iff_eq] at hany
      obtain ⟨l, hl, hid⟩ := hany
      cases l with
      | nl i p m => simp [Inner.id] at hid
      | fd g =>
        simp only [Inner.id, Id.fd.injEq] at hid
        obtain ⟨l, hl⟩ := hw.links g hl
        rw [hid, hf.fd] at hl
        simp at hl
    · simp at h

/-- **C68.** Detaching a netlink link on a kernel that can compare (5.7) empties its place if the program is still the one
that was attached, and otherwise changes nothing. -/
theorem C68_detached_netlink (K : Kernel) (w : World) (p : Prog) (f P i : Nat) (m : XdpMode)
    (hK : K.Frees) (hr : K.replace = true) (hp : w.fd f = some (.prog P))
    (hl : p.links.find? (fun l => l.id == Id.nl i f) = some (.nl i f m)) :
    detach (sys K) K.replace p (.nl i f) w = (.ok (), { p with links := p.links.erase (.nl i f m) },
      if w.place i (place K i m) = some (.prog P) then setPlace w i (place K i m) none else w) := by
  simp only [detach, hl, Inner.detach, hr, if_true]
  rw [sys_remove (P := P) hK hr hp]

/-- **C68.** Detaching a link empties the places of this link and changes no other. -/
theorem C68_detached_link (K : Kernel) (w : World) (p : Prog) (g L : Nat) (hK : K.Frees)
    (hg : w.fd g = some (.link L)) (hl : p.links.find? (fun l => l.id == Id.fd g) = some (.fd g)) :
    ∃ w', detach (sys K) K.replace p (.fd g) w = (.ok (), { p with links := p.links.erase (.fd g) }, w') ∧
      w'.place = (unlink w L).place ∧ w'.fd = (setFd w g none).fd := by
  refine ⟨_, by simp only [detach, hl, Inner.detach]; rfl, ?_, ?_⟩
  · simp [sys, hK.1, hg, unlink, setFd]
  · simp [sys, hK.1, hg, unlink, setFd]

theorem unlink_new {K : Kernel} {w : World} {i : Nat} {m : Place} {P : Nat} (hf : K.Fresh w) (hn : w.place i m = none) :
    (unlink (setPlace w i m (some (.link (K.newLink w) P))) (K.newLink w)).place = w.place := by
  funext i' m'
  by_cases h : i' = i ∧ m' = m
  · obtain ⟨rfl, rfl⟩ := h
    simp [unlink, setPlace, hn]
  · simp only [unlink, setPlace, h, if_false]
    have := hf.linkPlace i' m'
    split
    · rename_i l' p' heq
      split
      · rename_i e
        subst e
        exact absurd heq (this _)
      · exact heq.symm
    · rfl

/-- **C68.** Attaching and then detaching leaves every interface as it was. -/
theorem C68_round_trip (K : Kernel) (w w' : World) (p p' : Prog) (f P i : Nat) (m : XdpMode) (id : Id)
    (hw : Holds w p f P) (hf : K.Fresh w) (hK : K.Frees)
    (h : attachToIfIndex (sys K) K.replace p i m w = (.ok id, p', w')) :
    ∃ w'', detach (sys K) K.replace p' id w' = (.ok (), p, w'') ∧ w''.place = w.place := by
  unfold attachToIfIndex at h
  simp only [hw.fd] at h
  rcases sys_linkCreate (K := K) (i := i) (a := p.attachType) (m := m) hw.prog with ⟨e, he⟩ | ⟨hn, ho⟩
  · simp only [he] at h
    split at h
    · simp at h
    · rcases sys_setXdp (K := K) (i := i) (m := m) hw.prog with ⟨e, he⟩ | ⟨hn, ho⟩
      · simp [he] at h
      · simp only [ho, insert] at h
        split at h
        · simp at h
        · rename_i hany
          simp only [Prod.mk.injEq, Except.ok.injEq] at h
          obtain ⟨h1, h2, h3⟩ := h
          subst h2 h3 h1
          have hnone : p.links.find? (fun l => l.id == (Inner.nl i f m).id) = none := by
            rw [List.find?_eq_none]
            intro l hl hc
            exact hany (List.any_eq_true.mpr ⟨l, hl, hc⟩)
          have hmem : Inner.nl i f m ∉ p.links := by
            intro hm
            have := List.find?_eq_none.mp hnone _ hm
            simp at this
          simp only [detach, List.find?_append, hnone, Option.none_or, List.find?_cons, beq_self_eq_true]
          refine ⟨_, Prod.ext rfl (Prod.ext ?_ rfl), ?_⟩
          · simp only
            rw [List.erase_append_right _ hmem]
            simp
          · simp only [Inner.detach]
            by_cases hr : K.replace = true
            · simp only [hr, if_true]
              rw [sys_remove (P := P) (w := setPlace w i (place K i m) (some (.prog P))) hK hr hw.prog, setPlace_self, if_pos rfl, setPlace_back hn]
            · simp only [hr, Bool.false_eq_true, if_false]
              rw [sys_remove_any hK setPlace_self, setPlace_back hn]
  · simp only [ho, insert] at h
    split at h
    · simp at h
    · rename_i hany
      simp only [Prod.mk.injEq, Except.ok.injEq] at h
      obtain ⟨h1, h2, h3⟩ := h
      subst h2 h3 h1
      have hnone : p.links.find? (fun l => l.id == (Inner.fd (K.newFd w)).id) = none := by
        rw [List.find?_eq_none]
        intro l hl hc
        exact hany (List.any_eq_true.mpr ⟨l, hl, hc⟩)
      have hmem : Inner.fd (K.newFd w) ∉ p.links := by
        intro hm
        have := List.find?_eq_none.mp hnone _ hm
        simp at this
      simp only [detach, List.find?_append, hnone, Option.none_or, List.find?_cons, beq_self_eq_true]
      refine ⟨_, Prod.ext rfl (Prod.ext ?_ rfl), ?_⟩
      · simp only
        rw [List.erase_append_right _ hmem]
        simp
      · simp only [Inner.detach, sys, hK.1]
        have : (setFd (setPlace w i (place K i m) (some (.link (K.newLink w) P))) (K.newFd w)
            (some (.link (K.newLink w)))).fd (K.newFd w) = some (.link (K.newLink w)) := by simp [setFd]
        simp only [this]
        exact unlink_new hf hn

/-- **C68.** Replacing the program of a link: the same link now runs this program, in one step; nothing else changes. -/
theorem C68_replaced_link (K : Kernel) (w w' : World) (p p' : Prog) (f P g L : Nat) (id : Id)
    (hw : Holds w p f P) (hg : w.fd g = some (.link L))
    (h : attachToLink (sys K) K.replace p (.fd g) w = (.ok id, p', w')) :
    w' = relink w L P ∧ id = .fd g ∧ p'.links = p.links ++ [.fd g] := by
  simp only [attachToLink, hw.fd] at h
  have hs : (∃ e, sys K w (.linkUpdate g f) = (.error e, w)) ∨ sys K w (.linkUpdate g f) = (.ok 0, relink w L P) := by
    unfold sys
    cases hr : K.refuse w (.linkUpdate g f) with
    | some e => exact .inl ⟨e, by simp⟩
    | none => exact .inr (by simp [hg, World.prog, hw.prog])
  rcases hs with ⟨e, he⟩ | ho
  · simp [he] at h
  · simp only [ho, insert] at h
    split at h
    · simp at h
    · simp only [Prod.mk.injEq, Except.ok.injEq] at h
      obtain ⟨h1, h2, h3⟩ := h
      subst h2 h3
      exact ⟨rfl, h1.symm, rfl⟩

/-- **C68, violated.** Replacing the program of a netlink link always fails, whatever the state of the interface: the
request says both "only if there is no program" and "only if it is the expected one". -/
theorem C68_replace_netlink_violated (K : Kernel) (w : World) (p : Prog) (f old i : Nat) (m : XdpMode)
    (hf : p.fd = some f) :
    ∃ e, (attachToLink (sys K) K.replace p (.nl i old m) w).1 = .error (.netlink e) ∧
      (attachToLink (sys K) K.replace p (.nl i old m) w).2 = (p, w) := by
  have hs : ∃ e, netlinkSetXdpFd (sys K) i (some f) (some old) m w = (.error e, w) := by
    unfold netlinkSetXdpFd sys
    cases hr : K.refuse w (.setXdp i (some f) (some old) (m.flags ||| 1 ||| 16)) with
    | some e => exact ⟨e, by simp [hr]⟩
    | none =>
      simp only [hr, World.optProg]
      cases hp : w.prog f with
      | none => exact ⟨9, by simp⟩
      | some P =>
        cases ho : w.prog old with
        | none => exact ⟨9, by simp⟩
        | some O =>
          simp only [Option.map_some, setXdp, flagsPlace_replace, bits]
          by_cases h1 : K.replace = true
          · cases hc : w.place i (place K i m) with
            | none => exact ⟨17, by simp [h1]⟩
            | some o =>
              cases o with
              | link l p => exact ⟨16, by simp [h1]⟩
              | prog q =>
                by_cases hq : q = O
                · exact ⟨16, by simp [h1, hq]⟩
                · exact ⟨17, by simp [h1, hq]⟩
          · exact ⟨22, by simp [h1]⟩
  obtain ⟨e, he⟩ := hs
  exact ⟨e, by simp [attachToLink, hf, he]⟩

/-- **C68.** On a kernel without XDP links a program gets a free place all the same, and attaching reports the interface
and program by which it can be detached. -/
theorem C68_old_kernel (K : Kernel) (w : World) (p : Prog) (f P i : Nat) (m : XdpMode) (hw : Holds w p f P)
    (hl : K.links = false) (hr : ∀ c, K.refuse w c = none) (hn : w.place i (place K i m) = none)
    (hb : blocked w i (place K i m) = false) (hid : ∀ m', Inner.nl i f m' ∉ p.links) :
    attachToIfIndex (sys K) K.replace p i m w =
      (.ok (.nl i f), { p with links := p.links ++ [.nl i f m] }, setPlace w i (place K i m) (some (.prog P))) := by
  have h1 : sys K w (.linkCreate f i p.attachType m.flags) = (.error 22, w) := by
    simp [sys, hr, World.prog, hw.prog, linkCreate, hl]
  have h2 : netlinkSetXdpFd (sys K) i (some f) none m w = (.ok 0, setPlace w i (place K i m) (some (.prog P))) := by
    unfold netlinkSetXdpFd sys
    simp [hr, World.optProg, World.prog, hw.prog, setXdp, flagsPlace_one, bits, hn, hb]
  have h3 : p.links.any (fun l' => l'.id == (Inner.nl i f m).id) = false := by
    rw [List.any_eq_false]
    intro x hx hc
    cases x with
    | fd g => simp [Inner.id] at hc
    | nl i' f' m' =>
      simp only [Inner.id, beq_iff_eq, Id.nl.injEq] at hc
      obtain ⟨rfl, rfl⟩ := hc
      exact hid _ hx
  have hi : ∀ s : World, insert (sys K) K.replace p (.nl i f m) s =
      (.ok (.nl i f), { p with links := p.links ++ [.nl i f m] }, s) := by
    intro s
    unfold insert
    rw [h3]
    rfl
  simp only [attachToIfIndex, hw.fd, h1, h2, hi]
  rfl

/-- **C68.** Where links exist, an error of the kernel is reported as it is, unless it is `EINVAL`, and nothing else is
tried. -/
theorem C68_error {σ : Type} (sys : Sys σ) (at57 : Bool) (p : Prog) (f i e : Nat) (m : XdpMode) (s s' : σ)
    (hf : p.fd = some f) (h : sys s (.linkCreate f i p.attachType m.flags) = (.error e, s')) (he : e ≠ 22) :
    attachToIfIndex sys at57 p i m s = (.error (.linkCreate e), p, s') := by
  simp [attachToIfIndex, hf, h, he]

/-- **C68.** If the program of a link cannot be replaced, the link given up is closed: its descriptor is free and its
program does not run any more. -/
theorem C68_replace_failed (K : Kernel) (w w' : World) (p p' : Prog) (f P g L : Nat) (e : Nat) (hK : K.Frees)
    (hw : Holds w p f P) (hg : w.fd g = some (.link L))
    (h : attachToLink (sys K) K.replace p (.fd g) w = (.error (.linkUpdate e), p', w')) :
    p' = p ∧ w'.fd = (setFd w g none).fd ∧ w'.place = (unlink w L).place := by
  have hs : (∃ e, sys K w (.linkUpdate g f) = (.error e, w)) ∨ sys K w (.linkUpdate g f) = (.ok 0, relink w L P) := by
    unfold sys
    cases hr : K.refuse w (.linkUpdate g f) with
    | some e => exact .inl ⟨e, by simp⟩
    | none => exact .inr (by simp [hg, World.prog, hw.prog])
  simp only [attachToLink, hw.fd] at h
  rcases hs with ⟨e, he⟩ | ho
  · simp only [he, Prod.mk.injEq] at h
    obtain ⟨-, rfl, rfl⟩ := h
    refine ⟨rfl, ?_, ?_⟩ <;> simp [sys, hK.1, hg, unlink, setFd]
  · simp only [ho, insert] at h
    split at h <;> simp at h

/-- **C68.** On any system where netlink accepts the replacement, the link is one of the new program. -/
theorem C68_replaced_netlink {σ : Type} (sys : Sys σ) (at57 : Bool) (p : Prog) (f old i v : Nat) (m : XdpMode) (s s' : σ)
    (hf : p.fd = some f) (hid : ∀ m', Inner.nl i f m' ∉ p.links)
    (h : sys s (.setXdp i (some f) (some old) (m.flags ||| 1 ||| 16)) = (.ok v, s')) :
    attachToLink sys at57 p (.nl i old m) s = (.ok (.nl i f), { p with links := p.links ++ [.nl i f m] }, s') := by
  have h3 : p.links.any (fun l' => l'.id == (Inner.nl i f m).id) = false := by
    rw [List.any_eq_false]
    intro x hx hc
    cases x with
    | fd g => simp [Inner.id] at hc
    | nl i' f' m' =>
      simp only [Inner.id, beq_iff_eq, Id.nl.injEq] at hc
      obtain ⟨rfl, rfl⟩ := hc
      exact hid _ hx
  have hi : ∀ s : σ, insert sys at57 p (.nl i f m) s =
      (.ok (.nl i f), { p with links := p.links ++ [.nl i f m] }, s) := by
    intro s
    unfold insert
    rw [h3]
    rfl
  simp only [attachToLink, hf, netlinkSetXdpFd, h, hi]

/-! ### Runs -/

/-- A kernel without XDP links but with comparison, and one without either; program 70 is descriptor 4. -/
private def k57 : Kernel :=
  { links := false, replace := true, native := fun _ => true, refuse := fun _ _ => none
    newFd := fun _ => 9, newLink := fun _ => 500 }
private def k54 : Kernel := { k57 with replace := false }
private def k66 : Kernel := { k57 with links := true }
private def w0 : World :=
  { fd := fun f => if f = 4 then some (.prog 70) else if f = 5 then some (.prog 71) else none
    place := fun _ _ => none }
private def prog0 : Prog := ⟨some 4, 37, []⟩

/-- Somebody else's program in the place: removed on a kernel before 5.7, left alone on later ones. -/
private def stolen : World := setPlace w0 2 .skb (some (.prog 99))

private theorem holds0 : Holds w0 prog0 4 70 :=
  ⟨rfl, rfl, by intro g hg; simp [prog0] at hg⟩
private theorem fresh0 : k66.Fresh w0 ∧ k57.Fresh w0 := by
  refine ⟨⟨rfl, ?_, ?_⟩, ⟨rfl, ?_, ?_⟩⟩
  · intro f; simp only [w0]; split
    · simp
    · split <;> simp
  · simp [w0]
  · intro f; simp only [w0]; split
    · simp
    · split <;> simp
  · simp [w0]
private theorem frees0 : k66.Frees ∧ k57.Frees ∧ k54.Frees :=
  ⟨⟨fun _ _ => rfl, fun _ _ _ _ => rfl⟩, ⟨fun _ _ => rfl, fun _ _ _ _ => rfl⟩, ⟨fun _ _ => rfl, fun _ _ _ _ => rfl⟩⟩

example : (attachToIfIndex (sys k66) k66.replace prog0 2 .skb w0).1 = .ok (.fd 9) ∧
    (attachToIfIndex (sys k66) k66.replace prog0 2 .skb w0).2.2.place 2 .skb = some (.link 500 70) ∧
    (attachToIfIndex (sys k57) k57.replace prog0 2 .skb w0).1 = .ok (.nl 2 4) ∧
    (attachToIfIndex (sys k57) k57.replace prog0 2 .skb w0).2.2.place 2 .skb = some (.prog 70) := by
  decide +kernel

/-- `C68_old_kernel` and `C68_error` apply. -/
example : Holds w0 prog0 4 70 ∧ k57.links = false ∧ w0.place 2 (place k57 2 .skb) = none ∧
    blocked w0 2 (place k57 2 .skb) = false := ⟨holds0, rfl, rfl, rfl⟩

example : sys k66 stolen (.linkCreate 4 2 37 2) = (.error 16, stolen) := rfl

/-- `C68_replace_failed` applies: an update that is refused. -/
example : (let w := setFd (setPlace w0 2 .skb (some (.link 500 71))) 9 (some (.link 500))
    let (r, _, w) := attachToLink (sys { k66 with refuse := fun _ c => match c with | .linkUpdate .. => some 1 | _ => none })
      true prog0 (.fd 9) w
    (r, w.fd 9, w.place 2 .skb)) = (.error (.linkUpdate 1), none, none) := by decide +kernel

/-- Attaching twice fails and leaves the first attachment alone. -/
example : (let (_, p, w) := attachToIfIndex (sys k57) k57.replace prog0 2 .skb w0
    let (r, _, w) := attachToIfIndex (sys k57) k57.replace p 2 .skb w
    (r, w.place 2 .skb)) = (.error (.netlink 16), some (.prog 70)) := by decide +kernel

/-- Another mode of the same interface has the same identifier: it is refused, and removed again. -/
example : (let (_, p, w) := attachToIfIndex (sys k57) k57.replace prog0 2 .skb w0
    let (r, _, w) := attachToIfIndex (sys k57) k57.replace p 2 .hardware w
    (r, w.place 2 .skb, w.place 2 .hw)) = (.error .alreadyAttached, some (.prog 70), none) := by decide +kernel

example : (detach (sys k57) k57.replace ⟨some 4, 37, [.nl 2 4 .skb]⟩ (.nl 2 4) stolen).2.2.place 2 .skb
    = some (.prog 99) := by decide +kernel

/-- **C68, violated.** On kernels before 5.7, detaching removes whatever program is in the place, also one that somebody
else has put there since. -/
theorem C68_detach_other_violated :
    ∃ (K : Kernel) (w : World) (p : Prog), K.replace = false ∧ K.Frees ∧ Holds w p 4 70 ∧
      w.place 2 .skb = some (.prog 99) ∧
      (detach (sys K) K.replace p (.nl 2 4) w).1 = .ok () ∧
      (detach (sys K) K.replace p (.nl 2 4) w).2.2.place 2 .skb = none :=
  ⟨k54, stolen, ⟨some 4, 37, [.nl 2 4 .skb]⟩, rfl, frees0.2.2,
    ⟨rfl, rfl, by intro g hg; simp at hg⟩, by decide +kernel, by decide +kernel, by decide +kernel⟩

/-- Replacing the program of a link. -/
example : (let w := setFd (setPlace w0 2 .skb (some (.link 500 71))) 9 (some (.link 500))
    let (r, _, w) := attachToLink (sys k66) true prog0 (.fd 9) w
    (r, w.place 2 .skb)) = (.ok (.fd 9), some (.link 500 70)) := by decide +kernel

/-- **C68.** An unknown interface is reported and nothing happens; a known one is used by its index. -/
theorem C68_interface_partial {σ : Type} (sys : Sys σ) (at57 : Bool) (index : List Char → Nat) (p : Prog)
    (name : List Char) (m : XdpMode) (s : σ) (h0 : '\x00' ∉ name) :
    attach sys at57 index p name m s =
      if index name = 0 then (.error .unknownInterface, p, s) else attachToIfIndex sys at57 p (index name) m s := by
  simp [attach, h0]

/-- **C68, violated.** An interface name with a NUL character panics. -/
theorem C68_nul_violated {σ : Type} (sys : Sys σ) (at57 : Bool) (index : List Char → Nat) (p : Prog)
    (name : List Char) (m : XdpMode) (s : σ) (h0 : '\x00' ∈ name) :
    (attach sys at57 index p name m s).1 = .error .panicked := by
  simp [attach, h0]

end Verif.Attach.Xdp
