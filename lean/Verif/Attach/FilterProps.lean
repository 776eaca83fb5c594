import Verif.Attach.FilterSpec
import Verif.Common.Except

set_option linter.unusedVariables false
set_option linter.unusedSimpArgs false

/-!
# C69: classifiers added over netlink
-/
namespace Verif.Attach.Tcx.Filter
open Verif.Attach.Tcx
open Verif.Util (TcAttachType)

/-- The filter a link stands for. -/
def keyOf (i : Nat) (t : TcAttachType) (p h : Nat) : Key := ⟨i, t.tcParent.toNat, p, h⟩

theorem set_set (w : World) (k : Key) (r r' : Option Rule) : (w.set k r).set k r' = w.set k r' := by
  unfold World.set
  congr 1
  funext k'
  simp only
  split <;> rfl

theorem set_self (w : World) (k : Key) (h : w.filter k = none) : w.set k none = w := by
  cases w with
  | mk pr fl =>
    unfold World.set
    congr 1
    funext k'
    simp only at h ⊢
    split
    · subst k'; exact h.symm
    · rfl

theorem del_eq (w : World) (k : Key) (hp : k.priority ≠ 0) (hh : k.handle ≠ 0) : w.del k = w.set k none := by
  unfold World.del World.set
  congr 1
  funext k'
  have : (k'.ifIndex = k.ifIndex ∧ k'.parent = k.parent ∧ (k.priority = 0 ∨ k'.priority = k.priority ∧
        (k.handle = 0 ∨ k'.handle = k.handle))) ↔ k' = k := by
    cases k; cases k'; simp only [Key.mk.injEq]; simp only at hp hh; simp [hp, hh]
  simp only [this]

/-- **C69.** A classifier attached over netlink is one new filter of this program, with its name and class, on this
interface and parent, with the priority and handle asked for where they were; no other filter changes; and the program
remembers the filter the kernel made. -/
theorem C69_filter_attached (K : Kernel) (hK : K.Picks) (w w' : World) (p p' : Prog) (f P i : Nat) (t : TcAttachType)
    (pr h : Nat) (cid : Option Nat) (id : Id) (hf : p.fd = some f) (hP : w.prog f = some P)
    (ha : doAttach (sys K) p i t (.netlink pr h cid) true w = (.ok id, p', w')) :
    ∃ pr' h' : Nat, (pr ≠ 0 → pr' = pr) ∧ (h ≠ 0 → h' = h) ∧ pr' ≠ 0 ∧ h' ≠ 0 ∧
      w.filter (keyOf i t pr' h') = none ∧
      w' = w.set (keyOf i t pr' h') (some ⟨P, p.name.getD [], cid⟩) ∧
      id = .nl i t pr' h' ∧ p'.links = p.links ++ [.nl i t pr' h' cid] ∧ p'.fd = p.fd := by
  simp only [doAttach, hf] at ha
  split at ha
  · simp at ha
  · rename_i hn
    simp only [sys] at ha
    cases hr : K.refuse w (.filterAdd i t.tcParent.toNat f (p.name.getD []) pr h cid true) with
    | some e => simp [hr] at ha
    | none =>
      simp only [hr, hP, if_true] at ha
      generalize hk : K.pick w ⟨i, t.tcParent.toNat, pr, h⟩ = k at ha
      have hk1 := hK.priority w ⟨i, t.tcParent.toNat, pr, h⟩
      have hk2 := hK.handle w ⟨i, t.tcParent.toNat, pr, h⟩
      have hk3 := hK.nonzero w ⟨i, t.tcParent.toNat, pr, h⟩
      rw [hk] at hk1 hk2 hk3
      by_cases he : w.filter ⟨i, t.tcParent.toNat, k.1, k.2⟩ = none
      · simp only [he, if_true, insert] at ha
        split at ha
        · simp at ha
        · simp only [Prod.mk.injEq, Except.ok.injEq] at ha
          obtain ⟨rfl, rfl, rfl⟩ := ha
          exact ⟨k.1, k.2, hk1, hk2, hk3.1, hk3.2, he, rfl, rfl, rfl, rfl⟩
      · simp [he] at ha

/-- **C69.** Detaching such a classifier removes its filter and no other; if the filter is already gone, or the kernel
refuses, this is reported and no filter changes. -/
theorem C69_filter_detached (K : Kernel) (w : World) (i : Nat) (t : TcAttachType) (pr h : Nat) (cid : Option Nat)
    (hp : pr ≠ 0) (hh : h ≠ 0) :
    Inner.detach (sys K) (.nl i t pr h cid) w =
      match K.refuse w (.filterDel i t.tcParent.toNat pr h) with
      | some e => (.error (.netlink e), w)
      | none => if w.filter (keyOf i t pr h) = none then (.error (.netlink 2), w)
          else (.ok (), w.set (keyOf i t pr h) none) := by
  simp only [Inner.detach, sys, keyOf]
  cases hr : K.refuse w (.filterDel i t.tcParent.toNat pr h) with
  | some e => simp
  | none =>
    by_cases he : w.filter ⟨i, t.tcParent.toNat, pr, h⟩ = none
    · simp [hp, hh, he]
    · simp only [hp, hh, he]
      simp only [ne_eq, not_false_eq_true, and_false, if_false]
      rw [del_eq _ _ hp hh]

/-- **C69.** Attaching over netlink and detaching again leaves all filters, and the program, as they were. -/
theorem C69_filter_round_trip (K : Kernel) (hK : K.Picks) (w w' : World) (p p' : Prog) (f P i : Nat) (t : TcAttachType)
    (pr h : Nat) (cid : Option Nat) (id : Id) (hf : p.fd = some f) (hP : w.prog f = some P)
    (hr : ∀ w i parent pr h, K.refuse w (.filterDel i parent pr h) = none)
    (ha : doAttach (sys K) p i t (.netlink pr h cid) true w = (.ok id, p', w')) :
    detach (sys K) p' id w' = (.ok (), p, w) := by
  have hins : p.links.any (fun l' => l'.id == id) = false := by
    simp only [doAttach, hf] at ha
    split at ha
    · simp at ha
    · split at ha
      · simp at ha
      · unfold insert at ha
        split at ha
        · simp at ha
        · rename_i hx
          simp only [Prod.mk.injEq, Except.ok.injEq] at ha
          rw [← ha.1]; simpa using hx
  have hp' : p' = { p with links := p'.links } := by
    simp only [doAttach, hf] at ha
    split at ha
    · simp at ha
    · split at ha
      · simp at ha
      · unfold insert at ha
        split at ha
        · simp at ha
        · simp only [Prod.mk.injEq, Except.ok.injEq] at ha
          rw [← ha.2.1]
  obtain ⟨pr', h', -, -, h3, h4, h5, h6, h7, h8, h9⟩ := C69_filter_attached K hK w w' p p' f P i t pr h cid id hf hP ha
  subst h7 h6
  have hnone : p.links.find? (fun l => l.id == Id.nl i t pr' h') = none := by
    rw [List.find?_eq_none]
    intro x hx hc
    rw [List.any_eq_false] at hins
    exact hins x hx hc
  have hnot : Inner.nl i t pr' h' cid ∉ p.links := by
    intro hm
    rw [List.any_eq_false] at hins
    exact hins _ hm (by simp [Inner.id])
  have hfind : p'.links.find? (fun l => l.id == Id.nl i t pr' h') = some (.nl i t pr' h' cid) := by
    rw [h8, List.find?_append, hnone]
    simp [Inner.id]
  simp only [detach, hfind]
  rw [C69_filter_detached K _ i t pr' h' cid h3 h4, hr]
  have hsome : (w.set (keyOf i t pr' h') (some ⟨P, p.name.getD [], cid⟩)).filter (keyOf i t pr' h') ≠ none := by
    simp [World.set]
  simp only [hsome, if_false, set_set, set_self w _ h5]
  rw [hp', h8, List.erase_append_right _ hnot]
  simp

/-- **C69.** Attaching a program in place of the one of a netlink link changes exactly the filter of that link, keeping its
priority, handle and class, and never adds one: if the filter is gone this is an error and no filter changes. -/
theorem C69_filter_replaced (K : Kernel) (w : World) (p : Prog) (f P i : Nat) (t : TcAttachType)
    (pr h : Nat) (cid : Option Nat) (hf : p.fd = some f) (hP : w.prog f = some P) (hz : '\x00' ∉ p.name.getD [])
    (hfresh : p.links.any (fun l => l.id == Id.nl i t pr h) = false) :
    attachToLink (sys K) p (.nl i t pr h cid) w =
      match K.refuse w (.filterAdd i t.tcParent.toNat f (p.name.getD []) pr h cid false) with
      | some e => (.error (.netlink e), p, w)
      | none => if w.filter (keyOf i t pr h) = none then (.error (.netlink 2), p, w)
          else (.ok (.nl i t pr h), { p with links := p.links ++ [.nl i t pr h cid] },
            w.set (keyOf i t pr h) (some ⟨P, p.name.getD [], cid⟩)) := by
  simp only [attachToLink, hf, doAttach, hz, if_false, sys, keyOf]
  cases hr : K.refuse w (.filterAdd i t.tcParent.toNat f (p.name.getD []) pr h cid false) with
  | some e => simp
  | none =>
    by_cases he : w.filter ⟨i, t.tcParent.toNat, pr, h⟩ = none
    · simp [hP, he]
    · have : p.links.any (fun l' => l'.id == (Inner.nl i t pr h cid).id) = false := by simpa [Inner.id] using hfresh
      have hi : ∀ s : World, insert (sys K) p (.nl i t pr h cid) s =
          (.ok (.nl i t pr h), { p with links := p.links ++ [.nl i t pr h cid] }, s) := by
        intro s
        unfold insert
        rw [this]
        rfl
      simp only [hP, he, if_false, Bool.false_eq_true, hi, hf]

/-- **C69, violated.** A filter that could not be removed stays, and the program forgets its link all the same, so that it
cannot be detached again. -/
theorem C69_filter_forgotten_violated (K : Kernel) (w : World) (p : Prog) (i : Nat) (t : TcAttachType)
    (pr h e : Nat) (cid : Option Nat) (hr : K.refuse w (.filterDel i t.tcParent.toNat pr h) = some e)
    (hl : p.links = [.nl i t pr h cid]) (w2 : World) :
    detach (sys K) p (.nl i t pr h) w = (.error (.netlink e), { p with links := [] }, w) ∧
    (detach (sys K) (detach (sys K) p (.nl i t pr h) w).2.1 (.nl i t pr h) w2).1 = .error .notAttached := by
  have h1 : detach (sys K) p (.nl i t pr h) w = (.error (.netlink e), { p with links := [] }, w) := by
    simp [detach, hl, Inner.id, Inner.detach, sys, hr]
  rw [h1]
  exact ⟨rfl, by simp [detach]⟩

/-! A system with one program (descriptor 4) and a filter of another. -/

def k0 : Kernel :=
  { refuse := fun _ _ => none
    pick := fun w k => (if k.priority = 0 then 49152 else k.priority,
      if k.handle = 0 then (if w.filter { k with priority := if k.priority = 0 then 49152 else k.priority, handle := 1 } = none
        then 1 else 2) else k.handle) }

theorem picks0 : k0.Picks := by
  refine ⟨?_, ?_, ?_⟩
  · intro w k h; simp [k0, h]
  · intro w k h; simp [k0, h]
  · intro w k
    have ite_ne : ∀ (c : Prop) [Decidable c] (a b : Nat), a ≠ 0 → b ≠ 0 → (if c then a else b) ≠ 0 := by
      intro c _ a b ha hb
      split
      · exact ha
      · exact hb
    refine ⟨?_, ?_⟩
    · show (if k.priority = 0 then 49152 else k.priority) ≠ 0
      split
      · decide
      · assumption
    · show (if k.handle = 0 then (if _ then 1 else 2) else k.handle) ≠ 0
      split
      · exact ite_ne _ 1 2 (by decide) (by decide)
      · assumption

def w0 : World :=
  { prog := fun f => if f = 4 then some 70 else none
    filter := fun k => if k = keyOf 2 .ingress 49152 1 then some ⟨71, "other".toList, none⟩ else none }

def p0 : Prog := ⟨some 4, some "cls".toList, []⟩

/-- The run of attaching, replacing and detaching. -/
example : (doAttach (sys k0) p0 2 .ingress (.netlink 0 0 (some 7)) true w0).1 = .ok (.nl 2 .ingress 49152 2) := by
  decide +kernel

example : (doAttach (sys k0) p0 2 .ingress (.netlink 0 0 (some 7)) true w0).2.2.filter (keyOf 2 .ingress 49152 2) =
    some ⟨70, "cls".toList, some 7⟩ := by decide +kernel

example : k0.refuse w0 (.filterDel 2 0 1 1) = none := rfl

/-- Taking over the other program's filter. -/
example : (attachToLink (sys k0) p0 (.nl 2 .ingress 49152 1 none) w0).1 = .ok (.nl 2 .ingress 49152 1) ∧
    (attachToLink (sys k0) p0 (.nl 2 .ingress 49152 1 none) w0).2.2.filter (keyOf 2 .ingress 49152 1) =
      some ⟨70, "cls".toList, none⟩ := by decide +kernel

/-- A filter that is gone. -/
example : (attachToLink (sys k0) p0 (.nl 2 .egress 5 1 none) w0).1 = .error (.netlink 2) := by decide +kernel

/-- A kernel that refuses to remove filters. -/
example : (detach (sys { k0 with refuse := fun _ c => match c with | .filterDel .. => some 1 | _ => none })
    ⟨some 4, none, [.nl 2 .ingress 49152 1 none]⟩ (.nl 2 .ingress 49152 1) w0).1 = .error (.netlink 1) := by decide +kernel

end Verif.Attach.Tcx.Filter
