import Verif.TcLink.Props
/-!
# C113: where kept parameters stand for something else, and cases that meet the hypotheses
-/
namespace Verif.TcLink

def eth0 : Name := [101, 116, 104, 48]
def eth1 : Name := [101, 116, 104, 49]

/-- Two interfaces with `clsact`, and a filter of somebody else on each. -/
def k0 : Kernel := ⟨[(eth0, 1), (eth1, 2)], [(1, 0xFFFFFFF2), (1, 0xFFFFFFF3), (2, 0xFFFFFFF2)], [⟨1, 0xFFFFFFF2, 50, 1, 7, none⟩, ⟨2, 0xFFFFFFF2, 0xC000, 1, 8, none⟩]⟩

/-- After program 5 was attached to the ingress of `eth0`. -/
def k1 : Kernel := { k0 with filters := k0.filters ++ [⟨1, 0xFFFFFFF2, 0xC000, 1, 5, some 9⟩] }

def ours : NlLink := ⟨1, .ingress, 0xC000, 1, some 9⟩

theorem wf0 : k0.WF := by
  constructor <;> decide

theorem wf1 : k1.WF := by
  constructor <;> decide

/-- The hypotheses of `C113_attached` and `C113_outlives`. -/
example : attach kernel 5 [] eth0 .ingress 0 0 (some 9) k0 = (.ok ours.id, [ours], k1) := by decide +kernel

/-- The hypotheses of `C113_detached` and `C113_replaced_partial`. -/
example : (⟨1, 0xFFFFFFF2, 0xC000, 1, 5, some 9⟩ : Filter) ∈ k1.filters ∧ ours.stands ⟨1, 0xFFFFFFF2, 0xC000, 1, 5, some 9⟩ := ⟨by decide, rfl, rfl, rfl, rfl⟩

example : (attachToLink kernel 6 [] ours k1).2.2.filters = k0.filters ++ [⟨1, 0xFFFFFFF2, 0xC000, 1, 6, some 9⟩] := by decide +kernel

/-- The hypotheses of `C113_gone_partial` and `C113_not_replaced`. -/
example : ours.handle ≠ 0 ∧ ∀ f ∈ k0.filters, ¬ ours.stands f := by
  refine ⟨by decide, fun f hf h => ?_⟩
  have : f = ⟨1, 0xFFFFFFF2, 50, 1, 7, none⟩ ∨ f = ⟨2, 0xFFFFFFF2, 0xC000, 1, 8, none⟩ := by simpa [k0] using hf
  rcases this with rfl | rfl
  · exact absurd h.2.2.1 (by decide)
  · exact absurd h.1 (by decide)

/-- The hypotheses of `C113_once_more_partial`. -/
example : ∀ l ∈ [ours], ∃ f ∈ k1.filters, l.stands f := by
  intro l hl
  rw [List.mem_singleton.1 hl]
  exact ⟨⟨1, 0xFFFFFFF2, 0xC000, 1, 5, some 9⟩, by decide, rfl, rfl, rfl, rfl⟩

/-- **C113 (violated)** With a handle of 0, which no filter has, detaching is no error, but removes all filters of the priority, whosoever they are. -/
theorem C113_handle_violated :
    attached kernel eth0 .ingress 50 0 none k1 = .ok (.nl ⟨1, .ingress, 50, 0, none⟩) ∧ (∀ f ∈ k1.filters, f.handle ≠ 0) ∧
    NlLink.detach kernel ⟨1, .ingress, 50, 0, none⟩ k1 = (.ok (), { k1 with filters := [⟨2, 0xFFFFFFF2, 0xC000, 1, 8, none⟩, ⟨1, 0xFFFFFFF2, 0xC000, 1, 5, some 9⟩] }) := by
  decide +kernel

/-- **C113 (violated)** When interfaces have changed their names, the parameters stand for somebody else's filter: it is removed, and ours stays. -/
theorem C113_renamed_violated :
    attached kernel eth0 .ingress ours.prio ours.handle ours.classid { k1 with names := [(eth1, 1), (eth0, 2)] } = .ok (.nl ⟨2, .ingress, 0xC000, 1, some 9⟩) ∧
    (NlLink.detach kernel ⟨2, .ingress, 0xC000, 1, some 9⟩ { k1 with names := [(eth1, 1), (eth0, 2)] }).2.filters =
      [⟨1, 0xFFFFFFF2, 50, 1, 7, none⟩, ⟨1, 0xFFFFFFF2, 0xC000, 1, 5, some 9⟩] := by
  decide +kernel

/-- **C113 (violated)** When our filter was removed and another program was attached, it has our numbers, and is removed with our link. -/
theorem C113_reused_violated :
    attach kernel 6 [] eth0 .ingress 0 0 none k0 = (.ok ours.id, [{ ours with classid := none }], { k0 with filters := k0.filters ++ [⟨1, 0xFFFFFFF2, 0xC000, 1, 6, none⟩] }) ∧
    ours.drop kernel { k0 with filters := k0.filters ++ [⟨1, 0xFFFFFFF2, 0xC000, 1, 6, none⟩] } = k0 := by
  decide +kernel

/-- **C113 (violated)** When our filter was removed by others, the program cannot be attached again: there is an error that says it is attached, and the new filter is removed. -/
theorem C113_again_violated : attach kernel 5 [ours] eth0 .ingress 0 0 (some 9) k0 = (.error .alreadyAttached, [ours], k0) := by decide +kernel

/-- **C113 (violated)** Replacing the program of a link, made of parameters, of which the program has one itself: an error, and a filter that worked is gone. -/
theorem C113_twice_violated :
    attached kernel eth0 .ingress ours.prio ours.handle ours.classid k1 = .ok (.nl ours) ∧
    attachToLink kernel 5 [ours] ours k1 = (.error .alreadyAttached, [ours], k0) := by
  decide +kernel

end Verif.TcLink
