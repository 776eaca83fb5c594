import Verif.Listing.Props
/-!
# C109: what is not so, and cases
-/
namespace Verif.Listing

/-- Links 3 (of XDP, program 30) and 7 (of kprobes, program 70); this process refers to 3 by descriptor 3. -/
def start : State :=
  { held := [7], fds := [(3, 3)], type := fun i => if i = 3 then 6 else 7, prog := fun i => i * 10, calls := 0, past := [] }

/-- Nobody else does anything. -/
def quiet : World := { others := fun _ => [], fault := fun _ => none }

/-- During the list link 3 gets another program, 7 goes, and 9 comes. -/
def busy : World :=
  { others := fun t => if t = 2 then [.replace 3 31] else if t = 5 then [.release 7, .attach 9 11 90] else [], fault := fun _ => none }

/-- No descriptor is left for link 3. -/
def full : World := { others := fun _ => [], fault := fun t => if t = 1 then some 24 else none }

example : (loadedLinks quiet.sys 9 start).1 = [.ok ⟨6, 3, 30⟩, .ok ⟨7, 7, 70⟩] ∧ (loadedLinks quiet.sys 9 start).2.1 = true := by
  decide +kernel
example : (loadedLinks busy.sys 9 start).1 = [.ok ⟨6, 3, 31⟩, .error ⟨"bpf_link_get_fd_by_id", 2⟩, .ok ⟨11, 9, 90⟩] := by
  decide +kernel
example : (loadedLinks busy.sys 9 start).2.1 = true ∧ ∀ r ∈ (loadedLinks busy.sys 9 start).2.2.past, 3 ∈ r.live := by decide +kernel
example : (loadedLinks full.sys 9 start).1 = [.error ⟨"bpf_link_get_fd_by_id", 24⟩, .ok ⟨7, 7, 70⟩] := by decide +kernel
example : (∀ t, quiet.fault t ≠ some 2) ∧ (∀ t, full.fault t ≠ some 2) := by
  refine ⟨fun t h => (by cases h), fun t h => ?_⟩
  simp only [full] at h
  split at h <;> cases h
example : linkType ⟨6, 3, 30⟩ = .ok .xdp ∧ linkType ⟨14, 3, 30⟩ = .error 14 := ⟨rfl, rfl⟩

/-- The bound of `C109_ends` is met: no link above 9 is ever seen. -/
example : ∀ seen, Saw start (loadedLinks busy.sys 11 start).2.2 seen → ∀ a ∈ seen, ∀ i ∈ a.live, i ≤ 9 := by
  intro seen h
  have : (loadedLinks busy.sys 11 start).2.2.past = seen := by
    have := h; simp only [Saw, start, List.append_nil] at this; exact this
  subst this
  decide +kernel

/-- A list is not a picture of one moment: it tells of links 3 and 7, and 3 was gone before 7 came. -/
theorem C109_moment_violated : ∃ (w : World) (s : State), (∀ t, w.fault t = none) ∧
    (told (loadedLinks w.sys 9 s).1).map id = [3, 7] ∧ (loadedLinks w.sys 9 s).2.1 = true ∧
    ∀ seen, Saw s (loadedLinks w.sys 9 s).2.2 seen → ∀ a ∈ seen, ¬ (3 ∈ a.live ∧ 7 ∈ a.live) := by
  refine ⟨⟨fun t => if t = 4 then [.release 3, .attach 7 7 70] else [], fun _ => none⟩,
    ⟨[3], [], fun _ => 6, fun _ => 30, 0, []⟩, fun _ => rfl, by decide +kernel, by decide +kernel, ?_⟩
  intro seen h
  simp only [Saw, List.append_nil] at h
  subst h
  decide +kernel

/-- To list links is not without effect: link 5 is given up by the only one who refers to it while it is looked at, so it stays, and
    somebody else can open it and keep it. Without the list it would be gone. -/
theorem C109_effect_violated : ∃ (w : World) (s : State), s.fds = [] ∧ (∀ t, w.fault t = none) ∧
    5 ∈ (loadedLinks w.sys 9 s).2.2.live ∧
    5 ∉ ((w.between s.calls (loadedLinks w.sys 9 s).2.2.calls).foldl State.event s).live :=
  ⟨⟨fun t => if t = 2 then [.release 5] else if t = 3 then [.openLink 5] else [], fun _ => none⟩,
    ⟨[5], [], fun _ => 6, fun _ => 30, 0, []⟩, rfl, fun _ => rfl, by decide +kernel, by decide +kernel⟩

/-- A link that others give up while the list looks at it is not gone at once: the program is attached until the list goes on. -/
theorem C109_delay_violated : ∃ (w : World) (s : State), s.fds = [] ∧ (∀ t, w.fault t = none) ∧
    (∃ seen, Saw s (loadedLinks w.sys 9 s).2.2 seen ∧ ∃ a, seen[2]? = some a ∧ 5 ∈ a.live) ∧
    5 ∉ ((w.between s.calls 3).foldl State.event s).live ∧ 5 ∉ (loadedLinks w.sys 9 s).2.2.live := by
  refine ⟨⟨fun t => if t = 2 then [.release 5] else [], fun _ => none⟩, ⟨[5], [], fun _ => 6, fun _ => 30, 0, []⟩, rfl, fun _ => rfl,
    ⟨_, (List.append_nil _).symm, ?_⟩, by decide +kernel, by decide +kernel⟩
  exact ⟨_, rfl, by decide +kernel⟩

end Verif.Listing
