import Verif.Stats.Props
/-!
# C111: the theorems, cases and counterexamples
-/
namespace Verif.Stats

/-- The difference of counts has every run that began after statistics were enabled and ended between the two readings, and only runs that
    ended before the end of the second and not before the beginning of the first. The kernel has written down when the calls were. -/
theorem C111_count_partial (w w' : World) (p : Prog) (x : Nat × Nat) (h : w.k.Fresh) (hr : measure World.sys p w = (.ok x, w')) :
    ∃ e a b c d r, w'.k.did = [.enabled e, .asked p a b, .asked p c d, .released r] ∧
      e < a ∧ a ≤ b ∧ b ≤ c ∧ c ≤ d ∧ d ≤ r ∧
        tally one (fun r => r.prog = p && e ≤ r.began && b ≤ r.ended && r.ended < c) w'.k.done ≤ x.1 ∧
        x.1 ≤ tally one (fun r => r.prog = p && a ≤ r.ended && r.ended < d) w'.k.done := by
  obtain ⟨e, a, b, c, d, r, h1, h2, h3, h4, h5, h6, h7⟩ := measure_bounds (inv_fresh h) hr
  rw [h.did] at h1
  exact ⟨e, a, b, c, d, r, h1, h2, h3, h4, h5, h6, h7 false⟩

/-- The same for the time that these runs took. -/
theorem C111_time_partial (w w' : World) (p : Prog) (x : Nat × Nat) (h : w.k.Fresh) (hr : measure World.sys p w = (.ok x, w')) :
    ∃ e a b c d r, w'.k.did = [.enabled e, .asked p a b, .asked p c d, .released r] ∧
      e < a ∧ a ≤ b ∧ b ≤ c ∧ c ≤ d ∧ d ≤ r ∧
        tally took (fun r => r.prog = p && e ≤ r.began && b ≤ r.ended && r.ended < c) w'.k.done ≤ x.2 ∧
        x.2 ≤ tally took (fun r => r.prog = p && a ≤ r.ended && r.ended < d) w'.k.done := by
  obtain ⟨e, a, b, c, d, r, h1, h2, h3, h4, h5, h6, h7⟩ := measure_bounds (inv_fresh h) hr
  rw [h.did] at h1
  exact ⟨e, a, b, c, d, r, h1, h2, h3, h4, h5, h6, h7 true⟩

/-- If no run of the program goes on while statistics are enabled, and none ends while they are read, both differences are exact. -/
theorem C111_exact (w w' : World) (p : Prog) (x : Nat × Nat) (h : w.k.Fresh) (hr : measure World.sys p w = (.ok x, w'))
    (hq : ∀ e a b c d r, w'.k.did = [.enabled e, .asked p a b, .asked p c d, .released r] →
      ∀ u ∈ w'.k.done, u.prog = p → a ≤ u.ended → u.ended < d → e ≤ u.began ∧ b ≤ u.ended ∧ u.ended < c) :
    ∃ e a b c d r, w'.k.did = [.enabled e, .asked p a b, .asked p c d, .released r] ∧
      x.1 = tally one (fun u => u.prog = p && b ≤ u.ended && u.ended < c) w'.k.done ∧
      x.2 = tally took (fun u => u.prog = p && b ≤ u.ended && u.ended < c) w'.k.done := by
  obtain ⟨e, a, b, c, d, r, h1, h2, h3, h4, h5, h6, h7⟩ := measure_bounds (inv_fresh h) hr
  rw [h.did] at h1
  have hq := hq e a b c d r h1
  have hlo : ∀ f : Done → Nat, tally f (fun u => u.prog = p && b ≤ u.ended && u.ended < c) w'.k.done ≤
      tally f (fun r => r.prog = p && e ≤ r.began && b ≤ r.ended && r.ended < c) w'.k.done := fun f =>
    tally_le _ _ _ _ fun u hu hh => by
      simp only [Bool.and_eq_true, decide_eq_true_eq] at hh ⊢
      have := hq u hu hh.1.1 (by omega) (by omega)
      exact ⟨⟨⟨hh.1.1, this.1⟩, hh.1.2⟩, hh.2⟩
  have hhi : ∀ f : Done → Nat, tally f (fun r => r.prog = p && a ≤ r.ended && r.ended < d) w'.k.done ≤
      tally f (fun u => u.prog = p && b ≤ u.ended && u.ended < c) w'.k.done := fun f =>
    tally_le _ _ _ _ fun u hu hh => by
      simp only [Bool.and_eq_true, decide_eq_true_eq] at hh ⊢
      have := hq u hu hh.1.1 hh.1.2 hh.2
      exact ⟨⟨hh.1.1, this.2.1⟩, this.2.2⟩
  have h7f := h7 false
  have h7t := h7 true
  simp only [weight, pick] at h7f h7t
  have := hlo one
  have := hhi one
  have := hlo took
  have := hhi took
  exact ⟨e, a, b, c, d, r, h1, by omega, by omega⟩

theorem calm_mine {a b : Kernel} (h : Calm a b) {l : List Fd} (ha : a.mine = l) : b.mine = l := h.mine.trans ha

theorem info_mine {w w' : World} {p : Prog} {r : Except SyscallError RawInfo} (h : Inv w.k) (hr : infoOf World.sys p w = (r, w')) :
    Inv w'.k ∧ w'.k.mine = w.k.mine := by
  cases r with
  | error e =>
    have := info_error h (infoOf_error hr).2
    exact ⟨this.inv, this.mine⟩
  | ok i =>
    obtain ⟨k1, k2, c1, c2, e, _⟩ := info_ok h (infoOf_ok hr)
    have := inv_congr (k' := w'.k) c2.inv (by rw [e]) (Nat.le_of_eq (by rw [e])) (by rw [e]) (by rw [e]) (by rw [e]) (by rw [e])
    exact ⟨this.1, by rw [e]; exact c2.mine.trans c1.mine⟩

/-- Whatever fails, statistics are not kept enabled: afterwards the process holds nothing, and they are enabled only if somebody else holds
    them. -/
theorem C111_released (w : World) (p : Prog) (h : w.k.Fresh) :
    (measure World.sys p w).2.k.mine = [] ∧
      ((measure World.sys p w).2.k.enabled = true ↔ (measure World.sys p w).2.k.others ≠ 0) := by
  have key : (measure World.sys p w).2.k.mine = [] := by
    have hi := inv_fresh h
    simp only [measure]
    split
    · rename_i h1
      exact (enable_error hi (enableStats_error h1).2).mine.trans h.mine
    rename_i fd w1 h1
    obtain ⟨k0, c0, rfl, e1⟩ := enable_ok hi (enableStats_ok h1)
    have hk1 := (inv_congr (k' := w1.k) c0.inv (by rw [e1]) (by rw [e1]; exact Nat.le_succ _) (by rw [e1]) (by rw [e1]) (by rw [e1]) (by rw [e1])).1
    have hm1 : w1.k.mine = [k0.next] := by rw [e1]; show k0.next :: k0.mine = _; rw [c0.mine, h.mine]
    have hclose : ∀ v : World, Inv v.k → v.k.mine = [k0.next] → (World.sys.close k0.next v).k.mine = [] := by
      intro v hv hm
      obtain ⟨k1, c1, _, _, e, _⟩ := close_good v k0.next hv
      rw [e, c1.mine, hm]
      simp
    split
    · rename_i h2
      obtain ⟨i2, m2⟩ := info_mine hk1 h2
      exact hclose _ i2 (m2.trans hm1)
    rename_i h2
    obtain ⟨i2, m2⟩ := info_mine hk1 h2
    split <;> rename_i h3 <;> obtain ⟨i3, m3⟩ := info_mine i2 h3 <;> exact hclose _ i3 (m3.trans (m2.trans hm1))
  refine ⟨key, ?_⟩
  simp only [Kernel.enabled, key, List.isEmpty_nil, Bool.not_true, Bool.false_or, bne_iff_ne]

theorem failing_mem (w : World) : (∀ e, w.pause.failing.1 = some e → some e ∈ w.fails) ∧ ∀ e, some e ∈ w.pause.failing.2.fails → some e ∈ w.fails := by
  have hp : w.pause.fails = w.fails := by simp only [World.pause]; split <;> rfl
  simp only [World.failing, hp]
  split
  · rename_i hf
    exact ⟨(fun _ h => by cases h), fun e h => by rw [hp] at h; exact h⟩
  · rename_i f rest hf
    rw [hf]
    exact ⟨fun e h => by rw [← h]; exact List.mem_cons_self .., fun e h => List.mem_cons_of_mem _ h⟩

theorem readCpus_fails (p : Prog) : ∀ (cs : List Nat) (w : World), (readCpus p cs w).2.fails = w.fails := by
  intro cs
  induction cs with
  | nil => exact fun _ => rfl
  | cons c cs ih =>
    intro w
    have hp : w.pause.fails = w.fails := by simp only [World.pause]; split <;> rfl
    exact (ih w.pause).trans hp

theorem info_fails {w w' : World} {p : Prog} {r : Except SyscallError RawInfo} (hr : infoOf World.sys p w = (r, w')) :
    (∀ e, r = .error e → e.call = "bpf_obj_get_info_by_fd" ∧ some e.errno ∈ w.fails) ∧ ∀ e, some e ∈ w'.fails → some e ∈ w.fails := by
  obtain ⟨f1, f2⟩ := failing_mem w
  simp only [infoOf, World.sys] at hr
  generalize w.pause.failing = x at hr f1 f2
  obtain ⟨f, v⟩ := x
  cases f with
  | some e => cases hr; exact ⟨fun e' h => by cases h; exact ⟨rfl, f1 e rfl⟩, f2⟩
  | none =>
    cases hr
    refine ⟨(fun _ h => by cases h), fun e h => f2 e ?_⟩
    have := readCpus_fails p (List.range v.k.cpus) v
    dsimp only at h ⊢
    rwa [this] at h

/-- An error is that of a call that failed, with its name. -/
theorem C111_errors (w w' : World) (p : Prog) (e : SyscallError) (hr : measure World.sys p w = (.error e, w')) :
    some e.errno ∈ w.fails ∧ (e.call = "bpf_enable_stats" ∨ e.call = "bpf_obj_get_info_by_fd") := by
  obtain ⟨f1, f2⟩ := failing_mem w
  simp only [measure] at hr
  split at hr
  · rename_i h1
    cases hr
    obtain ⟨c1, h1⟩ := enableStats_error h1
    refine ⟨?_, .inl c1⟩
    simp only [World.sys] at h1
    generalize w.pause.failing = x at h1 f1 f2
    obtain ⟨f, v⟩ := x
    cases f with
    | some e' => cases h1; exact f1 _ rfl
    | none => cases h1
  rename_i fd w1 h1
  have hf1 : ∀ e, some e ∈ w1.fails → some e ∈ w.fails := by
    have h1 := enableStats_ok h1
    simp only [World.sys] at h1
    generalize w.pause.failing = x at h1 f1 f2
    obtain ⟨f, v⟩ := x
    cases f with
    | some e' => cases h1
    | none => cases h1; exact f2
  split at hr
  · rename_i h2
    cases hr
    obtain ⟨c, m⟩ := (info_fails h2).1 _ rfl
    exact ⟨hf1 _ m, .inr c⟩
  rename_i h2
  split at hr
  · rename_i h3
    cases hr
    obtain ⟨c, m⟩ := (info_fails h3).1 _ rfl
    exact ⟨hf1 _ ((info_fails h2).2 _ m), .inr c⟩
  · cases hr

/-- A kernel with one processor, on which nothing has happened. -/
def quiet : Kernel := ⟨1, 0, 0, [], 0, [], [], fun _ _ => 0, fun _ _ => 0, [], 50⟩

theorem fresh_quiet : quiet.Fresh := ⟨rfl, rfl, rfl, fun _ _ => rfl, fun _ _ => rfl, rfl⟩

/-- Blocks of actions: before enabling, before the first reading and during it, before the second and during it, before releasing. -/
def world (k : Kernel) (s : List (List Act)) : World := ⟨k, s, []⟩

/-- Two runs of program 7 and one of program 8 between the readings. -/
def ordinary : World := world quiet
  [[.start 7 0, .stop 0], [.pass 5], [], [.start 7 0, .pass 10, .stop 0, .start 8 0, .pass 99, .stop 0, .start 7 0, .pass 4, .stop 0], [], []]

example : (measure World.sys 7 ordinary).1 = .ok (2, 14) := by decide +kernel

/-- It meets the hypotheses of `C111_exact`, and of the others. -/
example : ∃ e a b c d r, (measure World.sys 7 ordinary).2.k.did = [.enabled e, .asked 7 a b, .asked 7 c d, .released r] ∧
    2 = tally one (fun u => u.prog = 7 && b ≤ u.ended && u.ended < c) (measure World.sys 7 ordinary).2.k.done ∧
    14 = tally took (fun u => u.prog = 7 && b ≤ u.ended && u.ended < c) (measure World.sys 7 ordinary).2.k.done := by
  have hr : measure World.sys 7 ordinary = (.ok (2, 14), (measure World.sys 7 ordinary).2) := rfl
  refine C111_exact ordinary _ 7 (2, 14) fresh_quiet hr ?_
  intro e a b c d r hd u hu
  have hdid : (measure World.sys 7 ordinary).2.k.did = [.enabled 2, .asked 7 4 4, .asked 7 13 13, .released 13] := by decide +kernel
  rw [hdid] at hd
  simp only [List.cons.injEq, Did.enabled.injEq, Did.asked.injEq, Did.released.injEq, true_and, and_true] at hd
  obtain ⟨rfl, ⟨rfl, rfl⟩, ⟨rfl, rfl⟩, rfl⟩ := hd
  have hdone : (measure World.sys 7 ordinary).2.k.done =
      [⟨7, 0, 10, 12, 114, 118, true⟩, ⟨8, 0, 7, 9, 15, 114, true⟩, ⟨7, 0, 4, 6, 5, 15, true⟩, ⟨7, 0, 0, 1, 0, 0, false⟩] := by decide +kernel
  rw [hdone] at hu
  simp only [List.mem_cons, List.not_mem_nil, or_false] at hu
  rcases hu with rfl | rfl | rfl | rfl <;> intro h1 h2 h3 <;> simp at h1 h2 h3 ⊢

/-- The first reading fails: nothing is held. -/
example : measure World.sys 7 ⟨quiet, [], [none, some 13]⟩ = (.error ⟨"bpf_obj_get_info_by_fd", 13⟩, (measure World.sys 7 ⟨quiet, [], [none, some 13]⟩).2) ∧
    (measure World.sys 7 ⟨quiet, [], [none, some 13]⟩).2.k.enabled = false := ⟨rfl, by decide +kernel⟩

/-- The full statement, that the differences are those of the period between the readings, is false. A run that ended in it is missed: it began
    before statistics were enabled. -/
theorem C111_missed_violated :
    let w := world quiet [[.start 7 0], [], [], [.pass 3, .stop 0], [], []]
    w.k.Fresh ∧ (measure World.sys 7 w).1 = .ok (0, 0) ∧
      ∃ c d r, (measure World.sys 7 w).2.k.did = [.enabled 1, .asked 7 2 2, .asked 7 c d, .released r] ∧
        tally one (fun u => u.prog = 7 && 2 ≤ u.ended && u.ended < c) (measure World.sys 7 w).2.k.done = 1 :=
  ⟨fresh_quiet, by decide +kernel, 4, 4, 4, by decide +kernel, by decide +kernel⟩

/-- The time can be longer than the period between the readings, on one processor: the run began before the first. Here the period takes
    3 nanoseconds, and the program seems to have run for 103. -/
theorem C111_time_violated :
    let w := world quiet [[], [.start 7 0, .pass 100], [], [.pass 3, .stop 0], [], []]
    w.k.Fresh ∧ (measure World.sys 7 w).1 = .ok (1, 103) ∧ (measure World.sys 7 w).2.k.now = 103 := 
  ⟨fresh_quiet, by decide +kernel, by decide +kernel⟩

/-- Counters change after the descriptor is released and statistics are disabled: the run began before. -/
theorem C111_after_violated :
    let w := world quiet [[], [], [], [.start 7 0], [], []]
    let k := (measure World.sys 7 w).2.k
    w.k.Fresh ∧ k.enabled = false ∧ k.cnt 7 0 = 0 ∧ (k.act (.stop 0)).enabled = false ∧ (k.act (.stop 0)).cnt 7 0 = 1 :=
  ⟨fresh_quiet, by decide +kernel, by decide +kernel, by decide +kernel, by decide +kernel⟩

/-- Releasing the descriptor does not disable statistics if somebody else has one: runs that begin afterwards are counted. -/
theorem C111_disabled_violated :
    let w := world quiet [[.enable], [], [], [], [], []]
    let k := (measure World.sys 7 w).2.k
    w.k.Fresh ∧ k.mine = [] ∧ k.enabled = true ∧ k.cnt 7 0 = 0 ∧ ((k.act (.start 7 0)).act (.stop 0)).cnt 7 0 = 1 :=
  ⟨fresh_quiet, by decide +kernel, by decide +kernel, by decide +kernel, by decide +kernel⟩

end Verif.Stats
