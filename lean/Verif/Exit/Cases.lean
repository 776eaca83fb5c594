import Verif.Exit.Modern
/-!
# C110: what dropping leaves, cases and counterexamples
-/
namespace Verif.Exit

/-- Nothing fails, and the process has all the time that it wants. -/
def Fate.kind : Fate := ⟨fun _ => none, 1000⟩

/-- Attached and dropped, where nothing fails, a program does not run, unless it did before; also while the process goes on. Programs
    for infrared receivers are left out: their links do nothing when they are dropped. -/
theorem C110_dropped_partial (φ : Fate) (f : Features) (k : Kind) (hk : k ≠ .lirc) (h : Hook) (p : Prog) (r : Run) (hr : r.w.Fresh)
    (hf : ∀ t, φ.fail t = none) (ht : r.calls + 8 ≤ φ.ends) (hn : (h, p) ∉ r.w.hooks) (hpin : ¬ r.w.runsPinned h p) :
    ¬ (runOps φ.sys f [.attach k h p, .drop 0] [] r).2.w.runs h p ∧
      (runOps φ.sys f [.attach k h p, .drop 0] [] r).2.w.probes = r.w.probes := by
  obtain ⟨⟨files, children, pins, link, perf, hooks, probes, next⟩, calls⟩ := r
  obtain ⟨h1, h2, h3⟩ := hr
  dsimp only at h1 h2 h3 hn ht
  subst h1 h2
  have hpin' : ∀ (i : Nat) (b : Hook × Prog), ¬ ∃ id, (∃ path, (path, id) ∈ pins) ∧ setAt link (next + i) b id = (h, p) := by
    rintro i b ⟨id, ⟨path, hm⟩, he⟩
    have := h3 _ hm
    dsimp only at this
    simp only [setAt] at he
    split at he
    · omega
    · exact hpin ⟨path, id, hm, he⟩
  have hpin0 : ∀ (id : Nat) (path : Path), (path, id) ∈ pins → ¬ link id = (h, p) := fun id path hm he => hpin ⟨path, id, hm, he⟩
  have hpin1 : ∀ (b : Hook × Prog) (id : Nat) (path : Path), (path, id) ∈ pins → ¬ setAt link next b id = (h, p) :=
    fun b id path hm he => hpin' 0 b ⟨id, ⟨path, hm⟩, he⟩
  have hpin2 : ∀ (b : Hook × Prog) (id : Nat) (path : Path), (path, id) ∈ pins → ¬ setAt link (next + 1) b id = (h, p) :=
    fun b id path hm he => hpin' 1 b ⟨id, ⟨path, hm⟩, he⟩
  have hok : ∀ (c : Call) (w : World) (i : Nat), i < 8 → φ.sys.call c ⟨w, calls + i⟩ = (some (w.act c).1, ⟨(w.act c).2, calls + (i + 1)⟩) := by
    intro c w i hi
    have : ¬ φ.ends ≤ calls + i := by omega
    simp only [Fate.sys, if_neg this, hf, Nat.add_assoc]
  have s0 : ∀ (c : Call) (w : World), φ.sys.call c ⟨w, calls⟩ = (some (w.act c).1, ⟨(w.act c).2, calls + 1⟩) := fun c w => hok c w 0 (by omega)
  have s1 : ∀ (c : Call) (w : World), φ.sys.call c ⟨w, calls + 1⟩ = (some (w.act c).1, ⟨(w.act c).2, calls + 2⟩) := fun c w => hok c w 1 (by omega)
  have s2 : ∀ (c : Call) (w : World), φ.sys.call c ⟨w, calls + 2⟩ = (some (w.act c).1, ⟨(w.act c).2, calls + 3⟩) := fun c w => hok c w 2 (by omega)
  have s3 : ∀ (c : Call) (w : World), φ.sys.call c ⟨w, calls + 3⟩ = (some (w.act c).1, ⟨(w.act c).2, calls + 4⟩) := fun c w => hok c w 3 (by omega)
  have s4 : ∀ (c : Call) (w : World), φ.sys.call c ⟨w, calls + 4⟩ = (some (w.act c).1, ⟨(w.act c).2, calls + 5⟩) := fun c w => hok c w 4 (by omega)
  have s5 : ∀ (c : Call) (w : World), φ.sys.call c ⟨w, calls + 5⟩ = (some (w.act c).1, ⟨(w.act c).2, calls + 6⟩) := fun c w => hok c w 5 (by omega)
  have s6 : ∀ (c : Call) (w : World), φ.sys.call c ⟨w, calls + 6⟩ = (some (w.act c).1, ⟨(w.act c).2, calls + 7⟩) := fun c w => hok c w 6 (by omega)
  obtain ⟨v1, v2, v3, v4⟩ := f
  cases k with
  | lirc => exact (hk rfl).elim
  | tc c =>
    cases c <;> cases v3 <;>
    simp [runOps, runOp, attach, attachTc, attachTcNetlink, attachLink, onOk, andThen, ret, sys, sysUnit, s0, s1, World.act,
      World.opened, keep, dropLink, World.runs, World.open, hn] <;> exact fun _ => by first | exact hpin0 _ | exact hpin1 _ _
  | probe =>
    cases v1 <;> cases v4 <;>
    simp [runOps, runOp, attach, attachProbe, attachBpfLink, attachPerf, createAsTracePoint, onOk, andThen, ret, sys, sysUnit, s0, s1, s2,
      s3, s4, s5, s6, World.act, World.opened, World.file, keep, dropLink, World.runs, World.open, hn, List.find?] <;>
      exact fun _ => by first | exact hpin0 _ | exact hpin1 _ _ | exact hpin2 _ _
  | cgroup =>
    cases v2 <;>
    simp [runOps, runOp, attach, attachCgroup, attachProg, attachLink, onOk, andThen, ret, sys, sysUnit, s0, s1, World.act,
      World.opened, keep, dropLink, World.runs, World.open, hn] <;> exact fun _ => by first | exact hpin0 _ | exact hpin1 _ _
  | _ =>
    cases v4 <;>
    simp [runOps, runOp, attach, attachProg, attachTcNetlink, attachLink, attachRaw, attachXdp, attachTracePoint, attachPerfEvent,
      perfAttach, attachBpfLink, attachPerf, onOk, andThen, ret, sys, sysUnit, s0, s1, s2,
      s3, s4, s5, s6, World.act, World.opened, World.file, keep, dropLink, World.runs, World.open, hn, List.find?] <;>
      exact fun _ => by first | exact hpin0 _ | exact hpin1 _ _ | exact hpin2 _ _

/-- The first start: where nothing is pinned yet and nothing fails, the program is then pinned, and stays when the process ends. -/
theorem C110_first_start (φ : Fate) (path : Path) (h : Hook) (p : Prog) (r : Run) (hf : ∀ t, φ.fail t = none) (ht : r.calls + 3 ≤ φ.ends)
    (hn : ∀ x ∈ r.w.pins, x.1 ≠ path) :
    (∃ l, (restart φ.sys path h p r).1 = some (.ok l)) ∧ (restart φ.sys path h p r).2.w.ended.runsPinned h p := by
  obtain ⟨w, calls⟩ := r
  dsimp only at ht hn
  have hok : ∀ (c : Call) (w : World) (i : Nat), i < 3 → φ.sys.call c ⟨w, calls + i⟩ = (some (w.act c).1, ⟨(w.act c).2, calls + (i + 1)⟩) := by
    intro c w i hi
    have : ¬ φ.ends ≤ calls + i := by omega
    simp only [Fate.sys, if_neg this, hf, Nat.add_assoc]
  have s0 : ∀ (c : Call) (w : World), φ.sys.call c ⟨w, calls⟩ = (some (w.act c).1, ⟨(w.act c).2, calls + 1⟩) := fun c w => hok c w 0 (by omega)
  have s1 : ∀ (c : Call) (w : World), φ.sys.call c ⟨w, calls + 1⟩ = (some (w.act c).1, ⟨(w.act c).2, calls + 2⟩) := fun c w => hok c w 1 (by omega)
  have s2 : ∀ (c : Call) (w : World), φ.sys.call c ⟨w, calls + 2⟩ = (some (w.act c).1, ⟨(w.act c).2, calls + 3⟩) := fun c w => hok c w 2 (by omega)
  have f1 : w.pins.find? (fun x => x.1 == path) = none := List.find?_eq_none.2 fun x hx => by simpa using hn x hx
  have f2 : ∀ b, (path, b) ∉ w.pins := fun b hb => hn _ hb rfl
  constructor
  · refine ⟨.fd w.next, ?_⟩
    simp [restart, restartLink, fromPin, attachLink, pinLink, onOk, andThen, ret, sys, s0, s1, s2, World.act, f1, f2, enoent, World.opened,
      World.file, List.find?]
  · refine ⟨path, w.next, ?_, ?_⟩ <;>
    simp [restart, restartLink, fromPin, attachLink, pinLink, onOk, andThen, ret, sys, s0, s1, s2, World.act, f1, f2, enoent, World.opened,
      World.file, List.find?, World.ended, setAt]

/-- The second start in the documented way always fails with `EEXIST`, though nothing fails that it relies on: the link is pinned again
    at the path at which it is pinned. The program was replaced by then. -/
theorem C110_restart_violated (φ : Fate) (path : Path) (h : Hook) (p : Prog) (r : Run) (hf : ∀ t, φ.fail t = none)
    (ht : r.calls + 4 ≤ φ.ends) (hn : ∃ x ∈ r.w.pins, x.1 = path) :
    (restart φ.sys path h p r).1 = some (.error 17) := by
  obtain ⟨w, calls⟩ := r
  dsimp only at ht hn
  have hok : ∀ (c : Call) (w : World) (i : Nat), i < 4 → φ.sys.call c ⟨w, calls + i⟩ = (some (w.act c).1, ⟨(w.act c).2, calls + (i + 1)⟩) := by
    intro c w i hi
    have : ¬ φ.ends ≤ calls + i := by omega
    simp only [Fate.sys, if_neg this, hf, Nat.add_assoc]
  have s0 : ∀ (c : Call) (w : World), φ.sys.call c ⟨w, calls⟩ = (some (w.act c).1, ⟨(w.act c).2, calls + 1⟩) := fun c w => hok c w 0 (by omega)
  have s1 : ∀ (c : Call) (w : World), φ.sys.call c ⟨w, calls + 1⟩ = (some (w.act c).1, ⟨(w.act c).2, calls + 2⟩) := fun c w => hok c w 1 (by omega)
  have s2 : ∀ (c : Call) (w : World), φ.sys.call c ⟨w, calls + 2⟩ = (some (w.act c).1, ⟨(w.act c).2, calls + 3⟩) := fun c w => hok c w 2 (by omega)
  have s3 : ∀ (c : Call) (w : World), φ.sys.call c ⟨w, calls + 3⟩ = (some (w.act c).1, ⟨(w.act c).2, calls + 4⟩) := fun c w => hok c w 3 (by omega)
  have hex : ∃ b, (path, b) ∈ w.pins := by obtain ⟨⟨a, b⟩, hm, rfl⟩ := hn; exact ⟨b, hm⟩
  cases hfi : w.pins.find? (fun x => x.1 == path) with
  | none =>
    obtain ⟨b, hb⟩ := hex
    have := List.find?_eq_none.1 hfi _ hb
    simp at this
  | some x =>
    obtain ⟨a, i⟩ := x
    simp [restart, restartLink, fromPin, attachToLink, pinLink, onOk, andThen, ret, sys, sysUnit, s0, s1, s2, s3, World.act, hfi, hex,
      World.opened, World.file, List.find?]

/-- A system on which nothing was attached. -/
def empty : Run := ⟨⟨[], [], [], fun _ => (0, 0), fun _ => (0, none, false), [], [], 100⟩, 0⟩

theorem fresh_empty : empty.w.Fresh := ⟨rfl, rfl, fun _ h => by cases h⟩

/-- A system on which program 5 runs at place 1 by a link that is pinned at path 7. -/
def pinned : Run :=
  ⟨⟨[], [], [(7, 3)], fun _ => (1, 5), fun _ => (0, none, false), [], [], 100⟩, 0⟩

theorem fresh_pinned : pinned.w.Fresh := ⟨rfl, rfl, fun x h => by cases h with | head => decide | tail _ h => cases h⟩

/-- `C110_pinned`: the process opens the pinned link, replaces its program by 6, and ends before it drops the link. -/
example : ∃ q, (q = 5 ∨ ∃ i, Op.update i q ∈ [Op.fromPin 7, .update 0 6, .attach .tracePoint 2 9, .drop 1]) ∧
    (runOps (Fate.sys ⟨fun _ => none, 3⟩) .modern [.fromPin 7, .update 0 6, .attach .tracePoint 2 9, .drop 1] [] pinned).2.w.ended.runs 1 q :=
  C110_pinned _ _ _ _ _ 7 3 1 5 (by decide) (by decide) rfl (by decide)

/-- In this run the program is 6 at its end, and the process ended in the midst of `attach`. -/
example :
    (runOps (Fate.sys ⟨fun _ => none, 3⟩) .modern [.fromPin 7, .update 0 6, .attach .tracePoint 2 9, .drop 1] [] pinned).1 = none ∧
    (runOps (Fate.sys ⟨fun _ => none, 3⟩) .modern [.fromPin 7, .update 0 6, .attach .tracePoint 2 9, .drop 1] [] pinned).2.w.link 3 =
      (1, 6) := ⟨rfl, rfl⟩

/-- `C110_modern`: an XDP program runs, is pinned, another one is not. The first is left. -/
example :
    (runOps Fate.kind.sys .modern [.attach .xdp 1 2, .pin 0 8, .attach .cgroup 3 4] [] empty).2.w.ended.runs 1 2 ∧
    (runOps Fate.kind.sys .modern [.attach .xdp 1 2, .pin 0 8, .attach .cgroup 3 4] [] empty).2.w.runs 3 4 ∧
    ¬ (runOps Fate.kind.sys .modern [.attach .xdp 1 2, .pin 0 8, .attach .cgroup 3 4] [] empty).2.w.ended.runs 3 4 := by
  have ho : ∀ k h p, Op.attach k h p ∈ [Op.attach .xdp 1 2, .pin 0 8, .attach .cgroup 3 4] → k.neverLink = false := by
    intro k h p hm
    simp only [List.mem_cons, Op.attach.injEq, reduceCtorEq, List.not_mem_nil, or_false, false_or] at hm
    rcases hm with ⟨rfl, _⟩ | ⟨rfl, _⟩ <;> rfl
  have hm := C110_modern Fate.kind (fun _ h => by cases h) _ ho empty fresh_empty
  refine ⟨(hm 1 2).2 (.inr ⟨8, 100, ?_, rfl⟩), .inr (.inl ⟨101, .inl (.inl ⟨⟨101, .link 101, true⟩, ?_, rfl⟩), rfl⟩), ?_⟩
  · decide +kernel
  · decide +kernel
  · intro h
    rcases (hm 3 4).1 h with h | ⟨path, id, hp, hl⟩
    · cases h
    · have : (path, id) ∈ [(8, 100)] := hp
      rw [List.mem_singleton] at this
      cases this
      cases hl

/-- `C110_left_partial` and `C110_entries_partial` meet runs in which something is left (below), and `C110_dropped_partial` all of its
    cases. -/
example : ¬ (runOps Fate.kind.sys ⟨false, false, false, false⟩ [.attach .probe 1 2, .drop 0] [] empty).2.w.runs 1 2 :=
  (C110_dropped_partial Fate.kind _ .probe (by decide) 1 2 empty fresh_empty (fun _ => rfl) (by decide) (fun h => by cases h)
    (fun ⟨_, _, h, _⟩ => by cases h)).1

/-- `C110_restart`: the process ends between replacing and pinning. -/
example : ∃ x, (x = 5 ∨ x = 6) ∧ (restart (Fate.sys ⟨fun _ => none, 2⟩) 7 1 6 pinned).2.w.ended.runs 1 x :=
  C110_restart _ _ 7 3 1 5 6 (by decide) (by decide) rfl

/-- Dropping the link of a program for an infrared receiver leaves the program there. -/
theorem C110_dropped_violated :
    (runOps Fate.kind.sys .modern [.attach .lirc 1 2, .drop 0] [] empty).2.w.runs 1 2 := .inl (by decide +kernel)

/-- The full statement, that nothing is left of a process that has pinned nothing, is false. On all kernels: programs for messages of
    sockets, programs for infrared receivers, and classifiers that are attached by netlink. -/
theorem C110_left_violated (f : Features) (k : Kind) (hk : k.neverLink = true) (h : Hook) (p : Prog) :
    (runOps Fate.kind.sys f [.attach k h p] [] empty).2.w.ended.runs h p ∧
      (runOps Fate.kind.sys f [.attach k h p] [] empty).2.w.pins = [] := by
  cases k with
  | sockMap => exact ⟨.inl (List.mem_cons_self ..), rfl⟩
  | lirc => exact ⟨.inl (List.mem_cons_self ..), rfl⟩
  | tcNetlink => exact ⟨.inl (List.mem_cons_self ..), rfl⟩
  | tc c =>
    cases c with
    | true => exact ⟨.inl (List.mem_cons_self ..), rfl⟩
    | false => cases hk
  | _ => cases hk

/-- On kernels before 5.7, programs of cgroups: the process is ended before it can drop the link. -/
theorem C110_cgroup_violated :
    (runOps (Fate.sys ⟨fun _ => none, 1⟩) ⟨true, false, false, false⟩ [.attach .cgroup 1 2, .drop 0] [] empty).2.w.ended.runs 1 2 :=
  .inl (by decide +kernel)

/-- On kernels before 6.6, all classifiers. -/
theorem C110_classifier_violated (f : Features) (hf : f.v66 = false) (custom : Bool) (h : Hook) (p : Prog) :
    (runOps Fate.kind.sys f [.attach (.tc custom) h p] [] empty).2.w.ended.runs h p := by
  obtain ⟨a, b, c, d⟩ := f
  dsimp only at hf
  subst hf
  cases custom <;> exact .inl (List.mem_cons_self ..)

/-- On the newest kernels, XDP programs, where the kernel does not take a link with `EINVAL`: this is why `C110_modern` does not have
    that error. -/
theorem C110_xdp_violated :
    (runOps (Fate.sys ⟨fun t => if t = 0 then some 22 else none, 1000⟩) .modern [.attach .xdp 1 2] [] empty).2.w.ended.runs 1 2 :=
  .inl (by decide +kernel)

/-- On kernels without links of perf events, `PerfEvent` programs, if the process has started another program, which got the descriptor.
    This does not happen with trace points. -/
theorem C110_perf_event_violated :
    (runOps Fate.kind.sys ⟨true, true, false, false⟩ [.attach .perfEvent 1 2, .spawn] [] empty).2.w.ended.runs 1 2 ∧
    ¬ (runOps Fate.kind.sys ⟨true, true, false, false⟩ [.attach .tracePoint 1 2, .spawn] [] empty).2.w.ended.runs 1 2 := by
  refine ⟨.inr (.inr ⟨100, .inr (by decide +kernel), rfl⟩), fun h => ?_⟩
  rcases C110_left_partial _ _ _ empty fresh_empty 1 2 h with h | ⟨_, _, h, _⟩ | ⟨k, h, hk⟩ | ⟨h, _⟩
  · cases h
  · have : (_, _) ∈ ([] : List (Path × Nat)) := h
    cases this
  · simp only [List.mem_cons, Op.attach.injEq, reduceCtorEq, List.not_mem_nil, or_false] at h
    obtain ⟨rfl, _⟩ := h
    cases hk
  · simp at h

/-- On kernels before 4.17, entries of probes, though the program itself is gone; also if the process ends before it opens the perf event. -/
theorem C110_entries_violated :
    1 ∈ (runOps Fate.kind.sys ⟨false, false, false, false⟩ [.attach .probe 1 2] [] empty).2.w.ended.probes ∧
    1 ∈ (runOps (Fate.sys ⟨fun _ => none, 1⟩) ⟨false, false, false, false⟩ [.attach .probe 1 2, .drop 0] [] empty).2.w.ended.probes := by
  constructor <;> decide +kernel

end Verif.Exit
