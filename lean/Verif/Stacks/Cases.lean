import Verif.Stacks.Props

/-!
# Stack traces that are not what they should be, and examples
-/
namespace Verif.Stacks
open Verif Verif.Bytes Verif.Stacks.Spec

/-- Three frames, four buckets, chosen by the first frame. -/
def demo : Conf := ⟨3, 4, 127, fun l => l.headD 0⟩

theorem demo_ok : demo.Ok := ⟨by decide, by decide, by decide⟩

/-- Its map, made for three entries. -/
def demoData : Handles.Data := ⟨⟨7, 4, 24, 3, 0⟩, 5⟩
def demoHandle : Handles.Handle := ⟨.stackTrace, demoData, 3⟩

theorem demo_new : Handles.newStackTrace demoData = .ok demoHandle ∧ demoData.obj.valueSize = 8 * demo.depth := by decide +kernel

theorem addresses_of (evs : List Ev) (h : ∀ e ∈ evs, ∀ p stack flags nomem, e = .look p stack flags nomem → ∀ ip ∈ stack, ip < 2 ^ 64) :
    Addresses evs := fun p stack flags nomem hm => h _ hm p stack flags nomem rfl

/-- The stacks are neither removed nor are others put in their place, and all comparisons are in full. -/
def Careful (evs : List Ev) : Prop := ∀ e ∈ evs,
  match e with
  | .look _ _ flags _ => flags < 512
  | .remove _ => False
  | _ => True

/-- **C107** fails when two programs ask at once: both are given the same id, for different stacks, and no error. -/
theorem C107_programs_violated :
    ∃ (evs : List Ev) (x y : List Nat) (id : Nat), Careful evs ∧ x ≠ y ∧ 0 ∉ x ∧ 0 ∉ y ∧
      (∃ a b, evs = a ++ b ∧ ∃ e b', b = e :: b' ∧ Answered demo (run demo a {}) e id x) ∧
      (∃ a b, evs = a ++ b ∧ ∃ e b', b = e :: b' ∧ Answered demo (run demo a {}) e id y) ∧
      (get (sys demo) demoHandle.depth (BitVec.ofNat 32 id) 0 { w := run demo evs {} }).1 = .ok ⟨id, y⟩ := by
  refine ⟨[.look 0 [1, 2] 0 false, .look 1 [5, 6] 0 false, .put 0, .put 1], [1, 2], [5, 6], 1, ?_, by decide, by decide, by decide,
    ⟨[.look 0 [1, 2] 0 false, .look 1 [5, 6] 0 false], [.put 0, .put 1], rfl, .put 0, [.put 1], rfl, by decide +kernel,
      .inr ⟨0, rfl, by decide +kernel⟩⟩,
    ⟨[.look 0 [1, 2] 0 false, .look 1 [5, 6] 0 false, .put 0], [.put 1], rfl, .put 1, [], rfl, by decide +kernel, .inr ⟨1, rfl, by decide +kernel⟩⟩,
    by decide +kernel⟩
  intro e he
  simp only [List.mem_cons, List.not_mem_nil, or_false] at he
  rcases he with rfl | rfl | rfl | rfl <;> first | trivial | (change _ < 512; decide)

/-- **C107** fails when a stack is being read while a program asks: the program is given the id of the other stack. -/
theorem C107_reader_violated :
    ∃ (pre script : List Ev) (y : List Nat) (id : Nat), Careful pre ∧ Careful script ∧ 0 ∉ y ∧ Idle id (run demo pre {}) ∧
      (∃ a e, script = a ++ [e] ∧ Answered demo (run demo a (takeOut 0 id (run demo pre {}))) e id y) ∧
      Idle id (get (sys demo) demoHandle.depth (BitVec.ofNat 32 id) 0 { w := run demo pre {}, next := [script] }).2.w ∧
      ∃ t, (get (sys demo) demoHandle.depth (BitVec.ofNat 32 id) 0
          (get (sys demo) demoHandle.depth (BitVec.ofNat 32 id) 0 { w := run demo pre {}, next := [script] }).2).1 = .ok t ∧ t.frames ≠ y := by
  have idle : ∀ w : W, (∀ p, w.pend p = none) → (∀ r, w.hold r = none) → Idle 1 w := fun w h1 h2 =>
    ⟨(fun p x hx => by rw [h1] at hx; cases hx), (fun r x hx => by rw [h2] at hx; cases hx)⟩
  refine ⟨[.look 0 [1, 2] 0 false, .put 0], [.look 1 [5, 6] 0 false, .put 1], [5, 6], 1, ?_, ?_, by decide, ?_,
    ⟨[.look 1 [5, 6] 0 false], .put 1, rfl, by decide +kernel, .inr ⟨1, rfl, by decide +kernel⟩⟩, ?_, ⟨1, [1, 2]⟩, by decide +kernel, by decide⟩
  · intro e he
    simp only [List.mem_cons, List.not_mem_nil, or_false] at he
    rcases he with rfl | rfl <;> first | trivial | (change _ < 512; decide)
  · intro e he
    simp only [List.mem_cons, List.not_mem_nil, or_false] at he
    rcases he with rfl | rfl <;> first | trivial | (change _ < 512; decide)
  · refine idle _ (fun p => ?_) (fun r => rfl)
    rcases p with _ | p <;> rfl
  · refine idle _ (fun p => ?_) (fun r => ?_)
    · rcases p with _ | _ | p <;> rfl
    · rcases r with _ | r <;> rfl

/-- **C107** fails when two readers read at once: one of them is told that there is no such stack, which is there before and after. -/
theorem C107_not_found_violated :
    ∃ (pre : List Ev) (id : Nat) (t : StackTrace), Careful pre ∧
      (get (sys demo) demoHandle.depth (BitVec.ofNat 32 id) 0 { w := run demo pre {} }).1 = .ok t ∧
      (get (sys demo) demoHandle.depth (BitVec.ofNat 32 id) 0 { w := run demo (pre ++ [.out 0 id]) {} }).1 = .error .keyNotFound ∧
      (get (sys demo) demoHandle.depth (BitVec.ofNat 32 id) 0 { w := run demo (pre ++ [.out 0 id, .back 0]) {} }).1 = .ok t := by
  refine ⟨[.look 0 [1, 2] 0 false, .put 0], 1, ⟨1, [1, 2]⟩, ?_, by decide +kernel, by decide +kernel, by decide +kernel⟩
  intro e he
  simp only [List.mem_cons, List.not_mem_nil, or_false] at he
  rcases he with rfl | rfl <;> first | trivial | (change _ < 512; decide)

/-- **C107** fails for stacks with a frame at address 0, as read from the stacks of processes: it and what called it are missing. -/
theorem C107_zero_violated :
    ∃ (evs : List Ev) (frames : List Nat) (id : Nat), Careful evs ∧ Taken demo evs id frames ∧
      ((run demo evs {}).bucket id = some frames) ∧
      ∃ t, (get (sys demo) demoHandle.depth (BitVec.ofNat 32 id) 0 { w := run demo evs {} }).1 = .ok t ∧ t.frames.length < frames.length := by
  refine ⟨[.look 0 [9, 0, 7] 256 false, .put 0], [9, 0, 7], 1, ?_,
    ⟨0, [9, 0, 7], 256, false, by decide, by decide, by decide, by decide⟩, by decide +kernel, ⟨1, [9]⟩, by decide +kernel, by decide⟩
  intro e he
  simp only [List.mem_cons, List.not_mem_nil, or_false] at he
  rcases he with rfl | rfl <;> first | trivial | (change _ < 512; decide)

/-! ## Examples -/

/-- A stack longer than a value, with one frame skipped, in a bucket beyond the number of entries asked for; meanwhile another program asks for
the same stack and another reader reads it. -/
def story : List Ev := [.look 0 [8, 3, 4, 5, 6] 1 false]
def later : List Ev := [.look 1 [3, 4, 5] 0 false, .out 4 3, .look 2 [6] 0 false, .back 4, .put 2, .look 3 [7, 1] 0 false]

theorem story_idle (w : W) (p : ∀ n, (w.pend n).map (·.1) ≠ some 3) (h : ∀ n, (w.hold n).map (·.1) ≠ some 3) : Idle 3 w :=
  ⟨fun n x hx e => p n (by rw [hx, Option.map_some, e]), fun n x hx e => h n (by rw [hx, Option.map_some, e])⟩

example : Answered demo (run demo story {}) (.put 0) 3 [3, 4, 5] ∧ (∀ x ∈ later, Stays demo 3 x) ∧
    Addresses (story ++ .put 0 :: later) ∧
    (get (sys demo) demoHandle.depth 3 0 { w := run demo (story ++ .put 0 :: later) {}, next := [[.look 7 [2] 0 false]] }).1 = .ok ⟨3, [3, 4, 5]⟩ := by
  refine ⟨⟨by decide +kernel, .inr ⟨0, rfl, by decide +kernel⟩⟩, ?_, ?_, by decide +kernel⟩
  · intro x hx
    simp only [later, List.mem_cons, List.not_mem_nil, or_false] at hx
    rcases hx with rfl | rfl | rfl | rfl | rfl | rfl <;> exact ⟨by decide, by intro p s f n h _; cases h <;> rfl⟩
  · refine addresses_of _ ?_
    intro e he p s f n h
    simp only [story, later, List.cons_append, List.nil_append, List.mem_cons, List.not_mem_nil, or_false] at he
    rcases he with rfl | rfl | rfl | rfl | rfl | rfl | rfl | rfl <;> first | (cases h; done) | (cases h; decide)

/-- The calls for the bucket are made in turns. -/
example : Idle 3 (step demo (.put 0) (run demo story {})).1 ∧ Turns demo 3 (step demo (.put 0) (run demo story {})).1 later ∧
    Idle 3 (run demo (story ++ .put 0 :: later) {}) := by
  have none : ∀ w : W, (∀ n, 3 ≤ n → w.pend n = none) → (∀ n, 6 ≤ n → w.hold n = none) →
      (∀ n < 3, (w.pend n).map (·.1) ≠ some 3) → (∀ n < 6, (w.hold n).map (·.1) ≠ some 3) → Idle 3 w := by
    intro w h1 h2 h3 h4
    refine story_idle w (fun n => ?_) (fun n => ?_)
    · rcases Nat.lt_or_ge n 3 with h | h
      · exact h3 n h
      · rw [h1 n h]; exact nofun
    · rcases Nat.lt_or_ge n 6 with h | h
      · exact h4 n h
      · rw [h2 n h]; exact nofun
  have far : ∀ n, 3 ≤ n → n ≠ 0 ∧ n ≠ 1 ∧ n ≠ 2 := fun n h => by omega
  have far' : ∀ n, 6 ≤ n → n ≠ 5 ∧ n ≠ 0 := fun n h => by omega
  refine ⟨none _ ?_ (fun n _ => rfl) (by decide +kernel) (by decide +kernel), ⟨fun _ => none _ ?_ (fun n _ => rfl) (by decide +kernel) (by decide +kernel),
    fun _ => none _ ?_ (fun n _ => rfl) (by decide +kernel) (by decide +kernel), fun h => absurd (show (2 : Nat) = 3 from h) (by decide), fun h => h.elim, fun h => h.elim,
    fun _ => none _ ?_ ?_ (by decide +kernel) (by decide +kernel), trivial⟩, none _ ?_ ?_ (by decide +kernel) (by decide +kernel)⟩
  all_goals
    intro n hn
    rcases n with _ | _ | _ | _ | _ | _ | n <;> first | rfl | omega

/-- Iterating over three stacks. -/
example : (collect (sys demo) demoHandle.depth 1 5 (false, none) { w := run demo (story ++ .put 0 :: later ++ [.look 0 [5, 9] 0 false, .put 0]) {} }).1 =
    [.ok (1, ⟨1, [5, 9]⟩), .ok (2, ⟨2, [6]⟩), .ok (3, ⟨3, [3, 4, 5]⟩)] := by decide +kernel

/-- A stack is removed. -/
example : (remove (sys demo) 3 { w := run demo (story ++ [.put 0]) {} }).1 = .ok () ∧ (run demo (story ++ [.put 0]) {}).bucket 3 ≠ none ∧
    (get (sys demo) 3 3 0 (remove (sys demo) 3 { w := run demo (story ++ [.put 0]) {} }).2).1 = .error .keyNotFound ∧
    (remove (sys demo) 2 { w := run demo (story ++ [.put 0]) {} }).1 = .error (.syscall "bpf_map_delete_elem" 2) := by decide +kernel

example : getStackid (BitVec.ofInt 64 (-17)) = .error (-17) ∧ getStackid 3 = .ok 3 := by decide +kernel

end Verif.Stacks
