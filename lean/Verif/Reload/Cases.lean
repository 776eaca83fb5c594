import Verif.Reload.Again
/-!
# C112: where loading again goes wrong, and cases that meet the hypotheses
-/
namespace Verif.Reload

/-- A counter pinned at 1, `.data` pinned at 2, `.rodata` pinned at 3, and a map that is not pinned. -/
def counter : MapDef := ⟨some 1, 2, [], false, none⟩
def dataSection : MapDef := ⟨some 2, 2, [5, 6], false, none⟩
def rodataSection : MapDef := ⟨some 3, 2, [7, 8], true, none⟩
def plain : MapDef := ⟨none, 4, [1, 2, 3, 4], true, some 8⟩

def steps (p n : Nat) : List Ev := List.replicate n (.step p)

/-- How the loading of a process has ended. -/
def World.ended (w : World) (p : Nat) : Option (Except Err (List Fd)) :=
  match w.procs p with
  | .runs _ (.ret r) => some r
  | _ => none

/-- **C112 (violated)** An object with a pinned `.rodata` cannot be loaded twice: the second time its map is found, frozen, and cannot be filled. -/
theorem C112_rodata_violated :
    (World.empty.evs (.start 1 [rodataSection] :: steps 1 5)).ended 1 = some (.ok [0]) ∧
    (World.empty.evs (.start 1 [rodataSection] :: steps 1 5 ++ .start 2 [rodataSection] :: steps 2 5)).ended 2 = some (.error (.update 1)) := by
  decide +kernel

/-- **C112 (violated)** Two processes started at the same time: one of them fails although the map is there for it to share. -/
theorem C112_race_violated :
    (World.empty.evs ([.start 1 [counter], .start 2 [counter]] ++ [.step 1, .step 2] ++ steps 1 3 ++ steps 2 3)).ended 1 = some (.ok [0]) ∧
    (World.empty.evs ([.start 1 [counter], .start 2 [counter]] ++ [.step 1, .step 2] ++ steps 1 3 ++ steps 2 3)).ended 2 = some (.error (.pin 17)) := by
  decide +kernel

/-- **C112 (violated)** A pinned `.data` that a process is using is set back to its first contents when another is started. -/
theorem C112_reset_violated :
    (World.empty.evs (.start 1 [dataSection] :: steps 1 5 ++ [.write 0 [9, 9]])).k.maps[0]?.map (·.content) = some [9, 9] ∧
    (World.empty.evs (.start 1 [dataSection] :: steps 1 5 ++ [.write 0 [9, 9]] ++ .start 2 [dataSection] :: steps 2 5)).k.maps[0]?.map (·.content) =
      some [5, 6] ∧
    (World.empty.evs (.start 1 [dataSection] :: steps 1 5 ++ [.write 0 [9, 9]] ++ .start 2 [dataSection] :: steps 2 5)).ended 1 = some (.ok [0]) := by
  decide +kernel

/-- **C112 (violated)** The map that is pinned is taken although it has another size than the object's. -/
theorem C112_size_violated :
    (World.empty.evs (.start 1 [counter] :: steps 1 5 ++ .start 2 [{ counter with size := 8 }] :: steps 2 5)).ended 2 = some (.ok [0]) ∧
    (World.empty.evs (.start 1 [counter] :: steps 1 5 ++ .start 2 [{ counter with size := 8 }] :: steps 2 5)).k.maps[0]?.map (·.size) = some 2 := by
  decide +kernel

/-- **C112 (violated)** A process that is ended between pinning `.rodata` and filling it leaves a map of zeros under the path, that others take, while it has not
    been filled, for the constants of the program. -/
theorem C112_zeros_violated :
    (World.empty.evs (.start 1 [rodataSection] :: steps 1 3 ++ [.kill 1])).k.pins = [(3, 0)] ∧
    (World.empty.evs (.start 1 [rodataSection] :: steps 1 3 ++ [.kill 1])).k.maps[0]?.map (·.content) = some [0, 0] := by
  decide +kernel

/-- Loading again after that works, as `C112_again_partial` says: the map is not frozen. -/
example : ∃ fds k', (loadAll [rodataSection, plain]).run 2 (World.empty.evs (.start 1 [rodataSection] :: steps 1 3 ++ [.kill 1])).k = (.ok fds, k') ∧
    fds.length = 2 ∧ fds[0]? = some 0 := by
  obtain ⟨fds, k', h1, h2, h3, _⟩ := C112_again_partial (.start 1 [rodataSection] :: steps 1 3 ++ [.kill 1]) 2 [rodataSection, plain] (by decide)
    (by
      have e1 : (World.empty.evs (.start 1 [rodataSection] :: steps 1 3 ++ [.kill 1])).k = ⟨[⟨2, [0, 0], false, 1⟩], [(3, 0)]⟩ := by decide +kernel
      rw [e1]
      intro m _ _ path _ id hid
      obtain ⟨rfl, rfl⟩ : path = 3 ∧ id = 0 := by simpa using hid
      exact ⟨_, rfl, rfl⟩)
  refine ⟨fds, k', h1, h2, ?_⟩
  have hl : 0 < fds.length := by rw [h2]; decide
  rw [List.getElem?_eq_getElem hl]
  exact congrArg some ((h3 0 rodataSection _ 3 rfl (List.getElem?_eq_getElem hl) rfl).2 0 (by decide +kernel))

/-- A history with two processes that are interleaved, failures and an end, in which the counter is shared and keeps what was written to it. -/
def history : List Ev :=
  .start 1 [plain, counter] :: steps 1 9 ++ [.write 2 [3, 4], .start 2 [counter, dataSection], .start 3 [counter, dataSection], .step 2, .step 3, .fail 3 12, .fail 3 12] ++
    steps 2 4

example : (World.empty.evs history).ended 1 = some (.ok [1, 2]) ∧ (World.empty.evs history).ended 2 = some (.ok [2, 3]) ∧
    (World.empty.evs history).ended 3 = some (.error (.create 12)) ∧ (World.empty.evs history).k.maps[2]?.map (·.content) = some [3, 4] := by
  decide +kernel

/-- The hypotheses of `C112_stays` and `C112_loaded`. -/
example : (1, 2) ∈ (World.empty.evs history).k.pins := by decide +kernel

example : ∃ fds, (World.empty.evs history).procs 2 = .runs [counter, dataSection] (.ret (.ok fds)) := ⟨[2, 3], rfl⟩

/-- The hypotheses of `C112_contents_partial`: no data section is pinned at 1. -/
example : NoSectionAt 1 history := by
  intro p ms h m hm hs
  simp only [history, steps, List.replicate, List.cons_append, List.nil_append, List.mem_cons, Ev.start.injEq, reduceCtorEq, false_or,
    or_false, List.not_mem_nil] at h
  rcases h with ⟨_, rfl⟩ | ⟨_, rfl⟩ | ⟨_, rfl⟩ <;> simp only [List.mem_cons, List.not_mem_nil, or_false] at hm <;> rcases hm with rfl | rfl <;>
    first | (revert hs; decide) | decide

end Verif.Reload
