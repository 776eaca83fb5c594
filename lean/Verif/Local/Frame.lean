import Verif.Local.StepRel

/-!
# Storage of sockets, inodes and cgroups: what is promised leaves the rest alone
-/
set_option linter.unusedSimpArgs false
set_option linter.unusedVariables false
namespace Verif.Local
open Spec Verif.Bytes

/-- What replaces or removes the value of a slot, in terms of what is promised. -/
def A.replaces (a : A) (t : Nat) (s : Slot) : Op → Prop
  | .insert m h _ _ | .remove m h => ∃ kind v x n, a.mapOf m = some (kind, v, x, t) ∧ a.thingOf h = some n ∧ s = .thing n
  | .oldInsert m key _ _ _ => ∃ kind v x, a.mapOf m = some (kind, v, x, t) ∧ s = .cg key.ino.toNat key.attach.toNat
  | .delete t' n => t' = t ∧ s = .thing n
  | _ => False

/-- What changes it in place. -/
def A.rewrites (a : A) (t : Nat) (s : Slot) : Op → Prop
  | .oldAllInsert m key _ _ _ => ∃ kind v x, a.mapOf m = some (kind, v, x, t) ∧ s = .cg key.ino.toNat key.attach.toNat
  | .write p _ => ∃ c, a.ptrs[p]? = some (.to t s c)
  | _ => False

/-- What makes one. -/
def makes (t : Nat) (s : Slot) : Op → Prop
  | .ptrOrInsert t' n _ => t' = t ∧ s = .thing n
  | .attach t' _ _ => t' = t
  | _ => False

theorem renew_val {a : A} {m t : Nat} {s s' : Slot} (x : Option (Nat → Spec.Bytes)) (h : ¬ (t = m ∧ s' = s)) :
    (a.renew m s x).val t s' = a.val t s' := by
  simp only [A.renew]
  split <;> simp only [h, if_false]

theorem renew_ptr {a : A} {m t : Nat} {s s' : Slot} (x : Option (Nat → Spec.Bytes)) (h : ¬ (t = m ∧ s' = s)) {p c : Nat}
    (e : a.ptrs[p]? = some (.to t s' c)) : (a.renew m s x).ptrs[p]? = some (.to t s' c) := by
  simp only [A.renew]
  split
  · exact e
  · simp only [List.getElem?_map, e, Option.map_some, Ptr.detach, h, if_false]

theorem renew_same (a : A) (m : Nat) (s : Slot) (x : Option (Nat → Spec.Bytes)) : (a.renew m s x).val m s = x := by
  simp only [A.renew]
  split <;> simp only [and_self, if_true]

theorem change_val {a : A} {m t : Nat} {s s' : Slot} (f : Nat → Spec.Bytes) (h : ¬ (t = m ∧ s' = s)) :
    (a.change m s f).val t s' = a.val t s' := by
  simp only [A.change, h, if_false]

theorem change_same (a : A) (m : Nat) (s : Slot) (f : Nat → Spec.Bytes) : (a.change m s f).val m s = some f := by
  simp only [A.change, and_self, if_true]

theorem setArray_val (a : A) (max t : Nat) (index : BitVec 32) (n flags : Nat) (fault : Option Nat) :
    (step.setArray a max t index n flags fault).1.val = a.val ∧ (step.setArray a max t index n flags fault).1.ptrs = a.ptrs ∧
    (step.setArray a max t index n flags fault).1.lost = a.lost ∧
    (step.setArray a max t index n flags fault).1.world.tables = a.world.tables ∧
    (step.setArray a max t index n flags fault).1.world.things = a.world.things ∧
    (step.setArray a max t index n flags fault).1.names = a.names := by
  simp only [step.setArray]
  repeat' split
  all_goals exact ⟨rfl, rfl, rfl, rfl, rfl, rfl⟩

theorem append_ptr {a : A} {q : Ptr} {p : Nat} {x : Ptr} (e : a.ptrs[p]? = some x) : (a.ptrs ++ [q])[p]? = some x := append_old e

/-- What one step does to the value of a slot and to pointers to it. -/
theorem step_frame (cpus : Nat) (a : A) (op : Op) (fault : Option Nat) (room : Bool) (t : Nat) (s : Slot) (hr : ¬ A.replaces a t s op) :
    (∀ (p c : Nat), a.ptrs[p]? = some (.to t s c) → (Spec.step cpus a op fault room).1.ptrs[p]? = some (.to t s c)) ∧
    (¬ A.rewrites a t s op → ∀ f, a.val t s = some f → (Spec.step cpus a op fault room).1.val t s = some f) ∧
    (¬ makes t s op → a.val t s = none → (Spec.step cpus a op fault room).1.val t s = none) ∧
    ((a.val t s).isSome → ((Spec.step cpus a op fault room).1.val t s).isSome) := by
  have base : ∀ b : A, b.val = a.val → b.ptrs = a.ptrs →
      (∀ (p c : Nat), a.ptrs[p]? = some (.to t s c) → b.ptrs[p]? = some (.to t s c)) ∧
      (¬ A.rewrites a t s op → ∀ f, a.val t s = some f → b.val t s = some f) ∧
      (¬ makes t s op → a.val t s = none → b.val t s = none) ∧ ((a.val t s).isSome → (b.val t s).isSome) := by
    intro b h1 h2
    rw [h1, h2]
    exact ⟨fun _ _ q => q, fun _ _ q => q, fun _ q => q, id⟩
  have more : ∀ (b : A) (q : Ptr), b.val = a.val → b.ptrs = a.ptrs ++ [q] →
      (∀ (p c : Nat), a.ptrs[p]? = some (.to t s c) → b.ptrs[p]? = some (.to t s c)) ∧
      (¬ A.rewrites a t s op → ∀ f, a.val t s = some f → b.val t s = some f) ∧
      (¬ makes t s op → a.val t s = none → b.val t s = none) ∧ ((a.val t s).isSome → (b.val t s).isSome) := by
    intro b q h1 h2
    rw [h1, h2]
    exact ⟨fun _ _ q => append_old q, fun _ _ q => q, fun _ q => q, id⟩
  have renew : ∀ (m : Nat) (s' : Slot) (x : Option (Nat → Spec.Bytes)), ¬ (t = m ∧ s = s') →
      (∀ (p c : Nat), a.ptrs[p]? = some (.to t s c) → (a.renew m s' x).ptrs[p]? = some (.to t s c)) ∧
      (¬ A.rewrites a t s op → ∀ f, a.val t s = some f → (a.renew m s' x).val t s = some f) ∧
      (¬ makes t s op → a.val t s = none → (a.renew m s' x).val t s = none) ∧ ((a.val t s).isSome → ((a.renew m s' x).val t s).isSome) := by
    intro m s' x h
    rw [renew_val x h]
    exact ⟨fun p c q => renew_ptr x h q, fun _ _ q => q, fun _ q => q, id⟩
  cases op with
  | insert m h value flags =>
    simp only [Spec.step]
    repeat' split
    all_goals first
      | exact base _ rfl rfl
      | skip
    rename_i e1 e2 _ _ _ _ _
    refine renew _ _ _ (fun q => hr ?_)
    obtain ⟨rfl, rfl⟩ := q
    exact ⟨_, _, _, _, e1, e2, rfl⟩
  | remove m h =>
    simp only [Spec.step]
    repeat' split
    all_goals first
      | exact base _ rfl rfl
      | skip
    rename_i e1 e2 _ _ _ _
    refine renew _ _ _ (fun q => hr ?_)
    obtain ⟨rfl, rfl⟩ := q
    exact ⟨_, _, _, _, e1, e2, rfl⟩
  | oldInsert m key p value flags =>
    simp only [Spec.step]
    repeat' split
    all_goals first
      | exact base _ rfl rfl
      | skip
    rename_i e1 _ _ _
    refine renew _ _ _ (fun q => hr ?_)
    obtain ⟨rfl, rfl⟩ := q
    exact ⟨_, _, _, e1, rfl⟩
  | delete m n =>
    simp only [Spec.step]
    repeat' split
    all_goals first
      | exact base _ rfl rfl
      | skip
    refine renew _ _ _ (fun q => hr ?_)
    obtain ⟨rfl, rfl⟩ := q
    exact ⟨rfl, rfl⟩
  | oldAllInsert m key p values flags =>
    simp only [Spec.step]
    repeat' split
    all_goals first
      | exact base _ rfl rfl
      | skip
    rename_i e1 _ _ _ _ e2 e3
    refine ⟨fun _ _ q => q, fun w f hf => ?_, fun _ q => ?_, fun q => ?_⟩
    · rw [change_val]
      · exact hf
      · rintro ⟨rfl, rfl⟩
        exact w ⟨_, _, _, e1, rfl⟩
    · rw [change_val]
      · exact q
      · rintro ⟨rfl, rfl⟩
        rw [q] at e3; cases e3
    · simp only [A.change]
      split
      · rfl
      · exact q
  | attach m n type =>
    simp only [Spec.step]
    repeat' split
    all_goals first
      | exact base _ rfl rfl
      | skip
    rename_i e3
    refine ⟨fun _ _ q => q, fun w f hf => ?_, fun w q => ?_, fun q => ?_⟩
    · rw [change_val]
      · exact hf
      · rintro ⟨rfl, rfl⟩
        rw [hf] at e3; cases e3
    · rw [change_val]
      · exact q
      · rintro ⟨rfl, rfl⟩
        exact w rfl
    · simp only [A.change]
      split
      · rfl
      · exact q
  | ptrOrInsert m n value =>
    simp only [Spec.step]
    repeat' split
    all_goals first
      | exact base _ rfl rfl
      | exact more _ _ rfl rfl
      | skip
    rename_i e3 _
    refine ⟨fun _ _ q => append_old (l := (a.change _ _ _).ptrs) q, fun w f hf => ?_, fun w q => ?_, fun q => ?_⟩
    · show (a.change m (.thing n) _).val t s = _
      rw [change_val]
      · exact hf
      · rintro ⟨rfl, rfl⟩
        rw [hf] at e3; exact e3 rfl
    · show (a.change m (.thing n) _).val t s = _
      rw [change_val]
      · exact q
      · rintro ⟨rfl, rfl⟩
        exact w ⟨rfl, rfl⟩
    · simp only [A.change]
      split
      · rfl
      · exact q
  | write p value =>
    simp only [Spec.step]
    rcases e : a.ptrs[p]? with _ | (⟨m, s', c⟩ | ⟨g, c⟩)
    · exact base _ rfl rfl
    · simp only [A.deref, A.store]
      rcases ev : a.val m s' with _ | f
      · exact base _ rfl rfl
      · simp only [Option.map_some]
        split
        · exact base _ rfl rfl
        · refine ⟨fun _ _ q => q, fun w f' hf => ?_, fun w q => ?_, fun q => ?_⟩
          · rw [change_val]
            · exact hf
            · rintro ⟨rfl, rfl⟩
              exact w ⟨c, e⟩
          · rw [change_val]
            · exact q
            · rintro ⟨rfl, rfl⟩
              rw [q] at ev; cases ev
          · simp only [A.change]
            split
            · rfl
            · exact q
    · simp only [A.deref, A.store]
      repeat' split
      all_goals exact base _ rfl rfl
  | set m index h flags =>
    simp only [Spec.step]
    repeat' split
    all_goals first
      | exact base _ (setArray_val _ _ _ _ _ _ _).1 (setArray_val _ _ _ _ _ _ _).2.1
      | exact base _ rfl rfl
  | setOwned m index h flags =>
    simp only [Spec.step]
    split
    · exact base _ (setArray_val a _ _ _ _ _ _).1 (setArray_val a _ _ _ _ _ _).2.1
    · exact base _ rfl rfl
  | ptr m n =>
    simp only [Spec.step]
    repeat' split
    all_goals first
      | exact base _ rfl rfl
      | exact more _ _ rfl rfl
  | oldPtr m n type cpu =>
    simp only [Spec.step]
    repeat' split
    all_goals first
      | exact base _ rfl rfl
      | exact more _ _ rfl rfl
  | _ =>
    simp only [Spec.step]
    repeat' split
    all_goals exact base _ rfl rfl

/-- Objects and maps stay what they are. -/
theorem step_grow (cpus : Nat) (a : A) (op : Op) (fault : Option Nat) (room : Bool) :
    (∀ (n : Nat) x, a.world.things[n]? = some x → (Spec.step cpus a op fault room).1.world.things[n]? = some x) ∧
    (∀ (n : Nat) x, a.world.tables[n]? = some x → (Spec.step cpus a op fault room).1.world.tables[n]? = some x) := by
  have base : ∀ b : A, b.world = a.world →
      (∀ (n : Nat) x, a.world.things[n]? = some x → b.world.things[n]? = some x) ∧
      (∀ (n : Nat) x, a.world.tables[n]? = some x → b.world.tables[n]? = some x) := by
    intro b h; rw [h]; exact ⟨fun _ _ q => q, fun _ _ q => q⟩
  have same : ∀ b : A, b.world.things = a.world.things → b.world.tables = a.world.tables →
      (∀ (n : Nat) x, a.world.things[n]? = some x → b.world.things[n]? = some x) ∧
      (∀ (n : Nat) x, a.world.tables[n]? = some x → b.world.tables[n]? = some x) := by
    intro b h1 h2; rw [h1, h2]; exact ⟨fun _ _ q => q, fun _ _ q => q⟩
  have renew : ∀ (m : Nat) (s : Slot) x, (a.renew m s x).world = a.world := by
    intro m s x; simp only [A.renew]; split <;> rfl
  have store : ∀ p v, (a.store p v).world = a.world := by
    intro p v
    simp only [A.store]
    repeat' split
    all_goals rfl
  cases op with
  | open_ t =>
    simp only [Spec.step]
    split
    · exact ⟨fun _ _ q => append_old q, fun _ _ q => q⟩
    · exact base _ rfl
  | map kind ksize vsize max size =>
    simp only [Spec.step]
    repeat' split
    all_goals first
      | exact base _ rfl
      | exact ⟨fun _ _ q => q, fun _ _ q => append_old q⟩
  | set m index h flags =>
    simp only [Spec.step]
    split
    · exact same _ (setArray_val a _ _ _ _ _ _).2.2.2.2.1 (setArray_val a _ _ _ _ _ _).2.2.2.1
    · exact base _ rfl
  | setOwned m index h flags =>
    simp only [Spec.step]
    split
    · exact same _ (setArray_val a _ _ _ _ _ _).2.2.2.2.1 (setArray_val a _ _ _ _ _ _).2.2.2.1
    · exact base _ rfl
  | unset m index =>
    simp only [Spec.step]
    repeat' split
    all_goals exact ⟨fun _ _ q => q, fun _ _ q => q⟩
  | _ =>
    simp only [Spec.step]
    repeat' split
    all_goals first
      | exact base _ rfl
      | exact base _ (renew _ _ _)
      | exact base _ (store _ _)

/-- What sets or clears an entry of an array. -/
def A.resets (a : A) (t : Nat) (index : BitVec 32) : Op → Prop
  | .set m i _ _ | .setOwned m i _ _ | .unset m i => ∃ kind v x, a.mapOf m = some (kind, v, x, t) ∧ i = index
  | _ => False

theorem setSlot_other {w : World} {m i t j : Nat} (x : Option Nat) (h : ¬ (t = m ∧ j = i)) : (w.setSlot m i x).slots t j = w.slots t j := by
  simp only [World.setSlot, h, if_false]

theorem setArray_slots (a : A) (max m : Nat) (i : BitVec 32) (n flags : Nat) (fault : Option Nat) {t : Nat} {index : BitVec 32}
    (h : ¬ (m = t ∧ i = index)) :
    (step.setArray a max m i n flags fault).1.world.slots t index.toNat = a.world.slots t index.toNat := by
  simp only [step.setArray]
  repeat' split
  all_goals first
    | rfl
    | exact setSlot_other _ (fun q => h ⟨q.1.symm, BitVec.eq_of_toNat_eq q.2.symm⟩)

/-- Entries of arrays stay unless they are set or cleared. -/
theorem step_slots (cpus : Nat) (a : A) (op : Op) (fault : Option Nat) (room : Bool) (t : Nat) (index : BitVec 32) (hr : ¬ A.resets a t index op) :
    (Spec.step cpus a op fault room).1.world.slots t index.toNat = a.world.slots t index.toNat := by
  have renew : ∀ (m : Nat) (s : Slot) x, (a.renew m s x).world = a.world := by
    intro m s x; simp only [A.renew]; split <;> rfl
  have store : ∀ p v, (a.store p v).world = a.world := by
    intro p v
    simp only [A.store]
    repeat' split
    all_goals rfl
  cases op with
  | set m i h flags =>
    simp only [Spec.step]
    split
    · rename_i e1 e2
      refine setArray_slots _ _ _ _ _ _ _ (fun q => hr ?_)
      obtain ⟨rfl, rfl⟩ := q
      exact ⟨_, _, _, e1, rfl⟩
    · rfl
  | setOwned m i h flags =>
    simp only [Spec.step]
    split
    · rename_i e1 e2
      refine setArray_slots _ _ _ _ _ _ _ (fun q => hr ?_)
      obtain ⟨rfl, rfl⟩ := q
      exact ⟨_, _, _, e1, rfl⟩
    · rfl
  | unset m i =>
    simp only [Spec.step]
    repeat' split
    all_goals first
      | rfl
      | skip
    rename_i e1 _ _
    refine setSlot_other _ (fun q => hr ?_)
    obtain ⟨rfl, q⟩ := q
    exact ⟨_, _, _, e1, (BitVec.eq_of_toNat_eq q).symm⟩
  | _ =>
    simp only [Spec.step]
    repeat' split
    all_goals first
      | rfl
      | exact congrFun (congrFun (congrArg World.slots (renew _ _ _)) _) _
      | exact congrFun (congrFun (congrArg World.slots (store _ _)) _) _

/-- Cgroups are under older ones. -/
def Older (w : World) : Prop := ∀ (d u : Nat) ino, w.things[d]? = some (.cgroup (some u) ino) → u < d

theorem step_older (cpus : Nat) (a : A) (op : Op) (fault : Option Nat) (room : Bool) (h : Older a.world) :
    Older (Spec.step cpus a op fault room).1.world := by
  have things : (∀ t, op ≠ .open_ t) → (Spec.step cpus a op fault room).1.world.things = a.world.things := by
    have renew : ∀ (m : Nat) (s : Slot) x, (a.renew m s x).world = a.world := by
      intro m s x; simp only [A.renew]; split <;> rfl
    have store : ∀ p v, (a.store p v).world = a.world := by
      intro p v
      simp only [A.store]
      repeat' split
      all_goals rfl
    intro ne
    cases op with
    | open_ t => exact (ne t rfl).elim
    | set m index h flags =>
      simp only [Spec.step]
      split
      · exact (setArray_val a _ _ _ _ _ _).2.2.2.2.1
      · rfl
    | setOwned m index h flags =>
      simp only [Spec.step]
      split
      · exact (setArray_val a _ _ _ _ _ _).2.2.2.2.1
      · rfl
    | _ =>
      simp only [Spec.step]
      repeat' split
      all_goals first
        | rfl
        | exact congrArg World.things (renew _ _ _)
        | exact congrArg World.things (store _ _)
  by_cases ho : ∃ t, op = .open_ t
  · obtain ⟨t, rfl⟩ := ho
    simp only [Spec.step]
    split
    · rename_i hw
      intro d u ino e
      simp only [Bool.and_eq_true] at hw
      rcases append_some e with e | ⟨rfl, e'⟩
      · exact h d u ino e
      · subst e'
        have := hw.1
        simp only [World.welcome] at this
        rcases q : a.world.things[u]? with _ | x
        · rw [q] at this; cases this
        · exact (List.getElem?_eq_some_iff.mp q).1
    · exact h
  · have := things (fun t q => ho ⟨t, q⟩)
    simp only [Older, this]
    exact h

end Verif.Local
