import Verif.Local.Seen

/-!
# Storage of sockets, inodes and cgroups: properties
-/
set_option linter.unusedSimpArgs false
set_option linter.unusedVariables false
namespace Verif.Local
open Spec Verif.Bytes

/-! ## Lemmas -/

/-- Only objects that suit a map have values in it. -/
def Suited (a : A) : Prop := ∀ t n, (a.val t (.thing n)).isSome → ∃ T, a.world.tables[t]? = some T ∧ Kind.ofObjects T.kind = true ∧
  suits a.world T.kind n = none

theorem suits_grow {w w' : World} {kind : Kind} {n : Nat} (g : ∀ (n : Nat) x, w.things[n]? = some x → w'.things[n]? = some x)
    (h : suits w kind n = none) : suits w' kind n = none := by
  simp only [suits] at h ⊢
  rcases e : w.things[n]? with _ | x
  · rw [e] at h; cases h
  · rw [e] at h
    rw [g _ _ e]; exact h

/-- The table of a name. -/
theorem mapOf_table {w : W} {a : A} (r : Rel w a) {m t v x : Nat} {kind : Kind} (h : a.mapOf m = some (kind, v, x, t)) :
    ∃ T, a.world.tables[t]? = some T ∧ T.kind = kind ∧ T.vsize = v ∧ T.max = x := by
  rcases r.map m with ⟨kind', d', m', q1, q2, q3, q4⟩ | ⟨q1, q2⟩
  · rw [q2] at h; cases h
    exact ⟨_, q4, rfl, rfl, rfl⟩
  · rw [q2] at h; cases h

theorem step_suited {w : W} {a : A} (r : Rel w a) (cpus : Nat) (op : Op) (fault : Option Nat) (room : Bool) (h : Suited a) :
    Suited (Spec.step cpus a op fault room).1 := by
  intro t n hs
  obtain ⟨g1, g2⟩ := step_grow cpus a op fault room
  have keep : (a.val t (.thing n)).isSome → ∃ T, (Spec.step cpus a op fault room).1.world.tables[t]? = some T ∧ Kind.ofObjects T.kind = true ∧
      suits (Spec.step cpus a op fault room).1.world T.kind n = none := by
    intro q
    obtain ⟨T, h1, h2, h3⟩ := h t n q
    exact ⟨T, g2 _ _ h1, h2, suits_grow g1 h3⟩
  rcases e : a.val t (.thing n) with _ | f
  · have get : ∀ T, a.world.tables[t]? = some T → Kind.ofObjects T.kind = true → suits a.world T.kind n = none →
        ∃ T, (Spec.step cpus a op fault room).1.world.tables[t]? = some T ∧ Kind.ofObjects T.kind = true ∧
        suits (Spec.step cpus a op fault room).1.world T.kind n = none := fun T h1 h2 h3 => ⟨T, g2 _ _ h1, h2, suits_grow g1 h3⟩
    have : A.replaces a t (.thing n) op ∨ makes t (.thing n) op := by
      refine Classical.byContradiction fun no => ?_
      rw [not_or] at no
      rw [(step_frame cpus a op fault room t (.thing n) no.1).2.2.1 no.2 e] at hs
      cases hs
    cases op <;> simp only [A.replaces, makes, or_false, false_or, or_self] at this
    case insert m h value flags =>
      obtain ⟨kind, v, x, n', h1, h2, h3⟩ := this
      cases h3
      simp only [Spec.step, h1, h2] at hs
      obtain ⟨T, t1, t2, _⟩ := mapOf_table r h1
      rcases ho : Kind.ofObjects kind with _ | _
      · simp only [ho, Bool.not_false, Bool.true_or, if_true] at hs
        rw [e] at hs; cases hs
      · rcases eS : suits a.world kind n with _ | y
        · exact get T t1 (by rw [t2]; exact ho) (by rw [t2]; exact eS)
        · simp only [eS] at hs
          split at hs <;> rw [e] at hs <;> cases hs
    case remove m h =>
      obtain ⟨kind, v, x, n', h1, h2, h3⟩ := this
      cases h3
      have q : (Spec.step cpus a (.remove m h) fault room).1.val t (.thing n) = none := by
        simp only [Spec.step, h1, h2]
        repeat' split
        all_goals first
          | exact e
          | exact renew_same _ _ _ _
      rw [q] at hs; cases hs
    case oldInsert => obtain ⟨_, _, _, _, h⟩ := this; cases h
    case delete m n' =>
      obtain ⟨rfl, h⟩ := this
      cases h
      have q : (Spec.step cpus a (.delete m n) fault room).1.val m (.thing n) = none := by
        simp only [Spec.step]
        repeat' split
        all_goals first
          | exact e
          | exact renew_same _ _ _ _
      rw [q] at hs; cases hs
    case ptrOrInsert m n' value =>
      obtain ⟨rfl, h⟩ := this
      cases h
      simp only [Spec.step] at hs
      rcases et : a.world.tables[m]? with _ | T
      · rw [et] at hs; simp only at hs; rw [e] at hs; cases hs
      · rw [et] at hs
        simp only at hs
        rcases ho : Kind.ofObjects T.kind with _ | _
        · simp only [ho, Bool.not_false, Bool.true_or, if_true] at hs
          rw [e] at hs; cases hs
        · rcases eS : suits a.world T.kind n with _ | y
          · exact get T et ho eS
          · simp only [eS, Option.isSome, Bool.or_true, Bool.true_or, if_true] at hs
            rw [e] at hs; cases hs
    case attach m n' type =>
      subst this
      have : (Spec.step cpus a (.attach m n' type) fault room).1.val m (.thing n) = a.val m (.thing n) := by
        simp only [Spec.step]
        repeat' split
        all_goals first
          | rfl
          | exact change_val _ (fun q => by have := q.2; simp only [Table.slot, reduceCtorEq] at this)
      rw [this, e] at hs; cases hs
  · exact keep (by rw [e]; rfl)

/-- Maps with names have keys that say the type of attachment. -/
def Keyed (a : A) : Prop := ∀ (h : Nat) kind v x t, a.names[h]?.join = some (.map kind v x t) → ∃ T, a.world.tables[t]? = some T ∧ T.ksize ≠ 8

theorem step_keyed (cpus : Nat) (a : A) (op : Op) (fault : Option Nat) (room : Bool) (hk : Keyed a) : Keyed (Spec.step cpus a op fault room).1 := by
  obtain ⟨_, g2⟩ := step_grow cpus a op fault room
  have base : (Spec.step cpus a op fault room).1.names = a.names → Keyed (Spec.step cpus a op fault room).1 := by
    intro e h kind v x t q
    rw [e] at q
    obtain ⟨T, h1, h2⟩ := hk h kind v x t q
    exact ⟨T, g2 _ _ h1, h2⟩
  have more : ∀ n, (Spec.step cpus a op fault room).1.names = a.names ++ [some (.thing n)] → Keyed (Spec.step cpus a op fault room).1 := by
    intro n e h kind v x t q
    rw [e, getElem?_join_append] at q
    split at q
    · cases q
    · obtain ⟨T, h1, h2⟩ := hk h kind v x t q
      exact ⟨T, g2 _ _ h1, h2⟩
  have less : ∀ i, (Spec.step cpus a op fault room).1.names = a.names.set i none → Keyed (Spec.step cpus a op fault room).1 := by
    intro i e h kind v x t q
    rw [e, getElem?_join_set] at q
    split at q
    · cases q
    · obtain ⟨T, h1, h2⟩ := hk h kind v x t q
      exact ⟨T, g2 _ _ h1, h2⟩
  have renew : ∀ (m : Nat) (s : Slot) x, (a.renew m s x).names = a.names := by
    intro m s x; simp only [A.renew]; split <;> rfl
  have store : ∀ p v, (a.store p v).names = a.names := by
    intro p v
    simp only [A.store]
    repeat' split
    all_goals rfl
  cases op with
  | open_ t =>
    by_cases c : (a.world.welcome t && room) = true
    · exact more a.world.things.length (by simp only [Spec.step, if_pos c])
    · exact base (by simp only [Spec.step, if_neg c])
  | clone h =>
    rcases e : a.thingOf h with _ | n
    · exact base (by simp only [Spec.step, e])
    · cases room
      · exact base (by simp only [Spec.step, e])
      · exact more n (by simp only [Spec.step, e])
  | drop h =>
    by_cases c : (a.names[h]?.join).isSome = true
    · exact less h (by simp only [Spec.step, if_pos c])
    · exact base (by simp only [Spec.step, if_neg c])
  | setOwned m index h flags =>
    clear more g2
    revert base less
    simp only [Spec.step]
    split
    · intro _ less
      refine less h ?_
      exact congrArg (fun l : List (Option Stands) => l.set h none) (setArray_val a _ _ _ _ _ _).2.2.2.2.2
    · intro base _
      exact base rfl
  | set m index h flags =>
    refine base ?_
    simp only [Spec.step]
    split
    · exact (setArray_val a _ _ _ _ _ _).2.2.2.2.2
    · rfl
  | map kind ksize vsize max size =>
    by_cases c : ksize = 8 ∨ (kind ≠ .array ∧ vsize ≠ size)
    · refine base ?_
      simp only [Spec.step]
      repeat' split
      all_goals first
        | rfl
        | exact absurd c (by rintro (q | q) <;> contradiction)
    · rw [not_or] at c
      simp only [Spec.step, if_neg c.1, if_neg c.2] at base ⊢
      repeat' split
      all_goals first
        | exact hk
        | skip
      intro h kind' v x t q
      simp only at q
      rw [getElem?_join_append] at q
      split at q
      · cases q
        exact ⟨_, by simp only [List.length_append, List.length_singleton, Nat.add_sub_cancel]; exact List.getElem?_concat_length, c.1⟩
      · obtain ⟨T, h1, h2⟩ := hk h kind' v x t q
        exact ⟨T, append_old h1, h2⟩
  | _ =>
    refine base ?_
    simp only [Spec.step]
    repeat' split
    all_goals first
      | rfl
      | exact renew _ _ _
      | exact store _ _

theorem reached' (cpus : Nat) {fresh : (Nat → Option Obj) → Option Nat} (hfresh : Fresh fresh) (ops : List (Op × Option Nat)) :
    ∃ a, Rel (wrun cpus fresh {} ops).1 a ∧ Keyed a ∧ Suited a := by
  refine later hfresh (fun _ _ => True) (fun a => Keyed a ∧ Suited a)
    (fun w a op f room r _ h => ⟨step_keyed cpus a op f room h.1, step_suited r cpus op f room h.2⟩) ops rel_init ?_ ⟨?_, ?_⟩
  · generalize ({} : W) = w
    induction ops generalizing w with
    | nil => trivial
    | cons o ops ih => exact ⟨trivial, ih _⟩
  · intro h kind v x t q; cases q
  · intro t n h; cases h

theorem ptrs_length {w : W} {a : A} (r : Rel w a) : w.ptrs.length = a.ptrs.length := by
  obtain ⟨γ, v⟩ := r.values
  apply Nat.le_antisymm
  · refine Classical.byContradiction fun no => ?_
    have q := v.ptrs a.ptrs.length
    rw [List.getElem?_eq_none (l := a.ptrs) (Nat.le_refl _), List.getElem?_eq_getElem (l := w.ptrs) (by omega)] at q
    exact q
  · refine Classical.byContradiction fun no => ?_
    have q := v.ptrs w.ptrs.length
    rw [List.getElem?_eq_none (l := w.ptrs) (Nat.le_refl _), List.getElem?_eq_getElem (l := a.ptrs) (by omega)] at q
    exact q

/-- A value is read through any names of the map and the object. -/
theorem get_value {cpus : Nat} {fresh : (Nat → Option Obj) → Option Nat} (hfresh : Fresh fresh) {w : W} {a : A} (r : Rel w a) (hs : Suited a)
    {m h t n : Nat} {kind : Kind} (hm : w.isMap m t kind) (hh : w.isThing h n) {f : Nat → Spec.Bytes} (e : a.val t (.thing n) = some f)
    (fault : Option Nat) : (wstep cpus fresh w (.get m h 0) fault).2 = .value (f 0) := by
  rw [(step_rel cpus fresh hfresh r (.get m h 0) fault).2]
  obtain ⟨d, h1, _, h3⟩ := r.isMap hm
  obtain ⟨T, q1, q2, q3⟩ := hs t n (by rw [e]; rfl)
  rw [h3] at q1; cases q1
  simp only [Spec.step, h1, r.isThing.mp hh, q2, q3, e, Bool.not_true, Bool.false_eq_true, if_false, ne_eq, not_true_eq_false]

/-! ## Properties -/

/-- C100: for every history of the process and of programs, on any number of CPUs, whatever numbers descriptors have and whichever calls of the
    system fail, everything that is seen is what is promised. -/
theorem C100_histories (cpus : Nat) (fresh : (Nat → Option Obj) → Option Nat) (hfresh : Fresh fresh) (ops : List (Op × Option Nat)) :
    (wrun cpus fresh {} ops).2 = (Spec.run cpus {} ops (rooms cpus fresh {} ops)).2 := (run_rel cpus fresh hfresh ops rel_init).2

/-- C100: a value the process stores for an object is read back, through any descriptor of the object and any of the map, until it is replaced,
    removed or written to, whatever else is done. -/
theorem C100_read_back (cpus : Nat) (fresh : (Nat → Option Obj) → Option Nat) (hfresh : Fresh fresh) (ops : List (Op × Option Nat))
    {m h t n : Nat} {kind : Kind} (hm : (wrun cpus fresh {} ops).1.isMap m t kind) (hh : (wrun cpus fresh {} ops).1.isThing h n)
    (value : Spec.Bytes) (flags : Nat) (fault : Option Nat)
    (done : (wstep cpus fresh (wrun cpus fresh {} ops).1 (.insert m h value flags) fault).2 = .done)
    (ops2 : List (Op × Option Nat))
    (quiet : Throughout cpus fresh (fun w op => ¬ w.replaces t (.thing n) op ∧ ¬ w.rewrites t (.thing n) op)
      (wstep cpus fresh (wrun cpus fresh {} ops).1 (.insert m h value flags) fault).1 ops2)
    {m' h' : Nat} {kind' : Kind}
    (hm' : (wrun cpus fresh (wstep cpus fresh (wrun cpus fresh {} ops).1 (.insert m h value flags) fault).1 ops2).1.isMap m' t kind')
    (hh' : (wrun cpus fresh (wstep cpus fresh (wrun cpus fresh {} ops).1 (.insert m h value flags) fault).1 ops2).1.isThing h' n)
    (fault' : Option Nat) :
    (wstep cpus fresh (wrun cpus fresh (wstep cpus fresh (wrun cpus fresh {} ops).1 (.insert m h value flags) fault).1 ops2).1
      (.get m' h' 0) fault').2 = .value value := by
  obtain ⟨a, r, _, su⟩ := reached' cpus hfresh ops
  obtain ⟨s1, s2⟩ := step_rel cpus fresh hfresh r (.insert m h value flags) fault
  have su1 := step_suited r cpus (.insert m h value flags) fault (fresh (wrun cpus fresh {} ops).1.k.fds).isSome su
  rw [s2] at done
  have val : (Spec.step cpus a (.insert m h value flags) fault (fresh (wrun cpus fresh {} ops).1.k.fds).isSome).1.val t (.thing n) =
      some fun _ => value := by
    obtain ⟨d, h1, _, _⟩ := r.isMap hm
    revert done
    simp only [Spec.step, h1, r.isThing.mp hh]
    repeat' split
    all_goals first
      | exact fun _ => renew_same _ _ _ _
      | exact fun q => (nomatch q)
  obtain ⟨b, rb, v, sb⟩ := later hfresh _ (fun a => a.val t (.thing n) = some (fun _ => value) ∧ Suited a)
    (fun w a op f room r good h => ⟨(step_frame cpus a op f room t (.thing n) (r.replaces good.1)).2.1 (r.rewrites good.2) _ h.1,
      step_suited r cpus op f room h.2⟩) ops2 s1 quiet ⟨val, su1⟩
  exact get_value hfresh rb sb hm' hh' v fault'

/-- C100: what the process or a program removed is gone until a value is made again. -/
theorem C100_removed (cpus : Nat) (fresh : (Nat → Option Obj) → Option Nat) (hfresh : Fresh fresh) (ops : List (Op × Option Nat))
    {m h t n : Nat} {kind : Kind} (hm : (wrun cpus fresh {} ops).1.isMap m t kind) (hh : (wrun cpus fresh {} ops).1.isThing h n)
    (op : Op) (fault : Option Nat)
    (done : (op = .remove m h ∧ (wstep cpus fresh (wrun cpus fresh {} ops).1 op fault).2 = .done) ∨
      (op = .delete t n ∧ (wstep cpus fresh (wrun cpus fresh {} ops).1 op fault).2 = .told (.ok ())))
    (ops2 : List (Op × Option Nat))
    (quiet : Throughout cpus fresh (fun w op => ¬ w.replaces t (.thing n) op ∧ ¬ makes t (.thing n) op)
      (wstep cpus fresh (wrun cpus fresh {} ops).1 op fault).1 ops2) :
    (wrun cpus fresh (wstep cpus fresh (wrun cpus fresh {} ops).1 op fault).1 ops2).1.valueAt t (.thing n) 0 = none ∧
    ∀ (m' h' : Nat) (kind' : Kind) (fault' : Option Nat),
      (wrun cpus fresh (wstep cpus fresh (wrun cpus fresh {} ops).1 op fault).1 ops2).1.isMap m' t kind' →
      (wrun cpus fresh (wstep cpus fresh (wrun cpus fresh {} ops).1 op fault).1 ops2).1.isThing h' n →
      (wstep cpus fresh (wrun cpus fresh (wstep cpus fresh (wrun cpus fresh {} ops).1 op fault).1 ops2).1 (.get m' h' 0) fault').2 =
        .failed .keyNotFound := by
  obtain ⟨a, r, _, su⟩ := reached' cpus hfresh ops
  obtain ⟨s1, s2⟩ := step_rel cpus fresh hfresh r op fault
  rw [s2] at done
  have val : (Spec.step cpus a op fault (fresh (wrun cpus fresh {} ops).1.k.fds).isSome).1.val t (.thing n) = none ∧
      (a.val t (.thing n)).isSome := by
    rcases done with ⟨rfl, done⟩ | ⟨rfl, done⟩
    · obtain ⟨d, h1, _, _⟩ := r.isMap hm
      revert done
      simp only [Spec.step, h1, r.isThing.mp hh]
      repeat' split
      all_goals first
        | exact fun _ => ⟨renew_same _ _ _ _, ‹_›⟩
        | exact fun q => (nomatch q)
    · revert done
      simp only [Spec.step]
      repeat' split
      all_goals first
        | exact fun _ => ⟨renew_same _ _ _ _, ‹_›⟩
        | exact fun q => (nomatch q)
  obtain ⟨T, t1, t2, t3⟩ := su t n val.2
  obtain ⟨g1, g2⟩ := step_grow cpus a op fault (fresh (wrun cpus fresh {} ops).1.k.fds).isSome
  obtain ⟨b, rb, v, b1, b2⟩ := later hfresh _
    (fun a => a.val t (.thing n) = none ∧ a.world.tables[t]? = some T ∧ suits a.world T.kind n = none)
    (fun w a op f room r good h => ⟨(step_frame cpus a op f room t (.thing n) (r.replaces good.1)).2.2.1 good.2 h.1,
      (step_grow cpus a op f room).2 _ _ h.2.1, suits_grow (step_grow cpus a op f room).1 h.2.2⟩) ops2 s1 quiet
    ⟨val.1, g2 _ _ t1, suits_grow g1 t3⟩
  refine ⟨by rw [rb.value, v]; rfl, fun m' h' kind' fault' hm' hh' => ?_⟩
  rw [(step_rel cpus fresh hfresh rb (.get m' h' 0) fault').2]
  obtain ⟨d, h1, _, h3⟩ := rb.isMap hm'
  rw [b1] at h3; cases h3
  simp only [Spec.step, h1, rb.isThing.mp hh', t2, b2, v, Bool.not_true, Bool.false_eq_true, if_false, ne_eq, not_true_eq_false]

/-- C100: a program that asks for the value of an object is given a pointer to it if there is one, and only then. -/
theorem C100_asked (cpus : Nat) (fresh : (Nat → Option Obj) → Option Nat) (hfresh : Fresh fresh) (ops : List (Op × Option Nat))
    (t n : Nat) (b : Bool) (fault : Option Nat)
    (given : (wstep cpus fresh (wrun cpus fresh {} ops).1 (.ptr t n) fault).2 = .pointer b) :
    b = ((wrun cpus fresh {} ops).1.valueAt t (.thing n) 0).isSome ∧
    (∀ s c, (wstep cpus fresh (wrun cpus fresh {} ops).1 (.ptr t n) fault).1.valueAt t s c = (wrun cpus fresh {} ops).1.valueAt t s c) ∧
    (b = true → (wstep cpus fresh (wrun cpus fresh {} ops).1 (.ptr t n) fault).1.pointsTo (wrun cpus fresh {} ops).1.ptrs.length t (.thing n) 0) := by
  obtain ⟨a, r, _⟩ := reached cpus hfresh ops
  obtain ⟨s1, s2⟩ := step_rel cpus fresh hfresh r (.ptr t n) fault
  rw [s2] at given
  have len := ptrs_length r
  rw [r.value, Option.isSome_map, s1.pointsTo]
  simp only [s1.value, r.value, len]
  revert given
  simp only [Spec.step]
  repeat' split
  all_goals first
    | (intro q; simp only [reduceCtorEq] at q; done)
    | skip
  · rename_i e
    intro q; cases q
    exact ⟨e.symm, fun _ _ => rfl, fun _ => List.getElem?_concat_length⟩
  · rename_i e
    intro q; cases q
    simp only [Bool.not_eq_true] at e
    exact ⟨e.symm, fun _ _ => rfl, fun q => (nomatch q)⟩

/-- C100: a program that asks for the value of an object, to be made if there is none, is given a pointer to the value there is, or else to a new
    one: what it says, or zeros. -/
theorem C100_created (cpus : Nat) (fresh : (Nat → Option Obj) → Option Nat) (hfresh : Fresh fresh) (ops : List (Op × Option Nat))
    (t n : Nat) (T : Table) (ht : (wrun cpus fresh {} ops).1.k.world.tables[t]? = some T) (value : Option Spec.Bytes) (fault : Option Nat)
    (given : (wstep cpus fresh (wrun cpus fresh {} ops).1 (.ptrOrInsert t n value) fault).2 = .pointer true) :
    (wstep cpus fresh (wrun cpus fresh {} ops).1 (.ptrOrInsert t n value) fault).1.valueAt t (.thing n) 0 =
      some (((wrun cpus fresh {} ops).1.valueAt t (.thing n) 0).getD (value.getD (List.replicate T.vsize 0))) ∧
    (wstep cpus fresh (wrun cpus fresh {} ops).1 (.ptrOrInsert t n value) fault).1.pointsTo (wrun cpus fresh {} ops).1.ptrs.length t (.thing n) 0 := by
  obtain ⟨a, r, _⟩ := reached cpus hfresh ops
  obtain ⟨s1, s2⟩ := step_rel cpus fresh hfresh r (.ptrOrInsert t n value) fault
  rw [s2] at given
  have len := ptrs_length r
  rw [r.world] at ht
  rw [s1.pointsTo, s1.value, r.value, len]
  revert given
  simp only [Spec.step, ht]
  repeat' split
  all_goals first
    | (intro q; simp only [reduceCtorEq, Res.pointer.injEq, Bool.false_eq_true] at q; done)
    | skip
  · rename_i e
    intro _
    obtain ⟨f, hf⟩ := Option.isSome_iff_exists.mp e
    refine ⟨?_, List.getElem?_concat_length⟩
    simp only [hf, Option.map_some, Option.getD_some]
  · rename_i e _
    intro _
    simp only [Option.not_isSome_iff_eq_none] at e
    refine ⟨?_, List.getElem?_concat_length (l := (a.change t (.thing n) _).ptrs)⟩
    show Option.map _ ((a.change t (.thing n) _).val t (.thing n)) = _
    rw [change_same, e]
    rfl

/-- C100: what a program writes through a pointer to the value of an object is what the process reads, and what is read through any pointer to it,
    for as long as the value has not been replaced or removed. Not said: what happens once it has; see `C100_pointer_violated`. -/
theorem C100_pointer_partial (cpus : Nat) (fresh : (Nat → Option Obj) → Option Nat) (hfresh : Fresh fresh) (ops : List (Op × Option Nat))
    {p t n : Nat} (hp : (wrun cpus fresh {} ops).1.pointsTo p t (.thing n) 0) (ops2 : List (Op × Option Nat))
    (quiet : Throughout cpus fresh (fun w op => ¬ w.replaces t (.thing n) op) (wrun cpus fresh {} ops).1 ops2)
    (v : Spec.Bytes) (fault : Option Nat)
    (done : (wstep cpus fresh (wrun cpus fresh (wrun cpus fresh {} ops).1 ops2).1 (.write p v) fault).2 = .done) :
    (∀ (m h : Nat) (kind : Kind) (fault' : Option Nat),
      (wstep cpus fresh (wrun cpus fresh (wrun cpus fresh {} ops).1 ops2).1 (.write p v) fault).1.isMap m t kind →
      (wstep cpus fresh (wrun cpus fresh (wrun cpus fresh {} ops).1 ops2).1 (.write p v) fault).1.isThing h n →
      (wstep cpus fresh (wstep cpus fresh (wrun cpus fresh (wrun cpus fresh {} ops).1 ops2).1 (.write p v) fault).1 (.get m h 0) fault').2 = .value v) ∧
    (∀ (q : Nat) (fault' : Option Nat),
      (wstep cpus fresh (wrun cpus fresh (wrun cpus fresh {} ops).1 ops2).1 (.write p v) fault).1.pointsTo q t (.thing n) 0 →
      (wstep cpus fresh (wstep cpus fresh (wrun cpus fresh (wrun cpus fresh {} ops).1 ops2).1 (.write p v) fault).1 (.read q) fault').2 = .value v) := by
  obtain ⟨a, r, _, su⟩ := reached' cpus hfresh ops
  obtain ⟨b, rb, pb, sb⟩ := later hfresh _ (fun a => a.ptrs[p]? = some (.to t (.thing n) 0) ∧ Suited a)
    (fun w a op f room r good h => ⟨(step_frame cpus a op f room t (.thing n) (r.replaces good)).1 _ _ h.1, step_suited r cpus op f room h.2⟩)
    ops2 r quiet ⟨r.pointsTo.mp hp, su⟩
  obtain ⟨s1, s2⟩ := step_rel cpus fresh hfresh rb (.write p v) fault
  have sc := step_suited rb cpus (.write p v) fault (fresh (wrun cpus fresh (wrun cpus fresh {} ops).1 ops2).1.k.fds).isSome sb
  rw [s2] at done
  have val : ∃ f, (Spec.step cpus b (.write p v) fault (fresh (wrun cpus fresh (wrun cpus fresh {} ops).1 ops2).1.k.fds).isSome).1.val t (.thing n) =
      some f ∧ f 0 = v := by
    revert done
    simp only [Spec.step, pb, A.deref, A.store]
    rcases e : b.val t (.thing n) with _ | f
    · exact fun q => (nomatch q)
    · simp only [Option.map_some]
      split
      · exact fun q => (nomatch q)
      · intro _
        exact ⟨_, change_same _ _ _ _, by simp [setCpu]⟩
  obtain ⟨f, h1, h2⟩ := val
  refine ⟨fun m h kind fault' hm hh => ?_, fun q fault' hq => ?_⟩
  · have := get_value hfresh (cpus := cpus) s1 sc hm hh h1 fault'
    rw [h2] at this
    exact this
  · rw [(step_rel cpus fresh hfresh s1 (.read q) fault').2]
    have hq' := s1.pointsTo.mp hq
    generalize (Spec.step cpus b (.write p v) fault (fresh (wrun cpus fresh (wrun cpus fresh {} ops).1 ops2).1.k.fds).isSome).1 = c at *
    simp only [Spec.step, hq', Option.bind_some, A.deref, h1, Option.map_some, h2]

theorem old_key {w : W} {a : A} (r : Rel w a) (hk : Keyed a) {m t : Nat} {kind : Kind} (hm : w.isMap m t kind) {T : Table}
    (ht : a.world.tables[t]? = some T) : T.ksize ≠ 8 := by
  obtain ⟨d, h1, _⟩ := r.isMap hm
  simp only [A.mapOf] at h1
  split at h1
  · rename_i e
    cases h1
    obtain ⟨T', h1, h2⟩ := hk _ _ _ _ _ e
    rw [ht] at h1; cases h1
    exact h2
  · cases h1

/-- What a program attached to cgroup `n` with `type` reads through the pointer it is given on a CPU. -/
theorem old_seen {cpus : Nat} {fresh : (Nat → Option Obj) → Option Nat} (hfresh : Fresh fresh) {w : W} {a : A} (r : Rel w a)
    {t n cpu : Nat} {T : Table} {up : Option Nat} {ino : BitVec 64} {type : BitVec 32} {f : Nat → Spec.Bytes}
    (ht : a.world.tables[t]? = some T) (hn : a.world.things[n]? = some (.cgroup up ino)) (hk : T.kind = .old ∨ T.kind = .oldAll)
    (h8 : T.ksize ≠ 8) (hc : cpu < cpus) (hv : a.val t (.cg ino.toNat type.toNat) = some f) (fault fault' : Option Nat) :
    (wstep cpus fresh w (.oldPtr t n type cpu) fault).2 = .pointer true ∧
    (wstep cpus fresh (wstep cpus fresh w (.oldPtr t n type cpu) fault).1 (.read w.ptrs.length) fault').2 =
      .value (f (if T.kind = .oldAll then cpu else 0)) := by
  obtain ⟨s1, s2⟩ := step_rel cpus fresh hfresh r (.oldPtr t n type cpu) fault
  have hs : T.slot ino type = .cg ino.toNat type.toNat := by simp only [Table.slot, if_neg h8]
  have cond : ¬ ((T.kind ≠ .old ∧ T.kind ≠ .oldAll) ∨ cpu ≥ cpus) := by
    rintro (⟨h1, h2⟩ | h)
    · rcases hk with hk | hk
      · exact h1 hk
      · exact h2 hk
    · omega
  have e : Spec.step cpus a (.oldPtr t n type cpu) fault (fresh w.k.fds).isSome =
      ({ a with ptrs := a.ptrs ++ [.to t (.cg ino.toNat type.toNat) (if T.kind = .oldAll then cpu else 0)] }, .pointer true) := by
    simp only [Spec.step, ht, hn, hs, hv, if_neg cond]
  rw [e] at s1 s2
  refine ⟨s2, ?_⟩
  rw [(step_rel cpus fresh hfresh s1 (.read w.ptrs.length) fault').2, ptrs_length r]
  simp only [Spec.step, List.getElem?_concat_length, Option.bind_some, A.deref, hv, Option.map_some]

/-- C100: a value the process stores for a cgroup and a type of attachment is read back, and is what a program attached there is given, until it
    is replaced or written to, whatever else is done. What is in the padding of the C structure never matters. -/
theorem C100_cgroup_value (cpus : Nat) (fresh : (Nat → Option Obj) → Option Nat) (hfresh : Fresh fresh) (ops : List (Op × Option Nat))
    {m t : Nat} (hm : (wrun cpus fresh {} ops).1.isMap m t .old) (key : CgKey) (padding : BitVec 32) (value : Spec.Bytes) (flags : Nat)
    (fault : Option Nat)
    (done : (wstep cpus fresh (wrun cpus fresh {} ops).1 (.oldInsert m key padding value flags) fault).2 = .done)
    (ops2 : List (Op × Option Nat))
    (quiet : Throughout cpus fresh (fun w op => ¬ w.replaces t (slotOf key) op ∧ ¬ w.rewrites t (slotOf key) op)
      (wstep cpus fresh (wrun cpus fresh {} ops).1 (.oldInsert m key padding value flags) fault).1 ops2)
    (w : W) (hw : w = (wrun cpus fresh (wstep cpus fresh (wrun cpus fresh {} ops).1 (.oldInsert m key padding value flags) fault).1 ops2).1)
    (fault' : Option Nat) :
    (∀ (m' : Nat) (kind : Kind) (padding' : BitVec 32), w.isMap m' t kind →
      (wstep cpus fresh w (.oldGet m' key padding' 0) fault').2 = .value value) ∧
    (∀ (n cpu : Nat) (up : Option Nat), w.k.world.things[n]? = some (.cgroup up key.ino) → cpu < cpus →
      (wstep cpus fresh w (.oldPtr t n key.attach cpu) fault').2 = .pointer true ∧
      (wstep cpus fresh (wstep cpus fresh w (.oldPtr t n key.attach cpu) fault').1 (.read w.ptrs.length) fault').2 = .value value) := by
  obtain ⟨a, r, ky, _⟩ := reached' cpus hfresh ops
  obtain ⟨d, h1, h1', h3⟩ := r.isMap hm
  obtain ⟨s1, s2⟩ := step_rel cpus fresh hfresh r (.oldInsert m key padding value flags) fault
  rw [s2] at done
  have val : (Spec.step cpus a (.oldInsert m key padding value flags) fault (fresh (wrun cpus fresh {} ops).1.k.fds).isSome).1.val t (slotOf key) =
      some fun _ => value := by
    revert done
    simp only [Spec.step, h1]
    repeat' split
    all_goals first
      | exact fun _ => renew_same _ _ _ _
      | (intro q; simp only [reduceCtorEq] at q; done)
  obtain ⟨b, rb, v, b1⟩ := later hfresh _
    (fun a => a.val t (slotOf key) = some (fun _ => value) ∧ a.world.tables[t]? = some ⟨.old, d.ksize, d.vsize, d.max⟩)
    (fun w a op f room r good h => ⟨(step_frame cpus a op f room t (slotOf key) (r.replaces good.1)).2.1 (r.rewrites good.2) _ h.1,
      (step_grow cpus a op f room).2 _ _ h.2⟩) ops2 s1 quiet
    ⟨val, (step_grow cpus a _ fault _).2 _ _ h3⟩
  rw [← hw] at rb
  refine ⟨fun m' kind padding' hm' => ?_, fun n cpu up hn hc => ?_⟩
  · rw [(step_rel cpus fresh hfresh rb (.oldGet m' key padding' 0) fault').2]
    obtain ⟨d', g1, _, g3⟩ := rb.isMap hm'
    rw [b1] at g3
    obtain rfl : Kind.old = kind := congrArg Table.kind (Option.some.inj g3)
    simp only [slotOf] at v
    simp only [Spec.step, g1, v, ne_eq, not_true_eq_false, if_false]
  · rw [rb.world] at hn
    have := old_seen (cpus := cpus) hfresh rb b1 hn (.inl rfl) (old_key r ky hm h3) hc v fault' fault'
    exact this

/-- C100: the values the process stores for a cgroup and a type of attachment, one for each CPU, are read back, and a program attached there is given
    the one of the CPU it runs on, until they are written to, whatever else is done. -/
theorem C100_cgroup_values (cpus : Nat) (fresh : (Nat → Option Obj) → Option Nat) (hfresh : Fresh fresh) (ops : List (Op × Option Nat))
    {m t : Nat} (hm : (wrun cpus fresh {} ops).1.isMap m t .oldAll) (key : CgKey) (padding : BitVec 32) (values : List Spec.Bytes) (flags : Nat)
    (fault : Option Nat)
    (done : (wstep cpus fresh (wrun cpus fresh {} ops).1 (.oldAllInsert m key padding values flags) fault).2 = .done)
    (ops2 : List (Op × Option Nat))
    (quiet : Throughout cpus fresh (fun w op => ¬ w.replaces t (slotOf key) op ∧ ¬ w.rewrites t (slotOf key) op)
      (wstep cpus fresh (wrun cpus fresh {} ops).1 (.oldAllInsert m key padding values flags) fault).1 ops2)
    (w : W) (hw : w = (wrun cpus fresh (wstep cpus fresh (wrun cpus fresh {} ops).1 (.oldAllInsert m key padding values flags) fault).1 ops2).1)
    (fault' : Option Nat) :
    (∀ (m' : Nat) (kind : Kind) (padding' : BitVec 32), w.isMap m' t kind →
      (wstep cpus fresh w (.oldAllGet m' key padding' 0) fault').2 = .values values) ∧
    (∀ (n cpu : Nat) (up : Option Nat) (v : Spec.Bytes), w.k.world.things[n]? = some (.cgroup up key.ino) → values[cpu]? = some v →
      (wstep cpus fresh w (.oldPtr t n key.attach cpu) fault').2 = .pointer true ∧
      (wstep cpus fresh (wstep cpus fresh w (.oldPtr t n key.attach cpu) fault').1 (.read w.ptrs.length) fault').2 = .value v) := by
  obtain ⟨a, r, ky, _⟩ := reached' cpus hfresh ops
  obtain ⟨d, h1, h1', h3⟩ := r.isMap hm
  obtain ⟨s1, s2⟩ := step_rel cpus fresh hfresh r (.oldAllInsert m key padding values flags) fault
  rw [s2] at done
  have val : values.length = cpus ∧ ∃ f : Nat → Spec.Bytes,
      (Spec.step cpus a (.oldAllInsert m key padding values flags) fault (fresh (wrun cpus fresh {} ops).1.k.fds).isSome).1.val t (slotOf key) =
        some f ∧ ∀ c v, values[c]? = some v → f c = v := by
    revert done
    simp only [Spec.step, h1]
    repeat' split
    all_goals first
      | (intro q; simp only [reduceCtorEq] at q; done)
      | skip
    rename_i hl _ _ _ _ _
    intro _
    simp only [ne_eq, not_or, Decidable.not_not] at hl
    exact ⟨hl.1, _, change_same _ _ _ _, fun c v e => by rw [e]; rfl⟩
  obtain ⟨hl, f, val, hf⟩ := val
  obtain ⟨b, rb, v, b1⟩ := later hfresh _
    (fun a => a.val t (slotOf key) = some f ∧ a.world.tables[t]? = some ⟨.oldAll, d.ksize, d.vsize, d.max⟩)
    (fun w a op f room r good h => ⟨(step_frame cpus a op f room t (slotOf key) (r.replaces good.1)).2.1 (r.rewrites good.2) _ h.1,
      (step_grow cpus a op f room).2 _ _ h.2⟩) ops2 s1 quiet
    ⟨val, (step_grow cpus a _ fault _).2 _ _ h3⟩
  rw [← hw] at rb
  refine ⟨fun m' kind padding' hm' => ?_, fun n cpu up x hn hx => ?_⟩
  · rw [(step_rel cpus fresh hfresh rb (.oldAllGet m' key padding' 0) fault').2]
    obtain ⟨d', g1, _, g3⟩ := rb.isMap hm'
    rw [b1] at g3
    obtain rfl : Kind.oldAll = kind := congrArg Table.kind (Option.some.inj g3)
    simp only [slotOf] at v
    simp only [Spec.step, g1, v, ne_eq, not_true_eq_false, if_false, Res.values.injEq]
    apply List.ext_getElem?
    intro i
    by_cases lt : i < cpus
    · rw [List.getElem?_map, List.getElem?_range lt, Option.map_some, List.getElem?_eq_getElem (by omega), hf i _ (List.getElem?_eq_getElem (by omega))]
    · rw [List.getElem?_eq_none (by simp; omega), List.getElem?_eq_none (by omega)]
  · rw [rb.world] at hn
    have hc := (List.getElem?_eq_some_iff.mp hx).1
    have := old_seen (cpus := cpus) hfresh rb b1 hn (.inr rfl) (old_key r ky hm h3) (hl ▸ hc) v fault' fault'
    rw [if_pos rfl, hf _ _ hx] at this
    exact this

/-- C100: whatever map it is, it is taken as storage of a type only if keys and values have the sizes that storage needs: 16 bytes
for the key of the old storage of cgroups and 4 for any other; the size of the type for values, and 4 for arrays of cgroups. -/
theorem C100_sizes (kind : Kind) (d : Data) (size : Nat) :
    new kind d size = .ok () ↔
      d.ksize = (if kind = .old ∨ kind = .oldAll then 16 else 4) ∧ d.vsize = (if kind = .array then 4 else size) := by
  have key : ∀ a b, checkKvSize d a b = .ok () ↔ d.ksize = a ∧ d.vsize = b := by
    intro a b
    simp only [checkKvSize]
    by_cases h : a = d.ksize <;> by_cases h' : b = d.vsize <;> simp [h, h', eq_comm]
  cases kind <;> simp only [new, key] <;> simp

/-- What is refused. -/
def refused : Res → Bool
  | .failed _ | .nothing | .pointer false | .told (.error _) => true
  | _ => false

/-- C100: what is refused has changed no value of any map and no entry of any array. -/
theorem C100_refused (cpus : Nat) (fresh : (Nat → Option Obj) → Option Nat) (hfresh : Fresh fresh) (ops : List (Op × Option Nat))
    (op : Op) (fault : Option Nat) (no : refused (wstep cpus fresh (wrun cpus fresh {} ops).1 op fault).2 = true) :
    (∀ t s c, (wstep cpus fresh (wrun cpus fresh {} ops).1 op fault).1.valueAt t s c = (wrun cpus fresh {} ops).1.valueAt t s c) ∧
    (wstep cpus fresh (wrun cpus fresh {} ops).1 op fault).1.k.world.slots = (wrun cpus fresh {} ops).1.k.world.slots := by
  obtain ⟨a, r, _⟩ := reached cpus hfresh ops
  obtain ⟨s1, s2⟩ := step_rel cpus fresh hfresh r op fault
  rw [s2] at no
  have key : (Spec.step cpus a op fault (fresh (wrun cpus fresh {} ops).1.k.fds).isSome).1.val = a.val ∧
      (Spec.step cpus a op fault (fresh (wrun cpus fresh {} ops).1.k.fds).isSome).1.world.slots = a.world.slots := by
    have arr : ∀ max t index n flags, refused (step.setArray a max t index n flags fault).2 = true →
        (step.setArray a max t index n flags fault).1.world.slots = a.world.slots := by
      intro max t index n flags
      simp only [step.setArray]
      repeat' split
      all_goals first
        | exact fun _ => rfl
        | (intro q; simp only [refused, Bool.false_eq_true] at q; done)
    revert no
    cases op with
    | set m index h flags =>
      simp only [Spec.step]
      split
      · exact fun q => ⟨(setArray_val a _ _ _ _ _ _).1, arr _ _ _ _ _ q⟩
      · exact fun _ => ⟨rfl, rfl⟩
    | setOwned m index h flags =>
      simp only [Spec.step]
      split
      · exact fun q => ⟨(setArray_val a _ _ _ _ _ _).1, arr _ _ _ _ _ q⟩
      · exact fun _ => ⟨rfl, rfl⟩
    | _ =>
      simp only [Spec.step]
      repeat' split
      all_goals first
        | exact fun _ => ⟨rfl, rfl⟩
        | (intro q; simp only [refused, Bool.false_eq_true] at q; done)
  refine ⟨fun t s c => ?_, ?_⟩
  · rw [s1.value, r.value, key.1]
  · rw [s1.world, r.world, key.2]

/-- C100: the cgroup the process puts in an array, whether it keeps the directory open or gives it away, is the one programs ask about, until the
    entry is set or cleared, whatever else is done: a task, or the socket of a packet, is under it if and only if its cgroup is that cgroup or
    below it. -/
theorem C100_array (cpus : Nat) (fresh : (Nat → Option Obj) → Option Nat) (hfresh : Fresh fresh) (ops : List (Op × Option Nat))
    {m h t n : Nat} (hm : (wrun cpus fresh {} ops).1.isMap m t .array) (hh : (wrun cpus fresh {} ops).1.isThing h n)
    (index : BitVec 32) (flags : Nat) (op : Op) (hop : op = .set m index h flags ∨ op = .setOwned m index h flags) (fault : Option Nat)
    (done : (wstep cpus fresh (wrun cpus fresh {} ops).1 op fault).2 = .done)
    (ops2 : List (Op × Option Nat))
    (quiet : Throughout cpus fresh (fun w op => ¬ w.resets t index op) (wstep cpus fresh (wrun cpus fresh {} ops).1 op fault).1 ops2)
    (w : W) (hw : w = (wrun cpus fresh (wstep cpus fresh (wrun cpus fresh {} ops).1 op fault).1 ops2).1)
    (cg : Nat) (hc : isCgroup w.k.world.things[cg]? = true) (fault' : Option Nat) :
    ∃ b : Bool, (b = true ↔ Within w.k.world n cg) ∧
      (wstep cpus fresh w (.taskUnder t index cg) fault').2 = .answer (.ok b) ∧
      (wstep cpus fresh w (.skbUnder t index (some cg)) fault').2 = .answer (.ok b) := by
  obtain ⟨a, r, old⟩ := reached cpus hfresh ops
  obtain ⟨d, h1, h1', h3⟩ := r.isMap hm
  obtain ⟨s1, s2⟩ := step_rel cpus fresh hfresh r op fault
  rw [s2] at done
  have arr : (step.setArray a d.max t index n flags fault).2 = .done →
      (step.setArray a d.max t index n flags fault).1.world.slots t index.toNat = some n ∧ index.toNat < d.max := by
    simp only [step.setArray]
    repeat' split
    all_goals first
      | (intro q; simp only [reduceCtorEq] at q; done)
      | skip
    intro _
    refine ⟨?_, by omega⟩
    simp only [World.setSlot, and_self, if_true]
  have val : (Spec.step cpus a op fault (fresh (wrun cpus fresh {} ops).1.k.fds).isSome).1.world.slots t index.toNat = some n ∧ index.toNat < d.max := by
    revert done
    rcases hop with rfl | rfl
    · simp only [Spec.step, h1, r.isThing.mp hh]
      exact arr
    · simp only [Spec.step, h1, r.isThing.mp hh]
      exact arr
  obtain ⟨b, rb, v, b1, b2⟩ := later hfresh _
    (fun a => a.world.slots t index.toNat = some n ∧ a.world.tables[t]? = some ⟨.array, d.ksize, d.vsize, d.max⟩ ∧ Older a.world)
    (fun w a op f room r good h => ⟨by rw [step_slots cpus a op f room t index (r.resets good)]; exact h.1,
      (step_grow cpus a op f room).2 _ _ h.2.1, step_older cpus a op f room h.2.2⟩) ops2 s1 quiet
    ⟨val.1, (step_grow cpus a op fault _).2 _ _ h3, step_older cpus a op fault _ old⟩
  rw [← hw] at rb
  rw [rb.world] at hc ⊢
  have ans : b.world.taskUnder t index cg = if climbs b.world n (cg + 1) cg then 1 else 0 := by
    simp only [World.taskUnder, b1, v, ge_iff_le, Nat.not_le.mpr val.2, if_false]
  refine ⟨climbs b.world n (cg + 1) cg, ⟨climbs_within _ _, fun q => within_climbs b2 q _ (Nat.lt_succ_self _)⟩, ?_, ?_⟩
  · rw [(step_rel cpus fresh hfresh rb _ fault').2]
    simp only [Spec.step, b1, hc, Option.map_some, and_self, if_true, ans]
    rcases climbs b.world n (cg + 1) cg <;> rfl
  · rw [(step_rel cpus fresh hfresh rb _ fault').2]
    have hall : ∀ c ∈ some cg, isCgroup b.world.things[c]? = true := by
      intro c hc'
      cases hc'
      exact hc
    simp only [Spec.step, b1, Option.map_some, true_and, World.skbUnder, ans]
    rw [if_pos hall]
    rcases climbs b.world n (cg + 1) cg <;> rfl

/-! ## A case -/

/-- The lowest number that is free. -/
def low (fds : Nat → Option Obj) : Option Nat := (List.range 64).find? fun n => (fds n).isNone

theorem low_fresh : Fresh low := by
  intro fds n h
  have h1 := List.find?_some h
  have h2 := List.mem_of_find?_eq_some h
  rw [List.mem_range] at h2
  exact ⟨by simpa using h1, by omega⟩

/-- A socket, another descriptor of it, a map of sockets' values and one of another kind. -/
def start : List (Op × Option Nat) :=
  [(.open_ .sock, none), (.clone 0, none), (.map .sk 4 2 0 2, none), (.open_ (.cgroup none 7), none), (.map .inode 4 1 0 1, none)]

/-- C100: what a program writes through a pointer is not always what the process reads: the process has replaced the value in the meantime, the
    program is not told, and what it writes is lost. -/
theorem C100_pointer_violated :
    Fresh low ∧ (wrun 2 low {} (start ++ [(.insert 2 0 [1, 2] 0, none), (.ptr 0 0, none), (.insert 2 1 [3, 4] 0, none), (.write 0 [5, 6], none),
        (.read 0, none), (.get 2 0 0, none)])).2 =
      [.done, .done, .done, .done, .done, .done, .pointer true, .done, .done, .value [5, 6], .value [3, 4]] :=
  ⟨low_fresh, by decide +kernel⟩

/-- The hypotheses of the theorems are met: names, pointers, values, what is quiet. -/
example : (wrun 2 low {} start).1.isMap 2 0 .sk ∧ (wrun 2 low {} start).1.isThing 0 0 ∧ (wrun 2 low {} start).1.isThing 1 0 ∧
    (wstep 2 low (wrun 2 low {} start).1 (.insert 2 0 [1, 2] 1) none).2 = .done :=
  ⟨⟨⟨2, 4, 2, 0⟩, by decide +kernel, by decide +kernel⟩, ⟨0, by decide +kernel, by decide +kernel⟩, ⟨1, by decide +kernel, by decide +kernel⟩,
    by decide +kernel⟩

/-- What is stored through one descriptor is read through another, after the first is closed and values of another map and another object have
    been stored. -/
example : (wrun 2 low {} (start ++ [(.insert 2 0 [1, 2] 1, none), (.drop 0, none), (.insert 4 1 [9] 0, none), (.get 2 1 0, none)])).2.getLast? =
    some (.value [1, 2]) := by decide +kernel

/-- Removed by a program; made again, of zeros; a value there is stays. -/
example : (wrun 2 low {} (start ++ [(.insert 2 0 [1, 2] 1, none), (.delete 0 0, none), (.get 2 1 0, none), (.ptr 0 0, none),
      (.ptrOrInsert 0 0 none, none), (.read 0, none), (.write 0 [7, 8], none), (.ptrOrInsert 0 0 (some [1, 1]), none), (.read 1, none),
      (.get 2 1 0, none), (.remove 2 0, none), (.remove 2 0, none)])).2.drop 5 =
    [.done, .told (.ok ()), .failed .keyNotFound, .pointer false, .pointer true, .value [0, 0], .done, .pointer true, .value [7, 8], .value [7, 8],
      .done, .failed (.syscall "bpf_map_delete_elem" 2)] := by decide +kernel

/-- Cgroups: a tree of three, an array, and one value for each CPU. -/
example : (wrun 2 low {} [(.open_ (.cgroup none 7), none), (.open_ (.cgroup (some 0) 8), none), (.open_ (.cgroup (some 1) 9), none),
      (.map .array 4 4 2 0, none), (.setOwned 3 1 1 0, none), (.taskUnder 0 1 2, none), (.taskUnder 0 1 0, none), (.skbUnder 0 1 (some 1), none),
      (.taskUnder 0 0 2, none), (.set 3 2 0 0, none), (.map .oldAll 16 3 0 3, none), (.attach 1 2 5, none),
      (.oldAllInsert 4 ⟨9, 5⟩ 77 [[1, 2, 3], [4, 5, 6]] 0, none), (.oldAllGet 4 ⟨9, 5⟩ 0 0, none), (.oldPtr 1 2 5 1, none), (.read 0, none),
      (.unset 3 1, none), (.taskUnder 0 1 2, none)]).2 =
    [.done, .done, .done, .done, .done, .answer (.ok true), .answer (.ok false), .answer (.ok true), .answer (.error (-11)),
      .failed (.outOfBounds 2 2), .done, .done, .done, .values [[1, 2, 3], [4, 5, 6]], .pointer true, .value [4, 5, 6], .done,
      .answer (.error (-11))] := by decide +kernel

/-- A map whose keys are cgroups alone is made, but not opened. -/
example : (wrun 2 low {} [(.open_ (.cgroup none 7), none), (.map .old 8 3 0 3, none), (.map .old 16 3 0 2, none), (.map .old 16 3 0 3, none),
      (.oldInsert 1 ⟨7, 5⟩ 0 [1, 2, 3] 0, none), (.attach 2 0 5, none), (.oldInsert 1 ⟨7, 5⟩ 1 [1, 2, 3] 2, none), (.oldGet 1 ⟨7, 5⟩ 3 0, none)]).2 =
    [.done, .failed (.invalidKeySize 16 8), .failed (.invalidValueSize 2 3), .done, .failed (.syscall "bpf_map_update_elem" 2), .done, .done,
      .value [1, 2, 3]] := by decide +kernel

end Verif.Local
