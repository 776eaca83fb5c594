import Verif.Local.Frame

/-!
# Storage of sockets, inodes and cgroups: words for what is seen, and what they are in terms of what is promised
-/
set_option linter.unusedSimpArgs false
set_option linter.unusedVariables false
namespace Verif.Local
open Spec Verif.Bytes

/-- The value the kernel keeps in map `t` for `s`, on a CPU. -/
def W.valueAt (w : W) (t : Nat) (s : Slot) (cpu : Nat) : Option Spec.Bytes := (w.k.at_ t s).map fun id => w.k.cells id cpu

/-- The name `m` of the process is for map `t`, of this kind. -/
def W.isMap (w : W) (m t : Nat) (kind : Kind) : Prop := ∃ d, w.mapOf m = some (kind, d) ∧ w.k.fds d.fd = some (.map t)

/-- The name `h` of the process is for object `n`. -/
def W.isThing (w : W) (h n : Nat) : Prop := ∃ fd, w.thingOf h = some fd ∧ w.k.fds fd = some (.thing n)

/-- The pointer `p` of a program is to the value of `s` in map `t`, on a CPU. -/
def W.pointsTo (w : W) (p t : Nat) (s : Slot) (cpu : Nat) : Prop := ∃ id, w.ptrs[p]? = some (id, cpu) ∧ w.k.at_ t s = some id

/-- The slot of a key of the process. -/
def slotOf (key : CgKey) : Slot := .cg key.ino.toNat key.attach.toNat

/-- The process or a program replaces or removes the value of `s` in map `t`. -/
def W.replaces (w : W) (t : Nat) (s : Slot) : Op → Prop
  | .insert m h _ _ | .remove m h => ∃ kind n, w.isMap m t kind ∧ w.isThing h n ∧ s = .thing n
  | .oldInsert m key _ _ _ => ∃ kind, w.isMap m t kind ∧ s = slotOf key
  | .delete t' n => t' = t ∧ s = .thing n
  | _ => False

/-- The process or a program writes to it. -/
def W.rewrites (w : W) (t : Nat) (s : Slot) : Op → Prop
  | .oldAllInsert m key _ _ _ => ∃ kind, w.isMap m t kind ∧ s = slotOf key
  | .write p _ => ∃ c, w.pointsTo p t s c
  | _ => False

/-- The process sets or clears an entry of array `t`. -/
def W.resets (w : W) (t : Nat) (index : BitVec 32) : Op → Prop
  | .set m i _ _ | .setOwned m i _ _ | .unset m i => ∃ kind, w.isMap m t kind ∧ i = index
  | _ => False

/-- Nothing that is done is bad. -/
def Throughout (cpus : Nat) (fresh : (Nat → Option Obj) → Option Nat) (good : W → Op → Prop) : W → List (Op × Option Nat) → Prop
  | _, [] => True
  | w, (op, f) :: ops => good w op ∧ Throughout cpus fresh good (wstep cpus fresh w op f).1 ops

/-- Cgroup `d` is `c` or under it. -/
inductive Within (w : World) (c : Nat) : Nat → Prop
  | self : Within w c c
  | under (d u : Nat) (ino : BitVec 64) : w.things[d]? = some (.cgroup (some u) ino) → Within w c u → Within w c d

section
variable {w : W} {a : A} (r : Rel w a)
include r

theorem Rel.value (t : Nat) (s : Slot) (c : Nat) : w.valueAt t s c = (a.val t s).map fun f => f c := by
  rw [r.valAt, W.valueAt, Option.map_map]; rfl

theorem Rel.isMap {m t : Nat} {kind : Kind} (h : w.isMap m t kind) :
    ∃ d : Data, a.mapOf m = some (kind, d.vsize, d.max, t) ∧ w.mapOf m = some (kind, d) ∧
      a.world.tables[t]? = some ⟨kind, d.ksize, d.vsize, d.max⟩ := by
  obtain ⟨d, h1, h2⟩ := h
  rcases r.map m with ⟨kind', d', m', q1, q2, q3, q4⟩ | ⟨q1, q2⟩
  · rw [q1] at h1; cases h1
    simp only [K.table, h2] at q3
    rw [← r.world] at q4 ⊢
    rcases e : w.k.world.tables[t]? with _ | x
    · rw [e] at q3; cases q3
    · rw [e] at q3; cases q3
      exact ⟨d, q2, q1, rfl⟩
  · rw [q1] at h1; cases h1

theorem Rel.isMap_of {m t v x : Nat} {kind : Kind} (h : a.mapOf m = some (kind, v, x, t)) : w.isMap m t kind := by
  rcases r.map m with ⟨kind', d', m', q1, q2, q3, q4⟩ | ⟨q1, q2⟩
  · rw [q2] at h; cases h
    refine ⟨d', q1, ?_⟩
    simp only [K.table] at q3
    rcases e : w.k.fds d'.fd with _ | (y | y)
    · rw [e] at q3; cases q3
    · rw [e] at q3
      simp only at q3
      rcases e2 : w.k.world.tables[y]? with _ | z
      · rw [e2] at q3; cases q3
      · rw [e2] at q3; cases q3; rfl
    · rw [e] at q3; cases q3
  · rw [q2] at h; cases h

theorem Rel.isThing {h n : Nat} : w.isThing h n ↔ a.thingOf h = some n := by
  rcases r.thing h with ⟨fd, n', q1, q2, q3, _, _⟩ | ⟨q1, q2⟩
  · constructor
    · rintro ⟨fd', h1, h2⟩
      rw [q1] at h1; cases h1
      rw [q3] at h2; cases h2
      exact q2
    · intro e; rw [q2] at e; cases e
      exact ⟨fd, q1, q3⟩
  · constructor
    · rintro ⟨fd', h1, h2⟩
      rw [q1] at h1; cases h1
    · intro e; rw [q2] at e; cases e

theorem Rel.pointsTo {p t : Nat} {s : Slot} {c : Nat} : w.pointsTo p t s c ↔ a.ptrs[p]? = some (.to t s c) := by
  obtain ⟨γ, v⟩ := r.values
  have q := v.ptrs p
  constructor
  · rintro ⟨id, h1, h2⟩
    rw [h1] at q
    rcases e : a.ptrs[p]? with _ | (⟨m, s', c'⟩ | ⟨g, c'⟩) <;> rw [e] at q <;> simp only [PMatch] at q
    · obtain ⟨q1, rfl⟩ := q
      obtain ⟨rfl, rfl⟩ := v.one _ _ _ _ _ h2 q1
      rfl
    · obtain ⟨q1, q2, _⟩ := q
      have := (v.lost g _ (List.getElem?_eq_getElem q1)).2.2 t s
      rw [q2] at this
      exact (this h2).elim
  · intro e
    rw [e] at q
    rcases e' : w.ptrs[p]? with _ | ⟨id, c'⟩ <;> rw [e'] at q <;> simp only [PMatch] at q
    obtain ⟨q1, rfl⟩ := q
    exact ⟨id, e', q1⟩

theorem Rel.replaces {t : Nat} {s : Slot} {op : Op} (h : ¬ w.replaces t s op) : ¬ A.replaces a t s op := by
  intro q
  apply h
  cases op <;> simp only [A.replaces, W.replaces] at q ⊢
  case insert | remove =>
    obtain ⟨kind, v, x, n, h1, h2, h3⟩ := q
    exact ⟨kind, n, r.isMap_of h1, r.isThing.mpr h2, h3⟩
  case oldInsert =>
    obtain ⟨kind, v, x, h1, h3⟩ := q
    exact ⟨kind, r.isMap_of h1, h3⟩
  case delete => exact q

theorem Rel.rewrites {t : Nat} {s : Slot} {op : Op} (h : ¬ w.rewrites t s op) : ¬ A.rewrites a t s op := by
  intro q
  apply h
  cases op <;> simp only [A.rewrites, W.rewrites] at q ⊢
  case oldAllInsert =>
    obtain ⟨kind, v, x, h1, h3⟩ := q
    exact ⟨kind, r.isMap_of h1, h3⟩
  case write =>
    obtain ⟨c, q⟩ := q
    exact ⟨c, r.pointsTo.mpr q⟩

theorem Rel.resets {t : Nat} {index : BitVec 32} {op : Op} (h : ¬ w.resets t index op) : ¬ A.resets a t index op := by
  intro q
  apply h
  cases op <;> simp only [A.resets, W.resets] at q ⊢
  all_goals
    obtain ⟨kind, v, x, h1, h3⟩ := q
    exact ⟨kind, r.isMap_of h1, h3⟩

end

/-- What holds before and after each step holds at the end. -/
theorem later {cpus : Nat} {fresh : (Nat → Option Obj) → Option Nat} (hfresh : Fresh fresh) (good : W → Op → Prop) (P : A → Prop)
    (hstep : ∀ (w : W) (a : A) op f room, Rel w a → good w op → P a → P (Spec.step cpus a op f room).1) (ops : List (Op × Option Nat)) :
    ∀ {w : W} {a : A}, Rel w a → Throughout cpus fresh good w ops → P a → ∃ b, Rel (wrun cpus fresh w ops).1 b ∧ P b := by
  induction ops with
  | nil => intro w a r _ p; exact ⟨a, r, p⟩
  | cons o ops ih =>
    obtain ⟨op, f⟩ := o
    intro w a r h p
    exact ih (step_rel cpus fresh hfresh r op f).1 h.2 (hstep w a op f _ r h.1 p)

/-- After any history there is what is promised. -/
theorem reached (cpus : Nat) {fresh : (Nat → Option Obj) → Option Nat} (hfresh : Fresh fresh) (ops : List (Op × Option Nat)) :
    ∃ a, Rel (wrun cpus fresh {} ops).1 a ∧ Older a.world := by
  refine later hfresh (fun _ _ => True) (fun a => Older a.world) (fun w a op f room _ _ h => step_older cpus a op f room h) ops rel_init ?_ ?_
  · generalize ({} : W) = w
    induction ops generalizing w with
    | nil => trivial
    | cons o ops ih => exact ⟨trivial, ih _⟩
  · intro d u ino h; cases h

theorem climbs_within {w : World} {c : Nat} : ∀ (fuel d : Nat), climbs w c fuel d = true → Within w c d := by
  intro fuel
  induction fuel with
  | zero => intro d h; cases h
  | succ fuel ih =>
    intro d h
    simp only [climbs] at h
    split at h
    · rename_i e; subst e; exact .self
    · split at h
      · rename_i e; exact .under _ _ _ e (ih _ h)
      · cases h

theorem within_climbs {w : World} {c : Nat} (ho : Older w) {d : Nat} (h : Within w c d) : ∀ fuel, d < fuel → climbs w c fuel d = true := by
  induction h with
  | self =>
    intro fuel lt
    obtain ⟨f, rfl⟩ : ∃ f, fuel = f + 1 := ⟨fuel - 1, by omega⟩
    simp only [climbs, if_true]
  | under d u ino e _ ih =>
    intro fuel lt
    obtain ⟨f, rfl⟩ : ∃ f, fuel = f + 1 := ⟨fuel - 1, by omega⟩
    have := ho _ _ _ e
    simp only [climbs, e, ih f (by omega)]
    split <;> rfl

end Verif.Local
