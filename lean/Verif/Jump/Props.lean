import Verif.Jump.Run

/-!
# Jump tables: what is promised is kept (C95)
-/
set_option linter.unusedSimpArgs false
set_option linter.unusedVariables false
namespace Verif.Jump
open Spec Verif.Bytes

/-! ## Lists -/

theorem modify_eq_set {α : Type} (l : List α) (n : Nat) (f : α → α) (x : α) (h : l[n]? = some x) : l.modify n f = l.set n (f x) := by
  apply List.ext_getElem?
  intro i
  rw [List.getElem?_modify, List.getElem?_set]
  by_cases e : n = i
  · subst e
    have hl : n < l.length := (List.getElem?_eq_some_iff.mp h).1
    rw [h]; simp [hl]
  · simp [e]

theorem countP_drop {α : Type} (p : Option α → Bool) (hp : p none = false) (l : List (Option α)) (n : Nat) (x : Option α)
    (h : l[n]? = some x) : (l.set n none).countP p + (if p x then 1 else 0) = l.countP p := by
  induction l generalizing n with
  | nil => simp at h
  | cons y l ih =>
    cases n with
    | zero =>
      simp only [List.getElem?_cons_zero, Option.some.injEq] at h
      subst h
      simp only [List.set_cons_zero, List.countP_cons, hp]
      simp
    | succ n =>
      simp only [List.getElem?_cons_succ] at h
      have := ih n h
      simp only [List.set_cons_succ, List.countP_cons]
      omega

theorem contains_count {α : Type} [BEq α] [LawfulBEq α] [DecidableEq α] (l : List α) (x : α) : (l.contains x = false) ↔ l.countP (· = x) = 0 := by
  rw [List.countP_eq_zero]
  simp only [Bool.eq_false_iff, ne_eq, List.contains_iff_mem, decide_eq_true_eq]
  constructor
  · intro h a ha e; exact h (e ▸ ha)
  · intro h hm; exact h x hm rfl

theorem join_some {α : Type} {l : List (Option α)} {n : Nat} {x : α} (h : l[n]?.join = some x) : l[n]? = some (some x) := by
  rcases e : l[n]? with _ | (_ | y)
  · rw [e] at h; cases h
  · rw [e] at h; cases h
  · rw [e] at h; cases h; rfl

theorem join_append {α : Type} (l : List (Option α)) (x : Option α) (n : Nat) :
    (l ++ [x])[n]?.join = if n = l.length then x else l[n]?.join := by
  by_cases e : n = l.length
  · subst e; simp
  · simp only [e, if_false]
    by_cases h : n < l.length
    · rw [List.getElem?_append_left h]
    · rw [List.getElem?_eq_none (l := l) (by omega), List.getElem?_eq_none (by rw [List.length_append, List.length_singleton]; omega)]

theorem join_set {α : Type} (l : List (Option α)) (n i : Nat) :
    (l.set n none)[i]?.join = if i = n then none else l[i]?.join := by
  rw [List.getElem?_set]
  by_cases e : n = i
  · subst e; simp; split <;> rfl
  · have : ¬ i = n := fun h => e h.symm
    simp [e, this]

/-! ## The relation -/

def Match (k : K) : Option H → Option Stands → Prop
  | none, none => True
  | some (.prog fd), some (.prog p) => k.fds fd = some (.prog p) ∧ p < k.m.progs.length
  | some (.table d), some (.table t) => k.fds d.fd = some (.table t) ∧ (k.m.tables[t]?).map Table.max = some d.max
  | _, _ => False

def Full (m : M) : Prop := ∀ (t : Nat) (T : Table), m.tables[t]? = some T → T.entries.length = T.max ∧ T.max < 2 ^ 32 ∧ 0 < T.max

structure Rel (w : W) (a : A) : Prop where
  m : w.k.m = a.m
  len : w.hs.length = a.names.length
  hand : ∀ h : Nat, Match w.k (w.hs[h]?.join) (a.names[h]?.join)
  inj : ∀ (h h' : Nat) (x x' : H), w.hs[h]?.join = some x → w.hs[h']?.join = some x' → x.fd = x'.fd → h = h'
  small : ∀ fd x, w.k.fds fd = some x → fd < 2 ^ 31
  users : ∀ t, w.k.users t = a.names.countP (· = some (.table t)) + a.m.pins.countP (· = some t)
  full : Full a.m
  pins : ∀ path t : Nat, a.m.pins[path]?.join = some t → t < a.m.tables.length

theorem Match.mono {k k' : K} {x : Option H} {y : Option Stands} (mt : Match k x y)
    (same : ∀ z, x = some z → k'.fds z.fd = k.fds z.fd)
    (progs : k.m.progs.length ≤ k'.m.progs.length)
    (tables : ∀ (t n : Nat), (k.m.tables[t]?).map Table.max = some n → (k'.m.tables[t]?).map Table.max = some n) : Match k' x y := by
  rcases x with _ | (fd | d) <;> rcases y with _ | (p | t) <;> simp only [Match] at mt ⊢
  · exact ⟨by rw [show k'.fds fd = k.fds fd from same _ rfl]; exact mt.1, by omega⟩
  · exact ⟨by rw [show k'.fds d.fd = k.fds d.fd from same _ rfl]; exact mt.1, tables _ _ mt.2⟩

theorem Match.isOpen {k : K} {x : H} {y : Option Stands} (mt : Match k (some x) y) : ∃ o, k.fds x.fd = some o := by
  rcases x with fd | d <;> rcases y with _ | (p | t) <;> simp only [Match] at mt
  · exact ⟨_, mt.1⟩
  · exact ⟨_, mt.1⟩

theorem Rel.isOpen {w : W} {a : A} (r : Rel w a) {h : Nat} {x : H} (e : w.hs[h]?.join = some x) : ∃ o, w.k.fds x.fd = some o := by
  have := r.hand h
  rw [e] at this
  exact this.isOpen

/-- Something is done to tables, programs and works, no descriptor, name or pin is touched. -/
theorem Rel.change {w : W} {a : A} (r : Rel w a) (m : M) (progs : a.m.progs.length ≤ m.progs.length)
    (tables : ∀ (t n : Nat), (a.m.tables[t]?).map Table.max = some n → (m.tables[t]?).map Table.max = some n)
    (len : a.m.tables.length ≤ m.tables.length) (pins : m.pins = a.m.pins) (full : Full m) :
    Rel { w with k := { w.k with m := m } } { a with m := m } where
  m := rfl
  len := r.len
  hand h := (r.hand h).mono (fun _ _ => rfl) (by rw [r.m]; exact progs) (by rw [r.m]; exact tables)
  inj := r.inj
  small := r.small
  users t := by rw [pins]; exact r.users t
  full := full
  pins path t h := by rw [pins] at h; exact Nat.lt_of_lt_of_le (r.pins path t h) len

/-- A name is made, with a descriptor of its own. -/
theorem Rel.name {w : W} {a : A} (r : Rel w a) (m : M) (progs : a.m.progs.length ≤ m.progs.length)
    (tables : ∀ (t n : Nat), (a.m.tables[t]?).map Table.max = some n → (m.tables[t]?).map Table.max = some n)
    (len : a.m.tables.length ≤ m.tables.length) (pins : m.pins = a.m.pins) (full : Full m)
    (k : K) (o : Obj) (x : H) (y : Stands) (free : w.k.fds x.fd = none) (lt : x.fd < 2 ^ 31) (km : k.m = m)
    (kf : ∀ fd, k.fds fd = if fd = x.fd then some o else w.k.fds fd)
    (ku : ∀ t, k.users t = w.k.users t + if y = .table t then 1 else 0) (mt : Match k (some x) (some y)) :
    Rel { k := k, hs := w.hs ++ [some x] } { m := m, names := a.names ++ [some y] } where
  m := km
  len := by simp [r.len]
  hand h := by
    simp only [join_append, r.len]
    by_cases e : h = a.names.length
    · simp only [e, if_true]; exact mt
    · simp only [e, if_false]
      refine (r.hand h).mono (fun z hz => ?_) (by rw [km, r.m]; exact progs) (by rw [km, r.m]; exact tables)
      obtain ⟨q, hq⟩ := r.isOpen hz
      have : z.fd ≠ x.fd := by intro e; rw [e, free] at hq; cases hq
      rw [kf, if_neg this]
  inj h h' z z' e e' hf := by
    simp only [join_append] at e e'
    have key : ∀ (n : Nat) (q : H), w.hs[n]?.join = some q → q.fd = x.fd → False := by
      intro n q hq hx
      obtain ⟨o, ho⟩ := r.isOpen hq
      rw [hx, free] at ho; cases ho
    split at e <;> split at e'
    · rename_i h1 h2; rw [h1, h2]
    · cases e; exact (key _ _ e' hf.symm).elim
    · cases e'; exact (key _ _ e hf).elim
    · exact r.inj h h' z z' e e' hf
  small fd q e := by
    simp only [kf] at e
    split at e
    · rename_i h1; rw [h1]; exact lt
    · exact r.small fd q e
  users t := by
    simp only [List.countP_append, List.countP_cons, List.countP_nil, ku, pins, r.users t, Option.some.injEq, decide_eq_true_eq]
    omega
  full := full
  pins path t h := by rw [pins] at h; exact Nat.lt_of_lt_of_le (r.pins path t h) len

theorem Rel.cases {w : W} {a : A} (r : Rel w a) (h : Nat) :
    (w.hs[h]?.join = none ∧ a.names[h]?.join = none) ∨
    (∃ fd p, w.hs[h]?.join = some (.prog fd) ∧ a.names[h]?.join = some (.prog p) ∧ w.k.fds fd = some (.prog p) ∧ fd < 2 ^ 31 ∧
      ∃ P, a.m.progs[p]? = some P) ∨
    (∃ d t T, w.hs[h]?.join = some (.table d) ∧ a.names[h]?.join = some (.table t) ∧ w.k.fds d.fd = some (.table t) ∧
      a.m.tables[t]? = some T ∧ d.max = T.max) := by
  have mt := r.hand h
  rcases e : w.hs[h]?.join with _ | (fd | d) <;> rcases e' : a.names[h]?.join with _ | (p | t) <;> simp only [e, e', Match] at mt
  · exact .inl ⟨rfl, rfl⟩
  · refine .inr (.inl ⟨fd, p, rfl, rfl, mt.1, r.small _ _ mt.1, ?_⟩)
    have h2 := mt.2
    rw [r.m] at h2
    exact ⟨_, List.getElem?_eq_getElem h2⟩
  · have h2 := mt.2
    rw [r.m] at h2
    obtain ⟨T, hT, hm⟩ := Option.map_eq_some_iff.mp h2
    exact .inr (.inr ⟨d, t, T, rfl, rfl, mt.1, hT, hm.symm⟩)

theorem Rel.tableOf {w : W} {a : A} (r : Rel w a) (h : Nat) :
    (w.tableOf h = none ∧ a.tableOf h = none) ∨
    (∃ d t T, w.tableOf h = some d ∧ a.tableOf h = some t ∧ w.k.fds d.fd = some (.table t) ∧ a.m.tables[t]? = some T ∧ d.max = T.max) := by
  rcases r.cases h with ⟨e, e'⟩ | ⟨fd, p, e, e', rest⟩ | ⟨d, t, T, e, e', rest⟩
  · exact .inl ⟨by simp [W.tableOf, e], by simp [A.tableOf, e']⟩
  · exact .inl ⟨by simp [W.tableOf, e], by simp [A.tableOf, e']⟩
  · exact .inr ⟨d, t, T, by simp [W.tableOf, e], by simp [A.tableOf, e'], rest⟩

theorem Rel.progOf {w : W} {a : A} (r : Rel w a) (h : Nat) :
    (w.progOf h = none ∧ a.progOf h = none) ∨
    (∃ fd p P, w.progOf h = some fd ∧ a.progOf h = some p ∧ w.k.fds fd = some (.prog p) ∧ fd < 2 ^ 31 ∧ a.m.progs[p]? = some P) := by
  rcases r.cases h with ⟨e, e'⟩ | ⟨fd, p, e, e', hf, lt, P, hP⟩ | ⟨d, t, T, e, e', rest⟩
  · exact .inl ⟨by simp [W.progOf, e], by simp [A.progOf, e']⟩
  · exact .inr ⟨fd, p, P, by simp [W.progOf, e], by simp [A.progOf, e'], hf, lt, hP⟩
  · exact .inl ⟨by simp [W.progOf, e], by simp [A.progOf, e']⟩

/-! ## Changes of tables -/

theorem map_max_set {ts : List Table} {t : Nat} {T T' : Table} (hT : ts[t]? = some T) (hm : T'.max = T.max) (i n : Nat)
    (h : (ts[i]?).map Table.max = some n) : ((ts.set t T')[i]?).map Table.max = some n := by
  rw [List.getElem?_set]
  by_cases e : t = i
  · subst e
    have hl : t < ts.length := (List.getElem?_eq_some_iff.mp hT).1
    rw [hT] at h
    simp only [if_true, hl, Option.map_some, hm]
    exact h
  · simp only [e, if_false]; exact h

theorem full_set {m : M} (hf : Full m) {t : Nat} {T T' : Table} (hT : m.tables[t]? = some T) (hm : T'.max = T.max)
    (hl : T'.entries.length = T.entries.length) : Full { m with tables := m.tables.set t T' } := by
  intro i X hX
  simp only [List.getElem?_set] at hX
  split at hX
  · split at hX
    · cases hX
      obtain ⟨h1, h2, h3⟩ := hf t T hT
      exact ⟨by rw [hl, hm]; exact h1, by rw [hm]; exact h2, by rw [hm]; exact h3⟩
    · cases hX
  · exact hf i X hX

/-- One table is changed, not its size. -/
theorem Rel.setTable {w : W} {a : A} (r : Rel w a) {t : Nat} {T T' : Table} (hT : a.m.tables[t]? = some T) (hm : T'.max = T.max)
    (hl : T'.entries.length = T.entries.length) :
    Rel { w with k := { w.k with m := { a.m with tables := a.m.tables.set t T' } } } { a with m := { a.m with tables := a.m.tables.set t T' } } :=
  r.change { a.m with tables := a.m.tables.set t T' } (Nat.le_refl _) (fun i n => map_max_set hT hm i n) (by simp) rfl (full_set r.full hT hm hl)

theorem clear_eq {m : M} {t : Nat} : m.clear t = m.modify t fun T => { T with entries := List.replicate T.max none } := by
  unfold M.clear M.modify
  rcases e : m.tables[t]? with _ | T
  · have : m.tables.modify t (fun T => { T with entries := List.replicate T.max none }) = m.tables := by
      apply List.ext_getElem?
      intro i
      rw [List.getElem?_modify]
      by_cases h : t = i
      · subst h; simp [e]
      · simp [h]
    rw [this]
  · rw [modify_eq_set _ _ _ _ e]

theorem compatible_eq (T : Table) (kind : Nat) :
    compatible T kind = if fits T kind then some { T with owner := some kind } else none := by
  obtain ⟨max, owner, entries⟩ := T
  rcases owner with _ | o
  · simp [compatible, fits]
  · by_cases e : o = kind
    · subst e; simp [compatible, fits]
    · have : ¬ (some o = some kind) := fun h => e (Option.some.inj h)
      simp [compatible, fits, e]

/-- What is claimed, told table by table. -/
def claimed (kind : Nat) (ts : List Nat) (tables : List Table) : Option (List Table) :=
  if ts.all fun t => match tables[t]? with
      | some T => fits T kind
      | none => false
  then some (tables.mapIdx fun t T => if t ∈ ts then { T with owner := some kind } else T)
  else none

theorem claimAll_eq (kind : Nat) (ts : List Nat) : ∀ tables, claimAll kind ts tables = claimed kind ts tables := by
  induction ts with
  | nil =>
    intro tables
    have : tables.mapIdx (fun (t : Nat) T => if t ∈ ([] : List Nat) then ({ T with owner := some kind } : Table) else T) = tables := by
      apply List.ext_getElem?
      intro i
      rw [List.getElem?_mapIdx]
      rcases tables[i]? <;> simp
    simp only [claimAll, claimed, List.all_nil, if_true, this]
  | cons t ts ih =>
    intro tables
    rcases e : tables[t]? with _ | T
    · simp [claimAll, claimed, e]
    · by_cases hfit : fits T kind = true
      · simp only [claimAll, e, compatible_eq, hfit, if_true, ih]
        have hl : t < tables.length := (List.getElem?_eq_some_iff.mp e).1
        have hget : ∀ i, (tables.set t { T with owner := some kind })[i]?
            = if i = t then some { T with owner := some kind } else tables[i]? := by
          intro i
          rw [List.getElem?_set]
          by_cases hi : t = i
          · subst hi; simp [hl]
          · have : ¬ i = t := fun h => hi h.symm
            simp [hi, this]
        have hall : (ts.all fun i => match (tables.set t { T with owner := some kind })[i]? with
              | some T => fits T kind
              | none => false)
            = (ts.all fun i => match tables[i]? with
              | some T => fits T kind
              | none => false) := by
          congr 1
          funext i
          rw [hget]
          by_cases hi : i = t
          · subst hi; simp [e, hfit]; simp [fits]
          · simp [hi]
        have hmap : (tables.set t { T with owner := some kind }).mapIdx
              (fun i T => if i ∈ ts then ({ T with owner := some kind } : Table) else T)
            = tables.mapIdx (fun i T => if i ∈ t :: ts then ({ T with owner := some kind } : Table) else T) := by
          apply List.ext_getElem?
          intro i
          rw [List.getElem?_mapIdx, List.getElem?_mapIdx, hget]
          by_cases hi : i = t
          · subst hi; simp [e]
          · simp [hi]
        simp only [claimed, hall, hmap, List.all_cons, e, hfit, Bool.true_and]
      · simp [claimAll, claimed, e, compatible_eq, hfit]

theorem claim_eq (a : A) (kind : Nat) (ts : List Nat) : a.claim kind ts = claimAll kind ts a.m.tables := by
  rw [claimAll_eq]; rfl

theorem claim_shape {kind : Nat} {ts : List Nat} {tables tables' : List Table} (h : claimed kind ts tables = some tables') (i : Nat) :
    (∃ T T', tables[i]? = some T ∧ tables'[i]? = some T' ∧ T'.max = T.max ∧ T'.entries = T.entries) ∨ (tables[i]? = none ∧ tables'[i]? = none) := by
  unfold claimed at h
  split at h
  · cases h
    rw [List.getElem?_mapIdx]
    rcases e : tables[i]? with _ | T
    · exact .inr ⟨rfl, rfl⟩
    · refine .inl ⟨T, _, rfl, rfl, ?_, ?_⟩ <;> split <;> rfl
  · cases h

/-! ## Single operations -/

theorem tablesOf_eq {w : W} {a : A} (r : Rel w a) (uses : List Nat) :
    (w.fdsOf uses = none ∧ a.tablesOf uses = none) ∨
    (∃ fds ts, w.fdsOf uses = some fds ∧ a.tablesOf uses = some ts ∧ w.k.tablesOf fds = some ts) := by
  induction uses with
  | nil => exact .inr ⟨[], [], rfl, rfl, rfl⟩
  | cons h rest ih =>
    rcases r.tableOf h with ⟨e, e'⟩ | ⟨d, t, T, e, e', hf, -⟩
    · exact .inl ⟨by simp [W.fdsOf, e], by simp [A.tablesOf, e']⟩
    · rcases ih with ⟨i, i'⟩ | ⟨fds, ts, i, i', hk⟩
      · exact .inl ⟨by simp [W.fdsOf, e, i], by simp [A.tablesOf, e', i']⟩
      · exact .inr ⟨d.fd :: fds, t :: ts, by simp [W.fdsOf, e, i], by simp [A.tablesOf, e', i'], by simp [K.tablesOf, hf, hk]⟩

theorem ofLe_le4 {n : Nat} (h : n < 2 ^ 32) : ofLe (le 4 n) = n := ofLe_le_of_lt 4 n (by omega)

theorem advance_eq (eager : Bool) {m : M} (hf : Full m) (w : Work) : advance eager m w = promiseAdvance eager m w := by
  unfold advance promiseAdvance
  rcases w.rest with _ | ⟨_ | ⟨k, index⟩, rest⟩
  · rfl
  · rfl
  · dsimp only
    rcases (m.progs[w.prog]?).bind fun P => P.uses[k]? with _ | t
    · rfl
    · simp only [tailCall, helper, M.entry]
      rcases e : m.tables[t]? with _ | T
      · simp
      · obtain ⟨h1, h2, h3⟩ := hf t T e
        by_cases hi : index.toNat ≥ T.max
        · have : T.entries[index.toNat]? = none := List.getElem?_eq_none (by omega)
          simp only [hi, if_true, Option.bind_some, this, Option.join_none]
          have : ¬ index.toNat < T.max := by omega
          simp [this]
        · have hlt : index.toNat < T.max := by omega
          simp only [hi, if_false, Option.bind_some, hlt, decide_true, Bool.and_true]
          by_cases hj : w.jumps ≥ 33
          · have hj' : ¬ w.jumps < 33 := by omega
            simp only [hj, if_true, hj', decide_false, Bool.and_false, Bool.false_eq_true, if_false]
            rcases T.entries[index.toNat]?.join with _ | p
            · rfl
            · rfl
          · have hj' : w.jumps < 33 := by omega
            simp only [hj, if_false, hj', if_true, decide_true, Bool.and_true]
            rcases T.entries[index.toNat]?.join with _ | p
            · rfl
            · rfl

theorem settle_eq (a : A) (t u : Nat) (hu : u = a.names.countP (· = some (.table t)) + a.m.pins.countP (· = some t) + 1) :
    (a.settle t).m = (if u = 1 then a.m.clear t else a.m) ∧ (a.settle t).names = a.names := by
  unfold A.settle A.held
  by_cases h1 : a.names.contains (some (.table t)) = true
  · have : ¬ u = 1 := by
      intro e
      have h0 : a.names.countP (· = some (.table t)) = 0 := by omega
      rw [← contains_count] at h0
      rw [h1] at h0; cases h0
    simp only [h1, this, Bool.true_or, if_true, if_false]; exact ⟨trivial, trivial⟩
  · by_cases h2 : a.m.pins.contains (some t) = true
    · have : ¬ u = 1 := by
        intro e
        have h0 : a.m.pins.countP (· = some t) = 0 := by omega
        rw [← contains_count] at h0
        rw [h2] at h0; cases h0
      simp only [h2, this, Bool.or_true, if_true, if_false]; exact ⟨trivial, trivial⟩
    · have h1' : a.names.contains (some (.table t)) = false := by simpa using h1
      have h2' : a.m.pins.contains (some t) = false := by simpa using h2
      have c1 := (contains_count _ _).mp h1'
      have c2 := (contains_count _ _).mp h2'
      have : u = 1 := by omega
      simp only [h1', h2', this, Bool.or_self, Bool.false_eq_true, if_false, if_true, clear_eq]
      exact ⟨trivial, trivial⟩

/-- One who held a table is gone: a name or a pin. -/
theorem Rel.put {w : W} {a : A} {t : Nat} (hs : List (Option H)) (a' : A) (fds : Nat → Option Obj)
    (len : hs.length = a'.names.length)
    (hand : ∀ h : Nat, Match { w.k with m := a'.m, fds := fds } (hs[h]?.join) (a'.names[h]?.join))
    (inj : ∀ (h h' : Nat) (x x' : H), hs[h]?.join = some x → hs[h']?.join = some x' → x.fd = x'.fd → h = h')
    (small : ∀ fd x, fds fd = some x → fd < 2 ^ 31)
    (users : ∀ i, w.k.users i = a'.names.countP (· = some (.table i)) + a'.m.pins.countP (· = some i) + if i = t then 1 else 0)
    (full : Full a'.m) (pins : ∀ path i : Nat, a'.m.pins[path]?.join = some i → i < a'.m.tables.length) :
    Rel { k := ({ w.k with m := a'.m, fds := fds } : K).putUser t, hs := hs } (a'.settle t) := by
  obtain ⟨e1, e2⟩ := settle_eq a' t (w.k.users t) (by rw [users t]; simp)
  have hcl : ∀ i : Nat, ((a'.m.clear t).tables[i]?).map Table.max = (a'.m.tables[i]?).map Table.max := by
    intro i
    rw [clear_eq]
    simp only [M.modify, List.getElem?_modify]
    by_cases h : t = i
    · subst h; rcases a'.m.tables[t]? <;> simp
    · simp [h]
  have hm : ∀ i : Nat, ((a'.settle t).m.tables[i]?).map Table.max = (a'.m.tables[i]?).map Table.max := by
    intro i; rw [e1]; split
    · exact hcl i
    · rfl
  have hpr : (a'.settle t).m.progs = a'.m.progs := by rw [e1, clear_eq]; split <;> rfl
  have hpi : (a'.settle t).m.pins = a'.m.pins := by rw [e1, clear_eq]; split <;> rfl
  have hln : (a'.settle t).m.tables.length = a'.m.tables.length := by
    rw [e1, clear_eq]; split
    · simp [M.modify]
    · rfl
  constructor
  · simp only [K.putUser]; exact e1.symm
  · rw [e2]; exact len
  · intro h
    rw [e2]
    refine (hand h).mono (fun _ _ => rfl) ?_ ?_
    · simp only [K.putUser, ← e1, hpr]; exact Nat.le_refl _
    · intro i n hi
      simp only [K.putUser, ← e1, hm]; exact hi
  · exact inj
  · exact small
  · intro i
    simp only [K.putUser, e2, hpi]
    have := users i
    split
    · rename_i h; rw [this]; simp [h]
    · rename_i h; rw [this]; simp [h]
  · rw [e1]
    split
    · intro i X hX
      rw [clear_eq] at hX
      simp only [M.modify, List.getElem?_modify] at hX
      rcases e : a'.m.tables[i]? with _ | T
      · rw [e] at hX; cases hX
      · rw [e] at hX
        obtain ⟨h1, h2, h3⟩ := full i T e
        simp only [Option.map_eq_map, Option.map_some, Option.some.injEq] at hX
        subst hX
        split
        · exact ⟨by simp, h2, h3⟩
        · exact ⟨h1, h2, h3⟩
    · exact full
  · intro path i h
    rw [hpi] at h
    rw [hln]; exact pins path i h

theorem updateElem_eq {k : K} {m : M} (hm : k.m = m) (full : Full m) {fd t pfd p : Nat} {T : Table} {P : Program} {index : BitVec 32} {flags : Nat}
    (f : Option Nat) (hf : k.fds fd = some (.table t)) (hT : m.tables[t]? = some T) (hp : k.fds pfd = some (.prog p)) (lt : pfd < 2 ^ 31)
    (hP : m.progs[p]? = some P) (hi : index.toNat < T.max) :
    updateElem k f fd (le 4 index.toNat) (le 4 pfd) flags =
      match f with
      | some e => .error e
      | none =>
          if flags = 0 ∧ fits T P.kind = true then
            .ok (m.modify t fun T => { T with owner := some P.kind, entries := T.entries.set index.toNat (some p) })
          else .error 22 := by
  subst hm
  have h1 : ofLe (le 4 index.toNat) = index.toNat := ofLe_le4 index.isLt
  have h2 : ofLe (le 4 pfd) = pfd := ofLe_le4 (by omega)
  have hi' : ¬ index.toNat ≥ T.max := by omega
  unfold updateElem
  simp only [hf, hT]
  rcases f with _ | e
  · simp only [h1, h2, hp, hP, hi', if_false, compatible_eq]
    by_cases h0 : flags = 0
    · by_cases hfit : fits T P.kind = true
      · simp only [h0, hfit, ne_eq, not_true_eq_false, if_false, if_true, and_self, M.modify, modify_eq_set _ _ _ _ hT]
      · simp [h0, hfit]
    · simp [h0]
  · rfl

theorem deleteElem_eq {k : K} {m : M} (hm : k.m = m) {fd t : Nat} {T : Table} {index : BitVec 32}
    (f : Option Nat) (hf : k.fds fd = some (.table t)) (hT : m.tables[t]? = some T) (hi : index.toNat < T.max) :
    deleteElem k f fd (le 4 index.toNat) =
      match f with
      | some e => .error e
      | none =>
          if (m.entry t index).isSome then .ok (m.modify t fun T => { T with entries := T.entries.set index.toNat none })
          else .error 2 := by
  subst hm
  have h1 : ofLe (le 4 index.toNat) = index.toNat := ofLe_le4 index.isLt
  have hi' : ¬ index.toNat ≥ T.max := by omega
  unfold deleteElem M.entry
  simp only [hf, hT]
  rcases f with _ | e
  · simp only [h1, hi', if_false, Option.bind_some]
    split
    · rename_i e; simp [e]
    · rename_i e; simp only [e, Option.isSome_some, if_true, M.modify, modify_eq_set _ _ _ _ hT]
  · rfl

theorem indices_from {k : K} {m : M} (hm : k.m = m) (full : Full m) (fresh : (Nat → Option Obj) → Option Nat) {d : Data} {t : Nat} {T : Table}
    (hf : k.fds d.fd = some (.table t)) (hT : m.tables[t]? = some T) :
    ∀ (n i : Nat), i < T.max →
      indices (sys fresh none) d n (some (BitVec.ofNat 32 i)) k
        = ((List.range' (i + 1) (min n (T.max - 1 - i))).map fun j => .ok (BitVec.ofNat 32 j)) := by
  subst hm
  obtain ⟨h1, h2, h3⟩ := full t T hT
  intro n
  induction n with
  | zero => intro i hi; simp [indices]
  | succ n ih =>
    intro i hi
    have hmod : (BitVec.ofNat 32 i).toNat = i := by rw [BitVec.toNat_ofNat]; exact Nat.mod_eq_of_lt (by omega)
    have hge : ¬ i ≥ T.max := by omega
    have hn : (sys fresh none).nextKey d.fd (some (le 4 i)) k = if i = T.max - 1 then .error 2 else .ok (le 4 (i + 1)) := by
      simp only [sys, nextKey, hf, hT, ofLe_le4 (show i < 2 ^ 32 by omega), hge, if_false]
    simp only [indices, getNextKey, Option.map_some, hmod, hn]
    by_cases hl : i = T.max - 1
    · simp [hl]
    · simp only [hl, if_false, ofLe_le4 (show i + 1 < 2 ^ 32 by omega)]
      rw [ih (i + 1) (by omega)]
      have e : min (n + 1) (T.max - 1 - i) = min n (T.max - 1 - (i + 1)) + 1 := by omega
      rw [e, List.range'_succ]
      rfl

theorem indices_eq {k : K} {m : M} (hm : k.m = m) (full : Full m) (fresh : (Nat → Option Obj) → Option Nat) {d : Data} {t : Nat} {T : Table}
    (hf : k.fds d.fd = some (.table t)) (hT : m.tables[t]? = some T) (n : Nat) :
    indices (sys fresh none) d n none k = (List.range (min n T.max)).map fun i => .ok (BitVec.ofNat 32 i) := by
  obtain ⟨h1, h2, h3⟩ := full t T hT
  cases n with
  | zero => simp [indices]
  | succ n =>
    have key := indices_from hm full fresh hf hT n 0 h3
    subst hm
    have hge : 2 ^ 32 - 1 ≥ T.max := by omega
    have hn : (sys fresh none).nextKey d.fd none k = .ok (le 4 0) := by
      simp only [sys, nextKey, hf, hT, hge, if_true]
    simp only [indices, getNextKey, Option.map_none, hn, ofLe_le4 (show 0 < 2 ^ 32 by omega)]
    rw [key]
    have e : min (n + 1) T.max = min n (T.max - 1 - 0) + 1 := by omega
    rw [e, List.range_eq_range', List.range'_succ]
    rfl

theorem indices_fault {k : K} {fresh : (Nat → Option Obj) → Option Nat} {d : Data} {t : Nat} {T : Table} {e : Nat}
    (hf : k.fds d.fd = some (.table t)) (hT : k.m.tables[t]? = some T) (n : Nat) :
    indices (sys fresh (some e)) d (n + 1) none k = if e = 2 then [] else [.error (.syscall "bpf_map_get_next_key" e)] := by
  simp only [indices, getNextKey, sys, nextKey, hf, hT, Option.map_none]
  split
  · rename_i h; split at h
    · cases h
    · rename_i h2; cases h; simp [h2]
  · rename_i h; split at h
    · rename_i h2; simp [h2]
    · cases h
  · rename_i h; split at h <;> cases h

/-- The step of the code keeps the promise. -/
theorem step_rel (eager : Bool) {fresh : (Nat → Option Obj) → Option Nat} (hF : Fresh fresh) {w : W} {a : A} (r : Rel w a) (op : Op) (f : Option Nat) :
    Rel (wstep eager fresh w op f).1 (step eager a op f (fresh w.k.fds).isSome).1 ∧
    (wstep eager fresh w op f).2 = (step eager a op f (fresh w.k.fds).isSome).2 := by
  have same : ∀ k, k = w.k → Rel { w with k := k } a := by rintro k rfl; exact r
  cases op
  case create max =>
    simp only [wstep, step, create, sys]
    rcases f with _ | e
    · rcases ef : fresh w.k.fds with _ | fd
      · by_cases h0 : max.toNat = 0
        · simp only [h0, if_true]; exact ⟨r, rfl⟩
        · simp only [h0, if_false]; exact ⟨r, rfl⟩
      · by_cases h0 : max.toNat = 0
        · simp only [h0, if_true]; exact ⟨r, rfl⟩
        · simp only [h0, if_false, Option.isSome_some, if_true]
          obtain ⟨hfree, hlt⟩ := hF _ _ ef
          refine ⟨?_, rfl⟩
          rw [r.m]
          refine r.name { a.m with tables := a.m.tables ++ [⟨max.toNat, none, List.replicate max.toNat none⟩] } (Nat.le_refl _) ?_ (by simp) rfl ?_
            _ (.table a.m.tables.length) (.table ⟨fd, max.toNat⟩) (.table a.m.tables.length) hfree hlt rfl ?_ ?_ ?_
          · intro t n h
            obtain ⟨T, hT, hn⟩ := Option.map_eq_some_iff.mp h
            have := (List.getElem?_eq_some_iff.mp hT).1
            simp only [List.getElem?_append_left this]; exact h
          · intro t T hT
            by_cases h : t < a.m.tables.length
            · simp only [List.getElem?_append_left h] at hT
              exact r.full t T hT
            · simp only at hT
              rw [List.getElem?_append_right (by omega)] at hT
              rcases e : t - a.m.tables.length with _ | i
              · rw [e] at hT; simp only [List.getElem?_cons_zero, Option.some.injEq] at hT
                subst hT
                exact ⟨by simp, max.isLt, by simp only; omega⟩
              · rw [e] at hT; simp at hT
          · intro n; rfl
          · intro t
            simp only [K.incUser, K.openFd, Stands.table.injEq]
            by_cases h : t = a.m.tables.length
            · simp [h]
            · have : ¬ a.m.tables.length = t := fun e => h e.symm
              simp [h, this]
          · simp [Match, K.incUser, K.openFd]
    · exact ⟨r, rfl⟩
  case load kind uses body =>
    simp only [wstep, step]
    rcases tablesOf_eq r uses with ⟨e, e'⟩ | ⟨fds, ts, e, e', hk⟩
    · simp only [e, e']; exact ⟨r, trivial⟩
    · simp only [e, e', load, sys, hk]
      rcases f with _ | er
      · simp only [claim_eq, r.m]
        rcases ec : claimAll kind ts a.m.tables with _ | tables
        · exact ⟨same _ rfl, rfl⟩
        · rw [claimAll_eq] at ec
          have hmax : ∀ (t n : Nat), (a.m.tables[t]?).map Table.max = some n → (tables[t]?).map Table.max = some n := by
            intro t n h
            rcases claim_shape ec t with ⟨T, T', h1, h2, h3, h4⟩ | ⟨h1, h2⟩
            · rw [h1] at h; rw [h2]; simp only [Option.map_some, h3]; exact h
            · rw [h1] at h; cases h
          have hlen : a.m.tables.length ≤ tables.length := by
            unfold claimed at ec
            split at ec
            · cases ec; simp
            · cases ec
          have hfull : ∀ (t : Nat) (T : Table), tables[t]? = some T → T.entries.length = T.max ∧ T.max < 2 ^ 32 ∧ 0 < T.max := by
            intro t T' hT'
            rcases claim_shape ec t with ⟨T, T'', h1, h2, h3, h4⟩ | ⟨h1, h2⟩
            · rw [h2] at hT'; cases hT'
              rw [h3, h4]; exact r.full t T h1
            · rw [h2] at hT'; cases hT'
          rcases ef : fresh w.k.fds with _ | fd
          · refine ⟨?_, rfl⟩
            exact r.change { a.m with tables := tables } (Nat.le_refl _) hmax hlen rfl hfull
          · obtain ⟨hfree, hlt⟩ := hF _ _ ef
            refine ⟨?_, rfl⟩
            refine r.name { a.m with tables := tables, progs := a.m.progs ++ [⟨kind, ts, body⟩] } (by simp) hmax hlen rfl hfull
              _ (.prog a.m.progs.length) (.prog fd) (.prog a.m.progs.length) hfree hlt rfl (fun _ => rfl) (fun t => by simp [K.openFd]) ?_
            simp [Match, K.openFd, H.fd]
      · exact ⟨same _ rfl, rfl⟩
  case clone h =>
    simp only [wstep, step]
    rcases r.progOf h with ⟨e, e'⟩ | ⟨fd, p, P, e, e', hf, lt, hP⟩
    · simp only [e, e']; exact ⟨r, trivial⟩
    · simp only [e, e', tryClone, sys, hf]
      rcases f with _ | er
      · rcases ef : fresh w.k.fds with _ | fd'
        · exact ⟨r, rfl⟩
        · obtain ⟨hfree, hlt⟩ := hF _ _ ef
          refine ⟨?_, rfl⟩
          have := r.name a.m (Nat.le_refl _) (fun _ _ h => h) (Nat.le_refl _) rfl r.full (w.k.openFd fd' (.prog p)) (.prog p) (.prog fd') (.prog p)
            hfree hlt r.m (fun _ => rfl) (fun t => by simp [K.openFd])
            ⟨by simp [K.openFd, H.fd], by simp only [K.openFd, r.m]; exact (List.getElem?_eq_some_iff.mp hP).1⟩
          exact this
      · exact ⟨r, rfl⟩
  case set h index p flags =>
    simp only [wstep, step]
    rcases r.tableOf h with ⟨e, e'⟩ | ⟨d, t, T, e, e', hf, hT, hd⟩
    · simp only [e, e']; exact ⟨r, trivial⟩
    · rcases r.progOf p with ⟨ep, ep'⟩ | ⟨fd, q, Q, ep, ep', hq, lt, hQ⟩
      · simp only [e, e', ep, ep']; exact ⟨r, trivial⟩
      · simp only [e, e', ep, ep', hT, hQ, set, checkBounds, hd]
        by_cases hi : T.max ≤ index.toNat
        · simp only [ge_iff_le, hi, if_true]; exact ⟨r, rfl⟩
        · simp only [ge_iff_le, hi, if_false, insert, sys]
          rw [updateElem_eq r.m r.full f hf hT hq lt hQ (by omega)]
          rcases f with _ | er
          · by_cases hc : flags = 0 ∧ fits T Q.kind = true
            · simp only [hc, and_self, if_true]
              refine ⟨?_, rfl⟩
              simp only [M.modify, modify_eq_set _ _ _ _ hT]
              exact r.setTable hT rfl (by simp)
            · simp only [hc, if_false]; exact ⟨r, rfl⟩
          · exact ⟨r, rfl⟩
  case clear h index =>
    simp only [wstep, step]
    rcases r.tableOf h with ⟨e, e'⟩ | ⟨d, t, T, e, e', hf, hT, hd⟩
    · simp only [e, e']; exact ⟨r, trivial⟩
    · simp only [e, e', hT, clearIndex, checkBounds, hd]
      by_cases hi : T.max ≤ index.toNat
      · simp only [ge_iff_le, hi, if_true]; exact ⟨r, rfl⟩
      · simp only [ge_iff_le, hi, if_false, remove, sys]
        rw [deleteElem_eq r.m f hf hT (by omega)]
        rcases f with _ | er
        · by_cases hc : (a.m.entry t index).isSome = true
          · simp only [hc, if_true]
            refine ⟨?_, rfl⟩
            simp only [M.modify, modify_eq_set _ _ _ _ hT]
            exact r.setTable hT rfl (by simp)
          · simp only [hc, if_false]; exact ⟨r, rfl⟩
        · exact ⟨r, rfl⟩
  case indices h n =>
    simp only [wstep, step]
    rcases r.tableOf h with ⟨e, e'⟩ | ⟨d, t, T, e, e', hf, hT, hd⟩
    · simp only [e, e']; exact ⟨r, trivial⟩
    · simp only [e, e', hT]
      rcases f with _ | er
      · rw [indices_eq r.m r.full fresh hf hT n]; exact ⟨r, rfl⟩
      · cases n with
        | zero => exact ⟨r, rfl⟩
        | succ n => rw [indices_fault hf (by rw [r.m]; exact hT) n]; exact ⟨r, rfl⟩
  case pin h =>
    simp only [wstep, step]
    rcases r.tableOf h with ⟨e, e'⟩ | ⟨d, t, T, e, e', hf, hT, hd⟩
    · simp only [e, e']; exact ⟨r, trivial⟩
    · simp only [e, e', pin, sys, hf]
      rcases f with _ | er
      · refine ⟨?_, rfl⟩
        constructor
        · simp only [W.told, K.incUser, r.m]
        · exact r.len
        · intro h
          exact (r.hand h).mono (fun _ _ => rfl) (Nat.le_refl _) (fun _ _ h => h)
        · exact r.inj
        · exact r.small
        · intro i
          simp only [W.told, K.incUser, List.countP_append, List.countP_cons, List.countP_nil, r.users i, Option.some.injEq, decide_eq_true_eq]
          by_cases hi : i = t
          · simp [hi]; omega
          · have : ¬ t = i := fun e => hi e.symm
            simp [hi, this]
        · exact r.full
        · intro path i h
          simp only [join_append] at h
          split at h
          · cases h; exact (List.getElem?_eq_some_iff.mp hT).1
          · exact r.pins path i h
      · exact ⟨r, rfl⟩
  case fromPin path =>
    simp only [wstep, step, fromPin, sys, r.m]
    rcases ep : a.m.pins[path]?.join with _ | t
    · exact ⟨same _ rfl, rfl⟩
    · rcases f with _ | er
      · rcases ef : fresh w.k.fds with _ | fd
        · exact ⟨same _ rfl, rfl⟩
        · obtain ⟨hfree, hlt⟩ := hF _ _ ef
          obtain ⟨T, hT⟩ : ∃ T, a.m.tables[t]? = some T := ⟨_, List.getElem?_eq_getElem (r.pins path t ep)⟩
          simp only [hT]
          refine ⟨?_, rfl⟩
          have := r.name a.m (Nat.le_refl _) (fun _ _ h => h) (Nat.le_refl _) rfl r.full ((w.k.openFd fd (.table t)).incUser t) (.table t)
            (.table ⟨fd, T.max⟩) (.table t) hfree hlt r.m (fun _ => rfl) (fun i => by
              simp only [K.openFd, K.incUser, Stands.table.injEq]
              by_cases hi : i = t
              · simp [hi]
              · have : ¬ t = i := fun e => hi e.symm
                simp [hi, this])
            ⟨by simp [K.openFd, K.incUser], by simp only [K.openFd, K.incUser, r.m, hT]; rfl⟩
          exact this
      · exact ⟨same _ rfl, rfl⟩
  case unlink path =>
    simp only [wstep, step, r.m]
    rcases ep : a.m.pins[path]?.join with _ | t
    · exact ⟨r, rfl⟩
    · refine ⟨?_, rfl⟩
      have hcount := fun i => countP_drop (fun x : Option Nat => decide (x = some i)) (by simp) a.m.pins path (some t) (join_some ep)
      refine Rel.put (w := w) (a := a) (t := t) w.hs { a with m := { a.m with pins := a.m.pins.set path none } } w.k.fds r.len
        (fun h => (r.hand h).mono (fun _ _ => rfl) (by rw [r.m]; exact Nat.le_refl _) (by rw [r.m]; exact fun _ _ h => h))
        r.inj r.small ?_ r.full ?_
      · intro i
        have := hcount i
        rw [r.users i]
        simp only [Option.some.injEq, decide_eq_true_eq] at this ⊢
        by_cases hi : i = t
        · simp only [hi, if_true] at this ⊢; omega
        · have h' : ¬ t = i := fun e => hi e.symm
          simp only [hi, h', if_false] at this ⊢; omega
      · intro q i h
        simp only [join_set] at h
        split at h
        · cases h
        · exact r.pins q i h
  case drop h =>
    simp only [wstep, step]
    have hnames : ∀ n : Nat, (a.names.set h none)[n]?.join = if n = h then none else a.names[n]?.join := join_set a.names h
    have hhs : ∀ n : Nat, (w.hs.set h none)[n]?.join = if n = h then none else w.hs[n]?.join := join_set w.hs h
    have hinj : ∀ (n n' : Nat) (x x' : H), (w.hs.set h none)[n]?.join = some x → (w.hs.set h none)[n']?.join = some x' → x.fd = x'.fd → n = n' := by
      intro n n' x x' e e' hf
      rw [hhs] at e e'
      split at e
      · cases e
      · split at e'
        · cases e'
        · exact r.inj n n' x x' e e' hf
    have hsmall : ∀ fd0 fd x, (if fd = fd0 then none else w.k.fds fd) = some x → fd < 2 ^ 31 := by
      intro fd0 fd x e
      split at e
      · cases e
      · exact r.small fd x e
    have hfds : ∀ (n : Nat) (x z : H), w.hs[h]?.join = some x → n ≠ h → w.hs[n]?.join = some z →
        (if z.fd = x.fd then none else w.k.fds z.fd) = w.k.fds z.fd := by
      intro n x z hx hn hz
      have : z.fd ≠ x.fd := fun e => hn (r.inj n h z x hz hx e)
      simp [this]
    rcases r.cases h with ⟨e, e'⟩ | ⟨fd, p, e, e', hf, lt, P, hP⟩ | ⟨d, t, T, e, e', hf, hT, hd⟩
    · simp only [e, e']; exact ⟨r, trivial⟩
    · simp only [e, e', H.fd, sys, hf]
      refine ⟨?_, trivial⟩
      constructor
      · exact r.m
      · simp [r.len]
      · intro n
        simp only [hnames, hhs]
        by_cases hn : n = h
        · simp [hn, Match]
        · simp only [hn, if_false]
          exact (r.hand n).mono (fun z hz => hfds n _ z e hn hz) (Nat.le_refl _) (fun _ _ h => h)
      · exact hinj
      · exact hsmall fd
      · intro i
        have := countP_drop (fun x : Option Stands => decide (x = some (.table i))) (by simp) a.names h _ (join_some e')
        simp only [Option.some.injEq, reduceCtorEq, decide_false, Bool.false_eq_true, if_false] at this
        simp only [K.closeFd, r.users i]; omega
      · exact r.full
      · exact r.pins
    · simp only [e, e', H.fd, sys, hf]
      refine ⟨?_, trivial⟩
      have key := Rel.put (w := w) (a := a) (t := t) (w.hs.set h none) { a with names := a.names.set h none }
        (fun n => if n = d.fd then none else w.k.fds n) (by simp [r.len]) ?_ hinj (hsmall d.fd) ?_ r.full r.pins
      · have hk : ({ w.k with m := a.m, fds := fun n => if n = d.fd then none else w.k.fds n } : K) = w.k.closeFd d.fd := by
          rw [← r.m]; rfl
        simp only [hk] at key
        exact key
      · intro n
        simp only [hnames, hhs]
        by_cases hn : n = h
        · simp [hn, Match]
        · simp only [hn, if_false]
          exact (r.hand n).mono (fun z hz => hfds n _ z e hn hz) (by rw [r.m]; exact Nat.le_refl _) (by rw [r.m]; exact fun _ _ h => h)
      · intro i
        have := countP_drop (fun x : Option Stands => decide (x = some (.table i))) (by simp) a.names h _ (join_some e')
        rw [r.users i]
        simp only [Option.some.injEq, Stands.table.injEq, decide_eq_true_eq] at this ⊢
        by_cases hi : i = t
        · simp only [hi, if_true] at this ⊢; omega
        · have h' : ¬ t = i := fun e => hi e.symm
          simp only [hi, h', if_false] at this ⊢; omega
  case attach h =>
    simp only [wstep, step]
    rcases r.progOf h with ⟨e, e'⟩ | ⟨fd, p, P, e, e', hf, lt, hP⟩
    · simp only [e, e']; exact ⟨r, trivial⟩
    · simp only [e, e', hf, r.m]
      exact ⟨r.change { a.m with attached := a.m.attached ++ [p] } (Nat.le_refl _) (fun _ _ h => h) (Nat.le_refl _) rfl r.full, trivial⟩
  case fire n ctx =>
    simp only [wstep, step, r.m]
    rcases (a.m.attached[n]?).bind fun p => (a.m.progs[p]?).map fun P => (p, P) with _ | ⟨p, P⟩
    · exact ⟨r, rfl⟩
    · exact ⟨r.change { a.m with works := a.m.works ++ [{ prog := p, ctx := ctx, rest := P.body ctx }] } (Nat.le_refl _) (fun _ _ h => h)
        (Nat.le_refl _) rfl r.full, rfl⟩
  case advance n =>
    simp only [wstep, step, r.m]
    have : advance eager a.m = promiseAdvance eager a.m := funext fun x => advance_eq eager r.full x
    rw [this]
    rcases (a.m.works[n]?).bind (promiseAdvance eager a.m) with _ | x
    · exact ⟨r, rfl⟩
    · exact ⟨r.change { a.m with works := a.m.works.set n x } (Nat.le_refl _) (fun _ _ h => h) (Nat.le_refl _) rfl r.full, rfl⟩

theorem run_rel (eager : Bool) {fresh : (Nat → Option Obj) → Option Nat} (hF : Fresh fresh) (ops : List (Op × Option Nat)) :
    ∀ {w : W} {a : A}, Rel w a → Rel (wrun eager fresh w ops).1 (Spec.run eager a ops (rooms eager fresh w ops)).1 ∧
      (wrun eager fresh w ops).2 = (Spec.run eager a ops (rooms eager fresh w ops)).2 := by
  induction ops with
  | nil => intro w a r; exact ⟨r, rfl⟩
  | cons o ops ih =>
    intro w a r
    obtain ⟨op, f⟩ := o
    obtain ⟨h1, h2⟩ := step_rel eager hF r op f
    obtain ⟨h3, h4⟩ := ih h1
    exact ⟨h3, by simp only [wrun, rooms, Spec.run, h2, h4]⟩

theorem rel_init : Rel {} {} where
  m := rfl
  len := rfl
  hand _ := by simp [Match]
  inj h h' x x' e := by simp at e
  small fd x e := nomatch e
  users t := by simp
  full t T h := by simp at h
  pins path t h := by simp at h

/-- Histories: whatever is done with jump tables and programs, in whatever order, whichever calls fail and however many CPUs run programs
    meanwhile, callers see what is promised, and tables, entries and programs at work are what is promised. -/
theorem C95_histories (eager : Bool) (fresh : (Nat → Option Obj) → Option Nat) (hF : Fresh fresh) (ops : List (Op × Option Nat)) :
    (wrun eager fresh {} ops).2 = (Spec.run eager {} ops (rooms eager fresh {} ops)).2 ∧
    (wrun eager fresh {} ops).1.k.m = (Spec.run eager {} ops (rooms eager fresh {} ops)).1.m :=
  let r := run_rel eager hF ops rel_init
  ⟨r.2, r.1.m⟩

/-! ## What follows -/

theorem reach (eager : Bool) {fresh : (Nat → Option Obj) → Option Nat} (hF : Fresh fresh) (ops : List (Op × Option Nat)) :
    ∃ a, Rel (wrun eager fresh {} ops).1 a := ⟨_, (run_rel eager hF ops rel_init).1⟩

theorem entry_modify (m : M) (t u : Nat) (f : Table → Table) (i : BitVec 32) :
    (m.modify u f).entry t i = if t = u then (m.tables[t]?).bind (fun T => (f T).entries[i.toNat]?.join) else m.entry t i := by
  unfold M.entry M.modify
  simp only [List.getElem?_modify]
  by_cases h : t = u
  · subst h
    rcases m.tables[t]? <;> simp
  · have : ¬ u = t := fun e => h e.symm
    rcases m.tables[t]? <;> simp [h, this]

theorem settle_entry (a : A) (u t : Nat) (i : BitVec 32) (h : t = u → (a.settle u).held t = true) :
    (a.settle u).m.entry t i = a.m.entry t i := by
  unfold A.settle
  unfold A.settle at h
  split
  · rfl
  · rename_i hh
    simp only [hh] at h
    rw [entry_modify]
    split
    · rename_i e
      have := h e
      subst e
      simp only [A.held, M.modify, Bool.false_eq_true, if_false] at this hh
      exact absurd this hh
    · rfl

theorem claim_entry {m : M} {kind : Nat} {ts : List Nat} {tables : List Table} (ec : claimed kind ts m.tables = some tables) (t : Nat) (i : BitVec 32)
    (progs : List Program) : M.entry { m with tables := tables, progs := progs } t i = m.entry t i := by
  unfold M.entry
  rcases claim_shape ec t with ⟨T, T', h1, h2, h3, h4⟩ | ⟨h1, h2⟩
  · simp only [h1, h2, Option.bind_some, h4]
  · simp only [h1, h2]

/-- The operation is not about this index of this table. -/
def Aside (a : A) (t : Nat) (index : BitVec 32) (op : Op) : Prop :=
  ∀ h : Nat, (∃ p flags, op = .set h index p flags) ∨ op = .clear h index → a.tableOf h ≠ some t

/-- An entry stays where it is. -/
theorem entry_step {eager : Bool} {a : A} {t q : Nat} {index : BitVec 32} {op : Op} {f : Option Nat} {room : Bool}
    (he : a.m.entry t index = some q) (ha : Aside a t index op) (hh : (step eager a op f room).1.held t = true) :
    (step eager a op f room).1.m.entry t index = some q := by
  cases op
  case create max =>
    simp only [step]
    rcases f with _ | e
    · dsimp only
      split
      · exact he
      · split
        · unfold M.entry at he ⊢
          rcases eT : a.m.tables[t]? with _ | T
          · rw [eT] at he; cases he
          · rw [List.getElem?_append_left (List.getElem?_eq_some_iff.mp eT).1]; exact he
        · exact he
    · exact he
  case load kind uses body =>
    simp only [step]
    rcases a.tablesOf uses with _ | ts
    · exact he
    · rcases f with _ | e
      · dsimp only
        rw [claim_eq, claimAll_eq]
        rcases ec : claimed kind ts a.m.tables with _ | tables
        · exact he
        · dsimp only
          split
          · dsimp only; rw [claim_entry ec]; exact he
          · exact (claim_entry ec t index a.m.progs).trans he
      · exact he
  case clone h =>
    simp only [step]
    rcases a.progOf h with _ | p
    · exact he
    · rcases f with _ | e
      · dsimp only; split <;> exact he
      · exact he
  case set h i p flags =>
    simp only [step]
    rcases eh : a.tableOf h with _ | u
    · exact he
    · rcases a.progOf p with _ | r
      · exact he
      · dsimp only
        rcases a.m.tables[u]? with _ | T
        · exact he
        · rcases a.m.progs[r]? with _ | Q
          · exact he
          · dsimp only
            split
            · exact he
            · rcases f with _ | e
              · dsimp only
                split
                · dsimp only
                  rw [entry_modify]
                  split
                  · rename_i etu
                    have hi : i ≠ index := by
                      rintro rfl
                      exact ha h (.inl ⟨p, flags, rfl⟩) (by rw [eh, etu])
                    have : ¬ i.toNat = index.toNat := fun e => hi (BitVec.eq_of_toNat_eq e)
                    simp only [List.getElem?_set, this, if_false]
                    exact he
                  · exact he
                · exact he
              · exact he
  case clear h i =>
    simp only [step]
    rcases eh : a.tableOf h with _ | u
    · exact he
    · dsimp only
      rcases a.m.tables[u]? with _ | T
      · exact he
      · dsimp only
        split
        · exact he
        · rcases f with _ | e
          · dsimp only
            split
            · dsimp only
              rw [entry_modify]
              split
              · rename_i etu
                have hi : i ≠ index := by
                  rintro rfl
                  exact ha h (.inr rfl) (by rw [eh, etu])
                have : ¬ i.toNat = index.toNat := fun e => hi (BitVec.eq_of_toNat_eq e)
                simp only [List.getElem?_set, this, if_false]
                exact he
              · exact he
            · exact he
          · exact he
  case indices h n =>
    simp only [step]
    rcases a.tableOf h with _ | u
    · exact he
    · dsimp only
      rcases a.m.tables[u]? with _ | T
      · exact he
      · rcases f with _ | e <;> rcases n with _ | n <;> exact he
  case pin h =>
    simp only [step]
    rcases a.tableOf h with _ | u
    · exact he
    · rcases f with _ | e <;> exact he
  case fromPin path =>
    simp only [step]
    rcases ep : a.m.pins[path]?.join with _ | u
    · simp only [ep]; exact he
    · simp only [ep]
      rcases f with _ | e
      · dsimp only; split <;> exact he
      · exact he
  case unlink path =>
    simp only [step] at hh ⊢
    rcases ep : a.m.pins[path]?.join with _ | u
    · simp only [ep]; exact he
    · simp only [ep] at hh ⊢
      rw [settle_entry _ _ _ _ (fun _ => hh)]; exact he
  case drop h =>
    simp only [step] at hh ⊢
    rcases ep : a.names[h]?.join with _ | (u | u)
    · simp only [ep]; exact he
    · simp only [ep]; exact he
    · simp only [ep] at hh ⊢
      rw [settle_entry _ _ _ _ (fun _ => hh)]; exact he
  case attach h =>
    simp only [step]
    rcases a.progOf h with _ | p <;> exact he
  case fire n ctx =>
    simp only [step]
    split <;> exact he
  case advance n =>
    simp only [step]
    split <;> exact he

/-! ### Statements about what the caller can name -/

/-- What a name stands for. -/
def W.stands (w : W) (h : Nat) : Option Obj := (w.hs[h]?.join).bind fun x => w.k.fds x.fd

/-- Somebody in user space holds the table, by name or by pin. -/
def W.holds (w : W) (t : Nat) : Prop := (∃ h : Nat, w.stands h = some (.table t)) ∨ ∃ path : Nat, w.k.m.pins[path]?.join = some t

/-- Nobody sets or clears this index of this table, by whatever name, and it is held all the time. -/
def Undisturbed (eager : Bool) (fresh : (Nat → Option Obj) → Option Nat) (t : Nat) (index : BitVec 32) : W → List (Op × Option Nat) → Prop
  | _, [] => True
  | w, (op, f) :: ops =>
      (∀ h : Nat, (∃ p flags, op = .set h index p flags) ∨ op = .clear h index → w.stands h ≠ some (.table t)) ∧
      (wstep eager fresh w op f).1.holds t ∧ Undisturbed eager fresh t index (wstep eager fresh w op f).1 ops

theorem Rel.stands {w : W} {a : A} (r : Rel w a) (h : Nat) :
    w.stands h = (a.names[h]?.join).map fun s => match s with
      | .prog p => Obj.prog p
      | .table t => Obj.table t := by
  unfold W.stands
  rcases r.cases h with ⟨e, e'⟩ | ⟨fd, p, e, e', hf, lt, P, hP⟩ | ⟨d, t, T, e, e', hf, hT, hd⟩
  · simp [e, e']
  · simp [e, e', H.fd, hf]
  · simp [e, e', H.fd, hf]

theorem Rel.stands_table {w : W} {a : A} (r : Rel w a) (h t : Nat) : w.stands h = some (.table t) ↔ a.names[h]?.join = some (.table t) := by
  rw [r.stands]
  rcases a.names[h]?.join with _ | (p | u) <;> simp

theorem tableOf_names (a : A) (h t : Nat) : a.tableOf h = some t ↔ a.names[h]?.join = some (.table t) := by
  unfold A.tableOf
  rcases e : a.names[h]?.join with _ | (p | u) <;> simp only [e] <;> simp

theorem progOf_names (a : A) (h p : Nat) : a.progOf h = some p ↔ a.names[h]?.join = some (.prog p) := by
  unfold A.progOf
  rcases e : a.names[h]?.join with _ | (p | u) <;> simp only [e] <;> simp

theorem Rel.stands_prog {w : W} {a : A} (r : Rel w a) (h p : Nat) : w.stands h = some (.prog p) ↔ a.names[h]?.join = some (.prog p) := by
  rw [r.stands]
  rcases a.names[h]?.join with _ | (p | u) <;> simp

theorem mem_join {α : Type} {l : List (Option α)} {x : α} (h : ∃ n : Nat, l[n]?.join = some x) : some x ∈ l := by
  obtain ⟨n, h⟩ := h
  exact List.mem_of_getElem? (join_some h)

theorem Rel.holds {w : W} {a : A} (r : Rel w a) {t : Nat} (h : w.holds t) : a.held t = true := by
  unfold A.held
  rw [Bool.or_eq_true, List.contains_iff_mem, List.contains_iff_mem]
  rcases h with ⟨n, h⟩ | h
  · left; exact mem_join ⟨n, (r.stands_table n t).mp h⟩
  · right; rw [r.m] at h; exact mem_join h

theorem entry_run {eager : Bool} {fresh : (Nat → Option Obj) → Option Nat} (hF : Fresh fresh) {t q : Nat} {index : BitVec 32} :
    ∀ (ops : List (Op × Option Nat)) {w : W} {a : A}, Rel w a → w.k.m.entry t index = some q → Undisturbed eager fresh t index w ops →
      (wrun eager fresh w ops).1.k.m.entry t index = some q := by
  intro ops
  induction ops with
  | nil => intro w a r h _; exact h
  | cons o ops ih =>
    intro w a r h u
    obtain ⟨op, f⟩ := o
    obtain ⟨u1, u2, u3⟩ := u
    obtain ⟨h1, h2⟩ := step_rel eager hF r op f
    refine ih h1 ?_ u3
    rw [h1.m]
    refine entry_step (by rw [← r.m]; exact h) ?_ (h1.holds u2)
    intro n hn e
    exact u1 n hn ((r.stands_table n t).mpr ((tableOf_names a n t).mp e))

/-- A program put into a table stays there: after `set` succeeded the entry is the program the descriptor stands for, whatever happens
    afterwards, for as long as nobody sets or clears that index of that table and the table is held by a name or a pin. In particular the
    program stays when its own descriptor is closed. -/
theorem C95_stays_partial (eager : Bool) (fresh : (Nat → Option Obj) → Option Nat) (hF : Fresh fresh) (before after : List (Op × Option Nat))
    (h p flags : Nat) (index : BitVec 32) (f : Option Nat) (w' : W)
    (done : wstep eager fresh (wrun eager fresh {} before).1 (.set h index p flags) f = (w', .done)) :
    ∃ t q, (wrun eager fresh {} before).1.stands h = some (.table t) ∧ (wrun eager fresh {} before).1.stands p = some (.prog q) ∧
      (Undisturbed eager fresh t index w' after → (wrun eager fresh w' after).1.k.m.entry t index = some q) := by
  obtain ⟨a, r⟩ := reach eager hF before
  generalize (wrun eager fresh {} before).1 = w at *
  obtain ⟨h1, h2⟩ := step_rel eager hF r (.set h index p flags) f
  rw [done] at h1 h2
  simp only [step] at h1 h2
  rcases et : a.tableOf h with _ | t
  · simp only [et] at h2; cases h2
  · rcases ep : a.progOf p with _ | q
    · simp only [et, ep] at h2; cases h2
    · simp only [et, ep] at h1 h2
      rcases eT : a.m.tables[t]? with _ | T
      · simp only [eT] at h2; cases h2
      · rcases eQ : a.m.progs[q]? with _ | Q
        · simp only [eT, eQ] at h2; cases h2
        · simp only [eT, eQ] at h1 h2
          by_cases hi : T.max ≤ index.toNat
          · simp only [hi, if_true] at h2; cases h2
          · simp only [hi, if_false] at h1 h2
            rcases f with _ | e
            · dsimp only at h1 h2
              by_cases hc : flags = 0 ∧ fits T Q.kind = true
              · simp only [hc, and_self, if_true] at h1
                refine ⟨t, q, (r.stands_table h t).mpr ((tableOf_names a h t).mp et), (r.stands_prog p q).mpr ((progOf_names a p q).mp ep), ?_⟩
                intro u
                refine entry_run hF after h1 ?_ u
                have hl := (r.full t T eT).1
                rw [h1.m]
                dsimp only
                rw [entry_modify]
                simp only [if_true, eT, Option.bind_some]
                rw [List.getElem?_set_self (by omega)]
                rfl
              · simp only [hc, if_false] at h2; cases h2
            · cases h2

/-! ### Tail calls -/

/-- Entries are programs that exist. -/
def Known (m : M) : Prop := ∀ (t q : Nat) (i : BitVec 32), m.entry t i = some q → q < m.progs.length

theorem Known.modify {m : M} (k : Known m) (u : Nat) (f : Table → Table)
    (hf : ∀ (T : Table) (i : BitVec 32) (q : Nat), m.tables[u]? = some T → (f T).entries[i.toNat]?.join = some q → q < m.progs.length) : Known (m.modify u f) := by
  intro t q i h
  rw [entry_modify] at h
  split at h
  · rename_i e; subst e
    rcases eT : m.tables[t]? with _ | T
    · rw [eT] at h; cases h
    · rw [eT] at h; exact hf T i q eT h
  · exact k t q i h

theorem Known.settle {a : A} (k : Known a.m) (u : Nat) : Known (a.settle u).m := by
  unfold A.settle
  split
  · exact k
  · refine k.modify u _ ?_
    intro T i q _ h
    simp only [List.getElem?_replicate] at h
    split at h <;> simp at h

theorem Known.step {eager : Bool} {a : A} (k : Known a.m) (op : Op) (f : Option Nat) (room : Bool) : Known (step eager a op f room).1.m := by
  cases op
  case create max =>
    simp only [Spec.step]
    rcases f with _ | e
    · dsimp only
      split
      · exact k
      · split
        · intro t q i h
          unfold M.entry at h
          simp only [List.getElem?_append] at h
          by_cases hl : t < a.m.tables.length
          · simp only [hl, if_true] at h; exact k t q i h
          · simp only [hl, if_false] at h
            rcases e : t - a.m.tables.length with _ | j
            · simp only [e, List.getElem?_cons_zero, Option.bind_some, List.getElem?_replicate] at h
              split at h <;> simp at h
            · simp [e] at h
        · exact k
    · exact k
  case load kind uses body =>
    simp only [Spec.step]
    rcases a.tablesOf uses with _ | ts
    · exact k
    · rcases f with _ | e
      · dsimp only
        rw [claim_eq, claimAll_eq]
        rcases ec : claimed kind ts a.m.tables with _ | tables
        · exact k
        · dsimp only
          split
          · intro t q i h
            rw [claim_entry ec] at h
            have := k t q i h
            simp only [List.length_append]; omega
          · intro t q i h
            have := (claim_entry ec t i a.m.progs).symm.trans h
            exact k t q i this
      · exact k
  case clone h =>
    simp only [Spec.step]
    rcases a.progOf h with _ | p
    · exact k
    · rcases f with _ | e
      · dsimp only; split <;> exact k
      · exact k
  case set h i p flags =>
    simp only [Spec.step]
    rcases eh : a.tableOf h with _ | u
    · exact k
    · rcases a.progOf p with _ | r
      · exact k
      · dsimp only
        rcases a.m.tables[u]? with _ | T
        · exact k
        · rcases eQ : a.m.progs[r]? with _ | Q
          · exact k
          · dsimp only
            split
            · exact k
            · rcases f with _ | e
              · dsimp only
                split
                · refine k.modify u _ ?_
                  intro T j q eT h
                  simp only [List.getElem?_set] at h
                  split at h
                  · split at h
                    · cases h; exact (List.getElem?_eq_some_iff.mp eQ).1
                    · cases h
                  · exact k u q j (by unfold M.entry; rw [eT]; exact h)
                · exact k
              · exact k
  case clear h i =>
    simp only [Spec.step]
    rcases eh : a.tableOf h with _ | u
    · exact k
    · dsimp only
      rcases a.m.tables[u]? with _ | T
      · exact k
      · dsimp only
        split
        · exact k
        · rcases f with _ | e
          · dsimp only
            split
            · refine k.modify u _ ?_
              intro T j q eT h
              simp only [List.getElem?_set] at h
              split at h
              · split at h <;> cases h
              · exact k u q j (by unfold M.entry; rw [eT]; exact h)
            · exact k
          · exact k
  case indices h n =>
    simp only [Spec.step]
    rcases a.tableOf h with _ | u
    · exact k
    · dsimp only
      rcases a.m.tables[u]? with _ | T
      · exact k
      · rcases f with _ | e <;> rcases n with _ | n <;> exact k
  case pin h =>
    simp only [Spec.step]
    rcases a.tableOf h with _ | u
    · exact k
    · rcases f with _ | e <;> exact k
  case fromPin path =>
    simp only [Spec.step]
    rcases ep : a.m.pins[path]?.join with _ | u
    · simp only [ep]; exact k
    · simp only [ep]
      rcases f with _ | e
      · dsimp only; split <;> exact k
      · exact k
  case unlink path =>
    simp only [Spec.step]
    rcases ep : a.m.pins[path]?.join with _ | u
    · simp only [ep]; exact k
    · simp only [ep]
      exact Known.settle (a := { a with m := { a.m with pins := a.m.pins.set path none } }) k u
  case drop h =>
    simp only [Spec.step]
    rcases ep : a.names[h]?.join with _ | (u | u)
    · simp only [ep]; exact k
    · simp only [ep]; exact k
    · simp only [ep]
      exact Known.settle (a := { a with names := a.names.set h none }) k u
  case attach h =>
    simp only [Spec.step]
    rcases a.progOf h with _ | p <;> exact k
  case fire n ctx =>
    simp only [Spec.step]
    split <;> exact k
  case advance n =>
    simp only [Spec.step]
    split <;> exact k

/-- A program at work has made at most 33 tail calls, and what it did and has yet to do fits into the programs it went through. -/
def Bounded (m : M) : Prop := ∀ x ∈ m.works, x.jumps ≤ 33 ∧
  ∀ B : Nat, (∀ P ∈ m.progs, (P.body x.ctx).length ≤ B) → x.seen.length + x.rest.length ≤ (x.jumps + 1) * B

theorem Bounded.same {m m' : M} (b : Bounded m) (hw : m'.works = m.works) (hp : ∀ P ∈ m.progs, P ∈ m'.progs) : Bounded m' := by
  intro x hx
  rw [hw] at hx
  exact ⟨(b x hx).1, fun B h => (b x hx).2 B fun P hP => h P (hp P hP)⟩

theorem Bounded.advance {eager : Bool} {m : M} {x y : Work} (hx : x.jumps ≤ 33 ∧
      ∀ B : Nat, (∀ P ∈ m.progs, (P.body x.ctx).length ≤ B) → x.seen.length + x.rest.length ≤ (x.jumps + 1) * B)
    (e : promiseAdvance eager m x = some y) : y.jumps ≤ 33 ∧
      ∀ B : Nat, (∀ P ∈ m.progs, (P.body y.ctx).length ≤ B) → y.seen.length + y.rest.length ≤ (y.jumps + 1) * B := by
  obtain ⟨j, hB⟩ := hx
  unfold promiseAdvance at e
  split at e
  · cases e
  · rename_i n rest er
    cases e
    refine ⟨j, fun B h => ?_⟩
    have := hB B h
    rw [er] at this
    simp only [List.length_append, List.length_cons, List.length_nil] at this ⊢
    omega
  · rename_i kk index rest er
    have less : ∀ B : Nat, (∀ P ∈ m.progs, (P.body x.ctx).length ≤ B) → x.seen.length + rest.length ≤ (x.jumps + 1) * B := by
      intro B h
      have := hB B h
      rw [er] at this
      simp only [List.length_cons] at this
      omega
    have more : ∀ B : Nat, (x.jumps + 1) * B ≤ (x.jumps + 1 + 1) * B := fun B => Nat.mul_le_mul_right B (by omega)
    have aux : ∀ inside : Bool, (if (eager && inside && decide (x.jumps < 33)) = true then x.jumps + 1 else x.jumps) ≤ 33 ∧
        ∀ B : Nat, (∀ P ∈ m.progs, (P.body x.ctx).length ≤ B) →
          x.seen.length + rest.length ≤ ((if (eager && inside && decide (x.jumps < 33)) = true then x.jumps + 1 else x.jumps) + 1) * B := by
      intro inside
      split
      · rename_i hc
        simp only [Bool.and_eq_true, decide_eq_true_eq] at hc
        exact ⟨by omega, fun B h => Nat.le_trans (less B h) (more B)⟩
      · exact ⟨j, less⟩
    split at e
    · cases e; exact ⟨j, less⟩
    · split at e
      · rename_i p ep
        split at e
        · rename_i hj
          rcases eP : m.progs[p]? with _ | P
          · rw [eP] at e; cases e
          · rw [eP] at e
            simp only [Option.map_some, Option.some.injEq] at e
            subst e
            refine ⟨by simp only; omega, fun B h => ?_⟩
            have h1 := less B h
            have h2 := h P (List.mem_of_getElem? eP)
            have h3 : (x.jumps + 1 + 1) * B = (x.jumps + 1) * B + B := by rw [Nat.add_mul, Nat.one_mul]
            simp only at h2 ⊢
            omega
        · cases e; exact ⟨j, less⟩
      · simp only [Option.some.injEq] at e
        subst e
        dsimp only
        exact aux _

theorem Bounded.settle {a : A} (k : Bounded a.m) (u : Nat) : Bounded (a.settle u).m := by
  unfold A.settle
  split
  · exact k
  · exact k.same rfl (fun _ h => h)

theorem Bounded.step {eager : Bool} {a : A} (k : Bounded a.m) (op : Op) (f : Option Nat) (room : Bool) : Bounded (step eager a op f room).1.m := by
  cases op
  case create max =>
    simp only [Spec.step]
    rcases f with _ | e
    · dsimp only
      split
      · exact k
      · split <;> exact k
    · exact k
  case load kind uses body =>
    simp only [Spec.step]
    rcases a.tablesOf uses with _ | ts
    · exact k
    · rcases f with _ | e
      · dsimp only
        rcases a.claim kind ts with _ | tables
        · exact k
        · dsimp only
          split
          · exact k.same rfl (fun P h => List.mem_append_left _ h)
          · exact k
      · exact k
  case clone h =>
    simp only [Spec.step]
    rcases a.progOf h with _ | p
    · exact k
    · rcases f with _ | e
      · dsimp only; split <;> exact k
      · exact k
  case set h i p flags =>
    simp only [Spec.step]
    rcases eh : a.tableOf h with _ | u
    · exact k
    · rcases a.progOf p with _ | r
      · exact k
      · dsimp only
        rcases a.m.tables[u]? with _ | T
        · exact k
        · rcases eQ : a.m.progs[r]? with _ | Q
          · exact k
          · dsimp only
            split
            · exact k
            · rcases f with _ | e
              · dsimp only
                split <;> exact k
              · exact k
  case clear h i =>
    simp only [Spec.step]
    rcases eh : a.tableOf h with _ | u
    · exact k
    · dsimp only
      rcases a.m.tables[u]? with _ | T
      · exact k
      · dsimp only
        split
        · exact k
        · rcases f with _ | e
          · dsimp only
            split <;> exact k
          · exact k
  case indices h n =>
    simp only [Spec.step]
    rcases a.tableOf h with _ | u
    · exact k
    · dsimp only
      rcases a.m.tables[u]? with _ | T
      · exact k
      · rcases f with _ | e <;> rcases n with _ | n <;> exact k
  case pin h =>
    simp only [Spec.step]
    rcases a.tableOf h with _ | u
    · exact k
    · rcases f with _ | e <;> exact k
  case fromPin path =>
    simp only [Spec.step]
    rcases ep : a.m.pins[path]?.join with _ | u
    · simp only [ep]; exact k
    · simp only [ep]
      rcases f with _ | e
      · dsimp only; split <;> exact k
      · exact k
  case unlink path =>
    simp only [Spec.step]
    rcases ep : a.m.pins[path]?.join with _ | u
    · simp only [ep]; exact k
    · simp only [ep]
      exact Bounded.settle (a := { a with m := { a.m with pins := a.m.pins.set path none } }) k u
  case drop h =>
    simp only [Spec.step]
    rcases ep : a.names[h]?.join with _ | (u | u)
    · simp only [ep]; exact k
    · simp only [ep]; exact k
    · simp only [ep]
      exact Bounded.settle (a := { a with names := a.names.set h none }) k u
  case attach h =>
    simp only [Spec.step]
    rcases a.progOf h with _ | p <;> exact k
  case fire n ctx =>
    simp only [Spec.step]
    split
    · exact k
    · rename_i p P e
      obtain ⟨p', h1, h2⟩ := Option.bind_eq_some_iff.mp e
      obtain ⟨P', h3, h4⟩ := Option.map_eq_some_iff.mp h2
      cases h4
      intro x hx
      simp only [List.mem_append, List.mem_singleton] at hx
      rcases hx with hx | rfl
      · exact k x hx
      · refine ⟨by simp, fun B h => ?_⟩
        have := h P (List.mem_of_getElem? h3)
        simp only [List.length_nil] at this ⊢
        omega
  case advance n =>
    simp only [Spec.step]
    split
    · exact k
    · rename_i y e
      obtain ⟨x, h1, h2⟩ := Option.bind_eq_some_iff.mp e
      intro z hz
      rcases List.mem_or_eq_of_mem_set hz with hz | rfl
      · exact k z hz
      · exact Bounded.advance (k x (List.mem_of_getElem? h1)) h2

theorem run_inv (eager : Bool) (ops : List (Op × Option Nat)) : ∀ (rs : List Bool) {a : A}, Known a.m → Bounded a.m →
    Known (Spec.run eager a ops rs).1.m ∧ Bounded (Spec.run eager a ops rs).1.m := by
  induction ops with
  | nil => intro rs a h h'; cases rs <;> exact ⟨h, h'⟩
  | cons o ops ih =>
    intro rs a h h'
    obtain ⟨op, f⟩ := o
    cases rs with
    | nil => exact ⟨h, h'⟩
    | cons b rs => exact ih rs (h.step op f b) (h'.step op f b)

theorem reach_inv (eager : Bool) {fresh : (Nat → Option Obj) → Option Nat} (hF : Fresh fresh) (ops : List (Op × Option Nat)) :
    Known (wrun eager fresh {} ops).1.k.m ∧ Bounded (wrun eager fresh {} ops).1.k.m := by
  rw [(C95_histories eager fresh hF ops).2]
  exact run_inv eager ops _ (fun t q i h => by simp [M.entry] at h) (fun x hx => by simp at hx)

/-- A tail call goes to the program in the table at that index, with the context of the caller, and never comes back; if there is none, or
    33 tail calls were made, the caller goes on. -/
theorem C95_jump (eager : Bool) (fresh : (Nat → Option Obj) → Option Nat) (hF : Fresh fresh) (before : List (Op × Option Nat)) (f : Option Nat)
    (n k t : Nat) (index : BitVec 32) (rest : List Instr) (x : Work) (P : Program)
    (hx : (wrun eager fresh {} before).1.k.m.works[n]? = some x) (hr : x.rest = .jump k index :: rest)
    (hP : (wrun eager fresh {} before).1.k.m.progs[x.prog]? = some P) (ht : P.uses[k]? = some t) :
    (∀ q, (wrun eager fresh {} before).1.k.m.entry t index = some q → x.jumps < 33 →
      ∃ Q, (wrun eager fresh {} before).1.k.m.progs[q]? = some Q ∧
        (wstep eager fresh (wrun eager fresh {} before).1 (.advance n) f).1.k.m.works[n]? =
          some { x with prog := q, rest := Q.body x.ctx, jumps := x.jumps + 1 }) ∧
    ((wrun eager fresh {} before).1.k.m.entry t index = none ∨ 33 ≤ x.jumps →
      ∃ j, (wstep eager fresh (wrun eager fresh {} before).1 (.advance n) f).1.k.m.works[n]? = some { x with rest := rest, jumps := j }) := by
  have hk := (reach_inv eager hF before).1
  obtain ⟨a, r⟩ := reach eager hF before
  generalize (wrun eager fresh {} before).1 = w at *
  have hlen : n < w.k.m.works.length := (List.getElem?_eq_some_iff.mp hx).1
  have full : Full w.k.m := by rw [r.m]; exact r.full
  have key : ∀ y, promiseAdvance eager w.k.m x = some y → (wstep eager fresh w (.advance n) f).1.k.m.works[n]? = some y := by
    intro y hy
    simp only [wstep, hx, Option.bind_some, advance_eq eager full, hy]
    exact List.getElem?_set_self hlen
  constructor
  · intro q hq hj
    refine ⟨_, List.getElem?_eq_getElem (hk t q index hq), key _ ?_⟩
    unfold promiseAdvance
    simp only [hr, hP, Option.bind_some, ht, hq, hj, if_true, List.getElem?_eq_getElem (hk t q index hq), Option.map_some]
  · intro h
    unfold promiseAdvance at key
    simp only [hr, hP, Option.bind_some, ht] at key
    rcases he : w.k.m.entry t index with _ | q
    · simp only [he] at key
      exact ⟨_, key _ rfl⟩
    · have hj : ¬ x.jumps < 33 := by
        rcases h with h | h
        · rw [he] at h; cases h
        · omega
      simp only [he, hj, if_false] at key
      exact ⟨x.jumps, key _ rfl⟩

/-- Tail calls cannot go on for ever: however tables change meanwhile, a program at work has made at most 33 of them, and it does no more
    than 34 programs of the greatest length can do. -/
theorem C95_ends (eager : Bool) (fresh : (Nat → Option Obj) → Option Nat) (hF : Fresh fresh) (ops : List (Op × Option Nat))
    (x : Work) (hx : x ∈ (wrun eager fresh {} ops).1.k.m.works) :
    x.jumps ≤ 33 ∧ ∀ B : Nat, (∀ P ∈ (wrun eager fresh {} ops).1.k.m.progs, (P.body x.ctx).length ≤ B) →
      x.seen.length + x.rest.length ≤ 34 * B := by
  obtain ⟨h1, h2⟩ := (reach_inv eager hF ops).2 x hx
  exact ⟨h1, fun B h => Nat.le_trans (h2 B h) (Nat.mul_le_mul_right B (by omega))⟩

/-- `indices` gives the numbers of all entries, in order, each once. -/
theorem C95_indices (eager : Bool) (fresh : (Nat → Option Obj) → Option Nat) (hF : Fresh fresh) (before : List (Op × Option Nat))
    (h t n : Nat) (T : Table) (hs : (wrun eager fresh {} before).1.stands h = some (.table t))
    (hT : (wrun eager fresh {} before).1.k.m.tables[t]? = some T) (hn : T.max ≤ n) :
    (wstep eager fresh (wrun eager fresh {} before).1 (.indices h n) none).2 =
      .list ((List.range T.max).map fun i => .ok (BitVec.ofNat 32 i)) := by
  obtain ⟨a, r⟩ := reach eager hF before
  generalize (wrun eager fresh {} before).1 = w at *
  obtain ⟨h1, h2⟩ := step_rel eager hF r (.indices h n) none
  rw [h2]
  have ht := (tableOf_names a h t).mpr ((r.stands_table h t).mp hs)
  rw [r.m] at hT
  simp only [step, ht, hT, Nat.min_eq_right hn]

/-! ## Instances and counterexamples -/

/-- The lowest free descriptor from 3. -/
def lowest (fds : Nat → Option Obj) : Option Nat := (List.range 30).findSome? fun i => if (fds (i + 3)).isNone then some (i + 3) else none

theorem lowest_fresh : Fresh lowest := by
  intro fds n h
  unfold lowest at h
  obtain ⟨i, hi, h⟩ := List.exists_of_findSome?_eq_some h
  have hi' := List.mem_range.mp hi
  split at h
  · rename_i hn
    cases h
    exact ⟨by simpa using hn, by omega⟩
  · cases h

/-- A program that tail calls entry 1 and, if that fails, says 7; another one that says 8 and calls itself. -/
def demo : List (Op × Option Nat) :=
  [(.create 2#32, none), (.load 1 [0] fun _ => [.jump 0 1#32, .emit 7], none), (.load 1 [0] fun _ => [.emit 8, .jump 0 1#32, .emit 9], none),
   (.load 2 [] fun _ => [.emit 5], none), (.set 0 2#32 2 0, none), (.set 0 1#32 3 0, none), (.set 0 1#32 2 0, some 1), (.set 0 1#32 2 0, none),
   (.drop 2, none), (.attach 1, none), (.fire 0 44, none)]

/-- Many steps of the first program at work. -/
def steps (n : Nat) : List (Op × Option Nat) := List.replicate n (.advance 0, none)

example : (wrun false lowest {} demo).2 =
    [.done, .done, .done, .done, .failed (.outOfBounds 2 2), .failed (.syscall "bpf_map_update_elem" 22), .failed (.syscall "bpf_map_update_elem" 1), .done,
     .done, .done, .done] := by decide +kernel

example : (wrun false lowest {} (demo ++ steps 3)).1.k.m.works.map (fun x => (x.prog, x.jumps, x.seen)) = [(1, 2, [(1, 44, 8)])] := by decide +kernel

/-- It ends after 33 tail calls. -/
example : (wrun false lowest {} (demo ++ steps 100)).1.k.m.works.map (fun x => (x.prog, x.jumps, x.rest)) = [(1, 33, [])] ∧
    (wrun false lowest {} (demo ++ steps 100)).1.k.m.works.map Work.seen = [List.replicate 33 (1, 44, 8) ++ [(1, 44, 9)]] := by decide +kernel

example : (wrun false lowest {} (demo.take 8)).1.k.m.entry 0 1#32 = some 1 ∧ (wrun false lowest {} (demo.take 9)).1.stands 0 = some (.table 0) := by
  decide +kernel

/-- The assumptions of the theorem about entries can be met: the program is dropped. -/
example : Undisturbed false lowest 0 1#32 (wrun false lowest {} (demo.take 8)).1 [(.drop 2, none), (.attach 1, none)] :=
  ⟨fun h e => (by rcases e with ⟨p, flags, e⟩ | e <;> cases e), Or.inl ⟨0, by decide +kernel⟩,
    fun h e => (by rcases e with ⟨p, flags, e⟩ | e <;> cases e), Or.inl ⟨0, by decide +kernel⟩, trivial⟩

/-- `indices` is documented to give the indices that point to a program. It gives those that do not as well. -/
theorem C95_indices_violated :
    ∃ (before : List (Op × Option Nat)) (i : BitVec 32) (l : List (Except Error (BitVec 32))),
      (wstep false lowest (wrun false lowest {} before).1 (.indices 0 10) none).2 = .list l ∧ .ok i ∈ l ∧
      (wrun false lowest {} before).1.stands 0 = some (.table 0) ∧ (wrun false lowest {} before).1.k.m.entry 0 i = none :=
  ⟨demo, 0#32, [.ok 0#32, .ok 1#32], by decide +kernel, .head _, by decide +kernel, by decide +kernel⟩

/-- A program put into a table does not stay there when the table is no longer held in user space, although an attached program still uses
    it: the same attached program, which went to the program in the table before, goes on itself. -/
theorem C95_stays_violated :
    ∃ before : List (Op × Option Nat),
      (wrun false lowest {} before).1.k.m.entry 0 1#32 = some 1 ∧
      (wrun false lowest {} (before ++ [(.fire 0 44, none), (.advance 0, none), (.advance 0, none)])).1.k.m.works.map Work.seen = [[(1, 44, 8)]] ∧
      (wrun false lowest {} (before ++ [(.drop 0, none)])).1.k.m.entry 0 1#32 = none ∧
      (wrun false lowest {} (before ++ [(.drop 0, none), (.fire 0 44, none), (.advance 0, none), (.advance 0, none)])).1.k.m.works.map Work.seen =
        [[(0, 44, 7)]] :=
  ⟨demo.take 10, by decide +kernel⟩

/-- With a pin it stays. -/
example : (wrun false lowest {} (demo.take 10 ++ [(.pin 0, none), (.drop 0, none), (.fire 0 44, none), (.advance 0, none), (.advance 0, none)])).1.k.m.works.map
    Work.seen = [[(1, 44, 8)]] := by decide +kernel

end Verif.Jump
