import Verif.Pins.Run

/-!
# Pinning: the invariant
-/
set_option linter.unusedSimpArgs false
set_option linter.unusedVariables false
namespace Verif.Pins
open Spec

def RH.fd : RH → Option Nat
  | .prog p => p.fd
  | .map fd => some fd
  | .link fd => some fd
  | .pinned l => some l.1

/-- The descriptor of a handle. -/
def fdAt (hs : List (Option RH)) (h : Nat) : Option Nat := hs[h]?.join.bind RH.fd

def Points (fds : List (Nat × Nat)) : Option Nat → Option Nat → Prop
  | none, none => True
  | some fd, some o => fds.lookup fd = some o
  | _, _ => False

def Match (fds : List (Nat × Nat)) : Option RH → Option Stands → Prop
  | none, none => True
  | some (.prog p), some (.prog o mark lost) => Points fds p.fd o ∧ (lost = false → p.path = mark)
  | some (.map fd), some (.map o) => fds.lookup fd = some o
  | some (.link fd), some (.link o) => fds.lookup fd = some o
  | some (.pinned l), some (.pinned o p) => fds.lookup l.1 = some o ∧ l.2 = p
  | _, _ => False

structure Rel (r : R) (a : A) : Prop where
  objs : r.k.objs = a.objs
  files : r.k.files = a.files
  len : r.hs.length = a.handles.length
  hand : ∀ h : Nat, Match r.k.fds (r.hs[h]?.join) (a.handles[h]?.join)
  inj : ∀ h h' fd : Nat, fdAt r.hs h = some fd → fdAt r.hs h' = some fd → h = h'
  all : ∀ e ∈ r.k.fds, ∃ h, fdAt r.hs h = some e.1
  nodup : (r.k.fds.map Prod.fst).Nodup

theorem Match.mono {fds fds' : List (Nat × Nat)} {x : Option RH} {y : Option Stands} (m : Match fds x y)
    (same : ∀ fd, x.bind RH.fd = some fd → fds'.lookup fd = fds.lookup fd) : Match fds' x y := by
  rcases x with _ | (p | fd | fd | l) <;> rcases y with _ | (⟨o, mark, lost⟩ | o | o | ⟨o, p'⟩) <;>
    simp only [Match] at m ⊢
  · refine ⟨?_, m.2⟩
    have m1 := m.1
    rcases p with ⟨_ | fd, path⟩ <;> rcases o with _ | o <;> simp only [Points] at m1 ⊢
    rw [same fd rfl]; exact m1
  · rw [same fd rfl]; exact m
  · rw [same fd rfl]; exact m
  · exact ⟨by rw [same l.1 rfl]; exact m.1, m.2⟩

/-- A handle's descriptor is open, on the object the handle stands for. -/
theorem Match.fd {fds : List (Nat × Nat)} {x : Option RH} {y : Option Stands} (m : Match fds x y) {fd : Nat}
    (e : x.bind RH.fd = some fd) : ∃ o, y.bind Stands.obj = some o ∧ fds.lookup fd = some o := by
  rcases x with _ | (p | fd' | fd' | l) <;> rcases y with _ | (⟨o, mark, lost⟩ | o | o | ⟨o, p'⟩) <;>
    simp only [Match] at m
  · cases e
  · have m1 := m.1
    rcases p with ⟨_ | fd', path⟩ <;> rcases o with _ | o <;> simp only [Points] at m1
    · cases e
    · cases e; exact ⟨o, rfl, m1⟩
  · cases e; exact ⟨o, rfl, m⟩
  · cases e; exact ⟨o, rfl, m⟩
  · cases e; exact ⟨o, rfl, m.1⟩

theorem Match.obj {fds : List (Nat × Nat)} {x : Option RH} {y : Option Stands} (m : Match fds x y) {o : Nat}
    (e : y.bind Stands.obj = some o) : ∃ fd, x.bind RH.fd = some fd ∧ fds.lookup fd = some o := by
  rcases x with _ | (p | fd' | fd' | l) <;> rcases y with _ | (⟨o', mark, lost⟩ | o' | o' | ⟨o', p'⟩) <;>
    simp only [Match] at m
  · cases e
  · have m1 := m.1
    rcases p with ⟨_ | fd', path⟩ <;> rcases o' with _ | o' <;> simp only [Points] at m1
    · cases e
    · cases e; exact ⟨fd', rfl, m1⟩
  · cases e; exact ⟨_, rfl, m⟩
  · cases e; exact ⟨_, rfl, m⟩
  · cases e; exact ⟨_, rfl, m.1⟩

/-! ## Lists -/

theorem lookup_mem {α β : Type} [DecidableEq α] [BEq α] [LawfulBEq α] {l : List (α × β)} {a : α} {b : β}
    (h : l.lookup a = some b) : (a, b) ∈ l := by
  induction l with
  | nil => cases h
  | cons e l ih =>
      obtain ⟨a', b'⟩ := e
      rw [List.lookup_cons] at h
      by_cases c : a == a'
      · rw [c] at h; cases h; rw [eq_of_beq c]; exact List.mem_cons_self
      · have c' : (a == a') = false := by simpa using c
        rw [c'] at h; exact List.mem_cons_of_mem _ (ih h)

theorem mem_lookup {α β : Type} [DecidableEq α] [BEq α] [LawfulBEq α] {l : List (α × β)} {a : α} {b : β}
    (nd : (l.map Prod.fst).Nodup) (h : (a, b) ∈ l) : l.lookup a = some b := by
  induction l with
  | nil => cases h
  | cons e l ih =>
      obtain ⟨a', b'⟩ := e
      rw [List.map_cons, List.nodup_cons] at nd
      rw [List.lookup_cons]
      rcases List.mem_cons.mp h with h | h
      · cases h; simp
      · by_cases c : a == a'
        · exact absurd (List.mem_map.mpr ⟨_, h, eq_of_beq c⟩) nd.1
        · have c' : (a == a') = false := by simpa using c
          rw [c']; exact ih nd.2 h

theorem lookup_filter_ne {β : Type} (l : List (Nat × β)) {a b : Nat} (h : a ≠ b) :
    (l.filter fun e => e.1 ≠ b).lookup a = l.lookup a := by
  induction l with
  | nil => rfl
  | cons e l ih =>
      obtain ⟨a', b'⟩ := e
      by_cases c : a' = b
      · rw [List.filter_cons, if_neg (by simpa using c), ih, List.lookup_cons]
        have : (a == a') = false := by simpa using fun e => h (e.trans c)
        rw [this]
      · rw [List.filter_cons, if_pos (by simpa using c), List.lookup_cons, List.lookup_cons, ih]

theorem join_append {α : Type} (l : List (Option α)) (x : Option α) (h : Nat) :
    (l ++ [x])[h]?.join = if h = l.length then x else l[h]?.join := by
  by_cases c : h = l.length
  · subst c; simp
  · rw [if_neg c]
    by_cases c' : h < l.length
    · rw [List.getElem?_append_left c']
    · rw [List.getElem?_eq_none (by simp; omega), List.getElem?_eq_none (by omega)]

theorem join_set {α : Type} (l : List (Option α)) (x : Option α) (h i : Nat) :
    (l.set h x)[i]?.join = if i = h ∧ h < l.length then x else l[i]?.join := by
  rw [List.getElem?_set]
  by_cases c : h = i
  · subst c
    by_cases c' : h < l.length
    · simp [c']
    · simp [c']
  · rw [if_neg c, if_neg (fun e => c e.1.symm)]

theorem join_lt {α : Type} {l : List (Option α)} {h : Nat} {x : α} (e : l[h]?.join = some x) : h < l.length := by
  apply Classical.byContradiction
  intro c
  rw [List.getElem?_eq_none (by omega)] at e
  cases e

/-! ## Changes of state -/

variable {fresh : List Nat → Nat}

/-- A new descriptor and a new handle for it. -/
theorem Rel.give {r : R} {a : A} (rel : Rel r a) {fd : Nat} (nw : fd ∉ r.k.fds.map Prod.fst) (O : List Kind) (F : List (Path × Nat))
    (o : Nat) (x : RH) (y : Stands) (hx : x.fd = some fd)
    (m : Match ((fd, o) :: r.k.fds) (some x) (some y)) :
    Rel ⟨⟨O, F, (fd, o) :: r.k.fds⟩, r.hs ++ [some x]⟩ ⟨O, F, a.handles ++ [some y]⟩ := by
  have new : ∀ h, fdAt r.hs h ≠ some fd := by
    intro h e
    obtain ⟨o', _, l⟩ := (rel.hand h).fd e
    exact nw (List.mem_map.mpr ⟨_, lookup_mem l, rfl⟩)
  have at_ : ∀ h, fdAt (r.hs ++ [some x]) h =
      if h = r.hs.length then some fd else fdAt r.hs h := by
    intro h
    unfold fdAt
    rw [join_append]
    by_cases c : h = r.hs.length
    · rw [if_pos c, if_pos c]; exact hx
    · rw [if_neg c, if_neg c]
  refine ⟨rfl, rfl, by simp [rel.len], ?_, ?_, ?_, ?_⟩
  · intro h
    simp only [join_append]
    rw [← rel.len]
    by_cases c : h = r.hs.length
    · rw [if_pos c, if_pos c]; exact m
    · rw [if_neg c, if_neg c]
      refine (rel.hand h).mono ?_
      intro fd' e
      rw [List.lookup_cons]
      have : fd' ≠ fd := fun e' => new h (e' ▸ e)
      have : (fd' == fd) = false := by simpa using this
      rw [this]
  · intro h h' fd' e e'
    simp only [at_] at e e'
    by_cases c : h = r.hs.length <;> by_cases c' : h' = r.hs.length
    · omega
    · rw [if_pos c] at e; rw [if_neg c'] at e'; exact absurd (e'.trans e.symm) (new h')
    · rw [if_neg c] at e; rw [if_pos c'] at e'; exact absurd (e.trans e'.symm) (new h)
    · rw [if_neg c] at e; rw [if_neg c'] at e'; exact rel.inj h h' fd' e e'
  · intro e he
    simp only [at_]
    rcases List.mem_cons.mp he with he | he
    · exact ⟨r.hs.length, by rw [if_pos rfl, he]⟩
    · obtain ⟨h, hh⟩ := rel.all e he
      refine ⟨h, ?_⟩
      have : h ≠ r.hs.length := by
        intro c
        unfold fdAt at hh
        rw [List.getElem?_eq_none (by omega)] at hh
        cases hh
      rw [if_neg this]; exact hh
  · simp only [List.map_cons, List.nodup_cons]
    exact ⟨nw, rel.nodup⟩

/-- A handle is changed, but not its descriptor; files change in the same way. -/
theorem Rel.change {r : R} {a : A} (rel : Rel r a) (O : List Kind) (F : List (Path × Nat)) {h : Nat}
    (x : Option RH) (y : Option Stands)
    (hx : x.bind RH.fd = fdAt r.hs h) (m : Match r.k.fds x y) :
    Rel ⟨⟨O, F, r.k.fds⟩, r.hs.set h x⟩ ⟨O, F, a.handles.set h y⟩ := by
  have at_ : ∀ i, fdAt (r.hs.set h x) i = fdAt r.hs i := by
    intro i
    show ((r.hs.set h x)[i]?.join).bind RH.fd = _
    rw [join_set]
    by_cases c : i = h ∧ h < r.hs.length
    · rw [if_pos c, hx, c.1]
    · rw [if_neg c]; rfl
  refine ⟨rfl, rfl, by simp [rel.len], ?_, ?_, ?_, rel.nodup⟩
  · intro i
    simp only [join_set]
    rw [← rel.len]
    by_cases c : i = h ∧ h < r.hs.length
    · rw [if_pos c, if_pos c]; exact m
    · rw [if_neg c, if_neg c]; exact rel.hand i
  · intro i j fd e e'
    simp only [at_] at e e'
    exact rel.inj i j fd e e'
  · intro e he
    simp only [at_]
    exact rel.all e he

/-- A handle loses its descriptor, which is closed. -/
theorem Rel.close {r : R} {a : A} (rel : Rel r a) (O : List Kind) (F : List (Path × Nat)) {h fd : Nat}
    (hfd : fdAt r.hs h = some fd) (x : Option RH) (y : Option Stands) (hx : x.bind RH.fd = none)
    (m : Match (r.k.fds.filter fun e => e.1 ≠ fd) x y) :
    Rel ⟨⟨O, F, r.k.fds.filter fun e => e.1 ≠ fd⟩, r.hs.set h x⟩ ⟨O, F, a.handles.set h y⟩ := by
  have lt : h < r.hs.length := by
    apply Classical.byContradiction
    intro c
    unfold fdAt at hfd
    rw [List.getElem?_eq_none (by omega)] at hfd
    cases hfd
  have at_ : ∀ i, fdAt (r.hs.set h x) i = if i = h then none else fdAt r.hs i := by
    intro i
    show ((r.hs.set h x)[i]?.join).bind RH.fd = _
    rw [join_set]
    by_cases c : i = h
    · rw [if_pos ⟨c, lt⟩, if_pos c, hx]
    · rw [if_neg (fun e => c e.1), if_neg c]; rfl
  refine ⟨rfl, rfl, by simp [rel.len], ?_, ?_, ?_, ?_⟩
  · intro i
    simp only [join_set]
    rw [← rel.len]
    by_cases c : i = h
    · rw [if_pos ⟨c, lt⟩, if_pos ⟨c, lt⟩]; exact m
    · rw [if_neg (fun e => c e.1), if_neg (fun e => c e.1)]
      refine (rel.hand i).mono ?_
      intro fd' e
      exact lookup_filter_ne _ (fun q => c (rel.inj i h fd (q ▸ e) hfd))
  · intro i j fd' e e'
    simp only [at_] at e e'
    by_cases c : i = h
    · rw [if_pos c] at e; cases e
    · by_cases c' : j = h
      · rw [if_pos c'] at e'; cases e'
      · rw [if_neg c] at e; rw [if_neg c'] at e'; exact rel.inj i j fd' e e'
  · intro e he
    obtain ⟨he, hne⟩ := List.mem_filter.mp he
    obtain ⟨i, hi⟩ := rel.all e he
    refine ⟨i, ?_⟩
    simp only [at_]
    rw [if_neg ?_]; exact hi
    intro c
    rw [c, hfd] at hi
    exact absurd (Option.some.inj hi).symm (by simpa using hne)
  · exact (List.Sublist.map _ List.filter_sublist).nodup rel.nodup

/-- Only objects and files change. -/
theorem Rel.outside {r : R} {a : A} (rel : Rel r a) (O : List Kind) (F : List (Path × Nat)) :
    Rel ⟨⟨O, F, r.k.fds⟩, r.hs⟩ ⟨O, F, a.handles⟩ :=
  ⟨rfl, rfl, rel.len, rel.hand, rel.inj, rel.all, rel.nodup⟩

/-! ## What is alive -/

theorem Rel.held {r : R} {a : A} (rel : Rel r a) (o : Nat) : direct r.k o = a.held o := by
  unfold direct A.held
  rw [rel.files]
  congr 1
  rw [Bool.eq_iff_iff]
  constructor
  · intro h
    rw [List.contains_iff_mem, List.mem_map] at h
    obtain ⟨⟨fd, o'⟩, he, rfl⟩ := h
    obtain ⟨i, hi⟩ := rel.all _ he
    obtain ⟨o'', ho, hl⟩ := (rel.hand i).fd hi
    rw [mem_lookup rel.nodup he] at hl
    cases hl
    rw [List.any_eq_true]
    cases e : a.handles[i]? with
    | none => rw [e] at ho; cases ho
    | some y => exact ⟨y, List.mem_of_getElem? e, by rw [e] at ho; simpa using ho⟩
  · intro h
    rw [List.any_eq_true] at h
    obtain ⟨y, hy, hyo⟩ := h
    obtain ⟨i, hi⟩ := List.mem_iff_getElem?.mp hy
    have ho : (a.handles[i]?.join).bind Stands.obj = some o := by rw [hi]; simpa using hyo
    obtain ⟨fd, _, l⟩ := (rel.hand i).obj ho
    rw [List.contains_iff_mem, List.mem_map]
    exact ⟨_, lookup_mem l, rfl⟩

theorem Rel.live {r : R} {a : A} (rel : Rel r a) (o : Nat) : Spec.live r.k o = a.live o := by
  unfold Spec.live A.live
  rw [rel.held, rel.objs]
  congr 1
  congr 1
  funext l
  rw [rel.held]

end Verif.Pins
