import Verif.Pins.Rel

/-!
# Pinning: every step keeps the invariant
-/
set_option linter.unusedSimpArgs false
set_option linter.unusedVariables false
namespace Verif.Pins
open Spec

variable {fresh : List Nat → Nat}

theorem cstring_none {p : Path} (h : 0 ∈ p) : cstring p = none := by
  unfold cstring; rw [if_pos (by simpa using h)]

theorem cstring_some {p : Path} (h : 0 ∉ p) : cstring p = some p := by
  unfold cstring; rw [if_neg (by simpa using h)]

theorem pin_spec {r : R} {a : A} (rel : Rel r a) (f : Faults) {fd o : Nat} (l : r.k.fds.lookup fd = some o)
    (p : Path) :
    (∃ e, mapPin (sys fresh f) fd p r.k = (.error e, r.k) ∧ a.pin f o p = .error e) ∨
    (mapPin (sys fresh f) fd p r.k = (.ok (), ⟨a.objs, (p, o) :: a.files, r.k.fds⟩) ∧
      a.pin f o p = .ok ⟨a.objs, (p, o) :: a.files, a.handles⟩) := by
  unfold mapPin A.pin
  by_cases z : 0 ∈ p
  · left
    rw [cstring_none z, if_pos z]
    exact ⟨_, rfl, rfl⟩
  · rw [cstring_some z, if_neg z]
    simp only [sys]
    rw [rel.files]
    cases f .pin with
    | some e => left; exact ⟨_, rfl, rfl⟩
    | none =>
        cases a.files.lookup p with
        | some _ => left; exact ⟨_, rfl, rfl⟩
        | none =>
            right
            simp only [l]
            rw [rel.objs]
            exact ⟨rfl, trivial⟩

theorem unpin_spec {r : R} {a : A} (rel : Rel r a) (f : Faults) (p : Path) :
    (∃ e, removeFile (sys fresh f) p r.k = (.error e, r.k) ∧ a.unpin f p = .error e) ∨
    (removeFile (sys fresh f) p r.k = (.ok (), ⟨a.objs, a.files.filter fun e => e.1 ≠ p, r.k.fds⟩) ∧
      a.unpin f p = .ok ⟨a.objs, a.files.filter fun e => e.1 ≠ p, a.handles⟩) := by
  unfold removeFile A.unpin
  by_cases z : 0 ∈ p
  · left
    rw [cstring_none z, if_pos z]
    exact ⟨_, rfl, rfl⟩
  · rw [cstring_some z, if_neg z]
    simp only [sys]
    rw [rel.files]
    cases f .unlink with
    | some e => left; exact ⟨_, rfl, rfl⟩
    | none =>
        cases a.files.lookup p with
        | none => left; exact ⟨_, rfl, rfl⟩
        | some _ =>
            right
            simp only
            rw [rel.objs]
            exact ⟨rfl, trivial⟩

theorem open_spec {r : R} {a : A} (rel : Rel r a) (f : Faults) (right : Kind → Bool) {p : Path} (z : 0 ∉ p)
    (fits : a.Fits right p) :
    (∃ e, (sys fresh f).get p r.k = (.error e, r.k) ∧ a.open f right p = .error (.sys e)) ∨
    (∃ o, (sys fresh f).get p r.k = (.ok (fresh (r.k.fds.map Prod.fst)),
        ⟨a.objs, a.files, (fresh (r.k.fds.map Prod.fst), o) :: r.k.fds⟩) ∧ a.open f right p = .ok o) := by
  unfold A.open
  rw [if_neg z]
  simp only [sys]
  rw [rel.files]
  cases e : a.files.lookup p with
  | none =>
      left
      cases f .get with
      | none => exact ⟨_, rfl, rfl⟩
      | some e => exact ⟨_, rfl, rfl⟩
  | some o =>
      cases f .get with
      | some e => left; exact ⟨_, rfl, rfl⟩
      | none =>
          right
          obtain ⟨k, hk, rk⟩ := fits o e
          refine ⟨o, ?_, ?_⟩
          · simp only [opening, openFd]
            rw [rel.objs, rel.files]
          · simp only [hk]
            rw [if_pos rk]

/-- A new object, its descriptor and handle. -/
theorem new_spec {r : R} {a : A} (ok : ∀ l, fresh l ∉ l) (rel : Rel r a) (fault : Option Nat) (kind : Kind)
    (x : Nat → RH) (y : Nat → Stands) (c : Except Error Nat × K)
    (hc : c = match opening fresh fault r.k.objs.length r.k { r.k with objs := r.k.objs ++ [kind] } with
      | (.ok fd, s) => (.ok fd, s)
      | (.error e, s) => (.error (.sys e), s))
    (hx : ∀ fd, (x fd).fd = some fd)
    (m : ∀ fd o fds, Match ((fd, o) :: fds) (some (x fd)) (some (y o))) :
    Rel (r.give x c).1 (a.fresh fault kind y).1 ∧ (r.give x c).2 = (a.fresh fault kind y).2 := by
  subst hc
  unfold A.fresh
  cases fault with
  | some e => exact ⟨by simpa [opening, R.give] using rel, rfl⟩
  | none =>
      simp only [opening, openFd, R.give, A.add]
      rw [rel.objs, rel.files]
      exact ⟨rel.give (ok _) _ _ _ _ _ (hx _) (m _ _ _), trivial⟩

theorem Rel.same {r : R} {a : A} (rel : Rel r a) {h : Nat} {x : RH} {y : Stands} (e : r.hs[h]?.join = some x)
    (e' : a.handles[h]?.join = some y) : Match r.k.fds (some x) (some y) := by
  have := rel.hand h
  rw [e, e'] at this
  exact this

theorem lookup_self (fd o : Nat) (fds : List (Nat × Nat)) : ((fd, o) :: fds).lookup fd = some o := by
  rw [List.lookup_cons]; simp

theorem fdAt_of {hs : List (Option RH)} {h : Nat} {x : RH} (e : hs[h]?.join = some x) : fdAt hs h = x.fd := by
  unfold fdAt; rw [e]; rfl

theorem r_eta {r : R} {a : A} (rel : Rel r a) : r.k = ⟨a.objs, a.files, r.k.fds⟩ := by
  rw [← rel.objs, ← rel.files]

/-- A handle of the one side is a handle of the other. -/
theorem Rel.prog {r : R} {a : A} (rel : Rel r a) (h : Nat) :
    (∃ p o mark lost, r.hs[h]?.join = some (.prog p) ∧ a.handles[h]?.join = some (.prog o mark lost) ∧
      Points r.k.fds p.fd o ∧ (lost = false → p.path = mark)) ∨
    ((∀ p, r.hs[h]?.join ≠ some (.prog p)) ∧ ∀ o mark lost, a.handles[h]?.join ≠ some (.prog o mark lost)) := by
  have m := rel.hand h
  revert m
  cases r.hs[h]?.join with
  | none => cases a.handles[h]?.join with
    | none => intro _; right; exact ⟨fun _ => by simp, fun _ _ _ => by simp⟩
    | some y => intro m; simp [Match] at m
  | some x => cases a.handles[h]?.join with
    | none => intro m; cases x <;> simp [Match] at m
    | some y =>
        intro m
        cases x <;> cases y <;> simp only [Match] at m
        · left; exact ⟨_, _, _, _, rfl, rfl, m.1, m.2⟩
        all_goals (right; exact ⟨fun _ => by simp, fun _ _ _ => by simp⟩)

theorem Rel.map {r : R} {a : A} (rel : Rel r a) (h : Nat) :
    (∃ fd o, r.hs[h]?.join = some (.map fd) ∧ a.handles[h]?.join = some (.map o) ∧ r.k.fds.lookup fd = some o) ∨
    ((∀ p, r.hs[h]?.join ≠ some (.map p)) ∧ ∀ o, a.handles[h]?.join ≠ some (.map o)) := by
  have m := rel.hand h
  revert m
  cases r.hs[h]?.join with
  | none => cases a.handles[h]?.join with
    | none => intro _; right; exact ⟨fun _ => by simp, fun _ => by simp⟩
    | some y => intro m; simp [Match] at m
  | some x => cases a.handles[h]?.join with
    | none => intro m; cases x <;> simp [Match] at m
    | some y =>
        intro m
        cases x <;> cases y <;> simp only [Match] at m
        · right; exact ⟨fun _ => by simp, fun _ => by simp⟩
        · left; exact ⟨_, _, rfl, rfl, m⟩
        all_goals (right; exact ⟨fun _ => by simp, fun _ => by simp⟩)

theorem Rel.link {r : R} {a : A} (rel : Rel r a) (h : Nat) :
    (∃ fd o, r.hs[h]?.join = some (.link fd) ∧ a.handles[h]?.join = some (.link o) ∧ r.k.fds.lookup fd = some o) ∨
    ((∀ p, r.hs[h]?.join ≠ some (.link p)) ∧ ∀ o, a.handles[h]?.join ≠ some (.link o)) := by
  have m := rel.hand h
  revert m
  cases r.hs[h]?.join with
  | none => cases a.handles[h]?.join with
    | none => intro _; right; exact ⟨fun _ => by simp, fun _ => by simp⟩
    | some y => intro m; simp [Match] at m
  | some x => cases a.handles[h]?.join with
    | none => intro m; cases x <;> simp [Match] at m
    | some y =>
        intro m
        cases x <;> cases y <;> simp only [Match] at m
        · right; exact ⟨fun _ => by simp, fun _ => by simp⟩
        · right; exact ⟨fun _ => by simp, fun _ => by simp⟩
        · left; exact ⟨_, _, rfl, rfl, m⟩
        · right; exact ⟨fun _ => by simp, fun _ => by simp⟩

theorem Rel.pinned {r : R} {a : A} (rel : Rel r a) (h : Nat) :
    (∃ fd o p, r.hs[h]?.join = some (.pinned (fd, p)) ∧ a.handles[h]?.join = some (.pinned o p) ∧
      r.k.fds.lookup fd = some o) ∨
    ((∀ p, r.hs[h]?.join ≠ some (.pinned p)) ∧ ∀ o p, a.handles[h]?.join ≠ some (.pinned o p)) := by
  have m := rel.hand h
  revert m
  cases r.hs[h]?.join with
  | none => cases a.handles[h]?.join with
    | none => intro _; right; exact ⟨fun _ => by simp, fun _ _ => by simp⟩
    | some y => intro m; simp [Match] at m
  | some x => cases a.handles[h]?.join with
    | none => intro m; cases x <;> simp [Match] at m
    | some y =>
        intro m
        cases x <;> cases y <;> simp only [Match] at m
        · right; exact ⟨fun _ => by simp, fun _ _ => by simp⟩
        · right; exact ⟨fun _ => by simp, fun _ _ => by simp⟩
        · right; exact ⟨fun _ => by simp, fun _ _ => by simp⟩
        · rename_i l o p
          obtain ⟨m1, m2⟩ := m
          subst m2
          left; exact ⟨l.1, _, _, rfl, rfl, m1⟩

/-- The claim for one operation. -/
abbrev Keeps (fresh : List Nat → Nat) (r : R) (a : A) (op : Op) (f : Faults) : Prop :=
  Rel (r.step fresh op f).1 (Spec.step a op f).1 ∧ (r.step fresh op f).2 = (Spec.step a op f).2

theorem keeps_load {r : R} {a : A} (ok : ∀ l, fresh l ∉ l) (rel : Rel r a) (f : Faults) (ty : Nat) :
    Keeps fresh r a (.load ty) f := by
  have key := new_spec ok rel (f .load) (.prog ty) (fun fd => .prog ⟨some fd, none⟩)
    (fun o => .prog (some o) none false) _ rfl (fun _ => rfl)
    (fun fd o fds => ⟨lookup_self fd o fds, fun _ => rfl⟩)
  unfold Keeps
  simp only [R.step, Spec.step, progLoad, sys]
  cases e : f .load with
  | some n => simpa [opening, R.give, e] using key
  | none => simpa [opening, R.give, e] using key

theorem keeps_create {r : R} {a : A} (ok : ∀ l, fresh l ∉ l) (rel : Rel r a) (f : Faults) :
    Keeps fresh r a .create f := by
  have key := new_spec ok rel (f .create) .map .map .map _ rfl (fun _ => rfl)
    (fun fd o fds => lookup_self fd o fds)
  unfold Keeps
  simp only [R.step, Spec.step, mapCreate, sys]
  cases e : f .create with
  | some n => simpa [opening, R.give, e] using key
  | none => simpa [opening, R.give, e] using key

theorem keeps_attach {r : R} {a : A} (ok : ∀ l, fresh l ∉ l) (rel : Rel r a) (f : Faults) (h : Nat) :
    Keeps fresh r a (.attach h) f := by
  unfold Keeps
  simp only [R.step, Spec.step]
  rcases rel.prog h with ⟨p, o, mark, lost, e, e', m, _⟩ | ⟨n, n'⟩
  · rw [e, e']
    obtain ⟨fd, path⟩ := p
    cases fd with
    | none =>
        cases o with
        | some _ => simp [Points] at m
        | none => exact ⟨rel, rfl⟩
    | some fd =>
        cases o with
        | none => simp [Points] at m
        | some o =>
            have key := new_spec ok rel (f .attach) (.link o) .link .link _ rfl (fun _ => rfl)
              (fun fd o fds => lookup_self fd o fds)
            simp only [Points] at m
            simp only [progAttach, sys, m]
            cases e : f .attach with
            | some n => simpa [opening, R.give, e] using key
            | none => simpa [opening, R.give, e] using key
  · split
    · exact absurd (by assumption) (n _)
    · split
      · exact absurd (by assumption) (n' _ _ _)
      · exact absurd (by assumption) (n' _ _ _)
      · exact ⟨rel, rfl⟩

theorem keeps_progPin {r : R} {a : A} (rel : Rel r a) (f : Faults) (h : Nat) (p : Path) :
    Keeps fresh r a (.progPin h p) f := by
  unfold Keeps
  simp only [R.step, Spec.step]
  rcases rel.prog h with ⟨x, o, mark, lost, e, e', m, _⟩ | ⟨n, n'⟩
  · rw [e, e']
    obtain ⟨fd, path⟩ := x
    have at_ := fdAt_of e
    cases fd with
    | none =>
        cases o with
        | some _ => simp [Points] at m
        | none =>
            simp only [progPin, pinProgram, R.change, A.set]
            rw [r_eta rel]
            exact ⟨rel.change _ _ _ _ at_.symm ⟨m, fun c => by cases c⟩, trivial⟩
    | some fd =>
        cases o with
        | none => simp [Points] at m
        | some o =>
            have eq : pinProgram (sys fresh f) ⟨some fd, some p⟩ p r.k = mapPin (sys fresh f) fd p r.k := rfl
            simp only [progPin, eq]
            rcases pin_spec (fresh := fresh) rel f m p with ⟨er, k1, k2⟩ | ⟨k1, k2⟩
            · rw [k1, k2]
              simp only [R.change, A.set]
              rw [r_eta rel]
              exact ⟨rel.change _ _ _ _ at_.symm ⟨m, fun c => by cases c⟩, trivial⟩
            · rw [k1, k2]
              simp only [R.change, A.set]
              exact ⟨rel.change _ _ _ _ at_.symm ⟨m, fun c => rfl⟩, trivial⟩
  · split
    · exact absurd (by assumption) (n _)
    · split
      · exact absurd (by assumption) (n' _ _ _)
      · exact absurd (by assumption) (n' _ _ _)
      · exact ⟨rel, rfl⟩

theorem set_self {α : Type} {l : List (Option α)} {h : Nat} {x : α} (e : l[h]?.join = some x) :
    l.set h (some x) = l := by
  have lt := join_lt e
  rw [List.getElem?_eq_getElem lt] at e
  simp only [Option.join_some] at e
  rw [← e]
  exact List.set_getElem_self lt

theorem keeps_progUnpin {r : R} {a : A} (rel : Rel r a) (f : Faults) (h : Nat)
    (fine : ∀ o mark, a.handles[h]?.join ≠ some (.prog o mark true)) : Keeps fresh r a (.progUnpin h) f := by
  unfold Keeps
  simp only [R.step, Spec.step]
  rcases rel.prog h with ⟨x, o, mark, lost, e, e', m, m'⟩ | ⟨n, n'⟩
  · cases lost with
    | true => exact absurd e' (fine _ _)
    | false =>
        have at_ := fdAt_of e
        rw [e, e']
        obtain ⟨fd, path⟩ := x
        have hp := m' rfl
        simp only at hp
        subst hp
        cases path with
        | none =>
            simp only [progUnpin, R.change]
            refine ⟨?_, trivial⟩
            have : (⟨r.k, r.hs.set h (some (.prog ⟨fd, none⟩))⟩ : R) = r := by rw [set_self e]
            rw [this]; exact rel
        | some p =>
            simp only [progUnpin]
            rcases unpin_spec (fresh := fresh) rel f p with ⟨er, k1, k2⟩ | ⟨k1, k2⟩
            · rw [k1, k2]
              simp only [R.change, A.set]
              rw [r_eta rel]
              exact ⟨rel.change _ _ _ _ at_.symm ⟨m, fun c => by cases c⟩, trivial⟩
            · rw [k1, k2]
              simp only [R.change, A.set]
              exact ⟨rel.change _ _ _ _ at_.symm ⟨m, fun c => rfl⟩, trivial⟩
  · split
    · exact absurd (by assumption) (n _)
    · split
      · exact absurd (by assumption) (n' _ _ _)
      · exact absurd (by assumption) (n' _ _ _)
      · exact ⟨rel, rfl⟩

theorem keeps_unload {r : R} {a : A} (rel : Rel r a) (f : Faults) (h : Nat) : Keeps fresh r a (.unload h) f := by
  unfold Keeps
  simp only [R.step, Spec.step]
  rcases rel.prog h with ⟨x, o, mark, lost, e, e', m, m'⟩ | ⟨n, n'⟩
  · have at_ := fdAt_of e
    rw [e, e']
    obtain ⟨fd, path⟩ := x
    cases fd with
    | none =>
        cases o with
        | some _ => simp [Points] at m
        | none =>
            simp only [progUnload, R.change]
            refine ⟨?_, trivial⟩
            have : (⟨r.k, r.hs.set h (some (.prog ⟨none, path⟩))⟩ : R) = r := by rw [set_self e]
            rw [this]; exact rel
    | some fd =>
        cases o with
        | none => simp [Points] at m
        | some o =>
            simp only [progUnload, R.change, A.set, sys]
            rw [rel.objs, rel.files]
            exact ⟨rel.close _ _ at_ _ _ rfl ⟨trivial, m'⟩, trivial⟩
  · split
    · exact absurd (by assumption) (n _)
    · split
      · exact absurd (by assumption) (n' _ _ _)
      · exact absurd (by assumption) (n' _ _ _)
      · exact ⟨rel, rfl⟩

theorem keeps_mapPin {r : R} {a : A} (rel : Rel r a) (f : Faults) (h : Nat) (p : Path) :
    Keeps fresh r a (.mapPin h p) f := by
  unfold Keeps
  simp only [R.step, Spec.step]
  rcases rel.map h with ⟨fd, o, e, e', m⟩ | ⟨n, n'⟩
  · rw [e, e']
    simp only
    rcases pin_spec (fresh := fresh) rel f m p with ⟨er, k1, k2⟩ | ⟨k1, k2⟩
    · rw [k1, k2]
      simp only [R.change]
      rw [set_self e]
      exact ⟨rel, trivial⟩
    · rw [k1, k2]
      simp only [R.change]
      rw [set_self e]
      exact ⟨rel.outside _ _, trivial⟩
  · split
    · exact absurd (by assumption) (n _)
    · split
      · exact absurd (by assumption) (n' _)
      · exact ⟨rel, rfl⟩

theorem keeps_typedPin {r : R} {a : A} (rel : Rel r a) (f : Faults) (h : Nat) (p : Path) :
    Keeps fresh r a (.typedPin h p) f := by
  unfold Keeps
  simp only [R.step, Spec.step]
  rcases rel.map h with ⟨fd, o, e, e', m⟩ | ⟨n, n'⟩
  · have at_ := fdAt_of e
    rw [e, e']
    simp only [typedPin]
    rcases pin_spec (fresh := fresh) rel f m p with ⟨er, k1, k2⟩ | ⟨k1, k2⟩
    · rw [k1, k2]
      simp only [R.change, A.set, sys]
      rw [rel.objs, rel.files]
      exact ⟨rel.close _ _ at_ _ _ rfl trivial, trivial⟩
    · rw [k1, k2]
      simp only [R.change, A.set, sys]
      exact ⟨rel.close _ _ at_ _ _ rfl trivial, trivial⟩
  · split
    · exact absurd (by assumption) (n _)
    · split
      · exact absurd (by assumption) (n' _)
      · exact ⟨rel, rfl⟩

theorem linkPin_eq (S : Sys K) (fd : Nat) (p : Path) (k : K) :
    linkPin S fd p k = match mapPin S fd p k with
      | (.ok (), k) => (.ok (fd, p), k)
      | (.error e, k) => (.error e, S.close fd k) := by
  unfold linkPin mapPin
  cases c : cstring p with
  | none => rfl
  | some q =>
      simp only
      rcases S.pin fd q k with ⟨e | u, s⟩ <;> rfl

theorem keeps_linkPin {r : R} {a : A} (rel : Rel r a) (f : Faults) (h : Nat) (p : Path) :
    Keeps fresh r a (.linkPin h p) f := by
  unfold Keeps
  simp only [R.step, Spec.step]
  rcases rel.link h with ⟨fd, o, e, e', m⟩ | ⟨n, n'⟩
  · have at_ := fdAt_of e
    rw [e, e']
    simp only [linkPin_eq]
    rcases pin_spec (fresh := fresh) rel f m p with ⟨er, k1, k2⟩ | ⟨k1, k2⟩
    · rw [k1, k2]
      simp only [R.turn, A.set, sys]
      rw [rel.objs, rel.files]
      exact ⟨rel.close _ _ at_ _ _ rfl trivial, trivial⟩
    · rw [k1, k2]
      simp only [R.turn, A.set]
      exact ⟨rel.change _ _ _ _ at_.symm ⟨m, rfl⟩, trivial⟩
  · split
    · exact absurd (by assumption) (n _)
    · split
      · exact absurd (by assumption) (n' _)
      · exact ⟨rel, rfl⟩

theorem keeps_linkUnpin {r : R} {a : A} (rel : Rel r a) (f : Faults) (h : Nat) :
    Keeps fresh r a (.linkUnpin h) f := by
  unfold Keeps
  simp only [R.step, Spec.step]
  rcases rel.pinned h with ⟨fd, o, p, e, e', m⟩ | ⟨n, n'⟩
  · have at_ := fdAt_of e
    rw [e, e']
    simp only [linkUnpin]
    rcases unpin_spec (fresh := fresh) rel f p with ⟨er, k1, k2⟩ | ⟨k1, k2⟩
    · rw [k1, k2]
      simp only [R.turn, A.set, sys]
      rw [rel.objs, rel.files]
      exact ⟨rel.close _ _ at_ _ _ rfl trivial, trivial⟩
    · rw [k1, k2]
      simp only [R.turn, A.set]
      exact ⟨rel.change _ _ _ _ at_.symm m, trivial⟩
  · split
    · exact absurd (by assumption) (n _)
    · split
      · exact absurd (by assumption) (n' _ _)
      · exact ⟨rel, rfl⟩

theorem keeps_into {r : R} {a : A} (rel : Rel r a) (f : Faults) (h : Nat) : Keeps fresh r a (.into h) f := by
  unfold Keeps
  simp only [R.step, Spec.step]
  rcases rel.pinned h with ⟨fd, o, p, e, e', m⟩ | ⟨n, n'⟩
  · have at_ := fdAt_of e
    rw [e, e']
    simp only [intoFdLink, A.set]
    rw [r_eta rel]
    exact ⟨rel.change _ _ _ _ at_.symm m, trivial⟩
  · split
    · exact absurd (by assumption) (n _)
    · split
      · exact absurd (by assumption) (n' _ _)
      · exact ⟨rel, rfl⟩

theorem drop_eq (f : Faults) (x : RH) (k : K) :
    x.drop (sys fresh f) k = match x.fd with
      | none => k
      | some fd => { k with fds := k.fds.filter fun e => e.1 ≠ fd } := by
  rcases x with ⟨_ | fd, p⟩ | fd | fd | l <;> rfl

theorem keeps_drop {r : R} {a : A} (rel : Rel r a) (f : Faults) (h : Nat) : Keeps fresh r a (.drop h) f := by
  unfold Keeps
  simp only [R.step, Spec.step]
  have m := rel.hand h
  cases e : r.hs[h]?.join with
  | none =>
      cases e' : a.handles[h]?.join with
      | none => exact ⟨rel, rfl⟩
      | some y => rw [e, e'] at m; simp [Match] at m
  | some x =>
      cases e' : a.handles[h]?.join with
      | none => rw [e, e'] at m; cases x <;> simp [Match] at m
      | some y =>
          simp only [drop_eq, A.set]
          refine ⟨?_, trivial⟩
          have at_ := fdAt_of e
          cases q : x.fd with
          | none =>
              simp only
              rw [r_eta rel]
              exact rel.change _ _ _ _ (by rw [at_, q]; rfl) trivial
          | some fd =>
              simp only
              rw [rel.objs, rel.files]
              exact rel.close _ _ (by rw [at_, q]) _ _ rfl trivial

theorem filter_fresh (ok : ∀ l, fresh l ∉ l) (fds : List (Nat × Nat)) (o : Nat) :
    ((fresh (fds.map Prod.fst), o) :: fds).filter (fun e => e.1 ≠ fresh (fds.map Prod.fst)) = fds := by
  rw [List.filter_cons, if_neg (by simp), List.filter_eq_self]
  intro e he
  have : e.1 ≠ fresh (fds.map Prod.fst) := fun q =>
    ok (fds.map Prod.fst) (by rw [← q]; exact List.mem_map.mpr ⟨e, he, rfl⟩)
  simpa using this

theorem keeps_progFromPin {r : R} {a : A} (ok : ∀ l, fresh l ∉ l) (rel : Rel r a) (f : Faults) (ty : Nat)
    (p : Path) (z : 0 ∉ p) (fits : a.Fits (fun k => decide (k = .prog ty)) p) :
    Keeps fresh r a (.progFromPin ty p) f := by
  unfold Keeps
  simp only [R.step, Spec.step, progFromPin, cstring_some z]
  rcases open_spec (fresh := fresh) rel f _ z fits with ⟨e, k1, k2⟩ | ⟨o, k1, k2⟩
  · rw [k1, k2]
    exact ⟨rel, rfl⟩
  · rw [k1, k2]
    have i : (sys fresh f).info (fresh (r.k.fds.map Prod.fst))
        ⟨a.objs, a.files, (fresh (r.k.fds.map Prod.fst), o) :: r.k.fds⟩ =
        match f .info with | some e => .error e | none => .ok () := by
      simp only [sys, lookup_self]
      cases f .info <;> rfl
    simp only [i]
    cases f .info with
    | some e =>
        simp only [sys, R.give, filter_fresh ok]
        exact ⟨by rw [← r_eta rel]; exact rel, trivial⟩
    | none =>
        simp only [R.give, A.add]
        exact ⟨rel.give (ok _) _ _ _ _ _ rfl ⟨lookup_self _ _ _, fun _ => rfl⟩, trivial⟩

theorem keeps_mapFromPin {r : R} {a : A} (ok : ∀ l, fresh l ∉ l) (rel : Rel r a) (f : Faults)
    (p : Path) (fits : a.Fits (fun k => decide (k = .map)) p) : Keeps fresh r a (.mapFromPin p) f := by
  unfold Keeps
  simp only [R.step, Spec.step, mapFromPin]
  by_cases z : 0 ∈ p
  · rw [cstring_none z]
    simp only [A.open]
    rw [if_pos z]
    exact ⟨rel, rfl⟩
  rw [cstring_some z]
  simp only
  rcases open_spec (fresh := fresh) rel f _ z fits with ⟨e, k1, k2⟩ | ⟨o, k1, k2⟩
  · rw [k1, k2]
    exact ⟨rel, rfl⟩
  · rw [k1, k2]
    have i : (sys fresh f).info (fresh (r.k.fds.map Prod.fst))
        ⟨a.objs, a.files, (fresh (r.k.fds.map Prod.fst), o) :: r.k.fds⟩ =
        match f .info with | some e => .error e | none => .ok () := by
      simp only [sys, lookup_self]
      cases f .info <;> rfl
    simp only [i]
    cases f .info with
    | some e =>
        simp only [sys, R.give, filter_fresh ok]
        exact ⟨by rw [← r_eta rel]; exact rel, trivial⟩
    | none =>
        simp only [R.give, A.add]
        exact ⟨rel.give (ok _) _ _ _ _ _ rfl (lookup_self _ _ _), trivial⟩

theorem keeps_linkFromPin {r : R} {a : A} (ok : ∀ l, fresh l ∉ l) (rel : Rel r a) (f : Faults)
    (p : Path) (z : 0 ∉ p) (fits : a.Fits isLink p) : Keeps fresh r a (.linkFromPin p) f := by
  unfold Keeps
  simp only [R.step, Spec.step, linkFromPin, cstring_some z]
  rcases open_spec (fresh := fresh) rel f _ z fits with ⟨e, k1, k2⟩ | ⟨o, k1, k2⟩
  · rw [k1, k2]
    exact ⟨rel, rfl⟩
  · rw [k1, k2]
    simp only [R.give, A.add]
    exact ⟨rel.give (ok _) _ _ _ _ _ rfl ⟨lookup_self _ _ _, rfl⟩, trivial⟩

theorem keeps_progFromInfo {r : R} {a : A} (ok : ∀ l, fresh l ∉ l) (rel : Rel r a) (f : Faults) (ty o : Nat) :
    Keeps fresh r a (.progFromInfo ty o) f := by
  unfold Keeps
  simp only [R.step, Spec.step]
  rw [rel.objs]
  rcases e : a.objs[o]? with _ | (ty' | _ | _)
  · exact ⟨rel, rfl⟩
  · simp only
    unfold progFromInfo
    by_cases c : ty' ≠ ty
    · rw [if_pos c, if_pos c]
      exact ⟨rel, rfl⟩
    · rw [if_neg c, if_neg c]
      have b : (sys fresh f).byId o r.k =
          if a.live o then opening fresh (f .byId) o r.k r.k else (.error ((f .byId).getD 2), r.k) := by
        simp only [sys]
        rw [rel.live]
      rw [b]
      cases f .byId with
      | some e =>
          by_cases l : a.live o = true
          · rw [if_pos l]; exact ⟨rel, rfl⟩
          · rw [if_neg l]; exact ⟨rel, rfl⟩
      | none =>
          by_cases l : a.live o = true
          · rw [if_pos l]
            simp only [opening, openFd, if_pos l]
            have d : (sys fresh f).dup (fresh (r.k.fds.map Prod.fst))
                { r.k with fds := (fresh (r.k.fds.map Prod.fst), o) :: r.k.fds } =
                opening fresh (f .dup) o { r.k with fds := (fresh (r.k.fds.map Prod.fst), o) :: r.k.fds }
                  { r.k with fds := (fresh (r.k.fds.map Prod.fst), o) :: r.k.fds } := by
              simp only [sys, lookup_self]
            rw [d]
            cases f .dup with
            | some e =>
                simp only [opening, sys, R.give, filter_fresh ok]
                exact ⟨rel, trivial⟩
            | none =>
                simp only [opening, openFd, R.give, A.add, sys]
                refine ⟨?_, trivial⟩
                have nw := ok (fresh (r.k.fds.map Prod.fst) :: r.k.fds.map Prod.fst)
                have ne : fresh (fresh (r.k.fds.map Prod.fst) :: r.k.fds.map Prod.fst) ≠
                    fresh (r.k.fds.map Prod.fst) := fun q => nw (by rw [q]; exact List.mem_cons_self)
                simp only [List.map_cons]
                rw [List.filter_cons, if_pos (by simpa using ne), filter_fresh ok, rel.objs, rel.files]
                exact rel.give (fun q => nw (List.mem_cons_of_mem _ q)) _ _ _ _ _ rfl
                  ⟨lookup_self _ _ _, fun c => by cases c⟩
          · rw [if_neg l]
            simp only [if_neg l]
            exact ⟨rel, rfl⟩
  · exact ⟨rel, rfl⟩
  · exact ⟨rel, rfl⟩

end Verif.Pins
