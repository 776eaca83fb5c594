import Verif.Pins.Step

/-!
# C89: pinning
-/
set_option linter.unusedSimpArgs false
set_option linter.unusedVariables false
namespace Verif.Pins
open Spec

variable {fresh : List Nat → Nat}

theorem fits_iff {a : A} {right : Kind → Bool} {p : Path} (h : a.fits right p = true) : a.Fits right p := by
  intro o e
  unfold A.fits at h
  rw [e] at h
  simp only at h
  cases q : a.objs[o]? with
  | none => rw [q] at h; cases h
  | some k => rw [q] at h; exact ⟨k, rfl, h⟩

theorem keeps {r : R} {a : A} (ok : ∀ l, fresh l ∉ l) (rel : Rel r a) (op : Op) (f : Faults)
    (fine : careful1 a op = true) : Keeps fresh r a op f := by
  cases op with
  | load ty => exact keeps_load ok rel f ty
  | progPin h p => exact keeps_progPin rel f h p
  | progUnpin h =>
      refine keeps_progUnpin rel f h ?_
      intro o mark e
      simp only [careful1, e] at fine
      cases fine
  | progFromPin ty p =>
      simp only [careful1, Bool.and_eq_true] at fine
      exact keeps_progFromPin ok rel f ty p (by simpa using fine.1) (fits_iff fine.2)
  | progFromInfo ty o => exact keeps_progFromInfo ok rel f ty o
  | unload h => exact keeps_unload rel f h
  | create => exact keeps_create ok rel f
  | mapPin h p => exact keeps_mapPin rel f h p
  | typedPin h p => exact keeps_typedPin rel f h p
  | mapFromPin p => exact keeps_mapFromPin ok rel f p (fits_iff fine)
  | attach h => exact keeps_attach ok rel f h
  | linkPin h p => exact keeps_linkPin rel f h p
  | linkFromPin p =>
      simp only [careful1, Bool.and_eq_true] at fine
      exact keeps_linkFromPin ok rel f p (by simpa using fine.1) (fits_iff fine.2)
  | linkUnpin h => exact keeps_linkUnpin rel f h
  | into h => exact keeps_into rel f h
  | drop h => exact keeps_drop rel f h
  | elsewherePin p ty =>
      refine ⟨?_, rfl⟩
      simp only [R.step, Spec.step, elsewherePin, A.elsewherePin]
      rw [rel.files]
      cases a.files.lookup p with
      | some _ => exact rel
      | none => simp only; rw [rel.objs]; exact rel.outside _ _
  | elsewhereRemove p =>
      refine ⟨?_, rfl⟩
      simp only [R.step, Spec.step]
      rw [rel.files, rel.objs]; exact rel.outside _ _

theorem keeps_run (ok : ∀ l, fresh l ∉ l) (ops : List (Op × Faults)) {r : R} {a : A} (rel : Rel r a)
    (fine : careful a ops = true) :
    Rel (R.run fresh r ops).1 (Spec.run a ops).1 ∧ (R.run fresh r ops).2 = (Spec.run a ops).2 := by
  induction ops generalizing r a with
  | nil => exact ⟨rel, rfl⟩
  | cons e ops ih =>
      obtain ⟨op, f⟩ := e
      simp only [careful, Bool.and_eq_true] at fine
      obtain ⟨k1, k2⟩ := keeps ok rel op f fine.1
      obtain ⟨i1, i2⟩ := ih k1 fine.2
      exact ⟨i1, by simp only [R.run, Spec.run, k2, i2]⟩

theorem rel_start : Rel {} {} :=
  ⟨rfl, rfl, rfl, fun _ => trivial, (fun _ _ _ e => nomatch e), (fun _ he => nomatch he), List.nodup_nil⟩

/-- A system of the model: descriptors are numbered as they come. -/
def exFresh (l : List Nat) : Nat := l.foldr (fun a b => max (a + 1) b) 0

theorem exFresh_ok (l : List Nat) : exFresh l ∉ l := by
  have : ∀ x ∈ l, x < exFresh l := by
    induction l with
    | nil => intro x hx; cases hx
    | cons a l ih =>
        intro x hx
        rcases List.mem_cons.mp hx with rfl | hx
        · show _ < max _ _; omega
        · have := ih x hx
          show _ < max _ (exFresh l)
          omega
  exact fun h => Nat.lt_irrefl _ (this _ h)

/-- **C89** (part). Handles and pins stand for the objects they were made for. Take any history of a process that
    loads, attaches, pins, opens, unpins, unloads and drops programs, maps and links, while other processes pin and
    remove files, and any of the system calls may fail. If it never unpins a program after a failed attempt to pin
    or unpin it (or one from `from_program_info`), and opens files as what they are and by paths without zero
    bytes, then all results, all files, and the objects that live are those of the ideal system, and every open
    descriptor belongs to a handle. Missing: the exceptions, which are refuted below. -/
theorem C89_pins_partial (ok : ∀ l, fresh l ∉ l) (ops : List (Op × Faults)) (fine : careful {} ops = true) :
    (R.run fresh {} ops).2 = (Spec.run {} ops).2 ∧
    (R.run fresh {} ops).1.k.files = (Spec.run {} ops).1.files ∧
    (R.run fresh {} ops).1.k.objs = (Spec.run {} ops).1.objs ∧
    (∀ o, live (R.run fresh {} ops).1.k o = (Spec.run {} ops).1.live o) ∧
    (∀ e ∈ (R.run fresh {} ops).1.k.fds, ∃ x ∈ (R.run fresh {} ops).1.hs, x.bind RH.fd = some e.1) := by
  obtain ⟨rel, eq⟩ := keeps_run ok ops rel_start fine
  refine ⟨eq, rel.files, rel.objs, rel.live, ?_⟩
  intro e he
  obtain ⟨h, hh⟩ := rel.all e he
  unfold fdAt at hh
  cases q : (R.run fresh {} ops).1.hs[h]? with
  | none => rw [q] at hh; cases hh
  | some x => rw [q] at hh; exact ⟨x, List.mem_of_getElem? q, hh⟩

/-- No call fails for outside reasons. -/
def quiet : Faults := fun _ => none
/-- One call does. -/
def failing (c : Call) (e : Nat) : Faults := fun d => if d = c then some e else none

/-- A careful history with every operation, among them pins that outlive their handles. -/
def exOps : List (Op × Faults) :=
  [ (.load 2, quiet), (.progPin 0 [112], quiet), (.attach 0, quiet), (.linkPin 1 [108], quiet), (.unload 0, quiet),
    (.create, quiet), (.mapPin 2 [109], quiet), (.typedPin 2 [109], quiet), (.mapFromPin [109], quiet),
    (.linkFromPin [108], quiet), (.linkUnpin 4, quiet), (.linkUnpin 1, quiet), (.progFromPin 2 [112], quiet),
    (.progUnpin 5, failing .unlink 13), (.elsewherePin [120] (some 3), quiet), (.progFromInfo 3 3, quiet),
    (.elsewhereRemove [120], quiet), (.drop 4, quiet), (.into 3, quiet), (.drop 3, quiet),
    (.progUnpin 0, quiet), (.progFromPin 2 [112], quiet) ]

example : careful {} exOps = true := by decide +kernel
example : (R.run exFresh {} exOps).2 =
    [.handle, .done, .handle, .done, .done, .handle, .done, .failed (.sys 17), .handle, .handle, .done,
     .failed (.sys 2), .handle, .failed (.sys 13), .done, .handle, .done, .done, .nothing, .done, .done,
     .failed (.sys 2)] := by decide +kernel
/- the program is kept by handle 5, the link is gone, the map has its file, and the other program has handle 6 -/
example : (R.run exFresh {} exOps).1.k.files = [([109], 2)] ∧
    (List.range 5).map (live (R.run exFresh {} exOps).1.k) = [true, false, true, true, false] := by decide +kernel

/-! ## A file keeps its object -/

theorem files_change {α : Type} (r : R) (h : Nat) (x : Option RH) (c : Except Error α × K) :
    (r.change h x c).1.k = c.2 := by
  obtain ⟨e | y, k⟩ := c <;> rfl

theorem files_turn {α : Type} (r : R) (h : Nat) (x : α → RH) (c : Except Error α × K) :
    (r.turn h x c).1.k = c.2 := by
  obtain ⟨e | y, k⟩ := c <;> rfl

theorem files_give {α : Type} (r : R) (x : α → RH) (c : Except Error α × K) :
    (r.give x c).1.k = c.2 := by
  obtain ⟨e | y, k⟩ := c <;> rfl

/-- The file is as it was. -/
def Keeps' (p : Path) (o : Nat) (k : K) : Prop := k.files.lookup p = some o

theorem keeps'_opening {p : Path} {o : Nat} (fault : Option Nat) (n : Nat) (k k' : K) (h : Keeps' p o k)
    (h' : Keeps' p o k') : Keeps' p o (opening fresh fault n k k').2 := by
  unfold opening
  cases fault with
  | some e => exact h
  | none => exact h'

theorem keeps'_pin {p : Path} {o : Nat} (f : Faults) (fd : Nat) (q : Path) (k : K) (h : Keeps' p o k) :
    Keeps' p o ((sys fresh f).pin fd q k).2 := by
  simp only [sys]
  cases f .pin with
  | some e => exact h
  | none =>
      simp only
      cases e : k.files.lookup q with
      | some _ => exact h
      | none =>
          simp only
          cases k.fds.lookup fd with
          | none => exact h
          | some n =>
              unfold Keeps'
              simp only
              rw [List.lookup_cons]
              have : p ≠ q := by
                intro c
                rw [← c] at e
                unfold Keeps' at h
                rw [h] at e
                cases e
              have : (p == q) = false := by simpa using this
              rw [this]; exact h

theorem keeps'_get {p : Path} {o : Nat} (f : Faults) (q : Path) (k : K) (h : Keeps' p o k) :
    Keeps' p o ((sys fresh f).get q k).2 := by
  simp only [sys]
  cases k.files.lookup q with
  | none => exact h
  | some n => exact keeps'_opening _ _ _ _ h h

theorem keeps'_close {p : Path} {o : Nat} (f : Faults) (fd : Nat) (k : K) (h : Keeps' p o k) :
    Keeps' p o ((sys fresh f).close fd k) := h

theorem keeps'_mapPin {p : Path} {o : Nat} (f : Faults) (fd : Nat) (q : Path) (k : K) (h : Keeps' p o k) :
    Keeps' p o (mapPin (sys fresh f) fd q k).2 := by
  unfold mapPin
  cases cstring q with
  | none => exact h
  | some q =>
      have := keeps'_pin (fresh := fresh) f fd q k h
      simp only
      revert this
      generalize (sys fresh f).pin fd q k = c
      rcases c with ⟨e | u, s⟩ <;> intro this
      · exact this
      · exact this

theorem keeps'_step {p : Path} {o : Nat} (r : R) (op : Op) (f : Faults) (h : Keeps' p o r.k)
    (stays : removes p op = false) : Keeps' p o (r.step fresh op f).1.k := by
  cases op with
  | load ty =>
      simp only [R.step, files_give, progLoad]
      have := keeps'_opening (fresh := fresh) (f .load) r.k.objs.length r.k { r.k with objs := r.k.objs ++ [.prog ty] } h h
      revert this
      simp only [sys]
      rcases opening fresh (f .load) r.k.objs.length r.k { r.k with objs := r.k.objs ++ [.prog ty] } with ⟨e | u, s⟩
      · exact id
      · exact id
  | progPin i q =>
      simp only [R.step]
      split
      · rename_i x _
        rw [files_change]
        simp only [progPin]
        obtain ⟨fd, path⟩ := x
        cases fd with
        | none => exact h
        | some fd => exact keeps'_mapPin f fd q r.k h
      · exact h
  | progUnpin i => cases stays
  | progFromPin ty q =>
      simp only [R.step, files_give, progFromPin]
      cases cstring q with
      | none => exact h
      | some q' =>
          simp only
          have := keeps'_get (fresh := fresh) f q' r.k h
          revert this
          generalize (sys fresh f).get q' r.k = c
          rcases c with ⟨e | fd, s⟩ <;> intro this
          · exact this
          · simp only
            cases (sys fresh f).info fd s with
            | error e => exact this
            | ok _ => exact this
  | progFromInfo ty n =>
      simp only [R.step]
      split
      · rename_i ty' _
        rw [files_give]
        unfold progFromInfo
        by_cases c : ty' ≠ ty
        · rw [if_pos c]; exact h
        · rw [if_neg c]
          have k1 : Keeps' p o ((sys fresh f).byId n r.k).2 := by
            simp only [sys]
            by_cases l : live r.k n = true
            · rw [if_pos l]; exact keeps'_opening _ _ _ _ h h
            · rw [if_neg l]; exact h
          revert k1
          generalize (sys fresh f).byId n r.k = c
          rcases c with ⟨e | fd, s⟩ <;> intro k1
          · exact k1
          · simp only
            have k2 : Keeps' p o ((sys fresh f).dup fd s).2 := by
              simp only [sys]
              cases s.fds.lookup fd with
              | none => exact k1
              | some _ => exact keeps'_opening _ _ _ _ k1 k1
            revert k2
            generalize (sys fresh f).dup fd s = c
            rcases c with ⟨e | fd', s'⟩ <;> intro k2
            · exact k2
            · exact k2
      · exact h
  | unload i =>
      simp only [R.step]
      split
      · rename_i x _
        rw [files_change]
        obtain ⟨fd, path⟩ := x
        cases fd with
        | none => exact h
        | some fd => exact h
      · exact h
  | create =>
      simp only [R.step, files_give, mapCreate]
      have := keeps'_opening (fresh := fresh) (f .create) r.k.objs.length r.k { r.k with objs := r.k.objs ++ [.map] } h h
      revert this
      simp only [sys]
      rcases opening fresh (f .create) r.k.objs.length r.k { r.k with objs := r.k.objs ++ [.map] } with ⟨e | u, s⟩
      · exact id
      · exact id
  | mapPin i q =>
      simp only [R.step]
      split
      · rw [files_change]; exact keeps'_mapPin f _ q r.k h
      · exact h
  | typedPin i q =>
      simp only [R.step]
      split
      · rw [files_change]
        exact keeps'_mapPin f _ q r.k h
      · exact h
  | mapFromPin q =>
      simp only [R.step, files_give, mapFromPin]
      cases cstring q with
      | none => exact h
      | some q' =>
          simp only
          have := keeps'_get (fresh := fresh) f q' r.k h
          revert this
          generalize (sys fresh f).get q' r.k = c
          rcases c with ⟨e | fd, s⟩ <;> intro this
          · exact this
          · simp only
            cases (sys fresh f).info fd s with
            | error e => exact this
            | ok _ => exact this
  | attach i =>
      simp only [R.step]
      split
      · rename_i x _
        rw [files_give]
        obtain ⟨fd, path⟩ := x
        cases fd with
        | none => exact h
        | some fd =>
            have k1 : Keeps' p o ((sys fresh f).attach fd r.k).2 := by
              simp only [sys]
              cases r.k.fds.lookup fd with
              | none => exact h
              | some _ => exact keeps'_opening _ _ _ _ h h
            simp only [progAttach]
            revert k1
            generalize (sys fresh f).attach fd r.k = c
            rcases c with ⟨e | l, s⟩ <;> intro k1
            · exact k1
            · exact k1
      · exact h
  | linkPin i q =>
      simp only [R.step]
      split
      · rename_i fd _
        rw [files_turn, linkPin_eq]
        have := keeps'_mapPin (fresh := fresh) f fd q r.k h
        revert this
        generalize mapPin (sys fresh f) fd q r.k = c
        rcases c with ⟨e | u, s⟩ <;> intro this
        · exact this
        · exact this
      · exact h
  | linkFromPin q =>
      simp only [R.step, files_give, linkFromPin]
      cases cstring q with
      | none => exact h
      | some q' =>
          simp only
          have := keeps'_get (fresh := fresh) f q' r.k h
          revert this
          generalize (sys fresh f).get q' r.k = c
          rcases c with ⟨e | fd, s⟩ <;> intro this
          · exact this
          · exact this
  | linkUnpin i => cases stays
  | into i =>
      simp only [R.step]
      split
      · exact h
      · exact h
  | drop i =>
      simp only [R.step]
      split
      · rename_i x _
        simp only [drop_eq]
        cases x.fd with
        | none => exact h
        | some fd => exact h
      · exact h
  | elsewherePin q ty =>
      simp only [R.step, elsewherePin]
      cases e : r.k.files.lookup q with
      | some _ => exact h
      | none =>
          unfold Keeps'
          simp only
          rw [List.lookup_cons]
          have : p ≠ q := by
            intro c
            rw [← c] at e
            unfold Keeps' at h
            rw [h] at e
            cases e
          have : (p == q) = false := by simpa using this
          rw [this]; exact h
  | elsewhereRemove q =>
      have ne : p ≠ q := by
        intro c
        simp only [removes, c] at stays
        simp at stays
      simp only [R.step]
      unfold Keeps'
      simp only
      unfold Keeps' at h
      revert h
      generalize r.k.files = l
      induction l with
      | nil => exact id
      | cons e l ih =>
          obtain ⟨a, b⟩ := e
          rw [List.lookup_cons, List.filter_cons]
          intro h
          by_cases c : a = q
          · rw [if_neg (by simpa using c)]
            have : (p == a) = false := by simpa using fun e => ne (e.trans c)
            rw [this] at h
            exact ih h
          · rw [if_pos (by simpa using c), List.lookup_cons]
            cases c' : (p == a) with
            | true => rw [c'] at h; exact h
            | false => rw [c'] at h; exact ih h

/-- **C89**. What is pinned stays: whatever the process does — careful or not, with any calls failing — as long as
    it unpins nothing and nobody else removes that file, the file keeps standing for its object, and the object
    lives. -/
theorem C89_stays (r : R) (p : Path) (o : Nat) (ops : List (Op × Faults)) (pinned : r.k.files.lookup p = some o)
    (stays : ∀ e ∈ ops, removes p e.1 = false) :
    (R.run fresh r ops).1.k.files.lookup p = some o ∧ live (R.run fresh r ops).1.k o = true := by
  suffices h : Keeps' p o (R.run fresh r ops).1.k by
    refine ⟨h, ?_⟩
    unfold live direct
    have : ((R.run fresh r ops).1.k.files.map Prod.snd).contains o = true := by
      rw [List.contains_iff_mem]
      exact List.mem_map.mpr ⟨_, lookup_mem h, rfl⟩
    rw [this]
    simp
  induction ops generalizing r with
  | nil => exact pinned
  | cons e ops ih =>
      obtain ⟨op, f⟩ := e
      exact ih (r.step fresh op f).1 (keeps'_step r op f pinned (stays (op, f) List.mem_cons_self))
        (fun e he => stays e (List.mem_cons_of_mem _ he))

/- a program pinned, then unloaded and dropped -/
example : (R.run exFresh {} [(.load 2, quiet), (.progPin 0 [112], quiet)]).1.k.files.lookup [112] = some 0 ∧
    live (R.run exFresh {} [(.load 2, quiet), (.progPin 0 [112], quiet), (.unload 0, quiet), (.drop 0, quiet)]).1.k 0
      = true := by decide +kernel

/-! ## The exceptions -/

/-- **C89, refuted**: a pin that is refused because the path is in use is noted all the same, and the next `unpin`
    removes the file — of somebody else — and reports success. -/
theorem C89_foreign_violated (p : Path) (z : 0 ∉ p) (ty : Nat) (other : Option Nat) :
    (R.run fresh {} [(.elsewherePin p other, quiet), (.load ty, quiet), (.progPin 0 p, quiet),
        (.progUnpin 0, quiet)]).2 = [.done, .handle, .failed (.sys 17), .done] ∧
    (R.run fresh {} [(.elsewherePin p other, quiet), (.load ty, quiet), (.progPin 0 p, quiet)]).1.k.files.lookup p
      = some 0 ∧
    (R.run fresh {} [(.elsewherePin p other, quiet), (.load ty, quiet), (.progPin 0 p, quiet),
        (.progUnpin 0, quiet)]).1.k.files = [] ∧
    live (R.run fresh {} [(.elsewherePin p other, quiet), (.load ty, quiet), (.progPin 0 p, quiet),
        (.progUnpin 0, quiet)]).1.k 0 = false := by
  simp [R.run, R.step, elsewherePin, R.give, R.change, progLoad, progPin, pinProgram, progUnpin, removeFile, sys,
    opening, openFd, quiet, cstring_some z, live, direct, List.range_succ]

example : (0 : UInt8) ∉ ([112] : Path) := by decide

/-- **C89, refuted**: an `unpin` that fails forgets the path: trying again reports success, and the file is there. -/
theorem C89_again_violated (p : Path) (z : 0 ∉ p) (ty e : Nat) :
    (R.run fresh {} [(.load ty, quiet), (.progPin 0 p, quiet), (.progUnpin 0, failing .unlink e),
        (.progUnpin 0, quiet)]).2 = [.handle, .done, .failed (.sys e), .done] ∧
    (R.run fresh {} [(.load ty, quiet), (.progPin 0 p, quiet), (.progUnpin 0, failing .unlink e),
        (.progUnpin 0, quiet)]).1.k.files = [(p, 0)] := by
  simp [R.run, R.step, R.give, R.change, progLoad, progPin, pinProgram, progUnpin, removeFile, sys,
    opening, openFd, quiet, failing, cstring_some z]

/-- **C89, refuted**: a program from `from_program_info` has not been pinned by anybody, but `unpin` fails. -/
theorem C89_info_violated (ty : Nat) :
    (R.run fresh {} [(.load ty, quiet), (.progFromInfo ty 0, quiet), (.progUnpin 1, quiet)]).2
      = [.handle, .handle, .failed (.sys 2)] := by
  simp [R.run, R.step, R.give, R.change, progLoad, progFromInfo, progUnpin, removeFile, sys,
    opening, openFd, quiet, cstring, live, direct]

/-- **C89, refuted**: files are opened as what they are not: a map as a program of any type and as a link, and a
    program as a program of another type, as a map and as a link. -/
theorem C89_kind_violated (p : Path) (z : 0 ∉ p) (other : Option Nat) (ty : Nat) :
    (R.run fresh {} [(.elsewherePin p other, quiet), (.progFromPin ty p, quiet), (.mapFromPin p, quiet),
      (.linkFromPin p, quiet)]).2 = [.done, .handle, .handle, .handle] := by
  simp [R.run, R.step, elsewherePin, R.give, progFromPin, mapFromPin, linkFromPin, sys,
    opening, openFd, quiet, cstring_some z]

/-- **C89, refuted**: for a path with a zero byte, `from_pin` of programs and of links panics; `from_pin` of maps
    and the `pin` functions report it. -/
theorem C89_nul_violated (p : Path) (z : 0 ∈ p) (r : R) (f : Faults) (ty : Nat) :
    (r.step fresh (.progFromPin ty p) f).2 = .failed .panic ∧
    (r.step fresh (.linkFromPin p) f).2 = .failed .panic ∧
    (r.step fresh (.mapFromPin p) f).2 = .failed .invalidPath := by
  simp [R.step, R.give, progFromPin, linkFromPin, mapFromPin, cstring_none z]

example : (0 : UInt8) ∈ ([97, 0, 98] : Path) := by decide

end Verif.Pins
