import Verif.Nested.RaceSpec
import Verif.Nested.Props
import Verif.Handles.Props

set_option linter.unusedSimpArgs false
set_option linter.unusedVariables false

/-!
# C103: maps of maps shared with other threads and processes
-/
namespace Verif.Nested.Race
open Verif Verif.Bytes
open Verif.Handles (Obj Data Env Ty Err Handle fromMapData tryFrom)
open Verif.Handles.Spec (Describes Given)

/-! ## Who is alive -/

theorem alive_iff (w : W) (o : Nat) :
    alive w o = true ↔ (∃ e ∈ w.fds, e.2 = o) ∨ (∃ e ∈ w.table, e.2 = o) ∨ o ∈ w.refs := by
  simp [alive, or_assoc]

structure Inv (w : W) : Prop where
  len : w.ids.length = w.maps.length
  lt : ∀ o, alive w o = true → o < w.maps.length
  id : ∀ o, alive w o = true → idOf w o < 2 ^ 32
  inj : ∀ o p, alive w o = true → alive w p = true → idOf w o = idOf w p → o = p

/-- What can happen: maps are added, and a map nobody refers to is gone for good. -/
structure Grow (w w' : W) : Prop where
  maps : w.maps <+: w'.maps
  ids : w.ids <+: w'.ids
  back : ∀ o, o < w.maps.length → alive w' o = true → alive w o = true

theorem Grow.refl (w : W) : Grow w w := ⟨List.prefix_rfl, List.prefix_rfl, fun _ _ h => h⟩

theorem Grow.trans {a b d : W} (h : Grow a b) (h' : Grow b d) : Grow a d :=
  ⟨h.maps.trans h'.maps, h.ids.trans h'.ids,
    fun o ho ha => h.back o ho (h'.back o (Nat.lt_of_lt_of_le ho h.maps.length_le) ha)⟩

theorem Grow.idOf {w w' : W} (h : Grow w w') (hi : Inv w) {o : Nat} (ho : o < w.maps.length) : idOf w' o = idOf w o := by
  obtain ⟨t, ht⟩ := h.ids
  simp only [Race.idOf, ← ht, List.getD_eq_getElem?_getD]
  rw [List.getElem?_append_left (by rw [hi.len]; exact ho)]

theorem Grow.obj {w w' : W} (h : Grow w w') {o : Nat} (ho : o < w.maps.length) : w'.maps[o]? = w.maps[o]? := by
  obtain ⟨t, ht⟩ := h.maps
  rw [← ht, List.getElem?_append_left ho]

/-- A state with the same maps in which nobody else is referred to. -/
theorem keep_inv {w w' : W} (hi : Inv w) (hm : w'.maps = w.maps) (hd : w'.ids = w.ids)
    (ha : ∀ o, alive w' o = true → alive w o = true) : Inv w' ∧ Grow w w' := by
  have hid : ∀ o, idOf w' o = idOf w o := fun o => by simp only [idOf, hd]
  refine ⟨⟨by rw [hm, hd]; exact hi.len, fun o h => ?_, fun o h => ?_, fun o p h h' e => ?_⟩, ?_, ?_, fun o _ h => ha o h⟩
  · rw [hm]; exact hi.lt o (ha o h)
  · rw [hid]; exact hi.id o (ha o h)
  · rw [hid, hid] at e; exact hi.inj o p (ha o h) (ha p h') e
  · rw [hm]; exact List.prefix_rfl
  · rw [hd]; exact List.prefix_rfl

theorem mem_inUse {w : W} {o : Nat} (h : alive w o = true) : idOf w o ∈ inUse w := by
  rcases (alive_iff w o).mp h with ⟨e, he, rfl⟩ | ⟨e, he, rfl⟩ | hr
  · exact List.mem_map.mpr ⟨e.2, by simp only [List.mem_append]; exact .inl (.inl (List.mem_map.mpr ⟨e, he, rfl⟩)), rfl⟩
  · exact List.mem_map.mpr ⟨e.2, by simp only [List.mem_append]; exact .inl (.inr (List.mem_map.mpr ⟨e, he, rfl⟩)), rfl⟩
  · exact List.mem_map.mpr ⟨o, by simp only [List.mem_append]; exact .inr hr, rfl⟩

/-- A new map. -/
theorem add_inv {c : Conf} (hc : c.Ok) {w w' : W} {o : Obj} {id : Nat} (hi : Inv w)
    (hf : c.freshId w.ids (inUse w) = some id) (hm : w'.maps = w.maps ++ [o]) (hd : w'.ids = w.ids ++ [id])
    (ha : ∀ p, alive w' p = true → alive w p = true ∨ p = w.maps.length) : Inv w' ∧ Grow w w' := by
  obtain ⟨h1, h2⟩ := hc.id_new _ _ _ hf
  have hold : ∀ p, p < w.maps.length → idOf w' p = idOf w p := by
    intro p hp
    simp only [idOf, hd, List.getD_eq_getElem?_getD]
    rw [List.getElem?_append_left (by rw [hi.len]; exact hp)]
  have hnew : idOf w' w.maps.length = id := by
    simp only [idOf, hd, List.getD_eq_getElem?_getD]
    rw [List.getElem?_append_right (by rw [hi.len]; exact Nat.le_refl _), hi.len]
    simp
  have hne : ∀ p, alive w p = true → idOf w' p ≠ id := by
    intro p hp e
    rw [hold p (hi.lt p hp)] at e
    exact h1 (e ▸ mem_inUse hp)
  refine ⟨⟨by simp [hm, hd, hi.len], fun p h => ?_, fun p h => ?_, fun p q h h' e => ?_⟩, ?_, ?_, fun p hp h => ?_⟩
  · rw [hm, List.length_append]
    rcases ha p h with h | rfl
    · have := hi.lt p h; simp; omega
    · simp
  · rcases ha p h with h | rfl
    · rw [hold p (hi.lt p h)]; exact hi.id p h
    · rw [hnew]; exact h2
  · rcases ha p h with hp | rfl <;> rcases ha q h' with hq | rfl
    · rw [hold p (hi.lt p hp), hold q (hi.lt q hq)] at e; exact hi.inj p q hp hq e
    · rw [hnew] at e; exact absurd e (hne p hp)
    · rw [hnew] at e; exact absurd e.symm (hne q hq)
    · rfl
  · rw [hm]; exact List.prefix_append _ _
  · rw [hd]; exact List.prefix_append _ _
  · rcases ha p h with h | rfl
    · exact h
    · exact absurd hp (Nat.lt_irrefl _)

theorem byId_some {w : W} {id o : Nat} (h : byId w id = some o) :
    o < w.maps.length ∧ idOf w o = id ∧ alive w o = true := by
  have hp := List.find?_some h
  have hm := List.mem_of_find?_eq_some h
  simp only [Bool.and_eq_true, decide_eq_true_eq] at hp
  exact ⟨List.mem_range.mp hm, hp.1, hp.2⟩

theorem byId_none {w : W} {id : Nat} (h : byId w id = none) (o : Nat) (ho : o < w.maps.length) (he : idOf w o = id) :
    alive w o = false := by
  have := (List.find?_eq_none.mp h) o (List.mem_range.mpr ho)
  simp only [Bool.and_eq_true, decide_eq_true_eq, not_and] at this
  simpa using this he

theorem byId_alive {w : W} (hi : Inv w) {o : Nat} (ho : alive w o = true) : byId w (idOf w o) = some o := by
  cases h : byId w (idOf w o) with
  | none => have := byId_none h o (hi.lt o ho) rfl; rw [ho] at this; cases this
  | some p =>
    obtain ⟨_, h2, h3⟩ := byId_some h
    rw [hi.inj p o h3 ho h2]

/-- Others keep to the rules. -/
theorem act_inv {c : Conf} (hc : c.Ok) {w : W} (hi : Inv w) (own : List Nat) (a : Act) :
    Inv (act c own w a) ∧ Grow w (act c own w a) := by
  have hsame : Inv w ∧ Grow w w := ⟨hi, Grow.refl w⟩
  have hrefs : ∀ r : List Nat, (∀ o ∈ r, alive w o = true) → Inv { w with refs := r } ∧ Grow w { w with refs := r } := by
    intro r hr
    refine keep_inv hi rfl rfl fun o h => ?_
    rcases (alive_iff _ o).mp h with h | h | h
    · exact (alive_iff _ o).mpr (.inl h)
    · exact (alive_iff _ o).mpr (.inr (.inl h))
    · exact hr o h
  have htable : ∀ t : List (Bytes × Nat), (∀ e ∈ t, alive w e.2 = true) → Inv { w with table := t } ∧ Grow w { w with table := t } := by
    intro t ht
    refine keep_inv hi rfl rfl fun o h => ?_
    rcases (alive_iff _ o).mp h with h | ⟨e, he, rfl⟩ | h
    · exact (alive_iff _ o).mpr (.inl h)
    · exact ht e he
    · exact (alive_iff _ o).mpr (.inr (.inr h))
  have hfds : ∀ t : List (Nat × Nat), (∀ e ∈ t, alive w e.2 = true) → Inv { w with fds := t } ∧ Grow w { w with fds := t } := by
    intro t ht
    refine keep_inv hi rfl rfl fun o h => ?_
    rcases (alive_iff _ o).mp h with ⟨e, he, rfl⟩ | h | h
    · exact ht e he
    · exact (alive_iff _ o).mpr (.inr (.inl h))
    · exact (alive_iff _ o).mpr (.inr (.inr h))
  have inFds : ∀ e ∈ w.fds, alive w e.2 = true := fun e he => (alive_iff _ _).mpr (.inl ⟨e, he, rfl⟩)
  have inTable : ∀ e ∈ w.table, alive w e.2 = true := fun e he => (alive_iff _ _).mpr (.inr (.inl ⟨e, he, rfl⟩))
  have inRefs : ∀ o ∈ w.refs, alive w o = true := fun o ho => (alive_iff _ _).mpr (.inr (.inr ho))
  cases a with
  | create o =>
    rcases e : c.freshId w.ids (inUse w) with _ | id <;> simp only [act, e]
    · exact hsame
    · refine add_inv hc (o := o) hi e rfl rfl fun p h => ?_
      rcases (alive_iff _ p).mp h with h | h | h
      · exact .inl ((alive_iff _ _).mpr (.inl h))
      · exact .inl ((alive_iff _ _).mpr (.inr (.inl h)))
      · rcases List.mem_cons.mp h with rfl | h
        · exact .inr rfl
        · exact .inl (inRefs p h)
  | openId id =>
    rcases e : byId w id with _ | o <;> simp only [act, e]
    · exact hsame
    · refine hrefs _ fun p hp => ?_
      rcases List.mem_cons.mp hp with rfl | hp
      · exact (byId_some e).2.2
      · exact inRefs p hp
  | release o => exact hrefs _ fun p hp => inRefs p (List.mem_of_mem_erase hp)
  | put key o =>
    simp only [act]
    by_cases ha : alive w o = true
    · rw [if_pos ha]
      refine htable _ fun e he => ?_
      rcases List.mem_cons.mp he with rfl | he
      · exact ha
      · exact inTable e ((List.mem_filter.mp he).1)
    · rw [if_neg ha]; exact hsame
  | remove key => exact htable _ fun e he => inTable e ((List.mem_filter.mp he).1)
  | threadCreate o =>
    rcases e : newFd c w with _ | fd <;> rcases e' : c.freshId w.ids (inUse w) with _ | id <;> simp only [act, e, e']
    · exact hsame
    · exact hsame
    · exact hsame
    · refine add_inv hc (o := o) hi e' rfl rfl fun p h => ?_
      rcases (alive_iff _ p).mp h with ⟨x, hx, rfl⟩ | h | h
      · rcases List.mem_cons.mp hx with rfl | hx
        · exact .inr rfl
        · exact .inl (inFds x hx)
      · exact .inl ((alive_iff _ _).mpr (.inr (.inl h)))
      · exact .inl (inRefs p h)
  | threadOpen id =>
    rcases e : newFd c w with _ | fd <;> rcases e' : byId w id with _ | o <;> simp only [act, e, e']
    · exact hsame
    · exact hsame
    · exact hsame
    · refine hfds _ fun x hx => ?_
      rcases List.mem_cons.mp hx with rfl | hx
      · exact (byId_some e').2.2
      · exact inFds x hx
  | threadClose fd =>
    simp only [act]
    by_cases h : own.contains fd = true
    · rw [if_pos h]; exact hsame
    · rw [if_neg h]; exact hfds _ fun x hx => inFds x ((List.mem_filter.mp hx).1)

theorem reach_inv {c : Conf} (hc : c.Ok) {w : W} (h : Reach c w) : Inv w := by
  induction h with
  | init =>
    have hn : ∀ o, alive ({} : W) o = true → False := by simp [alive]
    exact ⟨rfl, fun o h => (hn o h).elim, fun o h => (hn o h).elim, fun o _ h => (hn o h).elim⟩
  | act own a _ ih => exact (act_inv hc ih own a).1

/-- A descriptor of the thread stays what it is. -/
theorem act_fd {c : Conf} (hc : c.Ok) {w : W} {own : List Nat} {fd o : Nat} (ho : fd ∈ own) (h : w.fds.lookup fd = some o)
    (a : Act) : (act c own w a).fds.lookup fd = some o := by
  have hnew : ∀ n p, newFd c w = some n → ((n, p) :: w.fds).lookup fd = some o := by
    intro n p hn
    have hne : fd ≠ n := by
      rintro rfl
      exact (hc.fd_new _ _ hn).1 (List.mem_cons_of_mem _ (List.mem_map.mpr ⟨_, lk_mem h, rfl⟩))
    rw [lk_cons, if_neg hne]; exact h
  cases a with
  | create x => rcases e : c.freshId w.ids (inUse w) with _ | id <;> simp only [act, e] <;> exact h
  | openId id => rcases e : byId w id with _ | p <;> simp only [act, e] <;> exact h
  | release p => exact h
  | put key p => simp only [act]; split <;> exact h
  | remove key => exact h
  | threadCreate x =>
    rcases e : newFd c w with _ | n <;> rcases e' : c.freshId w.ids (inUse w) with _ | id <;> simp only [act, e, e'] <;>
      first | exact h | exact hnew n _ e
  | threadOpen id =>
    rcases e : newFd c w with _ | n <;> rcases e' : byId w id with _ | p <;> simp only [act, e, e'] <;>
      first | exact h | exact hnew n _ e
  | threadClose n =>
    simp only [act]
    by_cases hn : own.contains n = true
    · rw [if_pos hn]; exact h
    · rw [if_neg hn]
      have hne : fd ≠ n := by
        rintro rfl
        exact hn (by simpa using ho)
      rw [lk_filter, if_neg hne]; exact h

/-! ## Turns of others -/

/-- From one state of the thread to a later one, through the states in between. -/
structure Through (s s' : S) : Prop where
  inv : Inv s'.w
  grow : Grow s.w s'.w
  own : s'.own = s.own
  past : s.past <:+ s'.past
  here : s'.w = s.w ∨ s'.w ∈ s'.past
  fds : ∀ fd o, fd ∈ s.own → s.w.fds.lookup fd = some o → s'.w.fds.lookup fd = some o

theorem acts_through {c : Conf} (hc : c.Ok) (l : List Act) : ∀ {s : S}, Inv s.w → Through s (s.acts c l) := by
  induction l with
  | nil => intro s hi; exact ⟨hi, Grow.refl _, rfl, List.suffix_rfl, .inl rfl, fun _ _ _ h => h⟩
  | cons a l ih =>
    intro s hi
    obtain ⟨h1, h2⟩ := act_inv hc hi s.own a
    have := ih (s := s.to (act c s.own s.w a)) h1
    refine ⟨this.inv, h2.trans this.grow, this.own, ?_, ?_, fun fd o ho h => ?_⟩
    · exact (List.suffix_cons _ _).trans this.past
    · rcases this.here with e | h
      · right
        have hm : act c s.own s.w a ∈ (s.to (act c s.own s.w a)).past := List.mem_cons_self
        have := this.past.subset hm
        change (S.acts c l (s.to (act c s.own s.w a))).w ∈ (S.acts c l (s.to (act c s.own s.w a))).past
        rw [e]; exact this
      · exact .inr h
    · exact this.fds fd o ho (act_fd hc ho h a)

theorem pass_through {c : Conf} (hc : c.Ok) {s : S} (hi : Inv s.w) : Through s (s.pass c) := by
  have := acts_through hc (s.next.headD []) (s := { s with next := s.next.tail }) hi
  exact ⟨this.inv, this.grow, this.own, this.past, this.here, this.fds⟩

/-! ## Opening by id -/

theorem typed_ok {env : Env} {ty : Ty} {d : Data} {h : Handle} (ht : typed env ty d = .ok h) :
    h.data = d ∧ Describes env ty d.obj := by
  simp only [typed] at ht
  rcases e : fromMapData d with _ | m
  · rw [e] at ht; cases ht
  · rw [e] at ht
    have hd : m.data = d := by
      simp only [fromMapData] at e
      split at e
      · cases e; rfl
      · cases e
    exact ⟨((Handles.C75_same_map env ty m h ht).2).trans hd, (Handles.C75_accepted env ty d m (.data e)).mp ⟨h, ht⟩⟩

theorem typed_describes {env : Env} {ty : Ty} {d : Data} (hd : Describes env ty d.obj) :
    ∃ h, typed env ty d = .ok h := by
  have hk : 1 ≤ d.obj.mapType ∧ d.obj.mapType ≤ 33 := by
    have := hd.kind
    cases ty <;> simp only [Handles.Spec.kinds, List.mem_cons, List.not_mem_nil, or_false] at this <;> omega
  obtain ⟨m, hm, _⟩ := (Handles.C75_any_kind d).1.mpr hk
  obtain ⟨h, hh⟩ := (Handles.C75_accepted env ty d m (.data hm)).mpr hd
  exact ⟨h, by simp only [typed, hm]; exact hh⟩

/-- What becomes of opening a map by id. -/
inductive Opened (c : Conf) (env : Env) (ty : Ty) (id : Nat) (s s' : S) : Except Error Data → Prop
  | ok (w1 : W) (p : Nat) (d : Data) (hgl : Grow w1 s'.w) (hw1 : w1 = (s.pass c).w) (hw : w1 = s.w ∨ w1 ∈ s'.past) (hg : Grow s.w w1) (hp : byId w1 id = some p)
      (hfd : s'.w.fds.lookup d.fd = some p) (hm : s'.w.maps[p]? = some d.obj) (hd : Describes env ty d.obj)
      (ho : s'.own = [d.fd]) : Opened c env ty id s s' (.ok d)
  | gone (w1 : W) (hw1 : w1 = (s.pass c).w) (hw : w1 = s.w ∨ w1 ∈ s'.past) (hg : Grow s.w w1) (hi : byId w1 id = none) (ho : s'.own = []) :
      Opened c env ty id s s' (.error (.syscall 2))
  | full (w1 : W) (hw1 : w1 = (s.pass c).w) (hw : w1 = s.w ∨ w1 ∈ s'.past) (hg : Grow s.w w1) (hf : newFd c w1 = none) (hp : (byId w1 id).isSome)
      (ho : s'.own = []) : Opened c env ty id s s' (.error (.syscall 24))
  | refused (w1 : W) (p : Nat) (x : Obj) (e : Err) (hgl : Grow w1 s'.w) (hw1 : w1 = (s.pass c).w) (hw : w1 = s.w ∨ w1 ∈ s'.past) (hg : Grow s.w w1)
      (hp : byId w1 id = some p) (hm : s'.w.maps[p]? = some x) (hd : ¬ Describes env ty x) (ho : s'.own = []) :
      Opened c env ty id s s' (.error (.type_ e))

theorem mapFromId_opened {c : Conf} (hc : c.Ok) (env : Env) (ty : Ty) (id : Nat) {s : S} (hi : Inv s.w) (ho : s.own = []) :
    Opened c env ty id s (mapFromId (sys c) env ty id s).2 (mapFromId (sys c) env ty id s).1 ∧
      s.past <:+ (mapFromId (sys c) env ty id s).2.past ∧ Grow s.w (mapFromId (sys c) env ty id s).2.w := by
  have t1 := pass_through hc hi
  have hfd : (sys c).fdById id s = ((openById c id (s.pass c)).1, (openById c id (s.pass c)).2.pass c) := rfl
  rcases e1 : byId (s.pass c).w id with _ | p
  · have eo : openById c id (s.pass c) = (.error 2, s.pass c) := by simp only [openById, e1]
    have t2 := pass_through hc t1.inv
    rw [eo] at hfd
    simp only [mapFromId, hfd]
    refine ⟨.gone (s.pass c).w rfl ?_ t1.grow e1 (by rw [t2.own, t1.own, ho]), t1.past.trans t2.past, t1.grow.trans t2.grow⟩
    rcases t1.here with h | h
    · exact .inl h
    · exact .inr (t2.past.subset h)
  · rcases e2 : newFd c (s.pass c).w with _ | fd
    · have eo : openById c id (s.pass c) = (.error 24, s.pass c) := by simp only [openById, e1, e2]
      have t2 := pass_through hc t1.inv
      rw [eo] at hfd
      simp only [mapFromId, hfd]
      refine ⟨.full (s.pass c).w rfl ?_ t1.grow e2 (by rw [e1]; rfl) (by rw [t2.own, t1.own, ho]), t1.past.trans t2.past,
        t1.grow.trans t2.grow⟩
      rcases t1.here with h | h
      · exact .inl h
      · exact .inr (t2.past.subset h)
    · obtain ⟨b1, b2, b3⟩ := byId_some e1
      have ho1 : (s.pass c).own = [] := t1.own.trans ho
      generalize hs1 : s.pass c = s1 at *
      let s2 : S := { s1.to { s1.w with fds := (fd, p) :: s1.w.fds } with own := [fd] }
      have eo : openById c id s1 = (.ok fd, s2) := by simp only [openById, e1, e2, ho1, s2]
      have h2 : Inv s2.w ∧ Grow s1.w s2.w := by
        refine keep_inv t1.inv rfl rfl fun o h => ?_
        rcases (alive_iff _ o).mp h with ⟨x, hx, rfl⟩ | h | h
        · rcases List.mem_cons.mp hx with rfl | hx
          · exact b3
          · exact (alive_iff _ _).mpr (.inl ⟨x, hx, rfl⟩)
        · exact (alive_iff _ _).mpr (.inr (.inl h))
        · exact (alive_iff _ _).mpr (.inr (.inr h))
      have t3 := pass_through hc (s := s2) h2.1
      have hl2 : s2.w.fds.lookup fd = some p := by
        change ((fd, p) :: s1.w.fds).lookup fd = some p
        rw [lk_cons, if_pos rfl]
      have hl3 : (s2.pass c).w.fds.lookup fd = some p := t3.fds fd p (List.mem_singleton.mpr rfl) hl2
      have hx : ∃ x, s1.w.maps[p]? = some x := ⟨s1.w.maps[p], List.getElem?_eq_getElem b1⟩
      obtain ⟨x, hx⟩ := hx
      have hx3 : (s2.pass c).w.maps[p]? = some x := by
        rw [t3.grow.obj (by exact b1)]; exact hx
      have hinfo : (sys c).info fd (s2.pass c) = .ok x := by simp only [sys, hl3, hx3]
      have hpast : s1.past <:+ (s2.pass c).past := (List.suffix_cons _ _).trans t3.past
      have hwhere : ∀ s' : S, (s2.pass c).past <:+ s'.past → s1.w = s.w ∨ s1.w ∈ s'.past := by
        intro s' hs'
        rcases t1.here with h | h
        · exact .inl h
        · exact .inr (hs'.subset (hpast.subset h))
      rw [eo] at hfd
      simp only [mapFromId, hfd, hinfo]
      rcases et : typed env ty ⟨x, fd⟩ with er | h
      · simp only
        let s4 : S := { (s2.pass c).to { (s2.pass c).w with fds := (s2.pass c).w.fds.filter fun e => e.1 ≠ fd } with
          own := (s2.pass c).own.filter (· ≠ fd) }
        have hcl : (sys c).close fd (s2.pass c) = s4.pass c := rfl
        have h4 : Inv s4.w ∧ Grow (s2.pass c).w s4.w := by
          refine keep_inv t3.inv rfl rfl fun o h => ?_
          rcases (alive_iff _ o).mp h with ⟨y, hy, rfl⟩ | h | h
          · exact (alive_iff _ _).mpr (.inl ⟨y, (List.mem_filter.mp hy).1, rfl⟩)
          · exact (alive_iff _ _).mpr (.inr (.inl h))
          · exact (alive_iff _ _).mpr (.inr (.inr h))
        have t5 := pass_through hc (s := s4) h4.1
        have hp5 : (s2.pass c).past <:+ (s4.pass c).past := (List.suffix_cons _ _).trans t5.past
        have hown : (s4.pass c).own = [] := by
          rw [t5.own]
          change (s2.pass c).own.filter _ = []
          rw [t3.own]
          change [fd].filter _ = []
          simp
        have h35 : Grow (s2.pass c).w (s4.pass c).w := h4.2.trans t5.grow
        rw [hcl]
        refine ⟨.refused s1.w p x er (h2.2.trans (t3.grow.trans h35)) (by rw [hs1]) (hwhere _ hp5) t1.grow e1 ?_ ?_ hown, t1.past.trans (hpast.trans hp5),
          t1.grow.trans (h2.2.trans (t3.grow.trans h35))⟩
        · rw [h35.obj (Nat.lt_of_lt_of_le b1 (h2.2.trans t3.grow).maps.length_le)]; exact hx3
        · intro hd
          obtain ⟨h, hh⟩ := typed_describes (d := ⟨x, fd⟩) hd
          rw [et] at hh; cases hh
      · obtain ⟨hd, hdesc⟩ := typed_ok et
        simp only
        rw [hd]
        exact ⟨.ok s1.w p ⟨x, fd⟩ (h2.2.trans t3.grow) (by rw [hs1]) (hwhere _ List.suffix_rfl) t1.grow e1 hl3 hx3 hdesc (by rw [t3.own]),
          t1.past.trans hpast, t1.grow.trans (h2.2.trans t3.grow)⟩

/-! ## The property -/

theorem id_back {w : W} (hi : Inv w) {o : Nat} (h : alive w o = true) : ofLe (le 4 (idOf w o)) = idOf w o :=
  ofLe_le_of_lt 4 _ (by have := hi.id o h; omega)

theorem table_alive {w : W} {key : Bytes} {o : Nat} (h : w.table.lookup key = some o) : alive w o = true :=
  (alive_iff _ _).mpr (.inr (.inl ⟨_, lk_mem h, rfl⟩))

theorem get_eq {c : Conf} {w : W} (hi : Inv w) (env : Env) (ty : Ty) (p : Place) (others : List (List Act))
    (hp : p.Within c) :
    get c env ty p w others =
      match w.table.lookup p.bytes with
      | none => (.error .keyNotFound, { w, next := others })
      | some o => mapFromId (sys c) env ty (idOf w o) { w, next := others } := by
  rcases e : w.table.lookup p.bytes with _ | o
  · cases p with
    | index i =>
      have : ¬ i.toNat ≥ (outer c).obj.maxEntries := Nat.not_le.mpr hp
      simp only [Place.bytes] at e
      have hl : lookupElem (sys c) (outer c).fd (le 4 i.toNat) 0 { w, next := others } = .error .keyNotFound := by
        simp only [lookupElem, sys, outer, ne_eq, not_true_eq_false, if_false, e]
      simp only [get, aomGet, if_neg this, hl]
    | key k =>
      simp only [Place.bytes] at e
      simp [get, homGet, lookupElem, sys, outer, e]
  · have hb := id_back hi (table_alive e)
    cases p with
    | index i =>
      have : ¬ i.toNat ≥ (outer c).obj.maxEntries := Nat.not_le.mpr hp
      simp only [Place.bytes] at e
      have hl : lookupElem (sys c) (outer c).fd (le 4 i.toNat) 0 { w, next := others } = .ok (le 4 (idOf w o)) := by
        simp only [lookupElem, sys, outer, ne_eq, not_true_eq_false, if_false, e]
      simp only [get, aomGet, if_neg this, hl, hb]
    | key k =>
      simp only [Place.bytes] at e
      have hl : lookupElem (sys c) (outer c).fd k 0 { w, next := others } = .ok (le 4 (idOf w o)) := by
        simp only [lookupElem, sys, outer, ne_eq, not_true_eq_false, if_false, e]
      simp only [get, homGet, hl, hb]

/-- **C103 (what `get` hands out).** Whatever others do meanwhile, the map handed out is open, is described by the type asked for,
    and is the map stored there at the moment of the lookup; or that map was gone before it could be opened, and a map
    created since then was given its id. -/
theorem C103_got (c : Conf) (hc : c.Ok) (env : Env) (ty : Ty) (p : Place) (w : W) (hr : Reach c w) (hp : p.Within c)
    (others : List (List Act)) (d : Data) (h : (get c env ty p w others).1 = .ok d) :
    ∃ o q, w.table.lookup p.bytes = some o ∧ (get c env ty p w others).2.w.fds.lookup d.fd = some q ∧
      (get c env ty p w others).2.w.maps[q]? = some d.obj ∧ Describes env ty d.obj ∧
      (get c env ty p w others).2.own = [d.fd] ∧
      (q = o ∨ w.maps.length ≤ q ∧ idOf (get c env ty p w others).2.w q = idOf w o ∧
        ∃ w' ∈ (get c env ty p w others).2.past, alive w' o = false) := by
  have hi := reach_inv hc hr
  rw [get_eq hi env ty p others hp] at h ⊢
  rcases e : w.table.lookup p.bytes with _ | o
  · rw [e] at h; cases h
  · rw [e] at h
    simp only at h ⊢
    have ha := table_alive e
    obtain ⟨ho, _, hgw⟩ := mapFromId_opened hc env ty (idOf w o) (s := { w, next := others }) hi rfl
    generalize mapFromId (sys c) env ty (idOf w o) { w, next := others } = r at *
    obtain ⟨r1, s'⟩ := r
    simp only at h ho hgw ⊢
    subst h
    cases ho with
    | ok w1 q d hgl hw1 hw hg hq hfd hm hd hown =>
      refine ⟨o, q, rfl, hfd, hm, hd, hown, ?_⟩
      obtain ⟨b1, b2, b3⟩ := byId_some hq
      by_cases hlt : q < w.maps.length
      · left
        have hb := hg.back q hlt b3
        have := hg.idOf hi hlt
        exact hi.inj q o hb ha (this.symm.trans b2)
      · right
        have hw1p : Inv w1 := by rw [hw1]; exact (pass_through hc hi).inv
        have hdead : alive w1 o = false := by
          rcases Bool.eq_false_or_eq_true (alive w1 o) with h | h
          · have := hw1p.inj q o b3 h (b2.trans (hg.idOf hi (hi.lt o ha)).symm)
            exact absurd (this ▸ hi.lt o ha) hlt
          · exact h
        refine ⟨Nat.not_lt.mp hlt, ?_, w1, ?_, hdead⟩
        · rw [hgl.idOf hw1p b1]; exact b2
        · rcases hw with rfl | h
          · rw [ha] at hdead; cases hdead
          · exact h

/-- **C103 (the map stored).** If somebody keeps the stored map meanwhile (it stays stored, say), or if no map created
    meanwhile is given its id, `get` hands out the map that was stored there. -/
theorem C103_stored_partial (c : Conf) (hc : c.Ok) (env : Env) (ty : Ty) (p : Place) (w : W) (hr : Reach c w)
    (hp : p.Within c) (others : List (List Act)) (d : Data) (h : (get c env ty p w others).1 = .ok d) (o : Nat)
    (ho : w.table.lookup p.bytes = some o)
    (hk : (∀ w' ∈ (get c env ty p w others).2.past, alive w' o = true) ∨
      ∀ q, w.maps.length ≤ q → q < (get c env ty p w others).2.w.maps.length →
        idOf (get c env ty p w others).2.w q ≠ idOf w o) :
    (get c env ty p w others).2.w.fds.lookup d.fd = some o ∧ w.maps[o]? = some d.obj ∧ Describes env ty d.obj := by
  have hi := reach_inv hc hr
  obtain ⟨o', q, h1, h2, h3, h4, _, h6⟩ := C103_got c hc env ty p w hr hp others d h
  rw [ho] at h1; cases h1
  have hq : q = o := by
    rcases h6 with h | ⟨hlt, hid, w', hw', hd⟩
    · exact h
    · rcases hk with hk | hk
      · rw [hk w' hw'] at hd; cases hd
      · exact absurd hid (hk q hlt (List.getElem?_eq_some_iff.mp h3).1)
  subst hq
  refine ⟨h2, ?_, h4⟩
  rw [get_eq hi env ty p others hp, ho] at h3
  have := (mapFromId_opened hc env ty (idOf w q) (s := { w, next := others }) hi rfl).2.2
  rw [this.obj (hi.lt q (table_alive ho))] at h3
  exact h3

/-- **C103 (what a failure means).** Nothing was stored there; or the stored map was lost, referred to by nobody, before it could be
    opened; or there was no descriptor left; or the type asked for does not describe the map (which is the stored one, unless
    that was lost). No descriptor stays open. -/
theorem C103_failed (c : Conf) (hc : c.Ok) (env : Env) (ty : Ty) (p : Place) (w : W) (hr : Reach c w) (hp : p.Within c)
    (others : List (List Act)) (e : Error) (h : (get c env ty p w others).1 = .error e) :
    (get c env ty p w others).2.own = [] ∧
    ((e = .keyNotFound ∧ w.table.lookup p.bytes = none) ∨
     ∃ o, w.table.lookup p.bytes = some o ∧
      ((e = .syscall 2 ∧ ∃ w' ∈ (get c env ty p w others).2.past, alive w' o = false) ∨
       (e = .syscall 24 ∧ ∃ w' ∈ w :: (get c env ty p w others).2.past, newFd c w' = none) ∨
       ∃ (err : Err) (q : Nat) (x : Obj), e = .type_ err ∧ (get c env ty p w others).2.w.maps[q]? = some x ∧
        ¬ Describes env ty x ∧ (q = o ∨ ∃ w' ∈ (get c env ty p w others).2.past, alive w' o = false))) := by
  have hi := reach_inv hc hr
  rw [get_eq hi env ty p others hp] at h ⊢
  rcases eo : w.table.lookup p.bytes with _ | o
  · rw [eo] at h
    simp only at h ⊢
    cases h
    exact ⟨trivial, .inl ⟨rfl, trivial⟩⟩
  · rw [eo] at h
    simp only at h ⊢
    have ha := table_alive eo
    obtain ⟨ho, _, hgw⟩ := mapFromId_opened hc env ty (idOf w o) (s := { w, next := others }) hi rfl
    generalize mapFromId (sys c) env ty (idOf w o) { w, next := others } = r at *
    obtain ⟨r1, s'⟩ := r
    simp only at h ho hgw ⊢
    subst h
    cases ho with
    | gone w1 hw1 hw hg hn hown =>
      refine ⟨hown, .inr ⟨o, rfl, .inl ⟨rfl, w1, ?_, ?_⟩⟩⟩
      · rcases hw with rfl | hw
        · have := byId_alive hi ha
          rw [hn] at this; cases this
        · exact hw
      · exact byId_none hn o (Nat.lt_of_lt_of_le (hi.lt o ha) hg.maps.length_le) (hg.idOf hi (hi.lt o ha))
    | full w1 hw1 hw hg hf hq hown =>
      refine ⟨hown, .inr ⟨o, rfl, .inr (.inl ⟨rfl, w1, ?_, hf⟩)⟩⟩
      rcases hw with rfl | hw
      · exact List.mem_cons_self
      · exact List.mem_cons_of_mem _ hw
    | refused w1 q x er hgl hw1 hw hg hq hm hd hown =>
      refine ⟨hown, .inr ⟨o, rfl, .inr (.inr ⟨er, q, x, rfl, hm, hd, ?_⟩)⟩⟩
      obtain ⟨b1, b2, b3⟩ := byId_some hq
      have hw1p : Inv w1 := by rw [hw1]; exact (pass_through hc hi).inv
      rcases Bool.eq_false_or_eq_true (alive w1 o) with h | h
      · exact .inl (hw1p.inj q o b3 h (b2.trans (hg.idOf hi (hi.lt o ha)).symm))
      · right
        refine ⟨w1, ?_, h⟩
        rcases hw with rfl | hw
        · rw [ha] at h; cases h
        · exact hw

/-- **C103 (`get` succeeds).** A map that is stored there and that somebody keeps meanwhile is handed out, if the type asked for
    describes it and there is a descriptor left all the time. -/
theorem C103_succeeds (c : Conf) (hc : c.Ok) (env : Env) (ty : Ty) (p : Place) (w : W) (hr : Reach c w) (hp : p.Within c)
    (others : List (List Act)) (o : Nat) (x : Obj) (ho : w.table.lookup p.bytes = some o) (hx : w.maps[o]? = some x)
    (hd : Describes env ty x) (hk : ∀ w' ∈ (get c env ty p w others).2.past, alive w' o = true)
    (hf : ∀ w' ∈ w :: (get c env ty p w others).2.past, newFd c w' ≠ none) :
    ∃ d, (get c env ty p w others).1 = .ok d ∧ (get c env ty p w others).2.w.fds.lookup d.fd = some o ∧ d.obj = x := by
  have hi := reach_inv hc hr
  rcases e : (get c env ty p w others).1 with er | d
  · exfalso
    obtain ⟨_, h⟩ := C103_failed c hc env ty p w hr hp others er e
    rcases h with ⟨_, h⟩ | ⟨o', h', h⟩
    · rw [ho] at h; cases h
    · rw [ho] at h'; cases h'
      rcases h with ⟨_, w', hw', hdead⟩ | ⟨_, w', hw', hn⟩ | ⟨err, q, y, _, hm, hnd, h⟩
      · rw [hk w' hw'] at hdead; cases hdead
      · exact hf w' hw' hn
      · rcases h with rfl | ⟨w', hw', hdead⟩
        · rw [get_eq hi env ty p others hp, ho] at hm
          have := (mapFromId_opened hc env ty (idOf w q) (s := { w, next := others }) hi rfl).2.2
          rw [this.obj (hi.lt q (table_alive ho)), hx] at hm
          cases hm
          exact hnd hd
        · rw [hk w' hw'] at hdead; cases hdead
  · obtain ⟨h1, h2, _⟩ := C103_stored_partial c hc env ty p w hr hp others d e o ho (.inl hk)
    rw [hx] at h2
    exact ⟨d, rfl, h1, (Option.some.inj h2).symm⟩

/-- **C103 (nothing there).** `get` says that nothing is stored there exactly if nothing is, at the moment of the lookup, and then does
    nothing else. An index that is too large is refused. -/
theorem C103_missing (c : Conf) (hc : c.Ok) (env : Env) (ty : Ty) (p : Place) (w : W) (hr : Reach c w)
    (others : List (List Act)) :
    (p.Within c → ((get c env ty p w others).1 = .error .keyNotFound ↔ w.table.lookup p.bytes = none)) ∧
    (¬ p.Within c → (get c env ty p w others).1 = .error .outOfBounds) ∧
    ((¬ p.Within c ∨ w.table.lookup p.bytes = none) → (get c env ty p w others).2.w = w) := by
  have hi := reach_inv hc hr
  have hout : ¬ p.Within c → get c env ty p w others = (.error .outOfBounds, { w, next := others }) := by
    intro hp
    cases p with
    | index i =>
      have : i.toNat ≥ (outer c).obj.maxEntries := Nat.not_lt.mp hp
      simp only [get, aomGet, if_pos this]
    | key k => exact absurd trivial hp
  refine ⟨fun hp => ⟨fun h => ?_, fun h => ?_⟩, fun hp => by rw [hout hp], fun h => ?_⟩
  · obtain ⟨_, h⟩ := C103_failed c hc env ty p w hr hp others _ h
    rcases h with ⟨_, h⟩ | ⟨o, _, ⟨h, _⟩ | ⟨h, _⟩ | ⟨_, _, _, h, _⟩⟩
    · exact h
    all_goals cases h
  · rw [get_eq hi env ty p others hp, h]
  · by_cases hp : p.Within c
    · rcases h with h | h
      · exact absurd hp h
      · rw [get_eq hi env ty p others hp, h]
    · rw [hout hp]

/-- **C103 (`set` and `insert`).** A map that the map of maps takes is stored there, if there is room, and no other place is changed;
    what others do happens before or after. Otherwise nothing is changed. -/
theorem C103_put (c : Conf) (p : Place) (inner : Data) (w : W) (hp : p.Within c)
    (others : List (List Act)) (o : Nat) (x : Obj) (hfd : inner.fd < 2 ^ 31) (ho : w.fds.lookup inner.fd = some o)
    (hx : w.maps[o]? = some x) :
    ((put c p inner w others).1 = .ok () ↔
      c.takes x = true ∧ (w.table.lookup p.bytes ≠ none ∨ w.table.length < c.size)) ∧
    ((put c p inner w others).1 = .ok () → ∃ w', (put c p inner w others).2.past.getLast? = some w' ∧
      w'.table.lookup p.bytes = some o ∧ (∀ key, key ≠ p.bytes → w'.table.lookup key = w.table.lookup key) ∧
      w'.maps = w.maps ∧ w'.fds = w.fds ∧ w'.refs = w.refs) := by
  have hb : ofLe (le 4 inner.fd) = inner.fd := ofLe_le_of_lt 4 _ (by omega)
  have hput : put c p inner w others =
      Nested.updateElem (sys c) c.outerFd p.bytes (le 4 inner.fd) 0 { w, next := others } := by
    cases p with
    | index i =>
      have : ¬ i.toNat ≥ (outer c).obj.maxEntries := Nat.not_le.mpr hp
      simp only [put, aomSet, if_neg this]
      rfl
    | key k => rfl
  have hu : (sys c).update c.outerFd p.bytes (le 4 inner.fd) 0 { w, next := others } =
      ((updateElem c p.bytes inner.fd { w, next := others }).1,
        (updateElem c p.bytes inner.fd { w, next := others }).2.pass c) := by
    simp only [sys, ne_eq, not_true_eq_false, if_false, hb]
  have hlast : ∀ (l : List Act) (s : S) (w' : W), s.past.getLast? = some w' → (s.acts c l).past.getLast? = some w' := by
    intro l
    induction l with
    | nil => intro s w' h; exact h
    | cons a l ih =>
      intro s w' h
      refine ih (s.to (act c s.own s.w a)) w' ?_
      change (_ :: s.past).getLast? = some w'
      rcases hs : s.past with _ | ⟨y, ys⟩
      · rw [hs] at h; cases h
      · rw [hs] at h; rw [List.getLast?_cons_cons]; exact h
  rw [hput]
  simp only [Nested.updateElem, hu]
  rcases Bool.eq_false_or_eq_true (c.takes x) with ht | ht
  · have hin : innerOf c w inner.fd = .ok o := by simp only [innerOf, ho, hx, ht, if_true]
    by_cases hroom : (w.table.lookup p.bytes).isNone ∧ c.size ≤ w.table.length
    · have hue : updateElem c p.bytes inner.fd { w, next := others } = (.error 7, { w, next := others }) := by
        simp only [updateElem, hin]
        rw [if_pos hroom]
      rw [hue]
      simp only
      refine ⟨⟨(fun h => (nomatch h)), ?_⟩, (fun h => (nomatch h))⟩
      rintro ⟨_, h | h⟩
      · exact absurd (by simpa using hroom.1) h
      · omega
    · have hue : updateElem c p.bytes inner.fd { w, next := others } =
          (.ok (), S.to { w, next := others } { w with table := (p.bytes, o) :: w.table.filter fun e => e.1 ≠ p.bytes }) := by
        simp only [updateElem, hin]
        rw [if_neg hroom]
      rw [hue]
      simp only
      refine ⟨⟨fun _ => ⟨ht, ?_⟩, fun _ => trivial⟩, fun _ =>
        ⟨{ w with table := (p.bytes, o) :: w.table.filter fun e => e.1 ≠ p.bytes }, hlast _ _ _ rfl, ?_, fun key hk => ?_, rfl, rfl, rfl⟩⟩
      · by_cases hl : w.table.length < c.size
        · exact .inr hl
        · left
          intro hn
          exact hroom ⟨by rw [hn]; rfl, Nat.not_lt.mp hl⟩
      · rw [lk_cons, if_pos rfl]
      · simp only
        rw [lk_cons, if_neg hk, lk_filter, if_neg hk]
  · have hin : innerOf c w inner.fd = .error 22 := by simp [innerOf, ho, hx, ht]
    have hue : updateElem c p.bytes inner.fd { w, next := others } = (.error 22, { w, next := others }) := by
      simp only [updateElem, hin]
    rw [hue]
    simp only
    refine ⟨⟨(fun h => (nomatch h)), ?_⟩, (fun h => (nomatch h))⟩
    rintro ⟨h, _⟩
    rw [ht] at h; cases h

/-! ## Cases -/

/-- Ids are given in turn below `n`, those in use are skipped (`idr_alloc_cyclic`; Linux: `n` is `2^31`); descriptors are the least free ones. -/
def cyclic (n : Nat) (given used : List Nat) : Option Nat :=
  ((List.range n).map fun j => (given.getLastD 0 + 1 + j) % n).find? fun i => i != 0 && !used.contains i

/-- At most 64 descriptors. -/
def least (used : List Nat) : Option Nat := ((List.range 61).map (· + 3)).find? fun i => !used.contains i

def conf (n : Nat) : Conf := { outerFd := 3, size := 4, takes := fun _ => true, freshId := cyclic n, freshFd := least }

theorem conf_ok {n : Nat} (hn : n ≤ 2 ^ 32) : (conf n).Ok := by
  constructor
  · intro g u i h
    have h1 := List.find?_some h
    have h2 := List.mem_of_find?_eq_some h
    simp only [Bool.and_eq_true, bne_iff_ne, Bool.not_eq_true', List.contains_eq_mem, decide_eq_false_iff_not] at h1
    obtain ⟨j, hj, rfl⟩ := List.mem_map.mp h2
    have hj := List.mem_range.mp hj
    exact ⟨h1.2, Nat.lt_of_lt_of_le (Nat.mod_lt _ (by omega)) hn⟩
  · intro u i h
    have h1 := List.find?_some h
    have h2 := List.mem_of_find?_eq_some h
    simp only [Bool.not_eq_true', List.contains_eq_mem, decide_eq_false_iff_not] at h1
    obtain ⟨j, hj, rfl⟩ := List.mem_map.mp h2
    have hj := List.mem_range.mp hj
    exact ⟨h1, by omega⟩

/-- A hash map with keys of 4 and values of 8 bytes. -/
def inner : Obj := ⟨1, 4, 8, 16, 0⟩
def ty : Ty := .hashMap 4 8
def env : Env := ⟨true, true, some 2⟩

theorem describes : Describes env ty inner :=
  ⟨by decide, fun n h => by cases h; rfl, fun n h => by cases h; rfl, by decide⟩

/-- States reached by others. -/
def after (c : Conf) (l : List Act) : W := l.foldl (act c []) {}

theorem after_reach (c : Conf) (l : List Act) : Reach c (after c l) := by
  have : ∀ (l : List Act) (w : W), Reach c w → Reach c (l.foldl (act c []) w) := by
    intro l
    induction l with
    | nil => intro w h; exact h
    | cons a l ih => intro w h; exact ih _ (.act [] a h)
  exact this l {} .init

/-- Another process has created two maps and stored the first, which it does not hold any more. -/
def begun (n : Nat) : W := after (conf n) [.create inner, .create inner, .put [7] 0, .release 0]

/-- The map stays stored while others create maps, open and close descriptors. -/
def busy : List (List Act) := [[.threadCreate inner, .openId 1, .put [9] 1], [.threadClose 4, .remove [9], .release 0]]

/-- `get` succeeds in the midst of it (`C103_got`, `C103_stored_partial`, `C103_succeeds`). -/
example : (get (conf 8) env ty (.key [7]) (begun 8) busy).1 = .ok ⟨inner, 5⟩ ∧
    (get (conf 8) env ty (.key [7]) (begun 8) busy).2.w.fds = [(5, 0)] ∧
    (get (conf 8) env ty (.key [7]) (begun 8) busy).2.past.length = 7 ∧
    (∀ w' ∈ (get (conf 8) env ty (.key [7]) (begun 8) busy).2.past, alive w' 0 = true) ∧
    (∀ w' ∈ begun 8 :: (get (conf 8) env ty (.key [7]) (begun 8) busy).2.past, newFd (conf 8) w' ≠ none) := by
  decide +kernel
/-- Nothing is stored there (`C103_missing`, `C103_failed`); the type asked for is another. -/
example : (get (conf 8) env ty (.index 0) (begun 8) busy).1 = .error .keyNotFound ∧
    (get (conf 8) env ty (.index 4) (begun 8) busy).1 = .error .outOfBounds ∧
    (get (conf 8) env (.array 8) (.key [7]) (begun 8) busy).1 = .error (.type_ (.invalidMapType 1)) ∧
    (get (conf 8) env (.array 8) (.key [7]) (begun 8) busy).2.w.fds = [] := by decide +kernel
/-- A map is stored, and somebody else stores another there at once (`C103_put`). -/
example : (put (conf 8) (.index 2) ⟨inner, 4⟩ (act (conf 8) [] (begun 8) (.threadOpen 2)) [[.put [2, 0, 0, 0] 0]]).1 = .ok () ∧
    (put (conf 8) (.index 2) ⟨inner, 4⟩ (act (conf 8) [] (begun 8) (.threadOpen 2)) [[.put [2, 0, 0, 0] 0]]).2.w.table =
      [([2, 0, 0, 0], 0), ([7], 0)] := by decide +kernel

/-- **C103 (a stored map is handed out, refuted).** At every moment a map of the type asked for is stored there, nobody else does
    anything but store another one in its place, and `get` fails: the map looked up is gone when it is opened. -/
theorem C103_gone_violated : ∃ (c : Conf) (env : Env) (ty : Ty) (p : Place) (w : W) (others : List (List Act)),
    c.Ok ∧ Reach c w ∧ p.Within c ∧
    (∀ w' ∈ w :: (get c env ty p w others).2.past, ∃ o x, w'.table.lookup p.bytes = some o ∧ w'.maps[o]? = some x ∧
      Describes env ty x ∧ newFd c w' ≠ none) ∧
    others = [[.put p.bytes 1]] ∧
    (get c env ty p w others).1 = .error (.syscall 2) := by
  refine ⟨conf 8, env, ty, .key [7], begun 8, [[.put [7] 1]], conf_ok (by decide), after_reach _ _, trivial, ?_, rfl,
    by decide +kernel⟩
  intro w' hw'
  have h1 : (begun 8).table.lookup (Place.key [7]).bytes = some 0 ∧ (begun 8).maps[0]? = some inner ∧
      newFd (conf 8) (begun 8) ≠ none := by decide +kernel
  have h2 : ∀ w' ∈ (get (conf 8) env ty (.key [7]) (begun 8) [[.put [7] 1]]).2.past,
      w'.table.lookup (Place.key [7]).bytes = some 1 ∧ w'.maps[1]? = some inner ∧ newFd (conf 8) w' ≠ none := by decide +kernel
  rcases List.mem_cons.mp hw' with rfl | h
  · exact ⟨0, inner, h1.1, h1.2.1, describes, h1.2.2⟩
  · exact ⟨1, inner, (h2 w' h).1, (h2 w' h).2.1, describes, (h2 w' h).2.2⟩

/-! ### Ids that come again -/

/-- Others create a map and give it up, `k` times. -/
def churn (k : Nat) : List Act := (List.range k).flatMap fun j => [.create inner, .release (j + 2)]

/-- The state after that: the first map is gone. -/
def churned (k : Nat) : W :=
  { maps := List.replicate (k + 2) inner, ids := (List.range (k + 2)).map (· + 1), table := [([7], 1)], fds := [], refs := [1] }

theorem cyclic_next {n l : Nat} {g u : List Nat} (hg : g.getLastD 0 = l) (hl : l + 1 < n) (hu : l + 1 ∉ u) :
    cyclic n g u = some (l + 1) := by
  obtain ⟨m, rfl⟩ : ∃ m, n = m + 1 := ⟨n - 1, by omega⟩
  have h : (l + 1 + 0) % (m + 1) = l + 1 := Nat.mod_eq_of_lt hl
  simp only [cyclic, hg, List.range_succ_eq_map, List.map_cons, h]
  rw [List.find?_cons_of_pos]
  simpa using hu

theorem cyclic_wrap {n : Nat} {g u : List Nat} (hn : 2 ≤ n) (hg : g.getLastD 0 + 1 = n) (hu : 1 ∉ u) :
    cyclic n g u = some 1 := by
  obtain ⟨m, rfl⟩ : ∃ m, n = m + 2 := ⟨n - 2, by omega⟩
  have h0 : (m + 2 + 0) % (m + 2) = 0 := by simp
  have h1 : (m + 2 + Nat.succ 0) % (m + 2) = 1 := by
    rw [Nat.add_mod_left]; exact Nat.mod_eq_of_lt (by omega)
  simp only [cyclic, hg, List.range_succ_eq_map, List.map_cons, h0, h1]
  rw [List.find?_cons_of_neg (by simp), List.find?_cons_of_pos]
  simpa using hu

theorem last_ids (k : Nat) : ((List.range (k + 2)).map (· + 1)).getLastD 0 = k + 2 := by
  rw [List.range_succ, List.map_append]
  simp

theorem used (k : Nat) : inUse (churned k) = [2, 2] := by
  have h : idOf (churned k) 1 = 2 := by
    simp only [idOf, churned, List.getD_eq_getElem?_getD, List.getElem?_map]
    rw [List.getElem?_range (by omega)]; rfl
  simp only [inUse, churned, List.map_nil, List.map_cons, List.nil_append, List.cons_append]
  change [idOf (churned k) 1, idOf (churned k) 1] = [2, 2]
  rw [h]

theorem churn_step {n k : Nat} (hk : k + 3 < n) (own : List Nat) :
    act (conf n) own (act (conf n) own (churned k) (.create inner)) (.release (k + 2)) = churned (k + 1) := by
  have hf : (conf n).freshId (churned k).ids (inUse (churned k)) = some (k + 3) := by
    rw [used]
    exact cyclic_next (last_ids k) hk (by simp)
  have hlen : (churned k).maps.length = k + 2 := by simp [churned]
  simp only [act, hf, hlen, List.erase_cons_head, addMap]
  simp only [churned]
  rw [show k + 1 + 2 = (k + 2) + 1 by omega, List.range_succ (n := k + 2), List.replicate_succ' (n := k + 2), List.map_append]
  rfl

/-- The states gone through only store the second map. -/
theorem churn_acts {n : Nat} (k : Nat) (hk : k + 2 < n) (s : S) (hs : s.w = churned 0)
    (hp : ∀ w' ∈ s.past, w'.table = [([7], 1)]) :
    (s.acts (conf n) (churn k)).w = churned k ∧ (s.acts (conf n) (churn k)).own = s.own ∧
      (s.acts (conf n) (churn k)).next = s.next ∧ ∀ w' ∈ (s.acts (conf n) (churn k)).past, w'.table = [([7], 1)] := by
  induction k with
  | zero => exact ⟨hs, rfl, rfl, hp⟩
  | succ k ih =>
    obtain ⟨h1, h2, h3, h4⟩ := ih (by omega)
    have hc : churn (k + 1) = churn k ++ [.create inner, .release (k + 2)] := by
      simp only [churn, List.range_succ, List.flatMap_append, List.flatMap_cons, List.flatMap_nil, List.append_nil]
    have ha : s.acts (conf n) (churn (k + 1)) =
        ((s.acts (conf n) (churn k)).to (act (conf n) (s.acts (conf n) (churn k)).own (s.acts (conf n) (churn k)).w (.create inner))).to
          (act (conf n) (s.acts (conf n) (churn k)).own
            (act (conf n) (s.acts (conf n) (churn k)).own (s.acts (conf n) (churn k)).w (.create inner)) (.release (k + 2))) := by
      simp only [S.acts, hc, List.foldl_append, List.foldl_cons, List.foldl_nil]
      rfl
    have hst := churn_step (n := n) (k := k) (by omega) (s.acts (conf n) (churn k)).own
    rw [ha, h1, hst]
    have ht : (act (conf n) (s.acts (conf n) (churn k)).own (churned k) (.create inner)).table = [([7], 1)] := by
      simp only [act]; split <;> rfl
    refine ⟨rfl, h2, h3, ?_⟩
    intro w' hw'
    rcases List.mem_cons.mp hw' with rfl | hw'
    · rfl
    · rcases List.mem_cons.mp hw' with rfl | hw'
      · exact ht
      · exact h4 w' hw'

theorem begun_eq {n : Nat} (hn : 3 ≤ n) :
    begun n = { maps := [inner, inner], ids := [1, 2], table := [([7], 0)], fds := [], refs := [1] } := by
  have h1 : act (conf n) [] {} (.create inner) = { maps := [inner], ids := [1], refs := [0] } := by
    have : (conf n).freshId ({} : W).ids (inUse {}) = some 1 := cyclic_next (l := 0) rfl (by omega) (by simp [inUse])
    simp only [act, this]; rfl
  have h2 : act (conf n) [] { maps := [inner], ids := [1], refs := [0] } (.create inner) =
      { maps := [inner, inner], ids := [1, 2], refs := [1, 0] } := by
    have : (conf n).freshId [1] (inUse { maps := [inner], ids := [1], refs := [0] }) = some 2 :=
      cyclic_next (l := 1) rfl (by omega) (by decide)
    simp only [act, this]; rfl
  simp only [begun, after, List.foldl_cons, List.foldl_nil, h1, h2]
  rfl

/-- **C103 (a map handed out was stored, refuted).** With ids that are given in turn below `n`, as Linux does with `n = 2^31`: between
    the lookup and the opening others store another map there and create maps until the id comes again. `get` succeeds and
    hands out a map that was stored nowhere at any moment. -/
theorem C103_reused_violated (n : Nat) (h4 : 4 ≤ n) (hn : n ≤ 2 ^ 32) :
    ∃ (env : Env) (ty : Ty) (p : Place) (w : W) (others : List (List Act)) (d : Data) (q : Nat),
      (conf n).Ok ∧ Reach (conf n) w ∧ p.Within (conf n) ∧ (get (conf n) env ty p w others).1 = .ok d ∧
      (get (conf n) env ty p w others).2.w.fds.lookup d.fd = some q ∧
      ∀ w' ∈ w :: (get (conf n) env ty p w others).2.past, ∀ e ∈ w'.table, e.2 ≠ q := by
  have hc := conf_ok hn
  have hr : Reach (conf n) (begun n) := after_reach _ _
  have hi := reach_inv hc hr
  let l : List Act := .put [7] 1 :: (churn (n - 3) ++ [.create inner])
  let s0 : S := { w := begun n, next := [l] }
  -- the turn of the others
  let sa : S := { w := churned 0, own := [], next := [], past := [churned 0] }
  have hput : act (conf n) [] (begun n) (.put [7] 1) = churned 0 := by rw [begun_eq (by omega)]; rfl
  obtain ⟨c1, c2, c3, c4⟩ := churn_acts (n := n) (n - 3) (by omega) sa rfl (by
    intro w' hw'
    rcases List.mem_singleton.mp hw' with rfl
    rfl)
  let sb : S := sa.acts (conf n) (churn (n - 3))
  let w1 : W := act (conf n) sb.own sb.w (.create inner)
  have hpass : s0.pass (conf n) = sb.to w1 := by
    have h1 : s0.pass (conf n) =
        (S.to { w := begun n, own := [], next := [], past := [] } (act (conf n) [] (begun n) (.put [7] 1))).acts (conf n)
          (churn (n - 3) ++ [.create inner]) := rfl
    rw [h1, hput]
    simp only [S.acts, List.foldl_append, List.foldl_cons, List.foldl_nil]
    rfl
  have hlen : (churned (n - 3)).maps.length = n - 1 := by simp [churned]; omega
  have hfresh : (conf n).freshId (churned (n - 3)).ids (inUse (churned (n - 3))) = some 1 := by
    rw [used]
    exact cyclic_wrap (by omega) (by have h := last_ids (n - 3); change (churned (n - 3)).ids.getLastD 0 = _ at h; omega) (by simp)
  have hw1 : w1 = { addMap inner 1 (churned (n - 3)) with refs := [n - 1, 1] } := by
    change act (conf n) sb.own sb.w (.create inner) = _
    rw [show sb.w = churned (n - 3) from c1]
    simp only [act, hfresh, hlen]
    rfl
  have hinv1 : Inv w1 := by
    have := (pass_through hc (s := s0) hi).inv
    rw [hpass] at this; exact this
  have hal : alive w1 (n - 1) = true := by
    rw [hw1]; exact (alive_iff _ _).mpr (.inr (.inr List.mem_cons_self))
  have hid : idOf w1 (n - 1) = 1 := by
    have hl : (churned (n - 3)).ids.length = n - 1 := by simp [churned]; omega
    rw [hw1]
    simp only [idOf, addMap, List.getD_eq_getElem?_getD]
    rw [List.getElem?_append_right (by omega), hl]
    simp
  have hby : byId w1 1 = some (n - 1) := by have := byId_alive hinv1 hal; rw [hid] at this; exact this
  have hnew : newFd (conf n) w1 = some 4 := by
    rw [hw1]
    change least [3] = some 4
    decide
  have hobj : w1.maps[n - 1]? = some inner := by
    rw [hw1]
    simp only [addMap]
    rw [List.getElem?_append_right (by omega), hlen]
    simp
  have hnext : sb.next = [] := c3
  have hown : sb.own = [] := c2
  let s2 : S := { (sb.to w1).to { w1 with fds := [(4, n - 1)] } with own := [4] }
  have hfds : w1.fds = [] := by rw [hw1]; rfl
  have hopen : openById (conf n) 1 (s0.pass (conf n)) = (.ok 4, s2) := by
    rw [hpass]
    have e1 : (sb.to w1).w = w1 := rfl
    have e2 : (sb.to w1).own = [] := hown
    simp only [openById, e1, hby, hnew, e2, hfds, s2]
  have hp2 : s2.pass (conf n) = s2 := by
    have : s2.next = [] := hnext
    simp only [S.pass, this, List.headD_nil, List.tail_nil, S.acts, List.foldl_nil]
    rw [← this]
  have hget : get (conf n) env ty (.key [7]) (begun n) [l] = (.ok ⟨inner, 4⟩, s2) := by
    rw [get_eq hi env ty (.key [7]) [l] trivial]
    have hlk : (begun n).table.lookup (Place.key [7]).bytes = some 0 := by rw [begun_eq (by omega)]; rfl
    have hid0 : idOf (begun n) 0 = 1 := by rw [begun_eq (by omega)]; rfl
    have hfd : (sys (conf n)).fdById 1 s0 = (.ok 4, s2) := by
      change ((openById (conf n) 1 (s0.pass (conf n))).1, (openById (conf n) 1 (s0.pass (conf n))).2.pass (conf n)) = _
      rw [hopen]
      simp only [hp2]
    have hinfo : (sys (conf n)).info 4 s2 = .ok inner := by
      have e1 : s2.w.fds.lookup 4 = some (n - 1) := rfl
      have e2 : s2.w.maps[n - 1]? = some inner := hobj
      simp only [sys, e1, e2]
    have ht : typed env ty ⟨inner, 4⟩ = .ok ⟨ty, ⟨inner, 4⟩, 0⟩ := by decide
    rw [hlk]
    simp only [hid0, mapFromId]
    rw [show ({ w := begun n, next := [l] } : S) = s0 from rfl, hfd]
    simp only [hinfo, ht]
  refine ⟨env, ty, .key [7], begun n, [l], ⟨inner, 4⟩, n - 1, hc, hr, trivial, by rw [hget], by rw [hget]; rfl, ?_⟩
  rw [hget]
  have htab : ∀ w' : W, w'.table = [([7], 1)] → ∀ e ∈ w'.table, e.2 ≠ n - 1 := by
    intro w' h e he
    rw [h] at he
    rcases List.mem_singleton.mp he with rfl
    change 1 ≠ n - 1
    omega
  intro w' hw'
  rcases List.mem_cons.mp hw' with rfl | hw'
  · rw [begun_eq (by omega)]
    intro e he
    rcases List.mem_singleton.mp he with rfl
    change 0 ≠ n - 1
    omega
  · have hw1t : w1.table = [([7], 1)] := by rw [hw1]; rfl
    rcases List.mem_cons.mp hw' with rfl | hw'
    · exact htab _ hw1t
    · rcases List.mem_cons.mp hw' with rfl | hw'
      · exact htab _ hw1t
      · exact htab _ (c4 w' hw')

/-! ## Descriptors of maps that are not handed out

Whatever the system answers: the map behind an id can go, or be refused to be described, after it was opened. -/

/-- An id is opened at most once; what was opened is in the map that is returned, or is closed. -/
structure Kept {σ : Type} (C : Sys σ) (id : Nat) (s : σ) (r : Except Error Data × σ) : Prop where
  /-- the id could not be opened -/
  refused : ∀ e s', C.fdById id s = (.error e, s') → r = (.error (.syscall e), s')
  /-- it was, and a map was handed out -/
  given : ∀ fd s' d, C.fdById id s = (.ok fd, s') → r.1 = .ok d → d.fd = fd ∧ r.2 = s' ∧ C.info fd s' = .ok d.obj
  /-- it was, and no map was handed out -/
  closed : ∀ fd s' e, C.fdById id s = (.ok fd, s') → r.1 = .error e → r.2 = C.close fd s'

theorem tryFrom_data {env : Env} {ty : Ty} {d : Data} {h : Handle} (e : typed env ty d = .ok h) : h.data = d := by
  simp only [typed] at e
  split at e
  · cases e
  · rename_i m em
    have hm : m.data = d := by
      simp only [fromMapData] at em
      split at em <;> first | (cases em; done) | (cases em; rfl)
    rw [← hm]
    simp only [tryFrom] at e
    split at e
    · simp only [Handles.new, Handles.newStackTrace] at e
      (repeat' split at e) <;> first | (cases e; done) | (cases e; rfl) | skip
    · cases e

theorem mapFromId_kept {σ : Type} (C : Sys σ) (env : Env) (ty : Ty) (id : Nat) (s : σ) : Kept C id s (mapFromId C env ty id s) := by
  constructor
  · intro e s' h
    simp only [mapFromId, h]
  · intro fd s' d h hr
    simp only [mapFromId, h] at hr ⊢
    rcases hi : C.info fd s' with e | o
    · simp only [hi] at hr; cases hr
    · simp only [hi] at hr ⊢
      rcases ht : typed env ty ⟨o, fd⟩ with e | x
      · simp only [ht] at hr; cases hr
      · simp only [ht, Except.ok.injEq] at hr ⊢
        have := tryFrom_data ht
        subst hr
        rw [this]
        simp
  · intro fd s' e h hr
    simp only [mapFromId, h] at hr ⊢
    rcases hi : C.info fd s' with e | o
    · simp only
    · simp only [hi] at hr ⊢
      rcases ht : typed env ty ⟨o, fd⟩ with e | x
      · simp only
      · simp only [ht] at hr; cases hr

/-- **C103** (nothing is leaked). Whatever the system does between the calls, the descriptor of an inner map that `get` opened is the descriptor
of the map it returns, and is closed if it returns none: if the map cannot be described, or is not what it is taken for. -/
theorem C103_closed {σ : Type} (C : Sys σ) (env : Env) (ty : Ty) (outer : Data) (s : σ) :
    (∀ (index : BitVec 32) v, index.toNat < outer.obj.maxEntries → C.lookup outer.fd (le 4 index.toNat) 0 s = .ok v →
      Kept C (ofLe v) s (aomGet C env ty outer index s)) ∧
    (∀ (key : Bytes) v, C.lookup outer.fd key 0 s = .ok v → Kept C (ofLe v) s (homGet C env ty outer key s)) := by
  constructor
  · intro index v hb hv
    have : aomGet C env ty outer index s = mapFromId C env ty (ofLe v) s := by
      simp only [aomGet, if_neg (Nat.not_le.mpr hb), lookupElem, hv]
    rw [this]
    exact mapFromId_kept ..
  · intro key v hv
    have : homGet C env ty outer key s = mapFromId C env ty (ofLe v) s := by
      simp only [homGet, lookupElem, hv]
    rw [this]
    exact mapFromId_kept ..

/-- A system which opens an id and refuses to describe it, and counts what is open. -/
def shy : Sys Nat where
  create _ n := (.error 1, n)
  lookup _ _ _ _ := .ok (le 4 9)
  update _ _ _ _ n := (.ok (), n)
  delete _ _ n := (.ok (), n)
  fdById _ n := (.ok 5, n + 1)
  info _ _ := .error 13
  close _ n := n - 1

example (env : Env) (ty : Ty) : shy.lookup 3 [7] 0 4 = .ok (le 4 9) ∧ shy.fdById 9 4 = (.ok 5, 5) ∧
    homGet shy env ty ⟨⟨13, 1, 4, 8, 0⟩, 3⟩ [7] 4 = (.error (.syscall 13), 4) := ⟨rfl, rfl, rfl⟩

end Verif.Nested.Race
