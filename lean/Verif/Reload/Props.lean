import Verif.Reload.Spec
/-!
# C112: loading again, by many processes
-/
namespace Verif.Reload

/-- Pins of a kernel: one map for a path, one path for a map, and the maps are there. -/
structure G (k : Kernel) : Prop where
  path : ∀ x ∈ k.pins, ∀ y ∈ k.pins, x.1 = y.1 → x = y
  id : ∀ x ∈ k.pins, ∀ y ∈ k.pins, x.2 = y.2 → x = y
  there : ∀ x ∈ k.pins, x.2 < k.maps.length

/-- What others can do, seen by process `p`. -/
structure Ext (p : Nat) (k k' : Kernel) : Prop where
  pins : ∀ x ∈ k.pins, x ∈ k'.pins
  maps : ∀ (i : Nat) (m : KMap), k.maps[i]? = some m → ∃ m', k'.maps[i]? = some m' ∧ m'.owner = m.owner ∧ m'.size = m.size ∧
    (m.owner = p → (∀ path, (path, i) ∉ k'.pins) → m'.frozen = m.frozen)
  new : ∀ x ∈ k'.pins, x ∈ k.pins ∨ ∃ m, k'.maps[x.2]? = some m ∧ m.owner ≠ p
  good : G k'

theorem ext_refl {p : Nat} {k : Kernel} (h : G k) : Ext p k k := ⟨fun _ h => h, fun _ m h => ⟨m, h, rfl, rfl, fun _ _ => rfl⟩, fun _ h => .inl h, h⟩

theorem Ext.trans {p : Nat} {a b c : Kernel} (h1 : Ext p a b) (h2 : Ext p b c) : Ext p a c := by
  refine ⟨fun x h => h2.pins x (h1.pins x h), fun i m h => ?_, fun x h => ?_, h2.good⟩
  · obtain ⟨m1, e1, o1, s1, f1⟩ := h1.maps i m h
    obtain ⟨m2, e2, o2, s2, f2⟩ := h2.maps i m1 e1
    exact ⟨m2, e2, o2.trans o1, s2.trans s1, fun ho hu => (f2 (o1.trans ho) hu).trans (f1 ho fun path hp => hu path (h2.pins _ hp))⟩
  · rcases h2.new x h with h | h
    · rcases h1.new x h with h | ⟨m, h, ho⟩
      · exact .inl h
      · obtain ⟨m', e, o, _⟩ := h2.maps _ m h
        exact .inr ⟨m', e, by rw [o]; exact ho⟩
    · exact .inr h

def Unpinned (fd : Nat) (k : Kernel) : Prop := ∀ path, (path, fd) ∉ k.pins

/-- What processes do: pin what they created, and write to what is pinned at certain paths, or what they
    created and is pinned nowhere. -/
def Allowed (p : Nat) (D : Path → Prop) (k : Kernel) : Call → Prop
  | .pin fd _ => (∃ m, k.maps[fd]? = some m ∧ m.owner = p ∧ m.frozen = false) ∧ Unpinned fd k
  | .update fd _ => (∃ path, D path ∧ (path, fd) ∈ k.pins) ∨ ((∃ m, k.maps[fd]? = some m ∧ m.owner = p) ∧ Unpinned fd k)
  | .freeze fd => (∃ path, D path ∧ (path, fd) ∈ k.pins) ∨ ((∃ m, k.maps[fd]? = some m ∧ m.owner = p) ∧ Unpinned fd k)
  | _ => True

/-- Whatever others do between its calls, and whichever of these fail, the process does what is allowed and ends as it should. -/
def Safe {α : Type} (p : Nat) (D : Path → Prop) (Q : α → Kernel → Prop) : P α → Kernel → Prop
  | .ret a, k => Q a k
  | .call c f, k => ∀ k', Ext p k k' → Allowed p D k' c ∧ Safe p D Q (f (k'.act p c).1) (k'.act p c).2 ∧ ∀ e, Safe p D Q (f (.error e)) k'

variable {α β : Type} {p : Nat} {D : Path → Prop}

theorem safe_ext {Q : α → Kernel → Prop} (hQ : ∀ a k k', Q a k → Ext p k k' → Q a k') (x : P α) {k k' : Kernel} (h : Safe p D Q x k)
    (he : Ext p k k') : Safe p D Q x k' := by
  cases x with
  | ret a => exact hQ a k k' h he
  | call c f => exact fun k'' h' => h k'' (he.trans h')

theorem safe_bind {Q : α → Kernel → Prop} {R : β → Kernel → Prop} (f : α → P β) (hf : ∀ a k, Q a k → Safe p D R (f a) k) :
    ∀ (x : P α) (k : Kernel), Safe p D Q x k → Safe p D R (x.bind f) k := by
  intro x
  induction x with
  | ret a => exact fun k h => hf a k h
  | call c g ih =>
    intro k h k' he
    obtain ⟨h1, h2, h3⟩ := h k' he
    exact ⟨h1, ih _ _ h2, fun e => ih _ _ (h3 e)⟩

theorem safe_weaken {Q R : α → Kernel → Prop} (hQ : ∀ a k, Q a k → R a k) : ∀ (x : P α) (k : Kernel), Safe p D Q x k → Safe p D R x k := by
  intro x
  induction x with
  | ret a => exact fun k h => hQ a k h
  | call c g ih => exact fun k h k' he => ⟨(h k' he).1, ih _ _ (h k' he).2.1, fun e => ih _ _ ((h k' he).2.2 e)⟩

/-- A result that matters only if it is not an error. -/
def OnOk (Q : α → Kernel → Prop) (r : Except Err α) (k : Kernel) : Prop := ∀ a, r = .ok a → Q a k

theorem safe_ok {Q : α → Kernel → Prop} {R : β → Kernel → Prop} {f : α → P (Except Err β)} (hf : ∀ a k, Q a k → Safe p D (OnOk R) (f a) k)
    {x : P (Except Err α)} {k : Kernel} (h : Safe p D (OnOk Q) x k) : Safe p D (OnOk R) (x.ok f) k := by
  refine safe_bind _ (fun r k h => ?_) x k h
  cases r with
  | ok a => exact hf a k (h a rfl)
  | error e => exact fun _ h => by cases h

theorem safe_ret {Q : α → Kernel → Prop} {a : α} {k : Kernel} (h : Q a k) : Safe p D (OnOk Q) (.ret (.ok a)) k := fun _ e => by cases e; exact h

theorem safe_err {Q : α → Kernel → Prop} {e : Err} {k : Kernel} : Safe p D (OnOk Q) (.ret (.error e)) k := fun _ h => by cases h

/-- Created by the process, and pinned nowhere. -/
def Mine (p : Nat) (fd : Fd) (k : Kernel) : Prop := (∃ m, k.maps[fd]? = some m ∧ m.owner = p) ∧ Unpinned fd k

theorem mine_ext {fd : Fd} {k k' : Kernel} (h : Mine p fd k) (he : Ext p k k') : Mine p fd k' := by
  obtain ⟨⟨m, hm, ho⟩, hu⟩ := h
  obtain ⟨m', hm', ho', _⟩ := he.maps fd m hm
  refine ⟨⟨m', hm', ho'.trans ho⟩, fun path hp => ?_⟩
  rcases he.new _ hp with h | ⟨m2, h2, ho2⟩
  · exact hu path h
  · rw [hm'] at h2
    cases h2
    exact ho2 (ho'.trans ho)

/-- And not frozen. -/
def Fresh (p : Nat) (fd : Fd) (k : Kernel) : Prop := (∃ m, k.maps[fd]? = some m ∧ m.owner = p ∧ m.frozen = false) ∧ Unpinned fd k

theorem Fresh.mine {fd : Fd} {k : Kernel} (h : Fresh p fd k) : Mine p fd k := by
  obtain ⟨⟨m, h1, h2, _⟩, hu⟩ := h
  exact ⟨⟨m, h1, h2⟩, hu⟩

theorem fresh_ext {fd : Fd} {k k' : Kernel} (h : Fresh p fd k) (he : Ext p k k') : Fresh p fd k' := by
  have hu := (mine_ext h.mine he).2
  obtain ⟨⟨m, hm, ho, hf⟩, _⟩ := h
  obtain ⟨m', hm', ho', _, hf'⟩ := he.maps fd m hm
  exact ⟨⟨m', hm', ho'.trans ho, (hf' ho hu).trans hf⟩, hu⟩

/-- What a map of the object is for the process: what is pinned at its path, or a map of its own. -/
def Got (p : Nat) (m : MapDef) (fd : Fd) (k : Kernel) : Prop :=
  (∀ path, m.pin = some path → (path, fd) ∈ k.pins) ∧ (m.pin = none → Mine p fd k)

theorem got_ext {m : MapDef} {fd : Fd} {k k' : Kernel} (h : Got p m fd k) (he : Ext p k k') : Got p m fd k' :=
  ⟨fun path hp => he.pins _ (h.1 path hp), fun hn => mine_ext (h.2 hn) he⟩

theorem create_mine {k : Kernel} (h : G k) (size : Nat) (i : Option Fd) : Fresh p k.maps.length (k.act p (.create size i)).2 := by
  refine ⟨⟨_, by simp only [Kernel.act]; exact List.getElem?_concat_length, rfl, rfl⟩, fun path hp => ?_⟩
  exact absurd (h.there _ hp) (Nat.lt_irrefl _)

theorem create_safe (size : Nat) (i : Option Fd) (k : Kernel) : Safe p D (OnOk (Fresh p)) (create size i) k := fun _ he =>
  ⟨trivial, safe_ret (create_mine he.good size i), fun _ => safe_err⟩

theorem createAll_safe (m : MapDef) (k : Kernel) : Safe p D (OnOk (Fresh p)) (createAll m) k := by
  simp only [createAll]
  split
  · exact create_safe _ _ _
  · exact safe_ok (fun _ _ _ => create_safe _ _ _) (create_safe _ _ _)

theorem act_pin (p : Nat) (k : Kernel) (fd : Fd) (path : Path) :
    (∃ e, k.act p (.pin fd path) = (.error e, k)) ∨
      ((∀ x ∈ k.pins, x.1 ≠ path) ∧ fd < k.maps.length ∧ k.act p (.pin fd path) = (.ok 0, { k with pins := (path, fd) :: k.pins })) := by
  by_cases h : k.pins.any (fun x => x.1 == path) = true
  · exact .inl ⟨17, by simp only [Kernel.act]; rw [if_pos h]⟩
  · by_cases h' : fd < k.maps.length
    · refine .inr ⟨fun x hx e => h (List.any_eq_true.2 ⟨x, hx, by simp [e]⟩), h', by simp only [Kernel.act]; rw [if_neg h, if_pos h']⟩
    · exact .inl ⟨9, by simp only [Kernel.act]; rw [if_neg h, if_neg h']⟩

theorem act_update (p : Nat) (k : Kernel) (fd : Fd) (v : List UInt8) :
    (∃ e, k.act p (.update fd v) = (.error e, k)) ∨
      ∃ m, k.maps[fd]? = some m ∧ m.frozen = false ∧
        k.act p (.update fd v) = (.ok 0, { k with maps := k.maps.set fd { m with content := v } }) := by
  simp only [Kernel.act]
  cases h : k.maps[fd]? with
  | none => exact .inl ⟨_, rfl⟩
  | some m =>
    dsimp only
    cases hf : m.frozen with
    | true => exact .inl ⟨_, rfl⟩
    | false => exact .inr ⟨m, rfl, hf, by simp [hf]⟩

theorem act_freeze (p : Nat) (k : Kernel) (fd : Fd) :
    (∃ e, k.act p (.freeze fd) = (.error e, k)) ∨
      ∃ m, k.maps[fd]? = some m ∧ k.act p (.freeze fd) = (.ok 0, { k with maps := k.maps.set fd { m with frozen := true } }) := by
  simp only [Kernel.act]
  cases h : k.maps[fd]? with
  | none => exact .inl ⟨_, rfl⟩
  | some m =>
    dsimp only
    cases hf : m.frozen with
    | true => exact .inl ⟨_, rfl⟩
    | false => exact .inr ⟨m, rfl, by simp⟩

theorem act_get (p : Nat) (k : Kernel) (path : Path) :
    (k.act p (.get path) = (.error 2, k) ∧ ∀ x ∈ k.pins, x.1 ≠ path) ∨ ∃ id, (path, id) ∈ k.pins ∧ k.act p (.get path) = (.ok id, k) := by
  simp only [Kernel.act]
  cases h : k.pins.find? (fun x => x.1 == path) with
  | none => exact .inl ⟨rfl, fun x hx e => by have := List.find?_eq_none.1 h x hx; simp [e] at this⟩
  | some x =>
    have h1 := List.mem_of_find?_eq_some h
    have h2 := List.find?_some h
    simp only [beq_iff_eq] at h2
    exact .inr ⟨x.2, by rw [← h2]; exact h1, rfl⟩

theorem pin_safe {fd : Fd} {path : Path} {k : Kernel} (h : Fresh p fd k) : Safe p D (OnOk (fun fd k => (path, fd) ∈ k.pins)) (pin fd path) k := by
  intro k' he
  have h := fresh_ext h he
  refine ⟨h, ?_, fun _ => safe_err⟩
  rcases act_pin p k' fd path with ⟨e, ha⟩ | ⟨_, _, ha⟩
  · rw [ha]; exact safe_err
  · rw [ha]; exact safe_ret (List.mem_cons_self ..)

theorem createPinned_safe (path : Path) (m : MapDef) (k : Kernel) : Safe p D (OnOk (fun fd k => (path, fd) ∈ k.pins)) (createPinned path m) k := by
  intro k' he
  refine ⟨trivial, ?_, fun _ => safe_ok (fun _ _ h => pin_safe h) (createAll_safe m _)⟩
  rcases act_get p k' path with ⟨ha, _⟩ | ⟨id, hid, ha⟩
  · rw [ha]; exact safe_ok (fun _ _ h => pin_safe h) (createAll_safe m _)
  · rw [ha]; exact safe_ret hid

/-- Data sections are pinned only at the given paths. -/
def Sections (D : Path → Prop) (m : MapDef) : Prop := m.section = true → ∀ path, m.pin = some path → D path

theorem got_allowed {m : MapDef} {fd : Fd} {k : Kernel} (h : Got p m fd k) (hs : m.section = true) (hD : Sections D m) :
    (∃ path, D path ∧ (path, fd) ∈ k.pins) ∨ ((∃ m, k.maps[fd]? = some m ∧ m.owner = p) ∧ Unpinned fd k) := by
  cases hp : m.pin with
  | none => exact .inr (h.2 hp)
  | some path => exact .inl ⟨path, hD hs path hp, h.1 path hp⟩

theorem getElem?_set_or (l : List KMap) (i j : Nat) (m x : KMap) (h : l[i]? = some m) :
    (l.set i x)[j]? = if i = j then some x else l[j]? := by
  rw [List.getElem?_set]
  split
  · rename_i e
    have : i < l.length := by exact (List.getElem?_eq_some_iff.1 h).1
    rw [if_pos this]
  · rfl

/-- Changing the content of a map does not matter for who has it. -/
theorem got_set {m : MapDef} {fd i : Fd} {k : Kernel} {a b : KMap} (h : Got p m fd k) (ha : k.maps[i]? = some a) (ho : b.owner = a.owner) :
    Got p m fd { k with maps := k.maps.set i b } := by
  refine ⟨h.1, fun hn => ?_⟩
  obtain ⟨⟨x, hx, hxo⟩, hu⟩ := h.2 hn
  refine ⟨?_, hu⟩
  rw [getElem?_set_or _ _ _ _ _ ha]
  split
  · rename_i e
    subst e
    rw [ha] at hx
    cases hx
    exact ⟨b, rfl, ho.trans hxo⟩
  · exact ⟨x, hx, hxo⟩

theorem freeze_safe {m : MapDef} {fd : Fd} {k : Kernel} (hD : Sections D m) (h : Got p m fd k) :
    Safe p D (OnOk (Got p m)) (freezeIf m fd) k := by
  simp only [freezeIf]
  split
  · rename_i hr
    intro k' he
    have h := got_ext h he
    refine ⟨got_allowed h (by simp [MapDef.section, hr]) hD, ?_, fun _ => safe_err⟩
    rcases act_freeze p k' fd with ⟨e, ha⟩ | ⟨a, ha, hk⟩
    · rw [ha]; exact safe_err
    · rw [hk]; exact safe_ret (got_set h ha rfl)
  · exact safe_ret h

theorem finalize_safe {m : MapDef} {fd : Fd} {k : Kernel} (hD : Sections D m) (h : Got p m fd k) :
    Safe p D (OnOk (Got p m)) (finalize m fd) k := by
  simp only [finalize]
  split
  · exact freeze_safe hD h
  · rename_i hr
    intro k' he
    have h := got_ext h he
    refine ⟨got_allowed h (by simp [MapDef.section, hr]) hD, ?_, fun _ => safe_err⟩
    rcases act_update p k' fd m.data with ⟨e, ha⟩ | ⟨a, ha, _, hk⟩
    · rw [ha]; exact safe_err
    · rw [hk]; exact freeze_safe hD (got_set h ha rfl)

theorem loadMap_safe {m : MapDef} (hD : Sections D m) (k : Kernel) : Safe p D (OnOk (Got p m)) (loadMap m) k := by
  refine safe_ok (Q := Got p m) (fun _ _ h => finalize_safe hD h) ?_
  cases hp : m.pin with
  | none =>
    dsimp only
    have := createAll_safe (p := p) (D := D) m k
    refine safe_weaken (fun r k h => ?_) _ _ this
    exact fun a e => ⟨(fun _ h' => by rw [hp] at h'; cases h'), fun _ => (h a e).mine⟩
  | some path =>
    dsimp only
    refine safe_weaken (fun r k h => ?_) _ _ (createPinned_safe (p := p) (D := D) path m k)
    exact fun a e => ⟨(fun _ h' => by rw [hp] at h'; cases h'; exact h a e), (fun h' => by rw [hp] at h'; cases h')⟩

/-- What no call undoes. -/
structure Mono (k k' : Kernel) : Prop where
  pins : ∀ x ∈ k.pins, x ∈ k'.pins
  maps : ∀ (i : Nat) (m : KMap), k.maps[i]? = some m → ∃ m', k'.maps[i]? = some m' ∧ m'.owner = m.owner ∧ m'.size = m.size

theorem mono_refl (k : Kernel) : Mono k k := ⟨fun _ h => h, fun _ m h => ⟨m, h, rfl, rfl⟩⟩

theorem mono_set {k : Kernel} {fd : Fd} {a b : KMap} (ha : k.maps[fd]? = some a) (ho : b.owner = a.owner) (hs : b.size = a.size) :
    Mono k { k with maps := k.maps.set fd b } := by
  refine ⟨fun _ h => h, fun i m h => ?_⟩
  rw [getElem?_set_or _ _ _ _ _ ha]
  split
  · rename_i e
    subst e
    rw [ha] at h
    cases h
    exact ⟨b, rfl, ho, hs⟩
  · exact ⟨m, h, rfl, rfl⟩

theorem act_mono (p : Nat) (k : Kernel) (c : Call) : Mono k (k.act p c).2 := by
  cases c with
  | get path =>
    rcases act_get p k path with ⟨h, _⟩ | ⟨_, _, h⟩ <;> rw [h] <;> exact mono_refl k
  | create size i =>
    refine ⟨fun _ h => h, fun i m h => ⟨m, ?_, rfl, rfl⟩⟩
    simp only [Kernel.act]
    rw [List.getElem?_append_left (List.getElem?_eq_some_iff.1 h).1, h]
  | pin fd path =>
    rcases act_pin p k fd path with ⟨_, h⟩ | ⟨_, _, h⟩ <;> rw [h]
    · exact mono_refl k
    · exact ⟨fun _ h => List.mem_cons_of_mem _ h, fun _ m h => ⟨m, h, rfl, rfl⟩⟩
  | update fd v =>
    rcases act_update p k fd v with ⟨_, h⟩ | ⟨_, ha, _, h⟩ <;> rw [h]
    · exact mono_refl k
    · exact mono_set ha rfl rfl
  | freeze fd =>
    rcases act_freeze p k fd with ⟨_, h⟩ | ⟨_, ha, h⟩ <;> rw [h]
    · exact mono_refl k
    · exact mono_set ha rfl rfl

theorem Ext.mono {k k' : Kernel} (h : Ext p k k') : Mono k k' := ⟨h.pins, fun i m hm => (h.maps i m hm).imp fun _ h => ⟨h.1, h.2.1, h.2.2.1⟩⟩

theorem safe_frame {Q : α → Kernel → Prop} {R : Kernel → Prop} (hR : ∀ k k', Mono k k' → R k → R k') :
    ∀ (x : P α) (k : Kernel), Safe p D Q x k → R k → Safe p D (fun a k => Q a k ∧ R k) x k := by
  intro x
  induction x with
  | ret a => exact fun k h hr => ⟨h, hr⟩
  | call c g ih =>
    intro k h hr k' he
    have hr' := hR _ _ he.mono hr
    obtain ⟨h1, h2, h3⟩ := h k' he
    exact ⟨h1, ih _ _ h2 (hR _ _ (act_mono p k' c) hr'), fun e => ih _ _ (h3 e) hr'⟩

/-- What a process has in the end: the map that is pinned at the path, or one it has created. -/
def Has (k : Kernel) (p : Nat) (m : MapDef) (fd : Fd) : Prop :=
  (∀ path, m.pin = some path → (path, fd) ∈ k.pins) ∧ (m.pin = none → ∃ a, k.maps[fd]? = some a ∧ a.owner = p)

theorem has_mono {m : MapDef} {fd : Fd} {k k' : Kernel} (hm : Mono k k') (h : Has k p m fd) : Has k' p m fd := by
  refine ⟨fun path hp => hm.pins _ (h.1 path hp), fun hn => ?_⟩
  obtain ⟨a, ha, ho⟩ := h.2 hn
  obtain ⟨b, hb, ho', _⟩ := hm.maps fd a ha
  exact ⟨b, hb, ho'.trans ho⟩

theorem Got.has {m : MapDef} {fd : Fd} {k : Kernel} (h : Got p m fd k) : Has k p m fd := ⟨h.1, fun hn => (h.2 hn).1⟩

/-- All of the object. -/
def AllHas (p : Nat) (ms : List MapDef) (fds : List Fd) (k : Kernel) : Prop :=
  fds.length = ms.length ∧ ∀ (i : Nat) (m : MapDef) (fd : Fd), ms[i]? = some m → fds[i]? = some fd → Has k p m fd

theorem allHas_mono {ms : List MapDef} {fds : List Fd} {k k' : Kernel} (hm : Mono k k') (h : AllHas p ms fds k) : AllHas p ms fds k' :=
  ⟨h.1, fun i m fd h1 h2 => has_mono hm (h.2 i m fd h1 h2)⟩

theorem allHas_nil (k : Kernel) : AllHas p [] [] k := ⟨rfl, fun _ _ _ h => by simp at h⟩

theorem allHas_cons {m : MapDef} {ms : List MapDef} {fd : Fd} {fds : List Fd} {k : Kernel} (h : Has k p m fd) (hs : AllHas p ms fds k) :
    AllHas p (m :: ms) (fd :: fds) k := by
  refine ⟨by simp [hs.1], fun i n gd h1 h2 => ?_⟩
  cases i with
  | zero => simp only [List.getElem?_cons_zero, Option.some.injEq] at h1 h2; subst h1 h2; exact h
  | succ i => exact hs.2 i n gd (by simpa using h1) (by simpa using h2)

theorem loadAll_safe : ∀ (ms : List MapDef), (∀ m ∈ ms, Sections D m) → ∀ k, Safe p D (OnOk (AllHas p ms)) (loadAll ms) k
  | [], _, _ => safe_ret (allHas_nil _)
  | m :: ms, hD, k => by
    refine safe_ok (Q := Got p m) (fun fd k1 h1 => ?_) (loadMap_safe (hD m (List.mem_cons_self ..)) k)
    have h2 := safe_frame (R := fun k => Has k p m fd) (fun _ _ hm h => has_mono hm h) _ _
      (loadAll_safe ms (fun x hx => hD x (List.mem_cons_of_mem _ hx)) k1) h1.has
    refine safe_ok (Q := fun fds k => AllHas p ms fds k ∧ Has k p m fd) (fun fds k3 h3 => safe_ret (allHas_cons h3.2 h3.1)) ?_
    exact safe_weaken (fun r k h a e => ⟨h.1 a e, h.2⟩) _ _ h2

/-- Calls that are allowed keep the kernel in order, and others see no more than they may. -/
theorem set_ext {q : Nat} {k : Kernel} {fd : Fd} {a b : KMap} (hg : G k) (ha : k.maps[fd]? = some a) (ho : b.owner = a.owner) (hs : b.size = a.size)
    (hf : a.owner = q → (∀ path, (path, fd) ∉ k.pins) → b.frozen = a.frozen) :
    Ext q k { k with maps := k.maps.set fd b } := by
  refine ⟨(mono_set ha ho hs).pins, fun i m h => ?_, fun _ h => .inl h, hg.path, hg.id, fun x h => by simpa using hg.there x h⟩
  rw [getElem?_set_or _ _ _ _ _ ha]
  split
  · rename_i e
    subst e
    rw [ha] at h
    cases h
    exact ⟨b, rfl, ho, hs, hf⟩
  · exact ⟨m, h, rfl, rfl, fun _ _ => rfl⟩

theorem act_ext {k : Kernel} {c : Call} (hg : G k) (ha : Allowed p D k c) {q : Nat} (hq : q ≠ p) : Ext q k (k.act p c).2 := by
  cases c with
  | get path =>
    rcases act_get p k path with ⟨h, _⟩ | ⟨_, _, h⟩ <;> rw [h] <;> exact ext_refl hg
  | create size _i =>
    have hc : ∀ (i : Nat) (m : KMap), k.maps[i]? = some m → (k.act p (.create size _i)).2.maps[i]? = some m := fun i m h => by
      simp only [Kernel.act]
      rw [List.getElem?_append_left (List.getElem?_eq_some_iff.1 h).1, h]
    refine ⟨(act_mono p k _).pins, fun i m h => ⟨m, hc i m h, rfl, rfl, fun _ _ => rfl⟩, fun x h => .inl h, hg.path, hg.id, fun x h => ?_⟩
    have := hg.there x h
    simp only [Kernel.act, List.length_append]
    omega
  | pin fd path =>
    have hm := act_mono p k (.pin fd path)
    rcases act_pin p k fd path with ⟨_, h⟩ | ⟨hp, hf, h⟩
    · rw [h]; exact ext_refl hg
    · rw [h] at hm ⊢
      obtain ⟨⟨a, ha, ho, _⟩, hu⟩ := ha
      refine ⟨hm.pins, fun i m h => ⟨m, h, rfl, rfl, fun _ _ => rfl⟩, fun x hx => ?_, fun x hx y hy e => ?_, fun x hx y hy e => ?_, fun x hx => ?_⟩
      · rcases List.mem_cons.1 hx with e | hx
        · subst e; exact .inr ⟨a, ha, by rw [ho]; exact fun e => hq e.symm⟩
        · exact .inl hx
      · rcases List.mem_cons.1 hx with ex | hx <;> rcases List.mem_cons.1 hy with ey | hy
        · rw [ex, ey]
        · subst ex; exact absurd e.symm (hp y hy)
        · subst ey; exact absurd e (hp x hx)
        · exact hg.path x hx y hy e
      · rcases List.mem_cons.1 hx with ex | hx <;> rcases List.mem_cons.1 hy with ey | hy
        · rw [ex, ey]
        · subst ex; exact absurd (show (y.1, fd) ∈ k.pins from by have : y = (y.1, fd) := by rw [show fd = y.2 from e]
                                                                  rw [← this]; exact hy) (hu y.1)
        · subst ey; exact absurd (show (x.1, fd) ∈ k.pins from by have : x = (x.1, fd) := by rw [show fd = x.2 from e.symm]
                                                                  rw [← this]; exact hx) (hu x.1)
        · exact hg.id x hx y hy e
      · rcases List.mem_cons.1 hx with ex | hx
        · subst ex; exact hf
        · exact hg.there x hx
  | update fd v =>
    rcases act_update p k fd v with ⟨_, h⟩ | ⟨_, ha, _, h⟩ <;> rw [h]
    · exact ext_refl hg
    · exact set_ext hg ha rfl rfl (fun _ _ => rfl)
  | freeze fd =>
    rcases act_freeze p k fd with ⟨_, h⟩ | ⟨a, hm, h⟩ <;> rw [h]
    · exact ext_refl hg
    · refine set_ext hg hm rfl rfl (fun ho hu => ?_)
      rcases ha with ⟨path, _, hp⟩ | ⟨⟨m, hm', ho'⟩, _⟩
      · exact absurd hp (hu path)
      · rw [hm] at hm'
        cases hm'
        exact absurd (ho.symm.trans ho') hq

theorem write_ext {q : Nat} {k : Kernel} (hg : G k) (id : Nat) (v : List UInt8) : Ext q k (k.write id v) := by
  simp only [Kernel.write]
  split
  · rename_i a ha
    split
    · exact ext_refl hg
    · exact set_ext hg ha rfl rfl (fun _ _ => rfl)
  · exact ext_refl hg

theorem write_mono (k : Kernel) (id : Nat) (v : List UInt8) : Mono k (k.write id v) := by
  simp only [Kernel.write]
  split
  · rename_i a ha
    split
    · exact mono_refl k
    · exact mono_set ha rfl rfl
  · exact mono_refl k

/-- All processes are safe. -/
structure Inv (D : Path → Prop) (w : World) : Prop where
  good : G w.k
  safe : ∀ (p : Nat) (ms : List MapDef) (x : P (Except Err (List Fd))), w.procs p = .runs ms x → Safe p D (OnOk (AllHas p ms)) x w.k

/-- The objects of a history have data sections pinned only at the given paths. -/
def SectionsAt (D : Path → Prop) (es : List Ev) : Prop :=
  ∀ (p : Nat) (ms : List MapDef), Ev.start p ms ∈ es → ∀ m ∈ ms, Sections D m

theorem onOk_ext {ms : List MapDef} (r : Except Err (List Fd)) (k k' : Kernel) (h : OnOk (AllHas p ms) r k) (he : Ext p k k') :
    OnOk (AllHas p ms) r k' := fun a e => allHas_mono he.mono (h a e)

theorem inv_set {w : World} {k' : Kernel} {q : Nat} {x : Proc} (h : Inv D w) (hg : G k') (he : ∀ r, r ≠ q → Ext r w.k k')
    (hx : ∀ ms y, x = .runs ms y → Safe q D (OnOk (AllHas q ms)) y k') : Inv D (w.set q x k') := by
  refine ⟨hg, fun r ms y hr => ?_⟩
  simp only [World.set] at hr
  split at hr
  · rename_i e; subst e; exact hx ms y hr
  · rename_i e; exact safe_ext onOk_ext y (h.safe r ms y hr) (he r e)

theorem act_good {k : Kernel} {c : Call} (hg : G k) (ha : Allowed p D k c) : G (k.act p c).2 := (act_ext hg ha (q := p + 1) (by omega)).good

theorem inv_ev {w : World} (h : Inv D w) (e : Ev) (he : SectionsAt D [e]) : Inv D (w.ev e) := by
  cases e with
  | start q ms =>
    simp only [World.ev]
    split
    · refine inv_set h h.good (fun _ _ => ext_refl h.good) (fun ms' y e => ?_)
      cases e
      exact loadAll_safe ms (he q ms (List.mem_singleton.2 rfl)) _
    · exact h
  | step q =>
    simp only [World.ev]
    split
    · rename_i ms c f hq
      obtain ⟨h1, h2, _⟩ := h.safe q ms _ hq w.k (ext_refl h.good)
      refine inv_set h (act_good h.good h1) (fun r hr => act_ext h.good h1 hr) (fun ms' y e => ?_)
      cases e
      exact h2
    · exact h
  | fail q n =>
    simp only [World.ev]
    split
    · rename_i ms c f hq
      obtain ⟨_, _, h3⟩ := h.safe q ms _ hq w.k (ext_refl h.good)
      refine inv_set h h.good (fun _ _ => ext_refl h.good) (fun ms' y e => ?_)
      cases e
      exact h3 n
    · exact h
  | kill q => exact inv_set h h.good (fun _ _ => ext_refl h.good) (fun _ _ e => by cases e)
  | write id v =>
    exact ⟨(write_ext (q := 0) h.good id v).good, fun r ms y hr => safe_ext onOk_ext y (h.safe r ms y hr) (write_ext h.good id v)⟩

theorem inv_evs : ∀ (es : List Ev) (w : World), Inv D w → SectionsAt D es → Inv D (w.evs es)
  | [], _, h, _ => h
  | e :: es, w, h, hs =>
    inv_evs es (w.ev e) (inv_ev h e (fun p ms hm => hs p ms (by rw [List.mem_singleton.1 hm]; exact List.mem_cons_self ..)))
      (fun p ms hm => hs p ms (List.mem_cons_of_mem _ hm))

theorem inv_empty : Inv D World.empty :=
  ⟨⟨(fun _ h => by cases h), (fun _ h => by cases h), (fun _ h => by cases h)⟩, (fun _ _ _ h => by cases h)⟩

theorem inv_any (es : List Ev) : Inv (fun _ => True) (World.empty.evs es) :=
  inv_evs es _ inv_empty (fun _ _ _ _ _ _ _ _ => trivial)

theorem ev_mono (w : World) (e : Ev) : Mono w.k (w.ev e).k := by
  cases e with
  | start q ms => simp only [World.ev]; split <;> exact mono_refl _
  | step q =>
    simp only [World.ev]
    split
    · exact act_mono ..
    · exact mono_refl _
  | fail q n => simp only [World.ev]; split <;> exact mono_refl _
  | kill q => exact mono_refl _
  | write id v => exact write_mono ..

theorem evs_pins : ∀ (es : List Ev) (w : World) (x : Path × Nat), x ∈ w.k.pins → x ∈ (w.evs es).k.pins
  | [], _, _, h => h
  | e :: es, w, x, h => evs_pins es (w.ev e) x ((ev_mono w e).pins x h)

theorem evs_append (w : World) (a b : List Ev) : w.evs (a ++ b) = (w.evs a).evs b := List.foldl_append ..

/-- **C112** A map that is pinned stays what is pinned at its path, and at no other, whatever objects are loaded by whatever processes, whose calls may be
    interleaved, fail or be cut off. -/
theorem C112_stays (es more : List Ev) (path : Path) (id : Nat) (h : (path, id) ∈ (World.empty.evs es).k.pins) :
    ∀ x ∈ ((World.empty.evs es).evs more).k.pins, (x.1 = path ↔ x.2 = id) := by
  have hg := (inv_any (es ++ more)).good
  rw [evs_append] at hg
  have h' := evs_pins more _ _ h
  exact fun x hx => ⟨fun e => congrArg Prod.snd (hg.path x hx _ h' e), fun e => congrArg Prod.fst (hg.id x hx _ h' e)⟩

/-- **C112** A process that has loaded its object has, for each of the maps that are to be pinned, the map that is pinned there, and for each of the others one
    that it has created. -/
theorem C112_loaded (es : List Ev) (p : Nat) (ms : List MapDef) (fds : List Fd) (h : (World.empty.evs es).procs p = .runs ms (.ret (.ok fds))) :
    fds.length = ms.length ∧ ∀ (i : Nat) (m : MapDef) (fd : Fd), ms[i]? = some m → fds[i]? = some fd →
      (∀ path, m.pin = some path → (path, fd) ∈ (World.empty.evs es).k.pins) ∧
      (m.pin = none → ∃ a, (World.empty.evs es).k.maps[fd]? = some a ∧ a.owner = p) := by
  exact (inv_any es).safe p ms _ h fds rfl

/-- **C112** So two processes that have loaded objects with maps pinned at one path share one map. -/
theorem C112_shared (es : List Ev) (p q : Nat) (ms ns : List MapDef) (fds gds : List Fd)
    (hp : (World.empty.evs es).procs p = .runs ms (.ret (.ok fds))) (hq : (World.empty.evs es).procs q = .runs ns (.ret (.ok gds)))
    (i j : Nat) (m n : MapDef) (path : Path) (hm : ms[i]? = some m) (hn : ns[j]? = some n) (h1 : m.pin = some path) (h2 : n.pin = some path) :
    fds[i]? = gds[j]? := by
  obtain ⟨l1, a⟩ := C112_loaded es p ms fds hp
  obtain ⟨l2, b⟩ := C112_loaded es q ns gds hq
  have hi : i < fds.length := l1 ▸ (List.getElem?_eq_some_iff.1 hm).1
  have hj : j < gds.length := l2 ▸ (List.getElem?_eq_some_iff.1 hn).1
  have ha := (a i m _ hm (List.getElem?_eq_getElem hi)).1 path h1
  have hb := (b j n _ hn (List.getElem?_eq_getElem hj)).1 path h2
  rw [List.getElem?_eq_getElem hi, List.getElem?_eq_getElem hj]
  exact congrArg some (congrArg Prod.snd ((inv_any es).good.path _ ha _ hb rfl))

/-- The histories in which nobody loads an object with a data section pinned at the path. -/
def NoSectionAt (path : Path) (es : List Ev) : Prop :=
  ∀ (p : Nat) (ms : List MapDef), Ev.start p ms ∈ es → ∀ m ∈ ms, m.section = true → m.pin ≠ some path

/-- The map has the value and is not frozen. -/
def Value (k : Kernel) (id : Nat) (v : List UInt8) : Prop := ∃ m, k.maps[id]? = some m ∧ m.content = v ∧ m.frozen = false

theorem value_set {k : Kernel} {id fd : Nat} {v : List UInt8} {a b : KMap} (h : Value k id v) (ha : k.maps[fd]? = some a) (hne : fd ≠ id) :
    Value { k with maps := k.maps.set fd b } id v := by
  obtain ⟨m, hm, h1, h2⟩ := h
  exact ⟨m, by rw [getElem?_set_or _ _ _ _ _ ha, if_neg hne]; exact hm, h1, h2⟩

theorem ne_of_allowed {k : Kernel} {path : Path} {id fd : Nat} (hg : G k) (hp : (path, id) ∈ k.pins)
    (h : (∃ x, x ≠ path ∧ (x, fd) ∈ k.pins) ∨ ((∃ m, k.maps[fd]? = some m ∧ m.owner = p) ∧ Unpinned fd k)) : fd ≠ id := by
  rintro rfl
  rcases h with ⟨x, hx, hm⟩ | h
  · exact hx (congrArg Prod.fst (hg.id _ hm _ hp rfl))
  · exact h.2 _ hp

theorem value_act {k : Kernel} {c : Call} {path : Path} {id : Nat} {v : List UInt8} (hg : G k) (ha : Allowed p (· ≠ path) k c)
    (hp : (path, id) ∈ k.pins) (h : Value k id v) : Value (k.act p c).2 id v := by
  cases c with
  | get x =>
    rcases act_get p k x with ⟨e, _⟩ | ⟨_, _, e⟩ <;> rw [e] <;> exact h
  | create size i =>
    obtain ⟨m, hm, h1, h2⟩ := h
    refine ⟨m, ?_, h1, h2⟩
    simp only [Kernel.act]
    rw [List.getElem?_append_left (List.getElem?_eq_some_iff.1 hm).1, hm]
  | pin fd x =>
    rcases act_pin p k fd x with ⟨_, e⟩ | ⟨_, _, e⟩ <;> rw [e] <;> exact h
  | update fd x =>
    rcases act_update p k fd x with ⟨_, e⟩ | ⟨_, hm, _, e⟩ <;> rw [e]
    · exact h
    · exact value_set h hm (ne_of_allowed hg hp ha)
  | freeze fd =>
    rcases act_freeze p k fd with ⟨_, e⟩ | ⟨_, hm, e⟩ <;> rw [e]
    · exact h
    · exact value_set h hm (ne_of_allowed hg hp ha)

theorem value_evs (path : Path) (id : Nat) : ∀ (es : List Ev) (w : World) (v : List UInt8), Inv (· ≠ path) w → SectionsAt (· ≠ path) es →
    (path, id) ∈ w.k.pins → Value w.k id v → Value (w.evs es).k id (lastWrite id v es)
  | [], _, _, _, _, _, h => h
  | e :: es, w, v, hi, hs, hp, h => by
    have hi' := inv_ev hi e (fun p ms hm => hs p ms (by rw [List.mem_singleton.1 hm]; exact List.mem_cons_self ..))
    have hs' : SectionsAt (· ≠ path) es := fun p ms hm => hs p ms (List.mem_cons_of_mem _ hm)
    have hp' := (ev_mono w e).pins _ hp
    have next : ∀ v', Value (w.ev e).k id v' → Value (w.evs (e :: es)).k id (lastWrite id v' es) := fun v' h' =>
      value_evs path id es (w.ev e) v' hi' hs' hp' h'
    cases e with
    | start q ms =>
      refine next v ?_
      simp only [World.ev]
      split <;> exact h
    | step q =>
      refine next v ?_
      simp only [World.ev]
      split
      · rename_i ms c f hq
        exact value_act hi.good (hi.safe q ms _ hq w.k (ext_refl hi.good)).1 hp h
      · exact h
    | fail q n =>
      refine next v ?_
      simp only [World.ev]
      split <;> exact h
    | kill q => exact next v h
    | write i x =>
      simp only [lastWrite]
      obtain ⟨m, hm, h1, h2⟩ := h
      by_cases e : i = id
      · rw [if_pos e]
        subst e
        refine next x ?_
        simp only [World.ev, Kernel.write, hm, h2]
        refine ⟨{ m with content := x }, ?_, rfl, h2⟩
        simp only [Bool.false_eq_true, if_false]
        rw [getElem?_set_or _ _ _ _ _ hm, if_pos rfl]
        simp [h2]
      · rw [if_neg e]
        refine next v ?_
        simp only [World.ev, Kernel.write]
        split
        · rename_i a ha
          split
          · exact ⟨m, hm, h1, h2⟩
          · exact value_set ⟨m, hm, h1, h2⟩ ha e
        · exact ⟨m, hm, h1, h2⟩

/-- What is pinned where nobody has a data section is not frozen. -/
theorem unfrozen_evs (path : Path) : ∀ (es : List Ev) (w : World), Inv (· ≠ path) w → SectionsAt (· ≠ path) es →
    (∀ id, (path, id) ∈ w.k.pins → ∃ v, Value w.k id v) → ∀ id, (path, id) ∈ (w.evs es).k.pins → ∃ v, Value (w.evs es).k id v
  | [], _, _, _, h => h
  | e :: es, w, hi, hs, h => by
    have hi' := inv_ev hi e (fun p ms hm => hs p ms (by rw [List.mem_singleton.1 hm]; exact List.mem_cons_self ..))
    have hs' : SectionsAt (· ≠ path) es := fun p ms hm => hs p ms (List.mem_cons_of_mem _ hm)
    refine unfrozen_evs path es (w.ev e) hi' hs' (fun id hid => ?_)
    have old : (path, id) ∈ w.k.pins → ∃ v, Value (w.ev e).k id v := fun hp => by
      obtain ⟨v, hv⟩ := h id hp
      exact ⟨_, value_evs path id [e] w v hi (fun p ms hm => hs p ms (by rw [List.mem_singleton.1 hm]; exact List.mem_cons_self ..)) hp hv⟩
    cases e with
    | start q ms => exact old (by simp only [World.ev] at hid; split at hid <;> exact hid)
    | step q =>
      simp only [World.ev] at hid old ⊢
      split at hid
      · rename_i ms c f hq
        simp only [hq] at old
        have ha := (hi.safe q ms _ hq w.k (ext_refl hi.good)).1
        have hid : (path, id) ∈ (w.k.act q c).2.pins := hid
        cases c with
        | pin fd x =>
          rcases act_pin q w.k fd x with ⟨_, h'⟩ | ⟨_, _, h'⟩
          · rw [h'] at hid; exact old hid
          · rw [h'] at hid
            rcases List.mem_cons.1 hid with e | hid
            · cases e
              obtain ⟨⟨m, hm, _, hf⟩, _⟩ := ha
              show ∃ v, Value (w.k.act q _).2 id v
              rw [h']
              exact ⟨m.content, m, hm, rfl, hf⟩
            · exact old hid
        | get x => rcases act_get q w.k x with ⟨h', _⟩ | ⟨_, _, h'⟩ <;> rw [h'] at hid <;> exact old hid
        | create size i => exact old hid
        | update fd v => rcases act_update q w.k fd v with ⟨_, h'⟩ | ⟨_, _, _, h'⟩ <;> rw [h'] at hid <;> exact old hid
        | freeze fd => rcases act_freeze q w.k fd with ⟨_, h'⟩ | ⟨_, _, h'⟩ <;> rw [h'] at hid <;> exact old hid
      · obtain ⟨v, hv⟩ := h id hid; exact ⟨v, hv⟩
    | fail q n => exact old (by simp only [World.ev] at hid; split at hid <;> exact hid)
    | kill q => exact old hid
    | write i x =>
      refine old ?_
      simp only [World.ev, Kernel.write] at hid
      split at hid
      · split at hid <;> exact hid
      · exact hid

/-- **C112 (partial)** A map that is pinned where no object has a data section keeps what it has: loading does not change its contents, and those who
    use it can write to it. -/
theorem C112_contents_partial (es more : List Ev) (path : Path) (id : Nat) (m : KMap) (hs : NoSectionAt path (es ++ more))
    (hp : (path, id) ∈ (World.empty.evs es).k.pins) (hm : (World.empty.evs es).k.maps[id]? = some m) :
    ∃ m', ((World.empty.evs es).evs more).k.maps[id]? = some m' ∧ m'.content = lastWrite id m.content more ∧ m'.frozen = false := by
  have h1 : SectionsAt (· ≠ path) es := fun p ms h x hx hsec y hy e => hs p ms (List.mem_append_left _ h) x hx hsec (by rw [hy, e])
  have h2 : SectionsAt (· ≠ path) more := fun p ms h x hx hsec y hy e => hs p ms (List.mem_append_right _ h) x hx hsec (by rw [hy, e])
  have hi := inv_evs es _ (inv_empty (D := (· ≠ path))) h1
  obtain ⟨v, a, ha, hv, hf⟩ := unfrozen_evs path es _ inv_empty h1 (fun _ h => by cases h) id hp
  rw [hm] at ha
  cases ha
  exact value_evs path id more _ _ hi h2 hp ⟨m, hm, rfl, hf⟩

end Verif.Reload
