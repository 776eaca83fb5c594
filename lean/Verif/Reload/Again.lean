import Verif.Reload.Props
/-!
# C112: a process that loads while nobody else does
-/
namespace Verif.Reload

theorem run_bind {α β : Type} (p : Nat) (f : α → P β) : ∀ (x : P α) (k : Kernel), (x.bind f).run p k = (f (x.run p k).1).run p (x.run p k).2
  | .ret _, _ => rfl
  | .call _ g, _ => run_bind p f (g _) _

theorem run_ok {α β : Type} {p : Nat} {f : α → P (Except Err β)} {x : P (Except Err α)} {k k' : Kernel} {a : α} (h : x.run p k = (.ok a, k')) :
    (x.ok f).run p k = (f a).run p k' := by
  rw [P.ok, run_bind, h]

/-- What becomes of the kernel when a map has been made. -/
structure Made (k k' : Kernel) (fd : Fd) : Prop where
  pins : k'.pins = k.pins
  new : k.maps.length ≤ fd
  old : ∀ i, i < k.maps.length → k'.maps[i]? = k.maps[i]?
  there : ∃ a, k'.maps[fd]? = some a ∧ a.frozen = false

theorem create_run (p size : Nat) (i : Option Fd) (k : Kernel) :
    ∃ fd k', (create size i).run p k = (.ok fd, k') ∧ Made k k' fd ∧ k.maps.length ≤ k'.maps.length :=
  ⟨_, _, rfl, ⟨rfl, Nat.le_refl _, fun i hi => List.getElem?_append_left hi, _, List.getElem?_concat_length, rfl⟩, List.length_append (as := k.maps) ▸ Nat.le_add_right _ _⟩

theorem createAll_run (p : Nat) (m : MapDef) (k : Kernel) : ∃ fd k', (createAll m).run p k = (.ok fd, k') ∧ Made k k' fd := by
  simp only [createAll]
  split
  · obtain ⟨fd, k', h, hm, _⟩ := create_run p m.size none k
    exact ⟨fd, k', h, hm⟩
  · rename_i s _
    obtain ⟨i, k1, h1, hm1, hl⟩ := create_run p s none k
    obtain ⟨fd, k2, h2, hm2, _⟩ := create_run p m.size (some i) k1
    refine ⟨fd, k2, by rw [run_ok h1]; exact h2, hm2.pins.trans hm1.pins, Nat.le_trans hl hm2.new, fun j hj => ?_, hm2.there⟩
    rw [hm2.old j (Nat.lt_of_lt_of_le hj hl), hm1.old j hj]

/-- Objects whose pinned data sections have, if they are there already, maps that are not frozen. -/
def Fine (k : Kernel) (ms : List MapDef) : Prop :=
  ∀ m ∈ ms, m.section = true → ∀ path, m.pin = some path → ∀ id, (path, id) ∈ k.pins → ∃ a, k.maps[id]? = some a ∧ a.frozen = false

/-- What becomes of the kernel when the map has been found or made. -/
structure Found (m : MapDef) (k k' : Kernel) (fd : Fd) : Prop where
  pins : ∀ x ∈ k'.pins, x ∈ k.pins ∨ m.pin = some x.1
  where_ : k.maps.length ≤ fd ∨ ∃ path, m.pin = some path ∧ (path, fd) ∈ k.pins
  old : ∀ i, i < k.maps.length → i ≠ fd → k'.maps[i]? = k.maps[i]?

theorem obtain_run (p : Nat) (m : MapDef) (k : Kernel) (hg : G k) (hf : Fine k [m]) :
    ∃ fd k' a, (match m.pin with | some path => createPinned path m | none => createAll m).run p k = (.ok fd, k') ∧ Found m k k' fd ∧
      k'.maps[fd]? = some a ∧ (m.section = true → a.frozen = false) := by
  cases hp : m.pin with
  | none =>
    obtain ⟨fd, k', h, hm⟩ := createAll_run p m k
    obtain ⟨a, ha, haf⟩ := hm.there
    exact ⟨fd, k', a, h, ⟨fun x hx => .inl (hm.pins ▸ hx), .inl hm.new, fun i hi _ => hm.old i hi⟩, ha, fun _ => haf⟩
  | some path =>
    dsimp only
    rcases act_get p k path with ⟨h, hn⟩ | ⟨id, hid, h⟩
    · obtain ⟨fd, k', h', hm⟩ := createAll_run p m k
      obtain ⟨a, ha, haf⟩ := hm.there
      have hr : (createPinned path m).run p k = (pin fd path).run p k' := by
        simp only [createPinned, P.run, h]
        exact run_ok h'
      have hpin : k'.act p (.pin fd path) = (.ok 0, { k' with pins := (path, fd) :: k'.pins }) := by
        have h1 : ¬ k'.pins.any (fun x => x.1 == path) = true := by
          rw [hm.pins]
          intro h
          obtain ⟨x, hx, e⟩ := List.any_eq_true.1 h
          exact hn x hx (by simpa using e)
        simp only [Kernel.act]
        rw [if_neg h1, if_pos (List.getElem?_eq_some_iff.1 ha).1]
      refine ⟨fd, { k' with pins := (path, fd) :: k'.pins }, a, ?_, ⟨fun x hx => ?_, .inl hm.new, fun i hi _ => hm.old i hi⟩, ha, fun _ => haf⟩
      · rw [hr]
        simp only [pin, P.run, hpin]
      · rcases List.mem_cons.1 hx with e | hx
        · subst e; exact .inr hp
        · exact .inl (hm.pins ▸ hx)
    · have hl := hg.there _ hid
      refine ⟨id, k, k.maps[id], ?_, ⟨fun x hx => .inl hx, .inr ⟨path, hp, hid⟩, fun _ _ _ => rfl⟩, List.getElem?_eq_getElem hl, fun hs => ?_⟩
      · simp only [createPinned, P.run, h]
      · obtain ⟨a, ha, haf⟩ := hf m (List.mem_singleton.2 rfl) hs path hp id hid
        rw [List.getElem?_eq_getElem hl] at ha
        cases ha
        exact haf

/-- A map as loading leaves it: data sections are filled, and `.rodata` is frozen. -/
def Filled (k : Kernel) (m : MapDef) (fd : Fd) : Prop :=
  ∃ b, k.maps[fd]? = some b ∧ (m.data ≠ [] → b.content = m.data) ∧ (m.rodata = true → b.frozen = true)

theorem freeze_run (p : Nat) (m : MapDef) (k : Kernel) (fd : Fd) (a : KMap) (ha : k.maps[fd]? = some a) (hf : m.rodata = true → a.frozen = false) :
    ∃ k', (freezeIf m fd).run p k = (.ok fd, k') ∧ k'.pins = k.pins ∧ (∀ i, i ≠ fd → k'.maps[i]? = k.maps[i]?) ∧
      ∃ b, k'.maps[fd]? = some b ∧ b.content = a.content ∧ (m.rodata = true → b.frozen = true) := by
  simp only [freezeIf]
  split
  · rename_i hr
    refine ⟨{ k with maps := k.maps.set fd { a with frozen := true } }, ?_, rfl, fun i hi => ?_, { a with frozen := true }, ?_, rfl, fun _ => rfl⟩
    · simp [P.run, Kernel.act, ha, hf hr]
    · rw [getElem?_set_or _ _ _ _ _ ha, if_neg (Ne.symm hi)]
    · rw [getElem?_set_or _ _ _ _ _ ha, if_pos rfl]
  · rename_i hr
    exact ⟨k, rfl, rfl, fun _ _ => rfl, a, ha, rfl, fun h => absurd h hr⟩

theorem finalize_run (p : Nat) (m : MapDef) (k : Kernel) (fd : Fd) (a : KMap) (ha : k.maps[fd]? = some a) (hf : m.section = true → a.frozen = false) :
    ∃ k', (finalize m fd).run p k = (.ok fd, k') ∧ k'.pins = k.pins ∧ (∀ i, i ≠ fd → k'.maps[i]? = k.maps[i]?) ∧ Filled k' m fd := by
  simp only [finalize]
  split
  · rename_i he
    obtain ⟨k', h1, h2, h3, b, h4, _, h6⟩ := freeze_run p m k fd a ha (fun h => hf (by simp [MapDef.section, h]))
    exact ⟨k', h1, h2, h3, b, h4, fun h => absurd (List.isEmpty_iff.1 he) h, h6⟩
  · rename_i hd
    have hz := hf (by simp [MapDef.section, hd])
    have h1 : k.act p (.update fd m.data) = (.ok 0, { k with maps := k.maps.set fd { a with content := m.data } }) := by
      simp [Kernel.act, ha, hz]
    obtain ⟨k', h2, h3, h4, b, h5, h6, h7⟩ := freeze_run p m { k with maps := k.maps.set fd { a with content := m.data } } fd { a with content := m.data }
      (by simp only []; rw [getElem?_set_or _ _ _ _ _ ha, if_pos rfl]) (fun _ => hz)
    refine ⟨k', ?_, h3, fun i hi => ?_, b, h5, fun _ => h6, h7⟩
    · simp only [P.run, h1]
      exact h2
    · rw [h4 i hi]
      simp only []
      rw [getElem?_set_or _ _ _ _ _ ha, if_neg (Ne.symm hi)]

theorem loadMap_run (p : Nat) (m : MapDef) (k : Kernel) (hg : G k) (hf : Fine k [m]) :
    ∃ fd k', (loadMap m).run p k = (.ok fd, k') ∧ Found m k k' fd ∧ Filled k' m fd := by
  obtain ⟨fd, k1, a, h1, hfd, ha, hs⟩ := obtain_run p m k hg hf
  obtain ⟨k2, h2, h3, h4, h5⟩ := finalize_run p m k1 fd a ha hs
  refine ⟨fd, k2, ?_, ⟨fun x hx => hfd.pins x (h3 ▸ hx), hfd.where_, fun i hi hne => ?_⟩, h5⟩
  · exact (run_ok h1).trans h2
  · rw [h4 i hne, hfd.old i hi hne]

/-- Running alone is one way of running. -/
theorem safe_run {α : Type} {p : Nat} {D : Path → Prop} {Q : α → Kernel → Prop} : ∀ (x : P α) (k : Kernel), G k → Safe p D Q x k →
    Q (x.run p k).1 (x.run p k).2 ∧ G (x.run p k).2
  | .ret _, _, hg, h => ⟨h, hg⟩
  | .call c f, k, hg, h => by
    obtain ⟨h1, h2, _⟩ := h k (ext_refl hg)
    exact safe_run (f (k.act p c).1) (k.act p c).2 (act_good hg h1) h2

theorem fine_next {m : MapDef} {ms : List MapDef} {k k' : Kernel} {fd : Fd} (hg : G k) (hd : ∀ n ∈ ms, ∀ path, n.pin = some path → m.pin ≠ some path)
    (hf : Fine k ms) (h : Found m k k' fd) : Fine k' ms := by
  intro n hn hs path hp id hid
  rcases h.pins _ hid with h1 | h1
  · obtain ⟨a, ha, haf⟩ := hf n hn hs path hp id h1
    refine ⟨a, ?_, haf⟩
    rw [h.old id (hg.there _ h1) ?_, ha]
    rintro rfl
    rcases h.where_ with h2 | ⟨y, hy, h2⟩
    · exact absurd (hg.there _ h1) (Nat.not_lt.2 h2)
    · have := congrArg Prod.fst (hg.id _ h1 _ h2 rfl)
      exact hd n hn path hp (by rw [hy]; exact congrArg some this.symm)
  · exact absurd h1 (hd n hn path hp)

theorem loadAll_run (p : Nat) : ∀ (ms : List MapDef) (k : Kernel), G k → (ms.filterMap (·.pin)).Nodup → Fine k ms →
    ∃ fds k', (loadAll ms).run p k = (.ok fds, k') ∧
      (∀ id, id < k.maps.length → (∀ n ∈ ms, ∀ path, n.pin = some path → (path, id) ∉ k.pins) → k'.maps[id]? = k.maps[id]?) ∧
      ∀ (i : Nat) (m : MapDef) (fd : Fd), ms[i]? = some m → fds[i]? = some fd → Filled k' m fd
  | [], k, _, _, _ => ⟨[], k, rfl, fun _ _ _ => rfl, fun _ _ _ h => by simp at h⟩
  | m :: ms, k, hg, hd, hf => by
    obtain ⟨fd, k1, h1, hfd, hfill⟩ := loadMap_run p m k hg (fun n hn => hf n (by rw [List.mem_singleton.1 hn]; exact List.mem_cons_self ..))
    have hg1 : Got p m fd k1 ∧ G k1 := by
      have := safe_run (D := fun _ => True) _ k hg (loadMap_safe (p := p) (m := m) (fun _ _ _ => trivial) k)
      rw [h1] at this
      exact ⟨this.1 fd rfl, this.2⟩
    obtain ⟨hgot, hg1⟩ := hg1
    have hd1 : (ms.filterMap (·.pin)).Nodup ∧ ∀ n ∈ ms, ∀ path, n.pin = some path → m.pin ≠ some path := by
      rw [List.filterMap_cons] at hd
      split at hd
      · rename_i hn
        exact ⟨hd, fun _ _ _ _ => by rw [hn]; exact fun h => by cases h⟩
      · rename_i x hx
        obtain ⟨h2, h3⟩ := List.nodup_cons.1 hd
        refine ⟨h3, fun n hn path hp e => h2 ?_⟩
        rw [hx] at e
        cases e
        exact List.mem_filterMap.2 ⟨n, hn, hp⟩
    obtain ⟨fds, k2, h2, hfr, hall⟩ := loadAll_run p ms k1 hg1 hd1.1 (fine_next hg hd1.2 (fun n hn => hf n (List.mem_cons_of_mem _ hn)) hfd)
    refine ⟨fd :: fds, k2, ?_, fun id hid hn => ?_, fun i n gd hi hgd => ?_⟩
    · rw [loadAll, run_ok h1, run_ok h2]
      rfl
    · have hne : id ≠ fd := by
        rintro rfl
        rcases hfd.where_ with h3 | ⟨y, hy, h3⟩
        · exact absurd hid (Nat.not_lt.2 h3)
        · exact hn m (List.mem_cons_self ..) y hy h3
      have e := hfd.old id hid hne
      have hid1 : id < k1.maps.length := by
        rw [List.getElem?_eq_getElem hid] at e
        exact (List.getElem?_eq_some_iff.1 e).1
      rw [hfr id hid1 (fun n hnm path hp hx => ?_), e]
      rcases hfd.pins _ hx with h3 | h3
      · exact hn n (List.mem_cons_of_mem _ hnm) path hp h3
      · exact hd1.2 n hnm path hp h3
    · cases i with
      | zero =>
        simp only [List.getElem?_cons_zero, Option.some.injEq] at hi hgd
        subst hi hgd
        obtain ⟨b, hb, h3, h4⟩ := hfill
        refine ⟨b, ?_, h3, h4⟩
        rw [hfr fd (List.getElem?_eq_some_iff.1 hb).1 (fun n hn path hp hx => ?_), hb]
        cases hm : m.pin with
        | none => exact (hgot.2 hm).2 path hx
        | some y =>
          have := congrArg Prod.fst (hg1.id _ hx _ (hgot.1 y hm) rfl)
          exact hd1.2 n hn path hp (by rw [hm]; exact congrArg some this.symm)
      | succ i => exact hall i n gd (by simpa using hi) (by simpa using hgd)

/-- **C112 (partial)** After any history, however processes were interleaved or cut off, a process that runs alone and whose calls do not fail loads its object if its
    maps have different paths and no frozen map is pinned where it has a data section. It has the maps that were pinned, its data sections are filled and `.rodata` is
    frozen, and all other maps are as they were. -/
theorem C112_again_partial (es : List Ev) (p : Nat) (ms : List MapDef) (hd : (ms.filterMap (·.pin)).Nodup)
    (hf : ∀ m ∈ ms, m.section = true → ∀ path, m.pin = some path → ∀ id, (path, id) ∈ (World.empty.evs es).k.pins →
      ∃ a, (World.empty.evs es).k.maps[id]? = some a ∧ a.frozen = false) :
    ∃ fds k', (loadAll ms).run p (World.empty.evs es).k = (.ok fds, k') ∧ fds.length = ms.length ∧
      (∀ (i : Nat) (m : MapDef) (fd : Fd) (path : Path), ms[i]? = some m → fds[i]? = some fd → m.pin = some path →
        (path, fd) ∈ k'.pins ∧ ∀ id, (path, id) ∈ (World.empty.evs es).k.pins → fd = id) ∧
      (∀ (i : Nat) (m : MapDef) (fd : Fd), ms[i]? = some m → fds[i]? = some fd →
        ∃ b, k'.maps[fd]? = some b ∧ (m.data ≠ [] → b.content = m.data) ∧ (m.rodata = true → b.frozen = true)) ∧
      ∀ id, id < (World.empty.evs es).k.maps.length → (∀ m ∈ ms, ∀ path, m.pin = some path → (path, id) ∉ (World.empty.evs es).k.pins) →
        k'.maps[id]? = (World.empty.evs es).k.maps[id]? := by
  have hg := (inv_any es).good
  obtain ⟨fds, k', h, hfr, hall⟩ := loadAll_run p ms _ hg hd hf
  obtain ⟨h1, h2⟩ := safe_run (D := fun _ => True) _ _ hg (safe_frame (R := fun k => ∀ x ∈ (World.empty.evs es).k.pins, x ∈ k.pins)
    (fun _ _ hm h x hx => hm.pins x (h x hx)) _ _ (loadAll_safe (p := p) ms (fun _ _ _ _ _ => trivial) _) (fun _ h => h))
  rw [h] at h1 h2
  obtain ⟨h3, h4⟩ := h1.1 fds rfl
  refine ⟨fds, k', h, h3, fun i m fd path hm hfd hp => ?_, hall, hfr⟩
  have h5 := (h4 i m fd hm hfd).1 path hp
  exact ⟨h5, fun id hid => congrArg Prod.snd (h2.path _ h5 _ (h1.2 _ hid) rfl)⟩

/-- **C112** So objects without pinned data sections can always be loaded again. -/
theorem C112_again_plain (es : List Ev) (p : Nat) (ms : List MapDef) (hd : (ms.filterMap (·.pin)).Nodup)
    (hs : ∀ m ∈ ms, m.section = true → m.pin = none) : ∃ fds k', (loadAll ms).run p (World.empty.evs es).k = (.ok fds, k') := by
  obtain ⟨fds, k', h, _⟩ := C112_again_partial es p ms hd (fun m hm h path hp => by rw [hs m hm h] at hp; cases hp)
  exact ⟨fds, k', h⟩

end Verif.Reload
