import Verif.TcLink.Spec
/-!
# C113: classifier links made of parameters that were kept
-/
namespace Verif.TcLink

theorem is_iff {f : Filter} {i p r h : Nat} : f.is i p r h = true ↔ f.ifx = i ∧ f.parent = p ∧ f.prio = r ∧ f.handle = h := by
  simp [Filter.is, and_assoc]

theorem stands_iff {l : NlLink} {f : Filter} : l.stands f ↔ f.ifx = l.ifx ∧ f.parent = l.hook.parent ∧ f.prio = l.prio ∧ f.handle = l.handle := by
  have : l.hook.parent = l.hook.place := by cases l.hook <;> rfl
  rw [this]
  exact Iff.rfl

theorem foldl_min_pos : ∀ (l : List Filter) (m : Nat), 0 < m → (∀ f ∈ l, 0x8000 ≤ f.prio) → 0 < l.foldl (fun m f => min m (f.prio - 1)) m
  | [], _, h, _ => h
  | f :: l, m, h, hl => by
    have hf := hl f (List.mem_cons_self ..)
    exact foldl_min_pos l _ (Nat.lt_min.2 ⟨h, by omega⟩) (fun g hg => hl g (List.mem_cons_of_mem _ hg))

theorem autoPrio_ne (k : Kernel) (ifx parent : Nat) : k.autoPrio ifx parent ≠ 0 := by
  have := foldl_min_pos (k.filters.filter fun f => f.ifx = ifx && f.parent = parent && 0x8000 ≤ f.prio) 0xC000 (by decide)
    (fun f hf => by have := (List.mem_filter.1 hf).2; simp only [Bool.and_eq_true, decide_eq_true_eq] at this; exact this.2)
  exact Nat.pos_iff_ne_zero.1 this

theorem firstFree_ne (used : List Nat) : ∀ (fuel n : Nat), n ≠ 0 → firstFree used fuel n ≠ 0
  | 0, _, h => h
  | fuel + 1, n, h => by
    simp only [firstFree]
    split
    · exact firstFree_ne used fuel (n + 1) (by omega)
    · exact h

/-- What a request to make a filter does when it succeeds. -/
theorem new_ok {k k' : Kernel} {ifx parent prog prio handle p h : Nat} {classid : Option Nat} (hk : k.WF)
    (e : k.newFilter ifx parent prog prio handle classid true = (.ok (p, h), k')) :
    k' = { k with filters := k.filters ++ [⟨ifx, parent, p, h, prog, classid⟩] } ∧ p ≠ 0 ∧ h ≠ 0 ∧ (prio ≠ 0 → p = prio) ∧ (handle ≠ 0 → h = handle) ∧
      k'.WF ∧ ∀ f ∈ k.filters, f.is ifx parent p h = false := by
  simp only [Kernel.newFilter] at e
  split at e
  · cases e
  · rename_i hh
    have hh : (ifx, parent) ∈ k.hooks := Classical.not_not.1 hh
    simp only [if_true] at e
    have hp : (if prio = 0 then k.autoPrio ifx parent else prio) ≠ 0 := by
      split
      · exact autoPrio_ne k ifx parent
      · assumption
    generalize hp' : (if prio = 0 then k.autoPrio ifx parent else prio) = p' at e hp
    have hd : (if handle = 0 then k.autoHandle ifx parent p' else handle) ≠ 0 := by
      split
      · exact firstFree_ne _ _ _ (by decide)
      · assumption
    generalize hh' : (if handle = 0 then k.autoHandle ifx parent p' else handle) = h' at e hd
    simp only [Kernel.add] at e
    split at e
    · cases e
    · rename_i hn
      cases e
      have hn' : ∀ f ∈ k.filters, f.is ifx parent p h = false := fun f hf => by
        cases hx : f.is ifx parent p h with
        | false => rfl
        | true => exact absurd (List.any_eq_true.2 ⟨f, hf, hx⟩) hn
      have old : ∀ f ∈ k.filters, ¬ (f.ifx = ifx ∧ f.parent = parent ∧ f.prio = p ∧ f.handle = h) := fun f hf hx => by
        have := hn' f hf
        rw [is_iff.2 hx] at this
        cases this
      refine ⟨rfl, hp, hd, fun h0 => by rw [← hp', if_neg h0], fun h0 => by rw [← hh', if_neg h0], ⟨?_, ?_, ?_, ?_⟩, hn'⟩
      · intro f hf g hg e1 e2 e3 e4
        rcases List.mem_append.1 hf with hf | hf <;> rcases List.mem_append.1 hg with hg | hg
        · exact hk.one f hf g hg e1 e2 e3 e4
        · rw [List.mem_singleton.1 hg] at e1 e2 e3 e4
          exact absurd ⟨e1, e2, e3, e4⟩ (old f hf)
        · rw [List.mem_singleton.1 hf] at e1 e2 e3 e4
          exact absurd ⟨e1.symm, e2.symm, e3.symm, e4.symm⟩ (old g hg)
        · rw [List.mem_singleton.1 hf, List.mem_singleton.1 hg]
      all_goals
        intro f hf
        rcases List.mem_append.1 hf with hf | hf
      · exact hk.prio f hf
      · rw [List.mem_singleton.1 hf]; exact hp
      · exact hk.handle f hf
      · rw [List.mem_singleton.1 hf]; exact hd
      · exact hk.hook f hf
      · rw [List.mem_singleton.1 hf]; exact hh

/-- Detaching what a link stands for. -/
theorem del_ok {k : Kernel} {l : NlLink} {f : Filter} (hk : k.WF) (hf : f ∈ k.filters) (hl : l.stands f) :
    k.delFilter l.ifx l.hook.parent l.prio l.handle = (.ok (), { k with filters := k.filters.filter fun g => !(g == f) }) := by
  obtain ⟨h1, h2, h3, h4⟩ := stands_iff.1 hl
  rw [← h1, ← h2, ← h3, ← h4]
  have ha : (k.at f.ifx f.parent f.prio).isEmpty = false := by
    cases h : (k.at f.ifx f.parent f.prio).isEmpty with
    | false => rfl
    | true =>
      have : f ∈ k.at f.ifx f.parent f.prio := List.mem_filter.2 ⟨hf, by simp⟩
      rw [List.isEmpty_iff.1 h] at this
      cases this
  have hb : k.filters.any (·.is f.ifx f.parent f.prio f.handle) = true := List.any_eq_true.2 ⟨f, hf, is_iff.2 ⟨rfl, rfl, rfl, rfl⟩⟩
  have hc : (k.filters.filter fun g => !g.is f.ifx f.parent f.prio f.handle) = k.filters.filter fun g => !(g == f) := by
    refine List.filter_congr (fun g hg => ?_)
    cases h : g.is f.ifx f.parent f.prio f.handle with
    | true =>
      obtain ⟨e1, e2, e3, e4⟩ := is_iff.1 h
      rw [hk.one g hg f hf e1 e2 e3 e4]
      simp
    | false =>
      have : g ≠ f := by
        rintro rfl
        rw [is_iff.2 ⟨rfl, rfl, rfl, rfl⟩] at h
        cases h
      simp [this]
  simp only [Kernel.delFilter]
  rw [if_neg (fun h => h (hk.hook f hf)), if_neg (hk.prio f hf), if_neg (by rw [ha]; decide), if_neg (hk.handle f hf), if_pos hb, hc]

/-- **C113** Attaching through netlink adds one filter, with the program and class that were asked for, the priority and handle if they were, and numbers that are not 0 and
    nobody else has if not; the link has them. All other filters stay. -/
theorem C113_attached {k k' : Kernel} {prog prio handle : Nat} {links links' : List NlLink} {name : Name} {hook : Hook} {classid : Option Nat} {id : Id} (hk : k.WF)
    (h : attach kernel prog links name hook prio handle classid k = (.ok id, links', k')) :
    ∃ (l : NlLink) (f : Filter), links' = l :: links ∧ l.id = id ∧ l.stands f ∧ l.hook = hook ∧ l.classid = classid ∧ f.prog = prog ∧ f.classid = classid ∧
      k'.filters = k.filters ++ [f] ∧ k'.WF ∧ k.index name = .ok l.ifx ∧ (prio ≠ 0 → l.prio = prio) ∧ (handle ≠ 0 → l.handle = handle) ∧
      ∀ g ∈ k.filters, ¬ l.stands g := by
  simp only [attach] at h
  split at h
  · rename_i ifx hi
    have hx : k.index name = .ok ifx := by
      simp only [ifindex] at hi
      split at hi
      · cases hi
      · split at hi
        · rename_i h'; cases hi; exact h'
        · cases hi
    simp only [doAttach] at h
    split at h
    · rename_i p hd k1 hnew
      obtain ⟨e1, h2, h3, h4, h5, h6, h7⟩ := new_ok hk hnew
      simp only [insert] at h
      split at h
      · cases h
      · cases h
        refine ⟨⟨ifx, hook, p, hd, classid⟩, ⟨ifx, hook.parent, p, hd, prog, classid⟩, rfl, rfl, stands_iff.2 ⟨rfl, rfl, rfl, rfl⟩, rfl, rfl, rfl, rfl, by rw [e1], h6, hx, h4, h5,
          fun g hg hs => ?_⟩
        have := h7 g hg
        rw [is_iff.2 (stands_iff.1 hs)] at this
        cases this
    · cases h
  · cases h

/-- **C113** The parameters of a link, kept and used again after anything whatsoever, give the same link, if the interface has its name. -/
theorem C113_restored (k : Kernel) (l : NlLink) (name : Name) (hn : name.contains 0 = false) (h : k.index name = .ok l.ifx)
    (hook : Hook) (prio handle : Nat) (classid : Option Nat) (h1 : (Link.nl l).attachType = .ok hook) (h2 : (Link.nl l).priority = .ok prio)
    (h3 : (Link.nl l).getHandle = .ok handle) (h4 : (Link.nl l).getClassid = .ok classid) :
    attached kernel name hook prio handle classid k = .ok (.nl l) := by
  cases h1; cases h2; cases h3; cases h4
  have hi : ifindex kernel name k = .ok l.ifx := by
    simp only [ifindex, hn, kernel, h]
    rfl
  simp only [attached, hi]

/-- **C113** Links of TCX have no such parameters, and say so. -/
theorem C113_tcx (fd : Nat) : (Link.fd fd).attachType = .error .invalidLinkOperation ∧ (Link.fd fd).priority = .error .invalidLinkOperation ∧
    (Link.fd fd).getHandle = .error .invalidLinkOperation ∧ (Link.fd fd).getClassid = .error .invalidLinkOperation := ⟨rfl, rfl, rfl, rfl⟩

/-- **C113** Interfaces that are not there are errors at once. -/
theorem C113_names (k : Kernel) (name : Name) (hook : Hook) (prio handle : Nat) (classid : Option Nat) :
    (name.contains 0 = true → attached kernel name hook prio handle classid k = .error .nul) ∧
    (name.contains 0 = false → ∀ e, k.index name = .error e → attached kernel name hook prio handle classid k = .error (.io e)) := by
  refine ⟨fun h => ?_, fun h e he => ?_⟩
  · simp only [attached, ifindex, h]
    rfl
  · have hi : ifindex kernel name k = .error (.io e) := by
      simp only [ifindex, h, kernel, he]
      rfl
    simp only [attached, hi]

/-- **C113** Detaching or dropping a link removes the filter that it stands for and no other. -/
theorem C113_detached {k : Kernel} {l : NlLink} {f : Filter} (hk : k.WF) (hf : f ∈ k.filters) (hl : l.stands f) :
    ∃ k', l.detach kernel k = (.ok (), k') ∧ l.drop kernel k = k' ∧ f ∉ k'.filters ∧ (∀ g, g ≠ f → (g ∈ k'.filters ↔ g ∈ k.filters)) ∧ k'.names = k.names ∧
      k'.hooks = k.hooks := by
  have e := del_ok hk hf hl
  have e' : l.detach kernel k = (.ok (), { k with filters := k.filters.filter fun g => !(g == f) }) := by
    simp only [NlLink.detach, kernel, e]
  refine ⟨_, e', by rw [NlLink.drop, e'], by simp, fun g hg => by simp [hg], rfl, rfl⟩

/-- **C113** A link that has a handle and stands for no filter removes none: detaching it is an error. -/
theorem C113_gone_partial {k : Kernel} {l : NlLink} (hh : l.handle ≠ 0) (hn : ∀ f ∈ k.filters, ¬ l.stands f) :
    ∃ e, l.detach kernel k = (.error (.netlink e), k) ∧
      ∀ links, (∃ x ∈ links, x.id = l.id) → remove kernel links l.id k = (.error (.netlink e), links.filter (fun x => !(x.id == l.id)), k) := by
  have hb : ¬ k.filters.any (·.is l.ifx l.hook.parent l.prio l.handle) = true := fun h => by
    obtain ⟨f, hf, hx⟩ := List.any_eq_true.1 h
    exact hn f hf (stands_iff.2 (is_iff.1 hx))
  have : ∃ e, k.delFilter l.ifx l.hook.parent l.prio l.handle = (.error e, k) := by
    simp only [Kernel.delFilter]
    split
    · exact ⟨_, rfl⟩
    · split
      · exact ⟨_, rfl⟩
      · split
        · exact ⟨_, rfl⟩
        · first
            | exact ⟨_, rfl⟩
            | (rw [if_neg hh, if_neg hb]; exact ⟨_, rfl⟩)
  obtain ⟨e, he⟩ := this
  refine ⟨e, by simp only [NlLink.detach, kernel, he], fun links ⟨x, hx, hxi⟩ => ?_⟩
  cases h : links.find? (fun x => x.id == l.id) with
  | none => exact absurd (List.find?_eq_none.1 h x hx) (by simp [hxi])
  | some l' =>
    have hid : l'.id = l.id := by simpa using List.find?_some h
    simp only [NlLink.id, Prod.mk.injEq] at hid
    obtain ⟨i1, i2, i3, i4⟩ := hid
    simp only [remove, takeLink, h, NlLink.detach, kernel, i1, i2, i3, i4, he]

/-- **C113** Replacing the program of a link is one request, which puts the program, with the class of the link, in the place of the one that was there; all other filters stay, and the link is the
    program's. -/
theorem C113_replaced_partial {k : Kernel} {l : NlLink} {f : Filter} {prog : Nat} {links : List NlLink} (hk : k.WF) (hf : f ∈ k.filters) (hl : l.stands f)
    (hi : ∀ x ∈ links, x.id ≠ l.id) :
    ∃ k', attachToLink kernel prog links l k = (.ok l.id, l :: links, k') ∧ { f with prog := prog, classid := l.classid } ∈ k'.filters ∧
      (∀ g, g ≠ f → g ∈ k.filters → g ∈ k'.filters) ∧ k'.filters.length = k.filters.length ∧
      (∀ g ∈ k'.filters, g ∈ k.filters ∨ g = { f with prog := prog, classid := l.classid }) := by
  obtain ⟨h1, h2, h3, h4⟩ := stands_iff.1 hl
  have hb : k.filters.any (·.is l.ifx l.hook.parent l.prio l.handle) = true := List.any_eq_true.2 ⟨f, hf, is_iff.2 ⟨h1, h2, h3, h4⟩⟩
  have hnew : k.newFilter l.ifx l.hook.parent prog l.prio l.handle l.classid false = (.ok (l.prio, l.handle),
      { k with filters := k.filters.map fun g => if g.is l.ifx l.hook.parent l.prio l.handle then { g with prog := prog, classid := l.classid } else g }) := by
    simp only [Kernel.newFilter]
    rw [if_neg (fun h => h (by rw [← h1, ← h2]; exact hk.hook f hf)), if_neg (by decide), if_neg (by rw [← h3]; exact hk.prio f hf), if_pos]
    rw [hb, ← h4]
    simp [hk.handle f hf]
  have hany : links.any (fun x => x.id == l.id) = false := by
    rw [List.any_eq_false]
    intro x hx h
    exact hi x hx (by simpa using h)
  refine ⟨{ k with filters := k.filters.map fun g => if g.is l.ifx l.hook.parent l.prio l.handle then { g with prog := prog, classid := l.classid } else g },
    ?_, ?_, ?_, ?_, ?_⟩
  · simp only [attachToLink, doAttach, kernel, hnew, insert]
    have hany' : (links.any fun x => x.id == ({ ifx := l.ifx, hook := l.hook, prio := l.prio, handle := l.handle, classid := l.classid } : NlLink).id) = false := hany
    rw [if_neg (by rw [hany']; decide)]
  · exact List.mem_map.2 ⟨f, hf, by rw [if_pos (is_iff.2 ⟨h1, h2, h3, h4⟩)]⟩
  · intro g hg hgk
    refine List.mem_map.2 ⟨g, hgk, if_neg (fun h => hg ?_)⟩
    obtain ⟨e1, e2, e3, e4⟩ := is_iff.1 h
    exact hk.one g hgk f hf (e1.trans h1.symm) (e2.trans h2.symm) (e3.trans h3.symm) (e4.trans h4.symm)
  · simp
  · intro g hg
    obtain ⟨x, hx, rfl⟩ := List.mem_map.1 hg
    split
    · rename_i h
      obtain ⟨e1, e2, e3, e4⟩ := is_iff.1 h
      right
      rw [hk.one x hx f hf (e1.trans h1.symm) (e2.trans h2.symm) (e3.trans h3.symm) (e4.trans h4.symm)]
    · exact .inl hx

/-- **C113** If nothing is there to be replaced, nothing is changed, and the error is the kernel's. -/
theorem C113_not_replaced {k : Kernel} {l : NlLink} {prog : Nat} {links : List NlLink} (hn : ∀ f ∈ k.filters, ¬ l.stands f) :
    ∃ e, attachToLink kernel prog links l k = (.error (.netlink e), links, k) := by
  have hb : k.filters.any (·.is l.ifx l.hook.parent l.prio l.handle) = false := by
    rw [List.any_eq_false]
    exact fun f hf hx => hn f hf (stands_iff.2 (is_iff.1 hx))
  have : ∃ e, k.newFilter l.ifx l.hook.parent prog l.prio l.handle l.classid false = (.error e, k) := by
    simp only [Kernel.newFilter]
    split
    · exact ⟨_, rfl⟩
    · rw [if_neg (by decide)]
      split
      · exact ⟨_, rfl⟩
      · rw [if_neg (by rw [hb]; simp)]
        exact ⟨_, rfl⟩
  obtain ⟨e, he⟩ := this
  exact ⟨e, by simp only [attachToLink, doAttach, kernel, he]⟩

/-- **C113** A classifier attached by a process that has ended, with its parameters kept: whatever has happened since, if the filter is there and the interface has its name, a link made of
    the parameters detaches the filter and no other. -/
theorem C113_outlives {k k' : Kernel} {prog prio handle : Nat} {links links' : List NlLink} {name : Name} {hook : Hook} {classid : Option Nat} {id : Id} (hk : k.WF)
    (h : attach kernel prog links name hook prio handle classid k = (.ok id, links', k')) :
    ∃ (l : NlLink) (f : Filter), l ∈ links' ∧ l.id = id ∧ f ∈ k'.filters ∧ f.prog = prog ∧
      ∀ (k2 : Kernel), k2.WF → k2.index name = k.index name → f ∈ k2.filters →
        ∃ (l' : NlLink) (k3 : Kernel), attached kernel name l.hook l.prio l.handle l.classid k2 = .ok (.nl l') ∧ l'.detach kernel k2 = (.ok (), k3) ∧
          f ∉ k3.filters ∧ ∀ g, g ≠ f → (g ∈ k3.filters ↔ g ∈ k2.filters) := by
  have hn : name.contains 0 = false := by
    cases hc : name.contains 0 with
    | false => rfl
    | true =>
      have : ifindex kernel name k = .error .nul := by
        simp only [ifindex, hc]
        rfl
      simp only [attach, this] at h
      cases h
  obtain ⟨l, f, h1, h2, h3, _, _, h6, _, h8, _, h10, _⟩ := C113_attached hk h
  refine ⟨l, f, by rw [h1]; exact List.mem_cons_self .., h2, by rw [h8]; simp, h6, fun k2 hk2 hx hf => ?_⟩
  obtain ⟨k3, e1, _, e3, e4, _⟩ := C113_detached hk2 hf h3
  exact ⟨l, k3, C113_restored k2 l name hn (hx.trans h10) _ _ _ _ rfl rfl rfl rfl, e1, e3, e4⟩

/-- **C113** Detaching by id, or taking the link out and dropping it: the link with the id goes from the table, and the filter it stands for is removed, and no other. -/
theorem C113_removed {k : Kernel} {links : List NlLink} {l : NlLink} {f : Filter} (hk : k.WF) (hm : l ∈ links) (hf : f ∈ k.filters) (hl : l.stands f) :
    ∃ (l' : NlLink) (k' : Kernel), takeLink links l.id = (.ok l', links.filter fun x => !(x.id == l.id)) ∧ l'.id = l.id ∧
      remove kernel links l.id k = (.ok (), links.filter (fun x => !(x.id == l.id)), k') ∧ l'.drop kernel k = k' ∧
      f ∉ k'.filters ∧ ∀ g, g ≠ f → (g ∈ k'.filters ↔ g ∈ k.filters) := by
  cases h : links.find? (fun x => x.id == l.id) with
  | none => exact absurd (List.find?_eq_none.1 h l hm) (by simp)
  | some l' =>
    have hid : l'.id = l.id := by simpa using List.find?_some h
    have ht : takeLink links l.id = (.ok l', links.filter fun x => !(x.id == l.id)) := by simp only [takeLink, h]
    have hl' : l'.stands f := by
      simp only [NlLink.id, Prod.mk.injEq] at hid
      obtain ⟨a, b, c, d⟩ := hl
      exact ⟨a.trans hid.1.symm, by rw [b, hid.2.1], c.trans hid.2.2.1.symm, d.trans hid.2.2.2.symm⟩
    obtain ⟨k', e1, e2, e3, e4, _⟩ := C113_detached hk hf hl'
    refine ⟨l', k', ht, hid, ?_, e2, e3, e4⟩
    simp only [remove, ht, e1]

theorem new_err {k k' : Kernel} {ifx parent prog prio handle e : Nat} {classid : Option Nat} (h : k.newFilter ifx parent prog prio handle classid true = (.error e, k')) :
    k' = k := by
  simp only [Kernel.newFilter, Kernel.add] at h
  (repeat' split at h) <;> first | (cases h; rfl) | cases h

/-- **C113 (partial)** If the links of a program stand for filters that are there, attaching it once more adds a filter, or fails and changes nothing. -/
theorem C113_once_more_partial {k : Kernel} {prog prio handle : Nat} {links : List NlLink} {name : Name} {hook : Hook} {classid : Option Nat} (hk : k.WF)
    (hl : ∀ l ∈ links, ∃ f ∈ k.filters, l.stands f) :
    (∃ id l k', attach kernel prog links name hook prio handle classid k = (.ok id, l :: links, k')) ∨
      ∃ e, e ≠ .alreadyAttached ∧ attach kernel prog links name hook prio handle classid k = (.error e, links, k) := by
  simp only [attach]
  cases hi : ifindex kernel name k with
  | error e =>
    refine .inr ⟨e, ?_, rfl⟩
    rintro rfl
    simp only [ifindex] at hi
    split at hi
    · cases hi
    · split at hi <;> cases hi
  | ok ifx =>
    dsimp only
    simp only [doAttach]
    rcases hnew : kernel.newFilter ifx hook.parent prog prio handle classid true k with ⟨r, k1⟩
    cases r with
    | error e => rw [new_err hnew]; exact .inr ⟨.netlink e, (fun h => by cases h), rfl⟩
    | ok x =>
      obtain ⟨p, h⟩ := x
      obtain ⟨_, _, _, _, _, _, h7⟩ := new_ok hk hnew
      dsimp only
      have hany : links.any (fun x => x.id == NlLink.id ⟨ifx, hook, p, h, classid⟩) = false := by
        rw [List.any_eq_false]
        intro x hx hid
        obtain ⟨f, hf, hs⟩ := hl x hx
        obtain ⟨s1, s2, s3, s4⟩ := stands_iff.1 hs
        have hid : x.id = NlLink.id ⟨ifx, hook, p, h, classid⟩ := by simpa using hid
        simp only [NlLink.id, Prod.mk.injEq] at hid
        have := h7 f hf
        rw [is_iff.2 ⟨s1.trans hid.1, s2.trans (by rw [hid.2.1]), s3.trans hid.2.2.1, s4.trans hid.2.2.2⟩] at this
        cases this
      simp only [insert]
      rw [if_neg (by rw [hany]; decide)]
      exact .inl ⟨_, _, _, rfl⟩

end Verif.TcLink
