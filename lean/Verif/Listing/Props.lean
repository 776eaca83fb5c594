import Verif.Listing.Spec
/-!
# C109: the list of links
-/
namespace Verif.Listing

theorem event_fds (s : State) (e : Event) : (s.event e).fds = s.fds := by
  cases e <;> simp only [State.event] <;> (try split) <;> rfl

theorem events_fds (es : List Event) : ∀ s : State, (es.foldl State.event s).fds = s.fds := by
  induction es with
  | nil => intro s; rfl
  | cons e r ih => intro s; rw [List.foldl_cons, ih, event_fds]

theorem tick_fds (w : World) (s : State) : (w.tick s).fds = s.fds := events_fds _ s

/-- What a call sees: the moment at which it acts. -/
def World.view (w : World) (s : State) : Snap := ⟨(w.tick s).live, (w.tick s).type, (w.tick s).prog⟩

theorem tick_past (w : World) (s : State) : (w.tick s).past = w.view s :: s.past := rfl
theorem tick_calls (w : World) (s : State) : (w.tick s).calls = s.calls + 1 := rfl

theorem least_some {cur id : Nat} {ids : List Nat} (h : least cur ids = some id) :
    id ∈ ids ∧ cur < id ∧ ∀ j ∈ ids, cur < j → id ≤ j := by
  unfold least at h
  rw [List.min?_eq_some_iff] at h
  obtain ⟨hm, hl⟩ := h
  rw [List.mem_filter] at hm
  refine ⟨hm.1, by simpa using hm.2, fun j hj hc => hl j (List.mem_filter.mpr ⟨hj, by simpa using hc⟩)⟩

theorem least_none {cur : Nat} {ids : List Nat} (h : least cur ids = none) : ∀ j ∈ ids, ¬ cur < j := by
  unfold least at h
  rw [List.min?_eq_none_iff] at h
  intro j hj hc
  have : j ∈ ids.filter (fun i => decide (cur < i)) := List.mem_filter.mpr ⟨hj, by simpa using hc⟩
  rw [h] at this; cases this

theorem fresh_lt (fds : List (Fd × Nat)) : ∀ d ∈ fds, d.1 < freshFd fds := by
  have : ∀ d ∈ fds, d.1 ≤ (fds.map (·.1)).foldr max 2 := by
    induction fds with
    | nil => intro d h; cases h
    | cons x r ih =>
      intro d hd
      simp only [List.map_cons, List.foldr_cons]
      rcases List.mem_cons.mp hd with rfl | h
      · exact Nat.le_max_left ..
      · exact Nat.le_trans (ih d h) (Nat.le_max_right ..)
  intro d hd
  have := this d hd
  exact Nat.lt_succ_of_le this

theorem filter_fresh (fds : List (Fd × Nat)) : fds.filter (fun d => d.1 != freshFd fds) = fds := by
  rw [List.filter_eq_self]
  intro d hd
  have := fresh_lt fds d hd
  simp only [bne_iff_ne]
  exact Nat.ne_of_lt this

/-- What one `next` of the list gives. -/
inductive Stepped (w : World) (cur : Nat) (s : State) : Option (Except SyscallError LinkRec) × Option Nat × State → Prop where
  | ended (s') (a : Snap) (hp : s'.past = a :: s.past) (hc : s'.calls = s.calls + 1) (hf : s'.fds = s.fds)
      (h : w.fault s.calls = some 2 ∨ (w.fault s.calls = none ∧ ∀ j ∈ a.live, ¬ cur < j)) : Stepped w cur s (none, none, s')
  | failed (s') (a : Snap) (e : SyscallError) (hp : s'.past = a :: s.past) (hc : s'.calls = s.calls + 1) (hf : s'.fds = s.fds)
      (h : w.fault s.calls = some e.errno) (he : e.errno ≠ 2) : Stepped w cur s (some (.error e), none, s')
  | gone (s') (a b : Snap) (id : Nat) (e : SyscallError) (hp : s'.past = b :: a :: s.past) (hc : s'.calls = s.calls + 2)
      (hf : s'.fds = s.fds) (hm : id ∈ a.live) (hl : cur < id ∧ ∀ j ∈ a.live, cur < j → id ≤ j)
      (h : w.fault (s.calls + 1) = some e.errno ∨ (w.fault (s.calls + 1) = none ∧ e.errno = 2 ∧ id ∉ b.live)) :
      Stepped w cur s (some (.error e), some id, s')
  | hidden (s') (a b c d : Snap) (id : Nat) (e : SyscallError) (hp : s'.past = d :: c :: b :: a :: s.past)
      (hc : s'.calls = s.calls + 4) (hf : s'.fds = s.fds) (hm : id ∈ a.live) (hl : cur < id ∧ ∀ j ∈ a.live, cur < j → id ≤ j)
      (h : w.fault (s.calls + 2) = some e.errno) : Stepped w cur s (some (.error e), some id, s')
  | shown (s') (a b c d : Snap) (id : Nat) (hp : s'.past = d :: c :: b :: a :: s.past) (hc : s'.calls = s.calls + 4)
      (hf : s'.fds = s.fds) (hm : id ∈ a.live) (hl : cur < id ∧ ∀ j ∈ a.live, cur < j → id ≤ j) (hb : id ∈ b.live)
      (hcl : id ∈ c.live) : Stepped w cur s (some (.ok ⟨c.type id, id, c.prog id⟩), some id, s')

theorem step (w : World) (cur : Nat) (s : State) : Stepped w cur s (linkNext w.sys (some cur) s) := by
  unfold linkNext
  cases h0 : w.fault s.calls with
  | some e =>
    by_cases he : e = 2
    · subst he
      have : idNext w.sys (some cur) s = (none, none, w.tick s) := by
        simp only [idNext, World.sys, h0, enoent, if_pos]
      rw [this]
      exact .ended _ _ (tick_past w s) rfl (tick_fds w s) (.inl h0)
    · have : idNext w.sys (some cur) s = (some (.error ⟨"bpf_link_get_next_id", e⟩), none, w.tick s) := by
        simp only [idNext, World.sys, h0, enoent]; exact if_neg he
      rw [this]
      exact .failed _ _ ⟨_, e⟩ (tick_past w s) rfl (tick_fds w s) h0 he
  | none =>
    cases ha : least cur (w.tick s).live with
    | none =>
      have : idNext w.sys (some cur) s = (none, none, w.tick s) := by
        simp only [idNext, World.sys, h0, ha, enoent, if_pos]
      rw [this]
      exact .ended _ _ (tick_past w s) rfl (tick_fds w s) (.inr ⟨h0, least_none ha⟩)
    | some id =>
      obtain ⟨hm, hc, hl⟩ := least_some ha
      have : idNext w.sys (some cur) s = (some (.ok id), some id, w.tick s) := by
        simp only [idNext, World.sys, h0, ha]
      rw [this]
      simp only
      have hf2 : (w.tick (w.tick s)).fds = s.fds := by rw [tick_fds, tick_fds]
      cases h1 : w.fault (s.calls + 1) with
      | some e =>
        have : w.sys.openId id (w.tick s) = (.error e, w.tick (w.tick s)) := by
          simp only [World.sys, tick_calls, h1]
        rw [this]
        exact .gone _ (w.view s) (w.view (w.tick s)) id ⟨_, e⟩ rfl rfl hf2 hm ⟨hc, hl⟩ (.inl h1)
      | none =>
        by_cases hb : id ∈ (w.tick (w.tick s)).live
        · have : w.sys.openId id (w.tick s) = (.ok (freshFd s.fds), { w.tick (w.tick s) with fds := (freshFd s.fds, id) :: s.fds }) := by
            simp only [World.sys, tick_calls, h1, if_pos hb, hf2]
          rw [this]
          generalize hs3 : ({ w.tick (w.tick s) with fds := (freshFd s.fds, id) :: s.fds } : State) = s3
          have e1 : s3.fds = (freshFd s.fds, id) :: s.fds := by rw [← hs3]
          have e2 : s3.calls = s.calls + 2 := by rw [← hs3]; rfl
          have e3 : s3.past = w.view (w.tick s) :: w.view s :: s.past := by rw [← hs3]; rfl
          have hf4 : (w.tick s3).fds = (freshFd s.fds, id) :: s.fds := by rw [tick_fds, e1]
          have hclose : ∀ (s4 : State), s4 = w.tick s3 → (w.sys.close (freshFd s.fds) s4).fds = s.fds ∧
              (w.sys.close (freshFd s.fds) s4).past = w.view s4 :: w.view s3 :: w.view (w.tick s) :: w.view s :: s.past ∧
              (w.sys.close (freshFd s.fds) s4).calls = s.calls + 4 := by
            rintro s4 rfl
            refine ⟨?_, ?_, ?_⟩
            · simp only [World.sys, tick_fds w (w.tick s3), hf4]
              rw [List.filter_cons_of_neg (by simp), filter_fresh]
            · simp only [World.sys, tick_past, e3]
            · simp only [World.sys, tick_calls, e2]
          obtain ⟨c1, c2, c3⟩ := hclose _ rfl
          simp only [infoOf]
          cases h2 : w.fault (s.calls + 2) with
          | some e =>
            have : w.sys.info (freshFd s.fds) s3 = (.error e, w.tick s3) := by simp only [World.sys, e2, h2]
            rw [this]
            exact .hidden _ _ _ _ _ id ⟨_, e⟩ c2 c3 c1 hm ⟨hc, hl⟩ h2
          | none =>
            have : w.sys.info (freshFd s.fds) s3 = (.ok ⟨(w.tick s3).type id, id, (w.tick s3).prog id⟩, w.tick s3) := by
              have hfind : List.find? (fun d : Fd × Nat => d.1 == freshFd s.fds) ((freshFd s.fds, id) :: s.fds) =
                  some (freshFd s.fds, id) := by simp
              simp only [World.sys, e2, h2, hf4, hfind]
            rw [this]
            refine .shown _ _ _ (w.view s3) _ id c2 c3 c1 hm ⟨hc, hl⟩ hb ?_
            show id ∈ (w.tick s3).live
            simp only [State.live, hf4, List.mem_append, List.map_cons, List.mem_cons]
            exact .inr (.inl trivial)
        · have : w.sys.openId id (w.tick s) = (.error 2, w.tick (w.tick s)) := by
            simp only [World.sys, tick_calls, h1, if_neg hb]
          rw [this]
          exact .gone _ (w.view s) (w.view (w.tick s)) id ⟨_, 2⟩ rfl rfl hf2 hm ⟨hc, hl⟩ (.inr ⟨h1, rfl, hb⟩)

/-- What a list that goes on from `cur` gives. -/
structure Listed (w : World) (cur : Option Nat) (s : State) (items : List (Except SyscallError LinkRec)) (ended : Bool)
    (s' : State) (seen : List Snap) : Prop where
  saw : Saw s s' seen
  fds : s'.fds = s.fds
  calls : s.calls ≤ s'.calls
  above : ∀ c, cur = some c → ∀ r ∈ told items, c < r.id
  asc : (told items).Pairwise (fun a b => a.id < b.id)
  truth : ∀ r ∈ told items, ∃ a ∈ seen, r.id ∈ a.live ∧ r.type = a.type r.id ∧ r.progId = a.prog r.id
  all : (∀ t, w.fault t ≠ .some 2) → ended = true → (∀ e, .error e ∈ items → e.errno = 2) → ∀ c, cur = some c →
    ∀ i, c < i → (∀ a ∈ seen, i ∈ a.live) → ∃ r ∈ told items, r.id = i
  why : ∀ e, .error e ∈ items → (∃ t, s.calls ≤ t ∧ t < s'.calls ∧ w.fault t = some e.errno) ∨
    (e.errno = 2 ∧ ∃ i, ∃ a ∈ seen, ∃ b ∈ seen, i ∈ a.live ∧ i ∉ b.live)
  nothing : cur = .none → items = []

theorem listed (w : World) : ∀ (fuel : Nat) (cur : Option Nat) (s : State),
    ∃ seen, Listed w cur s (linksFrom w.sys fuel cur s).1 (linksFrom w.sys fuel cur s).2.1 (linksFrom w.sys fuel cur s).2.2 seen := by
  intro fuel
  induction fuel with
  | zero =>
    intro cur s
    refine ⟨[], rfl, rfl, Nat.le_refl _, ?_, .nil, ?_, ?_, ?_, fun _ => rfl⟩
    · intro c _ r hr; cases hr
    · intro r hr; cases hr
    · intro _ h; cases h
    · intro e h; cases h
  | succ n ih =>
    intro cur s
    cases cur with
    | none =>
      have : linksFrom w.sys (n + 1) none s = ([], Bool.true, s) := rfl
      rw [this]
      refine ⟨[], rfl, rfl, Nat.le_refl _, ?_, .nil, ?_, ?_, ?_, fun _ => rfl⟩
      · intro c _ r hr; cases hr
      · intro r hr; cases hr
      · intro _ _ _ c h; cases h
      · intro e h; cases h
    | some cur =>
      have hst := step w cur s
      simp only [linksFrom]
      generalize linkNext w.sys (some cur) s = x at hst ⊢
      cases hst with
      | ended s' a hp hc hf h =>
        refine ⟨[a], hp, hf, by simp only [hc]; omega, ?_, .nil, ?_, ?_, ?_, fun h => by cases h⟩
        · intro c _ r hr; cases hr
        · intro r hr; cases hr
        · intro hw _ _ c hcur i hi hal
          cases hcur
          rcases h with h | ⟨_, h⟩
          · exact absurd h (hw _)
          · exact absurd hi (h i (hal a (by simp)))
        · intro e h; cases h
      | failed s' a e hp hc hf h he =>
        obtain ⟨seen, L⟩ := ih none s'
        have hnil := L.nothing rfl
        dsimp only
        generalize linksFrom w.sys n none s' = y at L hnil ⊢
        obtain ⟨items, ended, s''⟩ := y
        simp only at L hnil ⊢
        subst hnil
        refine ⟨seen ++ [a], ?_, L.fds.trans hf, by have := L.calls; omega, ?_, .nil, ?_, ?_, ?_, fun h => by cases h⟩
        · have := L.saw; simp only [Saw] at this ⊢; rw [this, hp]; simp
        · intro c _ r hr; cases hr
        · intro r hr; cases hr
        · intro _ _ hne; exact absurd (hne e (List.mem_cons_self ..)) he
        · intro e' he'
          simp only [List.mem_cons, Except.error.injEq, List.not_mem_nil, or_false] at he'
          subst he'
          exact .inl ⟨s.calls, Nat.le_refl _, by have := L.calls; omega, h⟩
      | gone s' a b id e hp hc hf hm hl h =>
        obtain ⟨seen, L⟩ := ih (.some id) s'
        dsimp only
        generalize linksFrom w.sys n (.some id) s' = y at L ⊢
        obtain ⟨items, ended, s''⟩ := y
        simp only at L ⊢
        refine ⟨seen ++ [b, a], ?_, L.fds.trans hf, by have := L.calls; omega, ?_, L.asc, ?_, ?_, ?_, fun h => by cases h⟩
        · have := L.saw; simp only [Saw] at this ⊢; rw [this, hp]; simp
        · intro c hcur r hr; cases hcur
          exact Nat.lt_trans hl.1 (L.above id rfl r hr)
        · intro r hr
          obtain ⟨x, hx, h⟩ := L.truth r hr
          exact ⟨x, List.mem_append_left _ hx, h⟩
        · intro hw hend hne k hcur i hi hal
          cases hcur
          have hle := hl.2 i (hal a (by simp)) hi
          have h2 := hne e (List.mem_cons_self ..)
          rcases h with h | ⟨_, _, hgone⟩
          · rw [h2] at h; exact absurd h (hw _)
          · have hii : id ≠ i := fun hii => hgone (hii ▸ hal b (by simp))
            exact L.all hw hend (fun e he => hne e (List.mem_cons_of_mem _ he)) id rfl i (by omega)
              (fun x hx => hal x (List.mem_append_left _ hx))
        · intro e' he'
          rcases List.mem_cons.mp he' with he' | he'
          · cases he'
            rcases h with h | ⟨_, h2, h3⟩
            · exact .inl ⟨s.calls + 1, by omega, by have := L.calls; omega, h⟩
            · exact .inr ⟨h2, id, a, by simp, b, by simp, hm, h3⟩
          · rcases L.why e' he' with ⟨t, h1, h2, h3⟩ | ⟨h1, i, x, hx, y, hy, h⟩
            · exact .inl ⟨t, by omega, h2, h3⟩
            · exact .inr ⟨h1, i, x, List.mem_append_left _ hx, y, List.mem_append_left _ hy, h⟩
      | hidden s' a b c d id e hp hc hf hm hl h =>
        obtain ⟨seen, L⟩ := ih (.some id) s'
        dsimp only
        generalize linksFrom w.sys n (.some id) s' = y at L ⊢
        obtain ⟨items, ended, s''⟩ := y
        simp only at L ⊢
        refine ⟨seen ++ [d, c, b, a], ?_, L.fds.trans hf, by have := L.calls; omega, ?_, L.asc, ?_, ?_, ?_, fun h => by cases h⟩
        · have := L.saw; simp only [Saw] at this ⊢; rw [this, hp]; simp
        · intro c hcur r hr; cases hcur
          exact Nat.lt_trans hl.1 (L.above id rfl r hr)
        · intro r hr
          obtain ⟨x, hx, h⟩ := L.truth r hr
          exact ⟨x, List.mem_append_left _ hx, h⟩
        · intro hw _ hne; rw [hne e (List.mem_cons_self ..)] at h; exact absurd h (hw _)
        · intro e' he'
          rcases List.mem_cons.mp he' with he' | he'
          · cases he'
            exact .inl ⟨s.calls + 2, by omega, by have := L.calls; omega, h⟩
          · rcases L.why e' he' with ⟨t, h1, h2, h3⟩ | ⟨h1, i, x, hx, y, hy, h⟩
            · exact .inl ⟨t, by omega, h2, h3⟩
            · exact .inr ⟨h1, i, x, List.mem_append_left _ hx, y, List.mem_append_left _ hy, h⟩
      | shown s' a b c d id hp hc hf hm hl hb hcl =>
        obtain ⟨seen, L⟩ := ih (.some id) s'
        dsimp only
        generalize linksFrom w.sys n (.some id) s' = y at L ⊢
        obtain ⟨items, ended, s''⟩ := y
        simp only at L ⊢
        refine ⟨seen ++ [d, c, b, a], ?_, L.fds.trans hf, by have := L.calls; omega, ?_, ?_, ?_, ?_, ?_, fun h => by cases h⟩
        · have := L.saw; simp only [Saw] at this ⊢; rw [this, hp]; simp
        · intro c hcur r hr; cases hcur
          rcases List.mem_cons.mp hr with rfl | hr
          · exact hl.1
          · exact Nat.lt_trans hl.1 (L.above id rfl r hr)
        · exact List.pairwise_cons.mpr ⟨fun r hr => L.above id rfl r hr, L.asc⟩
        · intro r hr
          rcases List.mem_cons.mp hr with rfl | hr
          · exact ⟨c, by simp, hcl, rfl, rfl⟩
          · obtain ⟨x, hx, h⟩ := L.truth r hr
            exact ⟨x, List.mem_append_left _ hx, h⟩
        · intro hw hend hne k hcur i hi hal
          cases hcur
          have hle := hl.2 i (hal a (by simp)) hi
          by_cases hii : id = i
          · exact ⟨_, List.mem_cons_self .., hii⟩
          · obtain ⟨r, hr, he⟩ := L.all hw hend (fun e he => hne e (List.mem_cons_of_mem _ he)) id rfl i (by omega)
              (fun x hx => hal x (List.mem_append_left _ hx))
            exact ⟨r, List.mem_cons_of_mem _ hr, he⟩
        · intro e' he'
          rcases List.mem_cons.mp he' with he' | he'
          · cases he'
          · rcases L.why e' he' with ⟨t, h1, h2, h3⟩ | ⟨h1, i, x, hx, y, hy, h⟩
            · exact .inl ⟨t, by omega, h2, h3⟩
            · exact .inr ⟨h1, i, x, List.mem_append_left _ hx, y, List.mem_append_left _ hy, h⟩

/-- A list that goes on ends before it has passed all ids. -/
theorem listed_ends (w : World) (N : Nat) : ∀ (fuel : Nat) (cur : Option Nat) (s : State),
    (∀ c, cur = some c → c ≤ N ∧ N + 1 < fuel + c) → 0 < fuel →
    (∀ seen, Saw s (linksFrom w.sys fuel cur s).2.2 seen → ∀ a ∈ seen, ∀ i ∈ a.live, i ≤ N) →
    (linksFrom w.sys fuel cur s).2.1 = true := by
  intro fuel
  induction fuel with
  | zero => intro _ _ _ h; exact absurd h (Nat.lt_irrefl 0)
  | succ n ih =>
    intro cur s hN _ hall
    cases cur with
    | none => rfl
    | some cur =>
      have hst := step w cur s
      have hcur := hN cur rfl
      simp only [linksFrom] at hall ⊢
      generalize linkNext w.sys (some cur) s = x at hst hall ⊢
      have key : ∀ (s' : State) (id : Nat) (l : List Snap) (a : Snap), s'.past = l ++ s.past → a ∈ l → id ∈ a.live → cur < id →
          (∀ seen, Saw s (linksFrom w.sys n (.some id) s').2.2 seen → ∀ a ∈ seen, ∀ i ∈ a.live, i ≤ N) →
          (linksFrom w.sys n (.some id) s').2.1 = true := by
        intro s' id l a hp ha hm hlt hall
        obtain ⟨sn, L⟩ := listed w n (.some id) s'
        have hs : Saw s (linksFrom w.sys n (.some id) s').2.2 (sn ++ l) := by
          have := L.saw; simp only [Saw] at this ⊢; rw [this, hp]; simp
        have hle := hall _ hs a (List.mem_append_right _ ha) id hm
        refine ih (.some id) s' (fun c hc => by cases hc; exact ⟨hle, by omega⟩) (by omega) ?_
        intro seen h1 x hx i hi
        refine hall (seen ++ l) ?_ x (List.mem_append_left _ hx) i hi
        simp only [Saw] at h1 ⊢; rw [h1, hp]; simp
      cases hst with
      | ended => rfl
      | failed s' a e hp hc hf h he =>
        simp only at hall ⊢
        cases n with
        | zero =>
          exfalso; omega
        | succ n => rfl
      | gone s' a b id e hp hc hf hm hl h => exact key s' id [b, a] a hp (by simp) hm hl.1 hall
      | hidden s' a b c d id e hp hc hf hm hl h => exact key s' id [d, c, b, a] a hp (by simp) hm hl.1 hall
      | shown s' a b c d id hp hc hf hm hl hb hcl => exact key s' id [d, c, b, a] a hp (by simp) hm hl.1 hall

/-- Whatever others do during a list, and whichever calls fail: the links told of are in the order of their ids, each once; each was
    there at some moment of the list, with the type and the program told; and if the list came to its end without an error but `ENOENT`
    (of links that went away), each link that was there all the time is told of. -/
theorem C109_links_partial (w : World) (hw : ∀ t, w.fault t ≠ some 2) (fuel : Nat) (s : State) :
    ∃ seen, Saw s (loadedLinks w.sys fuel s).2.2 seen ∧
      (told (loadedLinks w.sys fuel s).1).Pairwise (fun a b => id a < id b) ∧
      (∀ r ∈ told (loadedLinks w.sys fuel s).1,
        ∃ a ∈ seen, id r ∈ a.live ∧ r.type = a.type (id r) ∧ programId r = a.prog (id r)) ∧
      ((loadedLinks w.sys fuel s).2.1 = true → (∀ e, .error e ∈ (loadedLinks w.sys fuel s).1 → e.errno = 2) →
        ∀ i, i ≠ 0 → (∀ a ∈ seen, i ∈ a.live) → ∃ r ∈ told (loadedLinks w.sys fuel s).1, id r = i) := by
  obtain ⟨seen, L⟩ := listed w fuel (some 0) s
  exact ⟨seen, L.saw, L.asc, L.truth, fun h1 h2 i hi => L.all hw h1 h2 0 rfl i (Nat.pos_of_ne_zero hi)⟩

/-- Each error has its reason: a call of this list failed with it, or it is `ENOENT` and a link went away during the list. -/
theorem C109_errors (w : World) (fuel : Nat) (s : State) :
    ∃ seen, Saw s (loadedLinks w.sys fuel s).2.2 seen ∧ ∀ e, .error e ∈ (loadedLinks w.sys fuel s).1 →
      (∃ t, s.calls ≤ t ∧ t < (loadedLinks w.sys fuel s).2.2.calls ∧ w.fault t = some e.errno) ∨
      (e.errno = 2 ∧ ∃ i, ∃ a ∈ seen, ∃ b ∈ seen, i ∈ a.live ∧ i ∉ b.live) := by
  obtain ⟨seen, L⟩ := listed w fuel (some 0) s
  exact ⟨seen, L.saw, L.why⟩

/-- However far the list is read, and whatever fails: this process then has the descriptors that it had, so that a link lives on only
    if others refer to it, or this process already did. -/
theorem C109_descriptors (w : World) (fuel : Nat) (s : State) :
    (loadedLinks w.sys fuel s).2.2.fds = s.fds ∧
      ∀ i, i ∈ (loadedLinks w.sys fuel s).2.2.live ↔ i ∈ (loadedLinks w.sys fuel s).2.2.held ∨ ∃ fd, (fd, i) ∈ s.fds := by
  obtain ⟨seen, L⟩ := listed w fuel (some 0) s
  have h : (loadedLinks w.sys fuel s).2.2.fds = s.fds := L.fds
  refine ⟨h, fun i => ?_⟩
  simp only [State.live, h, List.mem_append, List.mem_map]
  constructor
  · rintro (h | ⟨⟨fd, j⟩, hd, rfl⟩)
    · exact .inl h
    · exact .inr ⟨fd, hd⟩
  · rintro (h | ⟨fd, hd⟩)
    · exact .inl h
    · exact .inr ⟨(fd, i), hd, rfl⟩

/-- The list ends, whatever others do, if ids stay below a bound. -/
theorem C109_ends (w : World) (N fuel : Nat) (s : State) (hN : N + 1 < fuel)
    (h : ∀ seen, Saw s (loadedLinks w.sys fuel s).2.2 seen → ∀ a ∈ seen, ∀ i ∈ a.live, i ≤ N) :
    (loadedLinks w.sys fuel s).2.1 = true :=
  listed_ends w N fuel (some 0) s (fun c hc => by cases hc; exact ⟨Nat.zero_le _, by omega⟩) (by omega) h

/-- The type of a link is the one that the kernel means; of a newer one the number is told. -/
theorem C109_type (r : LinkRec) :
    (∀ t, linkType r = .ok t ↔ kernelTypes[r.type]? = some t) ∧
    (∀ n, linkType r = .error n ↔ n = r.type ∧ kernelTypes[r.type]? = none) := by
  obtain ⟨ty, i, p⟩ := r
  by_cases h : ty < 14
  · have : ∃ t, linkType ⟨ty, i, p⟩ = .ok t ∧ kernelTypes[ty]? = some t := by
      have : ty = 0 ∨ ty = 1 ∨ ty = 2 ∨ ty = 3 ∨ ty = 4 ∨ ty = 5 ∨ ty = 6 ∨ ty = 7 ∨ ty = 8 ∨ ty = 9 ∨ ty = 10 ∨ ty = 11 ∨ ty = 12 ∨
          ty = 13 := by omega
      rcases this with h | h | h | h | h | h | h | h | h | h | h | h | h | h <;> (subst h; exact ⟨_, rfl, rfl⟩)
    obtain ⟨t, h1, h2⟩ := this
    simp only [h1, h2]
    refine ⟨fun t' => ?_, fun n => ?_⟩
    · simp
    · simp
  · have h1 : linkType ⟨ty, i, p⟩ = .error ty := by
      simp only [linkType]
      split <;> first | rfl | omega
    have h2 : kernelTypes[ty]? = none := by
      rw [List.getElem?_eq_none_iff]; simp only [kernelTypes, List.length_cons, List.length_nil]; omega
    simp only [h1, h2]
    refine ⟨fun t' => ?_, fun n => ?_⟩
    · simp
    · simp [eq_comm]

end Verif.Listing
