import Verif.Conv.Steps
/-!
# C102: links stand for their attachments, whatever they are turned into
-/
set_option linter.unusedVariables false
set_option linter.unusedSimpArgs false
namespace Verif.Conv
open Verif.Conv.Spec (K Obj Shape Op Out Have By A offers accepts convertible)

variable {pick : List (Nat × Obj) → Nat}

theorem exists_zip {us : List Nat} {u : Nat} : ∀ {fds us : List Nat}, fds.length = us.length → u ∈ us → ∃ fd, (fd, u) ∈ fds.zip us
  | [], [], _, h => by simp at h
  | [], _ :: _, h, _ => by simp at h
  | _ :: _, [], h, _ => by simp at h
  | fd :: fds, v :: us, h, hu => by
    rcases List.mem_cons.1 hu with rfl | hu
    · exact ⟨fd, by simp⟩
    · obtain ⟨fd', h'⟩ := exists_zip (us := us) (fds := fds) (by simpa using h) hu
      exact ⟨fd', by simp [h']⟩

theorem objs_holds {made} {h : Handle} {v : Have} (m : Match made h v) {fd u : Nat} :
    (fd, Obj.link u) ∈ objs (h, v) ∨ (fd, Obj.perf u true) ∈ objs (h, v) → u ∈ v.holds := by
  cases m with
  | fd e f => simp only [objs, Spec.Have.holds, List.mem_singleton, Prod.mk.injEq, reduceCtorEq, and_false, or_false, Obj.link.injEq]; exact And.right
  | direct e => simp [objs]
  | perf e => simp only [objs, Spec.Have.holds, List.mem_singleton, Prod.mk.injEq, reduceCtorEq, and_false, false_or, Obj.perf.injEq, and_true]; exact And.right
  | fds e f g =>
    simp only [objs, Spec.Have.holds, List.mem_map, Prod.mk.injEq, reduceCtorEq, and_false, exists_false, or_false, Obj.link.injEq]
    rintro ⟨p, hp, rfl, rfl⟩
    exact (List.of_mem_zip hp).2
  | perfs e f =>
    simp only [objs, Spec.Have.holds, List.mem_map, Prod.mk.injEq, reduceCtorEq, and_false, exists_false, false_or, Obj.perf.injEq, and_true]
    rintro ⟨p, hp, rfl, rfl⟩
    exact (List.of_mem_zip hp).2
  | fdLink e => simp only [objs, Spec.Have.holds, List.mem_singleton, Prod.mk.injEq, reduceCtorEq, and_false, or_false, Obj.link.injEq]; exact And.right
  | pinned e => simp only [objs, Spec.Have.holds, List.mem_singleton, Prod.mk.injEq, reduceCtorEq, and_false, or_false, Obj.link.injEq]; exact And.right
  | file => simp [objs]

theorem holds_objs {made} {h : Handle} {v : Have} (m : Match made h v) {u : Nat} (hu : u ∈ v.holds) :
    (∃ fd, (fd, Obj.link u) ∈ objs (h, v)) ∨ (∃ fd, (fd, Obj.perf u true) ∈ objs (h, v)) ∨ u ∈ directs (h, v) := by
  cases m with
  | @fd _ fd _ _ _ e f => rw [List.mem_singleton.1 hu]; exact .inl ⟨fd, by simp [objs]⟩
  | direct e => rw [List.mem_singleton.1 hu]; exact .inr (.inr (by simp [directs]))
  | @perf _ fd _ e => rw [List.mem_singleton.1 hu]; exact .inr (.inl ⟨fd, by simp [objs]⟩)
  | @fds _ fds us e f g =>
    obtain ⟨fd, h⟩ := exists_zip (us := us) f hu
    exact .inl ⟨fd, List.mem_map.2 ⟨_, h, rfl⟩⟩
  | @perfs _ fds us e f =>
    obtain ⟨fd, h⟩ := exists_zip (us := us) f hu
    exact .inr (.inl ⟨fd, List.mem_map.2 ⟨_, h, rfl⟩⟩)
  | @fdLink fd _ e => rw [List.mem_singleton.1 hu]; exact .inl ⟨fd, by simp [objs]⟩
  | @pinned _ fd _ e => rw [List.mem_singleton.1 hu]; exact .inl ⟨fd, by simp [objs]⟩
  | file => simp [Spec.Have.holds] at hu

theorem inEffect_iff {gs} {s : St} {a : A} (r : Rel gs s a) (u : Nat) : s.k.inEffect u ↔ a.held u ∨ u ∈ a.left := by
  have fdsIff : ∀ e, e ∈ s.k.fds ↔ ∃ g ∈ gs, e ∈ objs g := fun e => by rw [r.own.fds.mem_iff, List.mem_flatMap]
  have dirIff : u ∈ s.k.direct ↔ (∃ g ∈ gs, u ∈ directs g) ∨ u ∈ a.left := by
    rw [r.own.direct.mem_iff, List.mem_append, List.mem_flatMap]
  have memHave : ∀ g ∈ gs, g.2 ∈ a.have_ := fun g hg => by rw [r.have_]; exact List.mem_map_of_mem (f := (·.2)) hg
  constructor
  · rintro (⟨fd, h⟩ | ⟨fd, h⟩ | ⟨path, h⟩ | h)
    · obtain ⟨g, hg, ho⟩ := (fdsIff _).1 h
      exact .inl (.inl ⟨g.2, memHave g hg, objs_holds (r.matches_ g hg) (.inl ho)⟩)
    · obtain ⟨g, hg, ho⟩ := (fdsIff _).1 h
      exact .inl (.inl ⟨g.2, memHave g hg, objs_holds (r.matches_ g hg) (.inr ho)⟩)
    · exact .inl (.inr ⟨path, r.files ▸ h⟩)
    · rcases dirIff.1 h with ⟨g, hg, hd⟩ | h
      · refine .inl (.inl ⟨g.2, memHave g hg, ?_⟩)
        obtain ⟨h', v⟩ := g
        have m := r.matches_ _ hg
        cases m <;> simp_all [directs, Spec.Have.holds]
      · exact .inr h
  · rintro ((⟨v, hv, hu⟩ | ⟨path, h⟩) | h)
    · rw [r.have_] at hv
      obtain ⟨g, hg, rfl⟩ := List.mem_map.1 hv
      rcases holds_objs (r.matches_ g hg) hu with ⟨fd, h⟩ | ⟨fd, h⟩ | h
      · exact .inl ⟨fd, (fdsIff _).2 ⟨g, hg, h⟩⟩
      · exact .inr (.inl ⟨fd, (fdsIff _).2 ⟨g, hg, h⟩⟩)
      · exact .inr (.inr (.inr (dirIff.2 (.inl ⟨g, hg, h⟩))))
    · exact .inr (.inr (.inl ⟨path, r.files ▸ h⟩))
    · exact .inr (.inr (.inr (dirIff.2 (.inr h))))

/-- C102. Whatever is done to links, and whichever calls the kernel refuses: every operation returns what it means to return, and
an attachment is in effect exactly if a link at hand or a file stands for it, or it is one of those left behind. -/
theorem C102_histories (hp : Spec.Fresh pick) (h : List (Op × Option Nat)) :
    (run pick start h).1 = (Spec.run Spec.start h).1 ∧
    ∀ u, (run pick start h).2.k.inEffect u ↔ (Spec.run Spec.start h).2.held u ∨ u ∈ (Spec.run Spec.start h).2.left := by
  obtain ⟨e, gs, r⟩ := run_same hp h [] _ _ start_rel
  exact ⟨e, inEffect_iff r⟩

theorem step_left {a : A} {op : Op} {fail : Option Nat} (hl : a.left = []) (h1 : ∀ i, op = .drop i ∨ op = .detach i → fail = none)
    (h2 : ∀ i k us, op = .toFd i → a.have_[i]? ≠ some (.typed k .direct us)) : (Spec.step a op fail).2.left = [] := by
  have undo : ∀ i b us, ((a.take i).undo b us none).left = [] := fun i b us => by simp [undo_eq, A.take, hl]
  cases op with
  | attach k sh prog =>
    simp only [Spec.step]
    split
    · cases sh <;> exact hl
    · exact hl
  | drop i => rw [h1 i (.inl rfl)]; simp only [Spec.step]; split <;> first | exact undo _ _ _ | exact hl
  | detach i => rw [h1 i (.inr rfl)]; simp only [Spec.step]; split <;> first | exact undo _ _ _ | exact hl
  | toFd i =>
    have := h2 i
    simp only [Spec.step]
    split
    · exact hl
    · rename_i k b us _ e
      rw [giveUp_eq]
      by_cases hb : b = .direct
      · subst hb; exact absurd e (this _ _ rfl)
      · simp [hb, A.take, hl]
    · exact hl
  | ofFd i k => simp only [Spec.step]; (repeat' split) <;> exact hl
  | intoFds i => simp only [Spec.step]; (repeat' split) <;> exact hl
  | intoFile i => simp only [Spec.step]; (repeat' split) <;> exact hl
  | pin i path => simp only [Spec.step]; (repeat' split) <;> exact hl
  | unpin i => simp only [Spec.step]; (repeat' split) <;> exact hl
  | unwrap i => simp only [Spec.step]; (repeat' split) <;> exact hl
  | fromPin path => simp only [Spec.step]; (repeat' split) <;> exact hl
  | info i => simp only [Spec.step]; (repeat' split) <;> exact hl
  | remove path => exact hl

theorem run_left : ∀ (h : List (Op × Option Nat)) (a : A), a.left = [] → Spec.Careful a h → (Spec.run a h).2.left = []
  | [], _, hl, _ => hl
  | (op, fail) :: h, a, hl, ⟨h1, h2, h3⟩ => run_left h _ (step_left hl h1 h2) h3

/-- C102. Nothing stays attached that nobody can detach, provided the kernel does not refuse to detach what was attached without
a link, and no such link is turned into an `FdLink`. Missing: it is not so otherwise (`C102_left_violated`). -/
theorem C102_none_left_partial (hp : Spec.Fresh pick) (h : List (Op × Option Nat)) (hc : Spec.Careful Spec.start h) (u : Nat) :
    (run pick start h).2.k.inEffect u ↔ (Spec.run Spec.start h).2.held u := by
  rw [(C102_histories hp h).2 u, run_left h _ rfl hc]
  simp

/-- C102. No descriptor is lost: when nothing is at hand any more, none is open. -/
theorem C102_closed (hp : Spec.Fresh pick) (h : List (Op × Option Nat)) (hn : (run pick start h).2.hs = []) :
    (run pick start h).2.k.fds = [] := by
  obtain ⟨e, gs, r⟩ := run_same hp h [] _ _ start_rel
  have : gs = [] := by
    have := r.hs
    rw [hn] at this
    exact List.map_eq_nil_iff.1 this.symm
  subst this
  exact List.Perm.eq_nil r.own.fds

/-- The link of a descriptor. -/
theorem Rel.link {gs} {s : St} {a : A} (r : Rel gs s a) {i fd : Nat} (h : s.hs[i]? = some (.fdLink fd)) :
    ∃ u p t, gs[i]? = some (.fdLink fd, .fdLink u) ∧ a.made[u]? = some (p, t) ∧ (fd, Obj.link u) ∈ s.k.fds := by
  rcases r.at i with ⟨_, e1, e2⟩ | ⟨h', v, eg, e1, e2, m⟩
  · rw [h] at e1; cases e1
  · rw [h] at e1
    cases e1
    cases m with
    | @fdLink _ u e =>
      exact ⟨u, _, _, eg, List.getElem?_eq_getElem e, r.own.fds.mem_iff.2 (List.mem_flatMap.2 ⟨_, List.mem_of_getElem? eg, by simp [objs]⟩)⟩

/-- C102. After any history a typed link that is a descriptor can be turned into an `FdLink` and back, for those types that can be
made of an `FdLink`: both succeed, it ends up the same link over the same descriptor, and nothing changes in the kernel, not even
in between. -/
theorem C102_round_trip (hp : Spec.Fresh pick) (h : List (Op × Option Nat)) (i fd : Nat) (k : Kind) (hk : convertible k = true)
    (hi : (run pick start h).2.hs[i]? = some (.typed k (.fd fd))) :
    let s := (run pick start h).2
    let s' : St := ⟨s.hs.eraseIdx i ++ [.fdLink fd], s.k⟩
    step pick s (.toFd i) none = (.made 1, s') ∧
    step pick s' (.ofFd (s.hs.length - 1) k) none = (.made 1, ⟨s.hs.eraseIdx i ++ [.typed k (.fd fd)], s.k⟩) := by
  intro s s'
  obtain ⟨e, gs, r⟩ := run_same hp h [] _ _ start_rel
  have e1 : step pick s (.toFd i) none = (.made 1, s') := by
    simp only [step, hi, s, toFd, out, new, s']
  refine ⟨e1, ?_⟩
  have hlt : i < s.hs.length := (List.getElem?_eq_some_iff.1 hi).1
  have hlen : (s.hs.eraseIdx i).length = s.hs.length - 1 := List.length_eraseIdx_of_lt hlt
  have hget : s'.hs[s.hs.length - 1]? = some (.fdLink fd) := by
    show (s.hs.eraseIdx i ++ [Handle.fdLink fd])[s.hs.length - 1]? = _
    rw [← hlen]; simp
  have herase : s'.hs.eraseIdx (s.hs.length - 1) = s.hs.eraseIdx i := by
    show (s.hs.eraseIdx i ++ [Handle.fdLink fd]).eraseIdx (s.hs.length - 1) = _
    rw [← hlen, List.eraseIdx_append_of_length_le (Nat.le_refl _)]
    simp
  rcases r.at i with ⟨_, e3, _⟩ | ⟨h', v, eg, e3, e4, m⟩
  · rw [hi] at e3; cases e3
  rw [hi] at e3
  cases e3
  cases m with
  | @fd _ _ u p t em f =>
    have own := r.take eg
    simp only [step, hget, fromFd_eq, hk, Bool.true_eq_false, if_false, herase]
    by_cases ht : k = .tracing
    · simp only [ofFd, ht, if_true, out, new, s']
    · have hm : s.k.made = _ := r.made
      simp only [ofFd, ht, if_false, s', s, info_of own, hm, em, Option.getD_some, (wanted_accepts hk ht t).2 (f hk), if_true, out, new]

/-- C102. After any history an `FdLink` stands for a link in effect, and it becomes a typed link exactly if the kernel's type of that
link is one of that typed link (for `tracing`, always). -/
theorem C102_type (hp : Spec.Fresh pick) (h : List (Op × Option Nat)) (i fd : Nat) (k : Kind) (hk : convertible k = true)
    (hi : (run pick start h).2.hs[i]? = some (.fdLink fd)) :
    ∃ u p t, (run pick start h).2.k.made[u]? = some (p, t) ∧ (fd, Obj.link u) ∈ (run pick start h).2.k.fds ∧
      ((step pick (run pick start h).2 (.ofFd i k) none).1 = .made 1 ↔ accepts k t = true) := by
  obtain ⟨e, gs, r⟩ := run_same hp h [] _ _ start_rel
  obtain ⟨u, p, t, eg, em, hmem⟩ := r.link hi
  refine ⟨u, p, t, by rw [r.made]; exact em, hmem, ?_⟩
  have own := r.take eg
  simp only [step, hi, fromFd_eq, hk, Bool.true_eq_false, if_false]
  by_cases ht : k = .tracing
  · subst ht; simp [ofFd, out, accepts]
  · simp only [ofFd, ht, if_false, info_of own, r.made, em, Option.getD_some]
    by_cases hw : t ∈ wanted k
    · simp [hw, out, (wanted_accepts hk ht t).1 hw]
    · have : ¬ accepts k t = true := fun h' => hw ((wanted_accepts hk ht t).2 h')
      simp [hw, out, this]

/-- C102. What an `FdLink` tells of itself is true: the number of the link it stands for, its program and its type. -/
theorem C102_info (hp : Spec.Fresh pick) (h : List (Op × Option Nat)) (i fd : Nat)
    (hi : (run pick start h).2.hs[i]? = some (.fdLink fd)) :
    ∃ u p t, (run pick start h).2.k.made[u]? = some (p, t) ∧ (fd, Obj.link u) ∈ (run pick start h).2.k.fds ∧
      (step pick (run pick start h).2 (.info i) none).1 = .info ⟨u, p, t⟩ := by
  obtain ⟨e, gs, r⟩ := run_same hp h [] _ _ start_rel
  obtain ⟨u, p, t, eg, em, hmem⟩ := r.link hi
  refine ⟨u, p, t, by rw [r.made]; exact em, hmem, ?_⟩
  have own := r.take eg
  simp only [step, hi, info, info_of own, r.made, em, Option.getD_some]

/-- C102. Asking a link of user probes for its descriptors loses nothing: either one `FdLink` for every place comes of it, or the
link comes back; in either case nothing changes in the kernel. -/
theorem C102_into_fds (s : St) (i : Nat) (l : Inner) (fail : Option Nat) (hi : s.hs[i]? = some (.typed .uprobe l)) :
    (step pick s (.intoFds i) fail).2.k = s.k ∧
    ((∀ fd, l = .fd fd → (step pick s (.intoFds i) fail) = (.made 1, ⟨s.hs.eraseIdx i ++ [.fdLink fd], s.k⟩)) ∧
     (∀ fds, l = .fds fds → (step pick s (.intoFds i) fail) = (.made fds.length, ⟨s.hs.eraseIdx i ++ fds.map .fdLink, s.k⟩)) ∧
     ((∀ fd, l ≠ .fd fd) → (∀ fds, l ≠ .fds fds) →
      (step pick s (.intoFds i) fail) = (.back, ⟨s.hs.eraseIdx i ++ [.typed .uprobe l], s.k⟩))) := by
  cases l <;> simp [step, hi, intoFds]

/-- C102. The output of an iterator can be had of every `IterLink`, after any history, unless the kernel refuses; it is that of the
link's program, and nothing but it is left of the link. -/
theorem C102_iter (hp : Spec.Fresh pick) (h : List (Op × Option Nat)) (i : Nat) (l : Inner)
    (hi : (run pick start h).2.hs[i]? = some (.typed .iter l)) :
    ∃ fd u file, l = .fd fd ∧ (fd, Obj.link u) ∈ (run pick start h).2.k.fds ∧
      (step pick (run pick start h).2 (.intoFile i) none).1 = .made 1 ∧
      (step pick (run pick start h).2 (.intoFile i) none).2.hs = (run pick start h).2.hs.eraseIdx i ++ [.file file] ∧
      (file, Obj.out u) ∈ (step pick (run pick start h).2 (.intoFile i) none).2.k.fds ∧
      ∀ o, (fd, o) ∉ (step pick (run pick start h).2 (.intoFile i) none).2.k.fds := by
  obtain ⟨e, gs, r⟩ := run_same hp h [] _ _ start_rel
  rcases r.at i with ⟨_, e3, _⟩ | ⟨h', v, eg, e3, e4, m⟩
  · rw [hi] at e3; cases e3
  rw [hi] at e3
  cases e3
  cases m with
  | @fd _ fd u p t em f =>
    have own := r.take eg
    have ht : t = 4 := by simpa [accepts] using f rfl
    subst ht
    have hcall : (Spec.os pick none).createIter fd (run pick start h).2.k =
        (.ok ((run pick start h).2.k.open pick (.out u)).1, ((run pick start h).2.k.open pick (.out u)).2) := by
      simp only [Spec.os, Own.at own, r.made, em, Option.getD_some, if_true]
    have hmem : (fd, Obj.link u) ∈ (run pick start h).2.k.fds := own.fds.mem_iff.2 (by simp [objs])
    refine ⟨fd, u, pick (run pick start h).2.k.fds, rfl, hmem, ?_⟩
    simp only [step, hi, intoFile, hcall, out, new, true_and]
    refine ⟨rfl, ?_, fun o ho => ?_⟩
    · refine List.mem_filter.2 ⟨List.mem_append_right _ (List.mem_singleton.2 rfl), ?_⟩
      simpa using (hp _ _ hmem).symm
    · have := (List.mem_filter.1 ho).2
      simp at this
  | direct e => exact absurd rfl e
  | perf e => exact absurd rfl e
  | fds e f g => exact absurd rfl e
  | perfs e f => exact absurd rfl e

/-! ## Where it is not so -/

/-- A kernel that gives out the number after the greatest in use. -/
def above (fds : List (Nat × Obj)) : Nat := fds.foldr (fun e m => max (e.1 + 1) m) 3

theorem above_fresh : Spec.Fresh above := by
  intro fds e he
  have : e.1 < above fds := by
    induction fds with
    | nil => cases he
    | cons x fds ih =>
      simp only [above, List.foldr_cons] at ih ⊢
      rcases List.mem_cons.1 he with rfl | h
      · omega
      · have := ih h; omega
  omega

/-- An XDP program attached through netlink: turning its link into an `FdLink` fails, and the program stays attached although
there is nothing left to detach it with. -/
theorem C102_left_violated :
    (run above start [(.attach .xdp .direct 5, none), (.toFd 0, none)]).1 = [.made 1, .failed .invalidLink] ∧
    (run above start [(.attach .xdp .direct 5, none), (.toFd 0, none)]).2.hs = [] ∧
    (run above start [(.attach .xdp .direct 5, none), (.toFd 0, none)]).2.k.inEffect 0 := by
  decide +kernel

/-- The link of an XDP program, refused as the link of a TC program: the XDP program is detached. -/
theorem C102_refused_violated :
    (run above start [(.attach .xdp (.link 6) 5, none), (.toFd 0, none), (.ofFd 0 .tc, none)]).1 =
      [.made 1, .made 1, .failed .invalidLink] ∧
    ¬ (run above start [(.attach .xdp (.link 6) 5, none), (.toFd 0, none), (.ofFd 0 .tc, none)]).2.k.inEffect 0 := by
  decide +kernel

/-- A user probe at two places: turning its link into an `FdLink` fails and detaches both, although there are two `FdLink`s to be
had. -/
theorem C102_many_violated :
    (run above start [(.attach .uprobe (.links 2) 5, none), (.toFd 0, none)]).1 = [.made 1, .failed .invalidLink] ∧
    ¬ (run above start [(.attach .uprobe (.links 2) 5, none), (.toFd 0, none)]).2.k.inEffect 0 ∧
    ¬ (run above start [(.attach .uprobe (.links 2) 5, none), (.toFd 0, none)]).2.k.inEffect 1 ∧
    (run above start [(.attach .uprobe (.links 2) 5, none), (.intoFds 0, none)]).1 = [.made 1, .made 2] := by
  decide +kernel

/-- The link of a trace point program becomes a link of a kernel probe, and that of an XDP program a link of a tracing program. -/
theorem C102_other_kind_violated :
    (run above start [(.attach .tracePoint (.link 7) 5, none), (.toFd 0, none), (.ofFd 0 .kprobe, none)]).2.hs =
      [.typed .kprobe (.fd 3)] ∧
    (run above start [(.attach .xdp (.link 6) 5, none), (.toFd 0, none), (.ofFd 0 .tracing, none)]).2.hs =
      [.typed .tracing (.fd 3)] := by
  decide +kernel

/-- Failing to pin a link, to make a file of it or to unpin it detaches the program or closes the link. -/
theorem C102_failure_violated :
    ¬ (run above start [(.attach .kprobe (.link 7) 5, none), (.toFd 0, none), (.pin 0 1, some 13)]).2.k.inEffect 0 ∧
    ¬ (run above start [(.attach .iter (.link 4) 5, none), (.intoFile 0, some 24)]).2.k.inEffect 0 ∧
    ¬ (run above start [(.attach .kprobe (.link 7) 5, none), (.toFd 0, none), (.pin 0 1, none), (.remove 1, none),
        (.unpin 0, none)]).2.k.inEffect 0 := by
  decide +kernel

/-- Unpinning removes the file at the path, whatever it pins by then: a second link, pinned there after the first file was
removed, is no longer pinned and ends with its process. -/
theorem C102_unpin_violated :
    let h := [(Op.attach .kprobe (.link 7) 5, none), (.toFd 0, none), (.pin 0 1, none), (.remove 1, none),
      (.attach .kprobe (.link 7) 6, none), (.toFd 1, none), (.pin 1 1, none), (.unpin 0, none), (.drop 0, none)]
    (run above start h).1 = [.made 1, .made 1, .made 1, .made 0, .made 1, .made 1, .made 1, .made 1, .made 0] ∧
    ¬ (run above start h).2.k.inEffect 1 := by
  decide +kernel

/-! ## The theorems apply -/

/-- A history with most operations. -/
def sample : List (Op × Option Nat) :=
  [(.attach .xdp (.link 6) 5, none), (.attach .tc .direct 6, none), (.attach .uprobe (.links 2) 7, none), (.attach .kprobe .perf 8, none),
   (.attach .iter (.link 4) 9, none), (.toFd 0, none), (.intoFds 1, none), (.ofFd 4 .uprobe, none), (.pin 3 1, none),
   (.fromPin 1, none), (.detach 0, none), (.intoFile 1, none), (.drop 0, some 5)]

example : (run above start sample).1 = [.made 1, .made 1, .made 1, .made 1, .made 1, .made 1, .made 2, .made 1, .made 1, .made 1,
    .made 0, .made 1, .made 0] := by decide +kernel

example : (run above start sample).2.hs =
    [.fdLink 5, .typed .uprobe (.fd 4), .pinned 1 3, .pinned 1 8, .file 9] := by decide +kernel

/-- `C102_none_left_partial` applies: attached, converted, pinned and dropped. -/
example : Spec.Careful Spec.start [(.attach .xdp .direct 5, none), (.attach .xdp (.link 6) 5, none), (.toFd 1, none), (.drop 0, none)] := by
  refine ⟨by simp, by simp, by simp, by simp, by simp, ?_, by simp, by simp, trivial⟩
  intro i k us e
  cases e
  have : (Spec.run Spec.start [(.attach .xdp .direct 5, none), (.attach .xdp (.link 6) 5, none)]).2.have_[1]? =
    some (.typed .xdp .link [1]) := by decide +kernel
  simp only [Spec.run] at this
  rw [this]
  simp

/-- `C102_round_trip` applies. -/
example : (run above start [(.attach .xdp (.link 6) 5, none)]).2.hs[0]? = some (.typed .xdp (.fd 3)) := by decide +kernel

/-- `C102_iter` applies. -/
example : (run above start [(.attach .iter (.link 4) 5, none)]).2.hs[0]? = some (.typed .iter (.fd 3)) := by decide +kernel

/-- `C102_type` and `C102_info` apply, and both answers occur. -/
example : (run above start [(.attach .xdp (.link 6) 5, none), (.toFd 0, none)]).2.hs[0]? = some (.fdLink 3) ∧
    accepts .xdp 6 = true ∧ accepts .tc 6 = false := by decide +kernel

end Verif.Conv
