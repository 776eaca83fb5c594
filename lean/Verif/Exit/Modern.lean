import Verif.Exit.Left
/-!
# C110: what is left on kernels that have links, and restarts
-/
namespace Verif.Exit

/-- Calls that do not attach or detach without a link. -/
def NoHook : Call → Prop
  | .progAttach _ _ | .progDetach _ _ | .netlinkSet _ _ | .netlinkClear _ => False
  | _ => True

theorem hooks_act (c : Call) (hc : NoHook c) (w : World) : (w.act c).2.hooks = w.hooks := by
  cases c with
  | linkCreate t p => cases t <;> simp only [World.act] <;> (try split) <;> rfl
  | progAttach => exact hc.elim
  | progDetach => exact hc.elim
  | netlinkSet => exact hc.elim
  | netlinkClear => exact hc.elim
  | pin => simp only [World.act]; (repeat' split) <;> rfl
  | _ => simp only [World.act] <;> (try split) <;> rfl

variable {H : List (Hook × Prog)} {φ : Fate} {h : Hook} {p : Prog}

/-- Nothing was attached or detached without a link. -/
def Same (H : List (Hook × Prog)) (w : World) : Prop := w.hooks = H

theorem same_sys {c : Call} (hc : NoHook c) : Triple (Same H) (Same H) (sys φ.sys c) (fun _ => Same H) :=
  keeps_sys fun w h => (hooks_act c hc w).trans h

theorem same_unit {c : Call} (hc : NoHook c) : Triple (Same H) (Same H) (sysUnit φ.sys c) (fun _ => Same H) :=
  keeps_sysUnit fun w h => (hooks_act c hc w).trans h

/-- A link that is a descriptor, or none. -/
def IsFd (r : Except Nat Lk) : Prop := ∀ l, r = .ok l → ∃ fd, l = .fd fd

theorem isFd_error (e : Nat) : IsFd (.error e) := fun _ h => by cases h
theorem isFd_ok (fd : Fd) : IsFd (.ok (.fd fd)) := fun _ h => by cases h; exact ⟨fd, rfl⟩

def SameFd (H : List (Hook × Prog)) (r : Except Nat Lk) (w : World) : Prop := Same H w ∧ IsFd r

theorem same_ret {r : Except Nat Lk} (hr : IsFd r) : Triple (Same H) (Same H) (ret r) (SameFd H) :=
  triple_ret fun _ h => ⟨h, h, hr⟩

theorem sameLink : Triple (Same H) (Same H) (attachLink φ.sys h p) (SameFd H) :=
  triple_onOk (same_sys trivial) (fun e _ h => ⟨h, h, isFd_error e⟩) fun fd => same_ret (isFd_ok fd)

theorem sameBpfLink {fd : Fd} : Triple (Same H) (Same H) (attachBpfLink φ.sys fd p) (SameFd H) := by
  refine triple_andThen (same_sys trivial) fun r => triple_andThen (same_unit trivial) fun _ => ?_
  cases r with
  | error e => exact same_ret (isFd_error e)
  | ok l => exact same_ret (isFd_ok l)

theorem attach_modern (hφ : ∀ t, φ.fail t ≠ some 22) (k : Kind) (hk : k.neverLink = false) :
    Triple (Same H) (Same H) (attach φ.sys .modern k h p) (SameFd H) := by
  have hp : ∀ cl, Triple (Same H) (Same H) (onOk (sys φ.sys (.perfOpen h cl)) fun fd => attachBpfLink φ.sys fd p) (SameFd H) :=
    fun cl => triple_onOk (same_sys trivial) (fun e _ h => ⟨h, h, isFd_error e⟩) fun fd => sameBpfLink
  cases k with
  | cgroup => exact sameLink
  | link => exact sameLink
  | raw => exact triple_onOk (same_sys trivial) (fun e _ h => ⟨h, h, isFd_error e⟩) fun fd => same_ret (isFd_ok fd)
  | sockMap => cases hk
  | lirc => cases hk
  | xdp =>
    refine triple_andThen (R := fun r w => Same H w ∧ ∀ e, r = .error e → e ≠ 22) ?_ fun r => ?_
    · refine triple_sys (fun _ h => h) (fun w e h ⟨t, ht⟩ _ => ⟨h, fun e' he => ?_⟩) (fun _ _ _ h => by cases h) fun w h => ⟨h, h, fun e he => ?_⟩
      · cases he; exact fun e22 => hφ t (e22 ▸ ht)
      · cases he
    · cases r with
      | ok fd => exact triple_ret fun _ h => ⟨h.1, h.1, isFd_ok fd⟩
      | error e =>
        intro r hr
        have : e ≠ 22 := hr.2 e rfl
        have hx : (if e ≠ einval then ret (Except.error e)
            else onOk (sys φ.sys (Call.netlinkSet h p)) fun _ => ret (Except.ok (Lk.nl h)))
            = (ret (Except.error e) : M Run (Except Nat Lk)) := if_pos this
        dsimp only
        rw [hx]
        exact same_ret (isFd_error e) r hr.1
  | tc c =>
    cases c with
    | true => cases hk
    | false => exact sameLink
  | tcx => exact sameLink
  | tcNetlink => cases hk
  | tracePoint => exact hp true
  | perfEvent => exact hp false
  | probe => exact hp true

/-- All links of the user are descriptors. -/
def AllFd (st : Store) : Prop := ∀ l, some l ∈ st → ∃ fd, l = .fd fd

theorem allFd_keep {st : Store} {r : Except Nat Lk} (hs : AllFd st) (hr : IsFd r) : AllFd (keep st r) := by
  intro l hl
  cases r with
  | error e =>
    simp only [keep, List.mem_append, List.mem_singleton, reduceCtorEq, or_false] at hl
    exact hs l hl
  | ok x =>
    simp only [keep, List.mem_append, List.mem_singleton, Option.some.injEq] at hl
    rcases hl with hl | rfl
    · exact hs l hl
    · exact hr _ rfl

theorem allFd_set {st : Store} (hs : AllFd st) (i : Nat) : AllFd (st.set i none) := by
  intro l hl
  rcases List.mem_or_eq_of_mem_set hl with hl | hl
  · exact hs l hl
  · cases hl

theorem runOp_modern (hφ : ∀ t, φ.fail t ≠ some 22) (o : Op) (ho : ∀ k h p, o = .attach k h p → k.neverLink = false) (st : Store)
    (hs : AllFd st) : Triple (Same H) (Same H) (runOp φ.sys .modern o st) (fun st' w => Same H w ∧ AllFd st') := by
  have hret : ∀ {st' : Store}, AllFd st' → Triple (Same H) (Same H) (ret st') (fun st' w => Same H w ∧ AllFd st') :=
    fun h' => triple_ret fun _ h => ⟨h, h, h'⟩
  have hkeep : ∀ {m : M Run (Except Nat Lk)} {st' : Store}, AllFd st' → Triple (Same H) (Same H) m (SameFd H) →
      Triple (Same H) (Same H) (andThen m fun r => ret (keep st' r)) (fun st' w => Same H w ∧ AllFd st') :=
    fun h' hm => triple_andThen hm fun r => triple_ret fun _ h => ⟨h.1, h.1, allFd_keep h' h.2⟩
  cases o with
  | attach k h p => exact hkeep hs (attach_modern hφ k (ho _ _ _ rfl))
  | drop i =>
    simp only [runOp]
    split
    · rename_i l hl
      obtain ⟨fd, rfl⟩ := hs l (List.mem_of_getElem? hl)
      exact triple_andThen (same_unit trivial) fun _ => hret (allFd_set hs i)
    · exact hret hs
  | pin i path =>
    simp only [runOp]
    split
    · refine hkeep (allFd_set hs i) (triple_andThen (same_sys trivial) fun r => ?_)
      cases r with
      | error e => exact triple_andThen (same_unit trivial) fun _ => same_ret (isFd_error e)
      | ok _ => exact same_ret (isFd_ok _)
    · exact hret hs
  | unpin path => exact triple_andThen (same_unit trivial) fun _ => hret hs
  | fromPin path =>
    refine triple_andThen (same_sys trivial) fun r => ?_
    cases r with
    | ok fd => exact hret (allFd_keep hs (isFd_ok fd))
    | error e => exact hret (allFd_keep hs (isFd_error e))
  | update i p =>
    simp only [runOp]
    split
    · refine hkeep (allFd_set hs i) (triple_andThen (same_sys trivial) fun r => ?_)
      cases r with
      | error e => exact triple_andThen (same_unit trivial) fun _ => same_ret (isFd_error e)
      | ok _ => exact same_ret (isFd_ok _)
    · exact hret hs
  | spawn => exact triple_andThen (same_unit trivial) fun _ => hret hs

theorem runOps_modern (hφ : ∀ t, φ.fail t ≠ some 22) : ∀ (ops : List Op), (∀ k h p, .attach k h p ∈ ops → k.neverLink = false) →
    ∀ st, AllFd st → Triple (Same H) (Same H) (runOps φ.sys .modern ops st) (fun st' w => Same H w ∧ AllFd st') := by
  intro ops
  induction ops with
  | nil => intro _ st hs; exact triple_ret fun _ h => ⟨h, h, hs⟩
  | cons o os ih =>
    intro ho st hs
    refine triple_andThen (runOp_modern hφ o (fun k h p e => ho k h p (e ▸ List.mem_cons_self ..)) st hs) fun st' => ?_
    intro r hr
    exact ih (fun k h p hm => ho k h p (List.mem_cons_of_mem _ hm)) st' hr.2 r hr.1

/-- On kernels that have links for all that can be attached by links, whenever the process ends, and whatever programs it has
    started: what runs then is exactly what was running without links before, and what is pinned. -/
theorem C110_modern (φ : Fate) (hφ : ∀ t, φ.fail t ≠ some 22) (ops : List Op)
    (ho : ∀ k h p, .attach k h p ∈ ops → k.neverLink = false) (r : Run) (hr : r.w.Fresh) (h : Hook) (p : Prog) :
    (runOps φ.sys .modern ops [] r).2.w.ended.runs h p ↔
      (h, p) ∈ r.w.hooks ∨ (runOps φ.sys .modern ops [] r).2.w.runsPinned h p := by
  have hi := run_inv φ .modern ops [] r hr
  have hs : (runOps φ.sys .modern ops [] r).2.w.hooks = r.w.hooks :=
    (runOps_modern (H := r.w.hooks) hφ ops ho [] (fun _ h => by cases h) r rfl).1
  constructor
  · rintro (hl | ⟨id, hl | ⟨path, hl⟩, he⟩ | ⟨id, hl, he⟩)
    · exact .inl (hs ▸ hl)
    · rcases hl with ⟨g, hg, _⟩ | hl
      · cases hg
      · obtain ⟨_, _, h, _⟩ := hi.children _ hl; cases h
    · exact .inr ⟨path, id, hl, he⟩
    · rcases hl with ⟨g, hg, _⟩ | hl
      · cases hg
      · obtain ⟨_, id', h1, _, _, h4⟩ := hi.children _ hl
        cases h1
        have := (h4 _ _ _ he).2
        cases this
  · rintro (hl | ⟨path, id, hl, he⟩)
    · exact .inl (show (h, p) ∈ (runOps φ.sys .modern ops [] r).2.w.hooks from hs ▸ hl)
    · exact .inr (.inl ⟨id, .inr ⟨path, hl⟩, he⟩)

/-- The documented way to replace a program across restarts leaves no gap: if the link is pinned, then whenever the process ends, and
    whatever fails, the old program or the new one runs there. -/
theorem C110_restart (φ : Fate) (r : Run) (path : Path) (id : Nat) (h : Hook) (q p : Prog) (hpin : (path, id) ∈ r.w.pins)
    (hid : id < r.w.next) (hl : r.w.link id = (h, q)) :
    ∃ x, (x = q ∨ x = p) ∧ (restart φ.sys path h p r).2.w.ended.runs h x := by
  let I := Kept path id h (fun x => x = q ∨ x = p)
  have ha : ∀ c, (∀ x, c ≠ .unlink x) → (∀ fd x, c = .linkUpdate fd x → x = p) → ∀ w, I w → I (w.act c).2 :=
    fun c h1 h2 w hw => kept_act c hw (h1 path) (fun fd x e => .inr (h2 fd x e))
  have hclose : ∀ fd w, I w → I (w.act (.close fd)).2 := fun fd => ha _ (fun _ h => by cases h) (fun _ _ h => by cases h)
  have hk : Triple I I (restart φ.sys path h p) (fun _ => I) := by
    refine keeps_onOk ?_ fun l => ?_
    · refine keeps_andThen (keeps_sys (ha _ (fun _ h => by cases h) (fun _ _ h => by cases h))) fun r => ?_
      cases r with
      | ok fd => exact attachToLink_keeps (ha _ (fun _ h => by cases h) (fun _ _ h => by cases h; rfl)) (hclose fd)
      | error e =>
        dsimp only
        split
        · exact keeps_onOk (keeps_sys (ha _ (fun _ h => by cases h) (fun _ _ h => by cases h))) fun _ => keeps_ret
        · exact keeps_ret
    · cases l with
      | fd fd => exact pinLink_keeps (ha _ (fun _ h => by cases h) (fun _ _ h => by cases h)) (hclose fd)
      | _ => exact keeps_ret
  obtain ⟨⟨h1, _, h3, h4⟩, _⟩ := hk r ⟨hpin, hid, by rw [hl], by rw [hl]; exact .inl rfl⟩
  exact ⟨_, h4, .inr (.inl ⟨id, .inr ⟨path, h1⟩, Prod.ext h3 rfl⟩)⟩

end Verif.Exit
