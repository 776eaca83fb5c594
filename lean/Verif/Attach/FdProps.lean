import Verif.Attach.FdSpec
import Verif.Common.Except
/-!
# Theorems about attaching to control groups and other objects
-/
set_option linter.unusedSimpArgs false
set_option linter.unusedVariables false
namespace Verif.Attach.Fd
open Verif.Attach.Fd.Spec
open Verif.Section (CgroupSkbAttachType CgroupSockAttachType CgroupSockAddrAttachType CgroupSockoptAttachType SkSkbKind)

/-- The limit on locked memory may have been raised in between. -/
def Lim (w w0 : World) : Prop := w0 = w ∨ w0 = { w with limit := true }

theorem Lim.eqs {w w0 : World} (h : Lim w w0) : w0.fd = w.fd ∧ w0.att = w.att ∧ w0.mode = w.mode := by
  rcases h with rfl | rfl <;> exact ⟨rfl, rfl, rfl⟩

theorem hierarchyAllows_congr {w w0 : World} {ty : Nat} (ha : w0.att = w.att) (hm : w0.mode = w.mode) :
    ∀ as, hierarchyAllows w0 ty as = hierarchyAllows w ty as := by
  intro as
  induction as with
  | nil => rfl
  | cons a as ih => simp only [hierarchyAllows, ha, hm, ih]

/-- What the kernel does to the list of an object. -/
structure After (w w' : World) (t ty : Nat) (es : List Entry) (m : Nat) : Prop where
  att : w'.att = (setAtt w t ty es m).att
  mode : w'.mode = (setAtt w t ty es m).mode

theorem After.here {w w' : World} {t ty m : Nat} {es : List Entry} (h : After w w' t ty es m) :
    w'.att t ty = es ∧ w'.mode t ty = m := by
  rw [h.att, h.mode]
  simp [setAtt]

theorem After.frame {w w' : World} {t ty m : Nat} {es : List Entry} (h : After w w' t ty es m) (t' ty' : Nat)
    (hn : ¬ (t' = t ∧ ty' = ty)) : w'.att t' ty' = w.att t' ty' ∧ w'.mode t' ty' = w.mode t' ty' := by
  rw [h.att, h.mode]
  simp only [setAtt, hn, if_false, and_self]

theorem sys_err_attach {K : Kernel} {w w' : World} {f g ty fl e : Nat}
    (h : sys K w (.progAttach f g ty fl) = (.error e, w')) : w' = w := by
  simp only [sys] at h
  repeat' split at h
  all_goals simp only [Prod.mk.injEq, Except.error.injEq, reduceCtorEq, false_and] at h
  all_goals exact h.2.symm

theorem sys_err_link {K : Kernel} {w w' : World} {f g ty fl e : Nat}
    (h : sys K w (.linkCreate f g ty fl) = (.error e, w')) : w' = w := by
  simp only [sys] at h
  repeat' split at h
  all_goals simp only [Prod.mk.injEq, Except.error.injEq, reduceCtorEq, false_and] at h
  all_goals exact h.2.symm

theorem withRetry_cases {K : Kernel} {at511 : Bool} {c : Call} {w w' : World} {r : Except Nat Nat}
    (hc : ∀ e w1, sys K w c = (.error e, w1) → w1 = w) (h : withRetry (sys K) at511 c w = (r, w')) :
    ∃ w0, Lim w w0 ∧ sys K w0 c = (r, w') := by
  unfold withRetry at h
  cases hs : sys K w c with
  | mk r1 s1 =>
    cases r1 with
    | ok v =>
      simp only [hs] at h
      exact ⟨w, .inl rfl, by rw [hs, h]⟩
    | error e =>
      simp only [hs] at h
      have := hc e s1 hs
      subst this
      split at h
      · exact ⟨_, .inr rfl, h⟩
      · exact ⟨_, .inl rfl, by rw [hs, h]⟩

/-- A program added to the list of a control group. -/
theorem cgroupAttach_ok {K : Kernel} {w w0 w' : World} {t ty fl : Nat} {e : Entry} (hl : Lim w w0)
    (h : cgroupAttach K w0 t ty fl e = .ok w') :
    After w w' t ty (if fl = 2 then w.att t ty ++ [e] else [e]) fl ∧ w'.fd = w.fd ∧
      hierarchyAllows w ty (K.above t) = true ∧ (w.att t ty ≠ [] → w.mode t ty = fl) ∧
      (fl = 2 → e.link = none → e ∉ w.att t ty) := by
  obtain ⟨hfd, hat, hm⟩ := hl.eqs
  unfold cgroupAttach at h
  rw [hierarchyAllows_congr hat hm, hat, hm] at h
  split at h
  · simp at h
  · split at h
    · simp at h
    · rename_i hh
      split at h
      · simp at h
      · rename_i hq
        split at h
        · simp at h
        · have hq' : w.att t ty ≠ [] → w.mode t ty = fl := by
            intro hne
            by_cases hx : w.mode t ty = fl
            · exact hx
            · exact absurd ⟨hne, hx⟩ hq
          split at h
          · rename_i h2
            split at h
            · simp at h
            · rename_i hdup
              simp only [Except.ok.injEq] at h
              subst h2
              refine ⟨⟨?_, ?_⟩, ?_, by simpa using hh, hq', fun _ hn hin => hdup ⟨hn, hin⟩⟩
              · rw [← h]; simp only [setAtt, hat, if_true]
              · rw [← h]; simp only [setAtt, hm, if_true]
              · rw [← h]; exact hfd
          · rename_i h2
            simp only [Except.ok.injEq] at h
            refine ⟨⟨?_, ?_⟩, ?_, by simpa using hh, hq', fun hc => absurd hc h2⟩
            · rw [← h]; simp only [setAtt, hat, h2, if_false]
            · rw [← h]; simp only [setAtt, hm]
            · rw [← h]; exact hfd

/-- The list after `BPF_PROG_ATTACH`. -/
def listAfter (K : Kernel) (w : World) (t ty fl : Nat) (e : Entry) : List Entry :=
  match K.kind t with
  | .cgroup => if fl = 2 then w.att t ty ++ [e] else [e]
  | .netns => [e]
  | .sockMap => [e]
  | .lirc => w.att t ty ++ [e]

theorem setAtt_after {w w0 : World} {t ty m : Nat} {es : List Entry} (hl : Lim w w0) :
    After w (setAtt w0 t ty es m) t ty es m ∧ (setAtt w0 t ty es m).fd = w.fd := by
  obtain ⟨hfd, hat, hm⟩ := hl.eqs
  exact ⟨⟨by simp only [setAtt, hat], by simp only [setAtt, hm]⟩, hfd⟩

theorem progAttach_ok {K : Kernel} {w w0 w' : World} {t ty fl P : Nat} (hl : Lim w w0)
    (h : progAttach K w0 t ty fl P = .ok w') :
    After w w' t ty (listAfter K w t ty fl ⟨none, P⟩) fl ∧ w'.fd = w.fd ∧
      (K.kind t = .cgroup → hierarchyAllows w ty (K.above t) = true ∧ (w.att t ty ≠ [] → w.mode t ty = fl) ∧
        (fl = 2 → (⟨none, P⟩ : Entry) ∉ w.att t ty)) ∧
      (K.kind t = .lirc → (⟨none, P⟩ : Entry) ∉ w.att t ty) := by
  unfold progAttach at h
  unfold listAfter
  cases hk : K.kind t with
  | cgroup =>
    simp only [hk] at h
    obtain ⟨h1, h2, h3, h4, h5⟩ := cgroupAttach_ok hl h
    exact ⟨h1, h2, fun _ => ⟨h3, h4, fun hc => h5 hc rfl⟩, by intro hc; simp at hc⟩
  | netns =>
    simp only [hk] at h
    split at h
    · simp at h
    · rename_i h0
      have h0 : fl = 0 := by simpa using h0
      simp only [Except.ok.injEq] at h
      subst h h0
      exact ⟨(setAtt_after hl).1, (setAtt_after hl).2, by intro hc; simp at hc, by intro hc; simp at hc⟩
  | sockMap =>
    simp only [hk] at h
    split at h
    · simp at h
    · rename_i h0
      have h0 : fl = 0 := by simpa using h0
      simp only [Except.ok.injEq] at h
      subst h h0
      exact ⟨(setAtt_after hl).1, (setAtt_after hl).2, by intro hc; simp at hc, by intro hc; simp at hc⟩
  | lirc =>
    simp only [hk] at h
    split at h
    · simp at h
    · rename_i h0
      have h0 : fl = 0 := by simpa using h0
      split at h
      · simp at h
      · rename_i hdup
        simp only [Except.ok.injEq, hl.eqs.2.1] at h hdup
        subst h h0
        exact ⟨(setAtt_after hl).1, (setAtt_after hl).2, by intro hc; simp at hc, fun _ => hdup⟩

theorem linkAttach_ok {K : Kernel} {w w0 w' : World} {t ty fl : Nat} {e : Entry} (hl : Lim w w0)
    (h : linkAttach K w0 t ty fl e = .ok w') :
    After w w' t ty (w.att t ty ++ [e]) (if K.kind t = .cgroup then 2 else 0) ∧ w'.fd = w.fd ∧
      K.links = true ∧ fl = 0 ∧ (K.kind t = .cgroup ∨ K.kind t = .netns) ∧
      (K.kind t = .cgroup → hierarchyAllows w ty (K.above t) = true ∧ (w.att t ty ≠ [] → w.mode t ty = 2)) := by
  unfold linkAttach at h
  split at h
  · simp at h
  · rename_i hq
    have hq : K.links = true ∧ fl = 0 := by
      refine ⟨?_, ?_⟩
      · cases hx : K.links with
        | true => rfl
        | false => exact absurd (.inl (by simp [hx])) hq
      · by_cases hx : fl = 0
        · exact hx
        · exact absurd (.inr hx) hq
    cases hk : K.kind t with
    | cgroup =>
      simp only [hk] at h
      obtain ⟨h1, h2, h3, h4, -⟩ := cgroupAttach_ok hl h
      simp only [if_true] at h1 ⊢
      exact ⟨h1, h2, hq.1, hq.2, .inl trivial, fun _ => ⟨h3, h4⟩⟩
    | netns =>
      simp only [hk] at h
      split at h
      · simp at h
      · split at h
        · simp at h
        · simp only [Except.ok.injEq, hl.eqs.2.1] at h
          subst h
          simp only [reduceCtorEq, if_false]
          exact ⟨(setAtt_after hl).1, (setAtt_after hl).2, hq.1, hq.2, .inr trivial, by intro hc; simp at hc⟩
    | sockMap => simp [hk] at h
    | lirc => simp [hk] at h

/-- Making a link with `BPF_LINK_CREATE`. -/
theorem fdLink_cases {K : Kernel} {at511 : Bool} {f g ty fl P t : Nat} {w w' : World} {r : Except Err Inner}
    (hp : w.fd f = some (.prog P)) (hg : w.fd g = some (.target t))
    (h : fdLink (sys K) at511 f g ty fl w = (r, w')) :
    (∃ e, r = .error (.syscall e) ∧ Lim w w') ∨
    (∃ w0 w1, Lim w w0 ∧ linkAttach K w0 t ty fl ⟨some (K.newLink w.att), P⟩ = .ok w1 ∧
      r = .ok (.fd (K.newFd w.fd)) ∧
      w' = { w1 with fd := put w.fd (K.newFd w.fd) (some (.link (K.newLink w.att))) }) := by
  unfold fdLink at h
  cases hw : withRetry (sys K) at511 (.linkCreate f g ty fl) w with
  | mk r1 s1 =>
    obtain ⟨w0, hl, hs⟩ := withRetry_cases (fun e w1 => sys_err_link) hw
    obtain ⟨hfd, hat, hm⟩ := hl.eqs
    cases r1 with
    | error e =>
      simp only [hw, Prod.mk.injEq] at h
      have := sys_err_link hs
      exact .inl ⟨e, h.1.symm, by rw [← h.2, this]; exact hl⟩
    | ok v =>
      simp only [hw, Prod.mk.injEq] at h
      refine .inr ?_
      simp only [sys, hfd, hp, hg, hat] at hs
      split at hs
      · simp at hs
      · split at hs
        · simp at hs
        · rename_i w1 hw1
          simp only [Prod.mk.injEq, Except.ok.injEq] at hs
          exact ⟨w0, w1, hl, hw1, by rw [← h.1, ← hs.1], by rw [← h.2, ← hs.2]⟩

theorem put_put_none {t : Table} {f : Nat} {o : Option Obj} (h : t f = none) : put (put t f o) f none = t := by
  funext x
  by_cases hx : x = f
  · subst hx; simp [put, h]
  · simp [put, hx]

theorem put_self {t : Table} {f : Nat} {o : Option Obj} : put t f o f = o := by simp [put]

theorem put_other {t : Table} {f x : Nat} {o : Option Obj} (h : x ≠ f) : put t f o x = t x := by simp [put, h]

/-- The table after both descriptors have been duplicated. -/
def twoFds (K : Kernel) (w : World) (P t : Nat) : Table :=
  put (put w.fd (K.newFd w.fd) (some (.prog P))) (K.newFd (put w.fd (K.newFd w.fd) (some (.prog P)))) (some (.target t))

/-- The duplicates. -/
def fd1 (K : Kernel) (w : World) : Nat := K.newFd w.fd
def fd2 (K : Kernel) (w : World) (P : Nat) : Nat := K.newFd (put w.fd (K.newFd w.fd) (some (.prog P)))

theorem fd_ne {K : Kernel} {w : World} {P : Nat} (hf : K.Fresh w) : fd2 K w P ≠ fd1 K w := by
  intro hc
  have := hf.fd2 (some (.prog P))
  have hc' : K.newFd (put w.fd (K.newFd w.fd) (some (.prog P))) = K.newFd w.fd := hc
  rw [hc', put_self] at this
  simp at this

theorem fd2_free {K : Kernel} {w : World} {P : Nat} (hf : K.Fresh w) : w.fd (fd2 K w P) = none := by
  have := hf.fd2 (some (.prog P))
  have hn := fd_ne (P := P) hf
  unfold fd2 fd1 at hn
  rw [put_other hn] at this
  exact this

theorem two_prog {K : Kernel} {w : World} {P t : Nat} (hf : K.Fresh w) : twoFds K w P t (fd1 K w) = some (.prog P) := by
  have hn := fd_ne (P := P) hf
  unfold twoFds
  rw [put_other (by exact fun h => hn h.symm)]
  exact put_self

theorem two_target {K : Kernel} {w : World} {P t : Nat} : twoFds K w P t (fd2 K w P) = some (.target t) := put_self

theorem two_other {K : Kernel} {w : World} {P t x : Nat} (h1 : x ≠ fd1 K w) (h2 : x ≠ fd2 K w P) :
    twoFds K w P t x = w.fd x := by
  unfold twoFds
  unfold fd1 at h1
  unfold fd2 at h2
  rw [put_other h2, put_other h1]

theorem two_closed {K : Kernel} {w : World} {P t : Nat} (hf : K.Fresh w) :
    put (put (twoFds K w P t) (fd2 K w P) none) (fd1 K w) none = w.fd := by
  have h2 : put (twoFds K w P t) (fd2 K w P) none = put w.fd (K.newFd w.fd) (some (.prog P)) := by
    unfold twoFds
    exact put_put_none (hf.fd2 _)
  rw [h2]
  exact put_put_none hf.fd

theorem close_prog {K : Kernel} {w : World} {f P : Nat} (h : w.fd f = some (.prog P)) :
    (sys K w (.close f)).2 = { w with fd := put w.fd f none } := by simp [sys, h]

theorem close_target {K : Kernel} {w : World} {f t : Nat} (h : w.fd f = some (.target t)) :
    (sys K w (.close f)).2 = { w with fd := put w.fd f none } := by simp [sys, h]

/-- Attaching with `BPF_PROG_ATTACH`. -/
theorem progLink_cases {K : Kernel} {at511 : Bool} {f g ty P t : Nat} {m : Mode} {w w' : World} {r : Except Err Inner}
    (hf : K.Fresh w) (hp : w.fd f = some (.prog P)) (hg : w.fd g = some (.target t))
    (h : progAttachLink (sys K) at511 f g ty m w = (r, w')) :
    (∃ e, r = .error e ∧ Lim w w') ∨
    (∃ w1, Lim { w with fd := twoFds K w P t } w1 ∧ progAttach K w1 t ty m.flags P = .ok w' ∧
      r = .ok (.prog (fd1 K w) (fd2 K w P) ty)) := by
  unfold progAttachLink at h
  have hd1 : (∃ e, sys K w (.dup f) = (.error e, w)) ∨
      sys K w (.dup f) = (.ok (fd1 K w), { w with fd := put w.fd (K.newFd w.fd) (some (.prog P)) }) := by
    simp only [sys]
    cases hr : K.refuse w (.dup f) with
    | some e => exact .inl ⟨e, rfl⟩
    | none => exact .inr (by simp [hp, fd1])
  rcases hd1 with ⟨e, he⟩ | ho
  · simp only [he, Prod.mk.injEq] at h
    exact .inl ⟨_, h.1.symm, .inl h.2.symm⟩
  · simp only [ho] at h
    have hgf : g ≠ K.newFd w.fd := by
      intro hc
      have := hf.fd
      rw [← hc, hg] at this
      simp at this
    have hd2 : (∃ e, sys K { w with fd := put w.fd (K.newFd w.fd) (some (.prog P)) } (.dup g) =
          (.error e, { w with fd := put w.fd (K.newFd w.fd) (some (.prog P)) })) ∨
        sys K { w with fd := put w.fd (K.newFd w.fd) (some (.prog P)) } (.dup g) =
          (.ok (fd2 K w P), { w with fd := twoFds K w P t }) := by
      simp only [sys]
      cases hr : K.refuse { w with fd := put w.fd (K.newFd w.fd) (some (.prog P)) } (.dup g) with
      | some e => exact .inl ⟨e, rfl⟩
      | none => exact .inr (by simp [put_other hgf, hg, fd2, twoFds])
    rcases hd2 with ⟨e, he⟩ | ho
    · simp only [he, Prod.mk.injEq] at h
      rw [close_prog (P := P) (by exact put_self)] at h
      refine .inl ⟨_, h.1.symm, .inl ?_⟩
      rw [← h.2]
      simp only [fd1]
      rw [put_put_none hf.fd]
    · simp only [ho] at h
      cases hw : withRetry (sys K) at511 (.progAttach (fd1 K w) (fd2 K w P) ty m.flags) { w with fd := twoFds K w P t } with
      | mk r1 s1 =>
        obtain ⟨w0, hl, hs⟩ := withRetry_cases (fun e w1 => sys_err_attach) hw
        obtain ⟨hfd, hat, hm⟩ := hl.eqs
        cases r1 with
        | error e =>
          simp only [hw, Prod.mk.injEq] at h
          have := sys_err_attach hs
          subst this
          refine .inl ⟨_, h.1.symm, ?_⟩
          rw [← h.2, close_target (f := fd2 K w P) (t := t) (by rw [hfd]; exact two_target)]
          rw [close_prog (P := P) (by
            simp only []
            rw [hfd, put_other (fun hc => fd_ne (P := P) hf hc.symm)]
            exact two_prog hf)]
          simp only [hfd]
          rw [two_closed hf]
          rcases hl with rfl | rfl
          · exact .inl rfl
          · exact .inr rfl
        | ok v =>
          simp only [hw, Prod.mk.injEq] at h
          refine .inr ⟨w0, hl, ?_, h.1.symm⟩
          simp only [sys, hfd, two_prog hf, two_target] at hs
          split at hs
          · simp at hs
          · split at hs
            · simp at hs
            · rename_i w1 hw1
              simp only [Prod.mk.injEq] at hs
              rw [hw1, ← h.2, ← hs.2]

/-- Which of the two ways is taken. -/
def usesLink (links : Bool) : How → Bool
  | .linkOrAttach _ => links
  | .link => true
  | .attach => false

/-- The flags given to the kernel. -/
def howFlags : How → Nat
  | .linkOrAttach m => m.flags
  | _ => 0

theorem attach_cases {K : Kernel} {at511 : Bool} {p p' : Prog} {f g P t : Nat} {skb : CgroupSkbAttachType} {m : Mode}
    {w w' : World} {r : Except Err Inner} (hw : Holds w p f P) (hg : w.fd g = some (.target t)) (hf : K.Fresh w)
    (h : attach (sys K) K.links at511 p g skb m w = (r, p', w')) :
    (∃ e, r = .error e ∧ p' = p ∧ Lim w w') ∨
    (∃ w0 w1, usesLink K.links (p.kind.how skb m).2 = true ∧ Lim w w0 ∧
      linkAttach K w0 t (p.kind.how skb m).1 (howFlags (p.kind.how skb m).2) ⟨some (K.newLink w.att), P⟩ = .ok w1 ∧
      r = .ok (.fd (K.newFd w.fd)) ∧ p' = { p with links := p.links ++ [.fd (K.newFd w.fd)] } ∧
      w' = { w1 with fd := put w.fd (K.newFd w.fd) (some (.link (K.newLink w.att))) }) ∨
    (∃ w1, usesLink K.links (p.kind.how skb m).2 = false ∧ Lim { w with fd := twoFds K w P t } w1 ∧
      progAttach K w1 t (p.kind.how skb m).1 (howFlags (p.kind.how skb m).2) P = .ok w' ∧
      r = .ok (.prog (fd1 K w) (fd2 K w P) (p.kind.how skb m).1) ∧
      p' = { p with links := p.links ++ [.prog (fd1 K w) (fd2 K w P) (p.kind.how skb m).1] }) := by
  simp only [attach, hw.fd] at h
  generalize hty : (p.kind.how skb m).1 = ty at h ⊢
  generalize hhow : (p.kind.how skb m).2 = how at h ⊢
  have hfd : ∀ fl, makeLink (sys K) K.links at511 how f g ty w = fdLink (sys K) at511 f g ty fl w →
      fl = howFlags how → usesLink K.links how = true → _ := fun fl hm hfl hu => by
    have hc : (∃ e, r = .error e ∧ p' = p ∧ Lim w w') ∨
        (∃ w0 w1, usesLink K.links how = true ∧ Lim w w0 ∧
          linkAttach K w0 t ty (howFlags how) ⟨some (K.newLink w.att), P⟩ = .ok w1 ∧
          r = .ok (.fd (K.newFd w.fd)) ∧ p' = { p with links := p.links ++ [.fd (K.newFd w.fd)] } ∧
          w' = { w1 with fd := put w.fd (K.newFd w.fd) (some (.link (K.newLink w.att))) }) := by
      rw [hm] at h
      cases hq : fdLink (sys K) at511 f g ty fl w with
      | mk r1 s1 =>
        rcases fdLink_cases hw.prog hg hq with ⟨e, he, hl⟩ | ⟨w0, w1, hl, ha, hr, hs⟩
        · subst he
          simp only [hq, Prod.mk.injEq] at h
          exact .inl ⟨_, h.1.symm, h.2.1.symm, h.2.2 ▸ hl⟩
        · subst hr
          simp only [hq, insert] at h
          have hnc : p.links.contains (Inner.fd (K.newFd w.fd)) = false := by
            cases hc : p.links.contains (Inner.fd (K.newFd w.fd)) with
            | false => rfl
            | true =>
              obtain ⟨l, hl'⟩ := hw.links _ (by simpa using hc)
              rw [hf.fd] at hl'
              simp at hl'
          simp only [hnc, Bool.false_eq_true, if_false, Prod.mk.injEq] at h
          exact .inr ⟨w0, w1, hu, hl, hfl ▸ ha, h.1.symm, h.2.1.symm, by rw [← h.2.2, hs]⟩
    exact hc
  have hpa : ∀ md, makeLink (sys K) K.links at511 how f g ty w = progAttachLink (sys K) at511 f g ty md w →
      md.flags = howFlags how → usesLink K.links how = false → _ := fun md hm hfl hu => by
    have hc : (∃ e, r = .error e ∧ p' = p ∧ Lim w w') ∨
        (∃ w1, usesLink K.links how = false ∧ Lim { w with fd := twoFds K w P t } w1 ∧
          progAttach K w1 t ty (howFlags how) P = .ok w' ∧
          r = .ok (.prog (fd1 K w) (fd2 K w P) ty) ∧
          p' = { p with links := p.links ++ [.prog (fd1 K w) (fd2 K w P) ty] }) := by
      rw [hm] at h
      cases hq : progAttachLink (sys K) at511 f g ty md w with
      | mk r1 s1 =>
        rcases progLink_cases hf hw.prog hg hq with ⟨e, he, hl⟩ | ⟨w1, hl, ha, hr⟩
        · subst he
          simp only [hq, Prod.mk.injEq] at h
          exact .inl ⟨_, h.1.symm, h.2.1.symm, h.2.2 ▸ hl⟩
        · subst hr
          simp only [hq, insert] at h
          have hnc : p.links.contains (Inner.prog (fd1 K w) (fd2 K w P) ty) = false := by
            cases hc : p.links.contains (Inner.prog (fd1 K w) (fd2 K w P) ty) with
            | false => rfl
            | true =>
              obtain ⟨⟨Q, hQ⟩, -⟩ := hw.progs _ _ _ (by simpa using hc)
              have : w.fd (fd1 K w) = none := hf.fd
              rw [this] at hQ
              simp at hQ
          simp only [hnc, Bool.false_eq_true, if_false, Prod.mk.injEq] at h
          exact .inr ⟨w1, hu, hl, by rw [← hfl, ha, h.2.2], h.1.symm, h.2.1.symm⟩
    exact hc
  cases how with
  | linkOrAttach md =>
    cases hk : K.links with
    | true =>
      rw [hk] at hfd
      rcases hfd md.flags (by simp [makeLink]) rfl rfl with h | h
      · exact .inl h
      · exact .inr (.inl h)
    | false =>
      rw [hk] at hpa
      rcases hpa md (by simp [makeLink]) rfl rfl with h | h
      · exact .inl h
      · exact .inr (.inr h)
  | link =>
    rcases hfd 0 rfl rfl rfl with h | h
    · exact .inl h
    · exact .inr (.inl h)
  | attach =>
    rcases hpa .single rfl rfl rfl with h | h
    · exact .inl h
    · exact .inr (.inr h)

theorem how_type (skb : CgroupSkbAttachType) (m : Mode) (k : Kind) :
    attachTypes[(k.how skb m).1]? = some (hook skb k) := by
  cases k with
  | cgroupSkb => cases skb <;> rfl
  | cgroupSock t => cases t <;> rfl
  | cgroupSockAddr t => cases t <;> rfl
  | cgroupSockopt t => cases t <;> rfl
  | skSkb t => cases t <;> rfl
  | _ => rfl

/-- **C70.** If attaching succeeds, the program is attached to the object behind the descriptor, at the hook of the
program; the programs attached to other objects or hooks are the same as before, and the program holds one more link. -/
theorem C70_attached (K : Kernel) (at511 : Bool) (w w' : World) (p p' : Prog) (f g P T : Nat)
    (skb : CgroupSkbAttachType) (m : Mode) (id : Inner)
    (hw : Holds w p f P) (hg : w.fd g = some (.target T)) (hf : K.Fresh w)
    (h : attach (sys K) K.links at511 p g skb m w = (.ok id, p', w')) :
    ∃ ty e, attachTypes[ty]? = some (hook skb p.kind) ∧ e.prog = P ∧ e ∈ w'.att T ty ∧
      (∀ t' ty', ¬ (t' = T ∧ ty' = ty) → w'.att t' ty' = w.att t' ty' ∧ w'.mode t' ty' = w.mode t' ty') ∧
      p' = { p with links := p.links ++ [id] } ∧ Holds w' p' f P := by
  have keepFd : ∀ x, w.fd x ≠ none → x ≠ K.newFd w.fd := by
    intro x hx hc
    exact hx (hc ▸ hf.fd)
  have keepFd2 : ∀ x, w.fd x ≠ none → x ≠ fd2 K w P := by
    intro x hx hc
    exact hx (hc ▸ fd2_free hf)
  rcases attach_cases hw hg hf h with ⟨e, he, -⟩ | ⟨w0, w1, hu, hl, ha, hr, hp', hw'⟩ | ⟨w1, hu, hl, ha, hr, hp'⟩
  · simp at he
  · obtain ⟨haf, hfd, -⟩ := linkAttach_ok hl ha
    simp only [Except.ok.injEq] at hr
    subst hr hp' hw'
    refine ⟨_, ⟨some (K.newLink w.att), P⟩, how_type skb m p.kind, rfl, ?_, ?_, rfl, ?_⟩
    · simp only [haf.here.1]; simp
    · intro t' ty' hn; exact haf.frame t' ty' hn
    · refine ⟨hw.fd, ?_, ?_, ?_⟩
      · simp only []
        rw [put_other (keepFd _ (by rw [hw.prog]; simp))]
        exact hw.prog
      · intro x hx
        simp only [List.mem_append, List.mem_singleton, Inner.fd.injEq] at hx ⊢
        rcases hx with hx | hx
        · obtain ⟨l, hl'⟩ := hw.links x hx
          exact ⟨l, by rw [put_other (keepFd _ (by rw [hl']; simp))]; exact hl'⟩
        · subst hx
          exact ⟨_, put_self⟩
      · intro a b ty hx
        simp only [List.mem_append, List.mem_singleton, reduceCtorEq, or_false] at hx ⊢
        obtain ⟨⟨Q, hQ⟩, t, ht⟩ := hw.progs a b ty hx
        exact ⟨⟨Q, by rw [put_other (keepFd _ (by rw [hQ]; simp))]; exact hQ⟩,
          t, by rw [put_other (keepFd _ (by rw [ht]; simp))]; exact ht⟩
  · obtain ⟨haf, hfd, -⟩ := progAttach_ok hl ha
    simp only [Except.ok.injEq] at hr
    subst hr hp'
    have hfd' : w'.fd = twoFds K w P T := hfd
    have hat : ({ w with fd := twoFds K w P T } : World).att = w.att := rfl
    have old : ∀ x, w.fd x ≠ none → w'.fd x = w.fd x := by
      intro x hx
      rw [hfd', two_other (keepFd x hx) (keepFd2 x hx)]
    refine ⟨_, ⟨none, P⟩, how_type skb m p.kind, rfl, ?_, ?_, rfl, ?_⟩
    · rw [haf.here.1]
      unfold listAfter
      split <;> try split
      all_goals simp
    · intro t' ty' hn; exact haf.frame t' ty' hn
    · refine ⟨hw.fd, ?_, ?_, ?_⟩
      · rw [old f (by rw [hw.prog]; simp)]; exact hw.prog
      · intro x hx
        simp only [List.mem_append, List.mem_singleton, reduceCtorEq, or_false] at hx
        obtain ⟨l, hl'⟩ := hw.links x hx
        exact ⟨l, by rw [old x (by rw [hl']; simp)]; exact hl'⟩
      · intro a b ty hx
        simp only [List.mem_append, List.mem_singleton, Inner.prog.injEq] at hx
        rcases hx with hx | ⟨ha', hb', -⟩
        · obtain ⟨⟨Q, hQ⟩, t, ht⟩ := hw.progs a b ty hx
          exact ⟨⟨Q, by rw [old a (by rw [hQ]; simp)]; exact hQ⟩, t, by rw [old b (by rw [ht]; simp)]; exact ht⟩
        · subst ha' hb'
          rw [hfd']
          exact ⟨⟨P, two_prog hf⟩, T, two_target⟩

/-- **C70.** A failed attachment changes nothing: neither what is attached nor the descriptors of the process. -/
theorem C70_failed (K : Kernel) (at511 : Bool) (w w' : World) (p p' : Prog) (f g P T : Nat)
    (skb : CgroupSkbAttachType) (m : Mode) (e : Err)
    (hw : Holds w p f P) (hg : w.fd g = some (.target T)) (hf : K.Fresh w)
    (h : attach (sys K) K.links at511 p g skb m w = (.error e, p', w')) :
    p' = p ∧ w'.att = w.att ∧ w'.mode = w.mode ∧ w'.fd = w.fd := by
  rcases attach_cases hw hg hf h with ⟨e, he, hp, hl⟩ | ⟨w0, w1, hu, hl, ha, hr, -⟩ | ⟨w1, hu, hl, ha, hr, -⟩
  · exact ⟨hp, hl.eqs.2.1, hl.eqs.2.2, hl.eqs.1⟩
  · simp at hr
  · simp at hr

theorem type_unique {s : String} {a b : Nat} (ha : attachTypes[a]? = some s) (hb : attachTypes[b]? = some s) : a = b := by
  have hn : attachTypes.Nodup := by decide
  obtain ⟨h1, e1⟩ := List.getElem?_eq_some_iff.mp ha
  obtain ⟨h2, e2⟩ := List.getElem?_eq_some_iff.mp hb
  have hp := List.pairwise_iff_getElem.mp hn
  rcases Nat.lt_trichotomy a b with h | h | h
  · exact absurd (e1.trans e2.symm) (hp a b h1 h2 h)
  · exact h
  · exact absurd (e2.trans e1.symm) (hp b a h2 h1 h)

/-- How the ways of attaching fit the objects. -/
theorem how_fits (links : Bool) (k : Kind) (skb : CgroupSkbAttachType) (m : Mode) :
    (usesLink links (k.how skb m).2 = false →
      (targetOf k = .cgroup → links = false ∧ howFlags (k.how skb m).2 = m.flags) ∧ (targetOf k = .netns → links = false)) ∧
    (usesLink links (k.how skb m).2 = true → targetOf k ≠ .sockMap ∧ targetOf k ≠ .lirc) := by
  cases k <;> simp [usesLink, Kind.how, targetOf, howFlags, Mode.flags]

/-- **C70.** The programs that were attached to the object before stay attached, in the same order and before the new one;
except where there is room for one program only, which is replaced: in socket maps, and on kernels before 5.7 in network
namespaces and in control groups unless several programs are allowed. -/
theorem C70_neighbours (K : Kernel) (at511 : Bool) (w w' : World) (p p' : Prog) (f g P T : Nat)
    (skb : CgroupSkbAttachType) (m : Mode) (id : Inner) (ty : Nat) (hty : attachTypes[ty]? = some (hook skb p.kind))
    (hw : Holds w p f P) (hg : w.fd g = some (.target T)) (hf : K.Fresh w) (hk : K.kind T = targetOf p.kind)
    (h : attach (sys K) K.links at511 p g skb m w = (.ok id, p', w')) :
    ∃ e, e.prog = P ∧ w'.att T ty = (if replaces K p.kind m = true then [] else w.att T ty) ++ [e] := by
  have := type_unique hty (how_type skb m p.kind)
  subst this
  rcases attach_cases hw hg hf h with ⟨e, he, -⟩ | ⟨w0, w1, hu, hl, ha, hr, hp', hw'⟩ | ⟨w1, hu, hl, ha, hr, hp'⟩
  · simp at he
  · obtain ⟨haf, hfd, hlk, -, hkk, -⟩ := linkAttach_ok hl ha
    subst hw'
    refine ⟨⟨some (K.newLink w.att), P⟩, rfl, ?_⟩
    have hrep : replaces K p.kind m = false := by
      unfold replaces
      rw [← hk]
      rcases hkk with h | h <;> simp [h, hlk]
    simp only [haf.here.1, hrep]
    simp
  · obtain ⟨haf, hfd, -⟩ := progAttach_ok hl ha
    refine ⟨⟨none, P⟩, rfl, ?_⟩
    rw [haf.here.1]
    have hfit := (how_fits K.links p.kind skb m).1 hu
    unfold listAfter replaces
    rw [hk]
    cases ht : targetOf p.kind with
    | cgroup =>
      obtain ⟨h1, h2⟩ := hfit.1 ht
      simp only [h1, h2]
      cases m <;> simp [Mode.flags]
    | netns => simp [hfit.2 ht]
    | sockMap => simp
    | lirc => simp

/-- The flags of the modes, from `include/uapi/linux/bpf.h`: none, `BPF_F_ALLOW_OVERRIDE`, `BPF_F_ALLOW_MULTI`. -/
def modeFlags : Mode → Nat
  | .single => 0
  | .allowOverride => 1
  | .allowMultiple => 2

theorem hierarchy_front {w : World} {ty T : Nat} : ∀ {front rest : List Nat},
    (∀ a ∈ front, w.att a ty = [] ∧ w.mode a ty ≠ 2) →
    hierarchyAllows w ty (front ++ T :: rest) = hierarchyAllows w ty (T :: rest) := by
  intro front
  induction front with
  | nil => intro rest _; rfl
  | cons a as ih =>
    intro rest h
    have ha := h a (by simp)
    simp only [List.cons_append]
    rw [hierarchyAllows, if_neg ha.2, if_neg (by simp [ha.1])]
    exact ih (fun x hx => h x (by simp [hx]))

/-- **C70, for kernels before 5.7.** The mode is respected. A program could only be attached where the mode of the
control group agrees. Below the control group, with nothing in between, programs can be attached unless the mode is
`Single`. -/
theorem C70_mode_partial (K : Kernel) (at511 : Bool) (w w' : World) (p p' : Prog) (f g P T : Nat)
    (skb : CgroupSkbAttachType) (m : Mode) (id : Inner) (ty : Nat) (hty : attachTypes[ty]? = some (hook skb p.kind))
    (hw : Holds w p f P) (hg : w.fd g = some (.target T)) (hf : K.Fresh w) (hk : K.kind T = .cgroup)
    (hm : hasMode p.kind = true) (hold : K.links = false)
    (h : attach (sys K) K.links at511 p g skb m w = (.ok id, p', w')) :
    (w.att T ty ≠ [] → w.mode T ty = modeFlags m) ∧ w'.mode T ty = modeFlags m ∧
    hierarchyAllows w ty (K.above T) = true ∧
    (∀ below front rest, K.above below = front ++ T :: rest →
      (∀ a ∈ front, w'.att a ty = [] ∧ w'.mode a ty ≠ 2) →
      (hierarchyAllows w' ty (K.above below) = true ↔ m ≠ .single)) := by
  have := type_unique hty (how_type skb m p.kind)
  subst this
  have hfl : howFlags (p.kind.how skb m).2 = modeFlags m := by
    cases hkd : p.kind <;> simp [hkd, hasMode] at hm <;> cases m <;> rfl
  rcases attach_cases hw hg hf h with ⟨e, he, -⟩ | ⟨w0, w1, hu, hl, ha, hr, hp', hw'⟩ | ⟨w1, hu, hl, ha, hr, hp'⟩
  · simp at he
  · have := (linkAttach_ok hl ha).2.2.1
    rw [hold] at this
    simp at this
  · obtain ⟨haf, hfd, hcg, -⟩ := progAttach_ok hl ha
    obtain ⟨hh, hq, -⟩ := hcg hk
    rw [hfl] at haf hq
    refine ⟨hq, haf.here.2, ?_, ?_⟩
    · rw [← hierarchyAllows_congr (w := w) (w0 := { w with fd := twoFds K w P T }) rfl rfl]
      exact hh
    · intro below front rest hb hfr
      rw [hb, hierarchy_front hfr, hierarchyAllows, haf.here.2, haf.here.1]
      have hne : listAfter K { w with fd := twoFds K w P T } T (p.kind.how skb m).1 (modeFlags m) ⟨none, P⟩ ≠ [] := by
        unfold listAfter
        simp only [hk]
        split <;> simp
      rw [if_pos hne]
      cases m <;> simp [modeFlags]

/-- **C70, violated.** On kernels with links, the modes other than `Single` are always refused. -/
theorem C70_mode_violated (K : Kernel) (at511 : Bool) (w : World) (p : Prog) (f g P T : Nat)
    (skb : CgroupSkbAttachType) (m : Mode) (hw : Holds w p f P) (hg : w.fd g = some (.target T)) (hf : K.Fresh w)
    (hm : hasMode p.kind = true) (hnew : K.links = true) (hms : m ≠ .single) :
    ∃ e p' w', attach (sys K) K.links at511 p g skb m w = (.error e, p', w') ∧ w'.att = w.att := by
  have hfl : usesLink K.links (p.kind.how skb m).2 = true ∧ howFlags (p.kind.how skb m).2 ≠ 0 := by
    rw [hnew]
    cases hkd : p.kind <;> simp [hkd, hasMode] at hm <;> cases m <;> simp [Kind.how, usesLink, howFlags, Mode.flags] at hms ⊢
  cases h : attach (sys K) K.links at511 p g skb m w with
  | mk r q =>
    obtain ⟨p', w'⟩ := q
    rcases attach_cases hw hg hf h with ⟨e, he, hp, hl⟩ | ⟨w0, w1, hu, hl, ha, hr, hp', hw'⟩ | ⟨w1, hu, hl, ha, hr, hp'⟩
    · subst he
      exact ⟨e, p', w', rfl, hl.eqs.2.1⟩
    · exact absurd (linkAttach_ok hl ha).2.2.2.1 hfl.2
    · rw [hfl.1] at hu
      simp at hu

theorem erase_last {p : List Inner} {l : Inner} (h : l ∉ p) : (p ++ [l]).erase l = p := by
  rw [List.erase_append_right _ h]
  simp

theorem filter_new {es : List Entry} {l : Nat} (h : ∀ e ∈ es, e.link ≠ some l) :
    es.filter (fun e => e.link != some l) = es := by
  rw [List.filter_eq_self]
  intro e he
  simp [h e he]

/-- The link just made is a new one. -/
theorem new_link {K : Kernel} {w : World} {p : Prog} {f P : Nat} (hw : Holds w p f P) (hf : K.Fresh w) :
    Inner.fd (K.newFd w.fd) ∉ p.links ∧ ∀ b ty, Inner.prog (fd1 K w) b ty ∉ p.links := by
  refine ⟨fun hc => ?_, fun b ty hc => ?_⟩
  · obtain ⟨l, hl⟩ := hw.links _ hc
    rw [hf.fd] at hl
    simp at hl
  · obtain ⟨⟨Q, hQ⟩, -⟩ := hw.progs _ _ _ hc
    have : w.fd (fd1 K w) = none := hf.fd
    rw [this] at hQ
    simp at hQ

theorem att_ext {a b : Nat → Nat → List Entry} {T ty : Nat} (h1 : a T ty = b T ty)
    (h2 : ∀ t' ty', ¬ (t' = T ∧ ty' = ty) → a t' ty' = b t' ty') : a = b := by
  funext t' ty'
  by_cases h : t' = T ∧ ty' = ty
  · obtain ⟨rfl, rfl⟩ := h; exact h1
  · exact h2 t' ty' h

/-- Detaching a link made by `BPF_PROG_ATTACH` whose entry is there. -/
theorem detach_prog_run {K : Kernel} {w : World} {a b ty P T : Nat} {es : List Entry} {m : Nat}
    (ha : w.fd a = some (.prog P)) (hb : w.fd b = some (.target T)) (hab : b ≠ a)
    (hd : detachProg K w T ty P = .ok (setAtt w T ty es m)) :
    (Inner.prog a b ty).detach (sys K) w =
      (.ok (), { (setAtt w T ty es m) with fd := put (put w.fd a none) b none }) := by
  have h1 : sys K w (.progDetach a b ty) = (.ok 0, setAtt w T ty es m) := by simp [sys, ha, hb, hd]
  simp only [Inner.detach, h1]
  have h2 : (sys K (setAtt w T ty es m) (.close a)).2 = { setAtt w T ty es m with fd := put w.fd a none } :=
    close_prog (P := P) (by exact ha)
  rw [h2, close_target (t := T) (by exact (put_other hab).trans hb)]

/-- **C70.** Attaching and then detaching leaves everything attached as it was, if no program was replaced. In between the
caller may have closed the descriptor of the object (or anything else the link does not own). -/
theorem C70_round_trip (K : Kernel) (at511 : Bool) (w w' w2 : World) (p p' : Prog) (f g P T : Nat)
    (skb : CgroupSkbAttachType) (m : Mode) (id : Inner) (ty : Nat) (hty : attachTypes[ty]? = some (hook skb p.kind))
    (hw : Holds w p f P) (hg : w.fd g = some (.target T)) (hf : K.Fresh w) (hk : K.kind T = targetOf p.kind)
    (hr : replaces K p.kind m = true → w.att T ty = [])
    (h : attach (sys K) K.links at511 p g skb m w = (.ok id, p', w'))
    (hatt : w2.att = w'.att) (hmode : w2.mode = w'.mode) (hfds : ∀ x ∈ owns id, w2.fd x = w'.fd x) :
    ∃ w3, detach (sys K) p' id w2 = (.ok (), p, w3) ∧ w3.att = w.att ∧
      (Tidy w → K.kind T = .cgroup → w3.mode = w.mode) ∧
      ∀ x, w3.fd x = if x ∈ owns id then none else w2.fd x := by
  have := type_unique hty (how_type skb m p.kind)
  subst this
  rcases attach_cases hw hg hf h with ⟨e, he, -⟩ | ⟨w0, w1, hu, hl, ha, hid, hp', hw'⟩ | ⟨w1, hu, hl, ha, hid, hp'⟩
  · simp at he
  · obtain ⟨haf, hfd, hlk, -, hkk, hcg⟩ := linkAttach_ok hl ha
    simp only [Except.ok.injEq] at hid
    subst hid hp' hw'
    have h2 : w2.fd (K.newFd w.fd) = some (.link (K.newLink w.att)) := by
      rw [hfds _ (by simp [owns])]; exact put_self
    refine ⟨unlink { w2 with fd := put w2.fd (K.newFd w.fd) none } (K.newLink w.att), ?_, ?_, ?_, ?_⟩
    · simp only [detach, Inner.detach, sys, h2]
      simp only [erase_last (new_link hw hf).1]
      simp
    · have hatt' : w2.att = w1.att := hatt
      simp only [unlink, hatt']
      refine att_ext (T := T) (ty := (p.kind.how skb m).1) ?_ ?_
      · simp only [haf.here.1, List.filter_append]
        rw [filter_new (fun e he => hf.link _ _ e he)]
        simp
      · intro t' ty' hn
        rw [(haf.frame t' ty' hn).1]
        exact filter_new (fun e he => hf.link _ _ e he)
    · intro htidy hkc
      have hatt' : w2.att = w1.att := hatt
      have hmode' : w2.mode = w1.mode := hmode
      have hkeep : ∀ t' ty', keep (w.att t' ty') (w.mode t' ty') = w.mode t' ty' := by
        intro t' ty'
        unfold keep
        split
        · rename_i h0; exact (htidy t' ty' h0).symm
        · rfl
      funext t' ty'
      simp only [unlink, hatt', hmode']
      by_cases hn : t' = T ∧ ty' = (p.kind.how skb m).1
      · obtain ⟨rfl, rfl⟩ := hn
        rw [haf.here.1, haf.here.2, List.filter_append, filter_new (fun e he => hf.link _ _ e he)]
        simp only [List.filter_cons, bne_self_eq_false, Bool.false_eq_true, if_false, List.filter_nil, List.append_nil]
        simp only [hkc, if_true]
        unfold keep
        split
        · rename_i h0; exact (htidy _ _ h0).symm
        · rename_i h0; exact ((hcg hkc).2 h0).symm
      · rw [(haf.frame t' ty' hn).1, (haf.frame t' ty' hn).2, filter_new (fun e he => hf.link _ _ e he)]
        exact hkeep t' ty'
    · intro x
      simp only [unlink, owns, List.mem_singleton, put]
  · obtain ⟨haf, hfd, hcg, hli⟩ := progAttach_ok hl ha
    have hatw : ({ w with fd := twoFds K w P T } : World).att = w.att := rfl
    have hmw : ({ w with fd := twoFds K w P T } : World).mode = w.mode := rfl
    simp only [hatw, hmw] at hcg hli
    have hfd' : w'.fd = twoFds K w P T := hfd
    simp only [Except.ok.injEq] at hid
    subst hid hp'
    have ha2 : w2.fd (fd1 K w) = some (.prog P) := by
      rw [hfds _ (by simp [owns]), hfd']; exact two_prog hf
    have hb2 : w2.fd (fd2 K w P) = some (.target T) := by
      rw [hfds _ (by simp [owns]), hfd']; exact two_target
    have hfit := (how_fits K.links p.kind skb m).1 hu
    obtain ⟨hhere, hmhere⟩ := haf.here
    have herase : ∀ l : List Entry, (⟨none, P⟩ : Entry) ∉ l → (l ++ [(⟨none, P⟩ : Entry)]).erase ⟨none, P⟩ = l := by
      intro l hl
      rw [List.erase_append_right _ hl]; simp
    -- the entry is there, and leaves the old list behind
    have hd : ∃ mm, detachProg K w2 T (p.kind.how skb m).1 P = .ok (setAtt w2 T (p.kind.how skb m).1
          (w.att T (p.kind.how skb m).1) mm) ∧ (Tidy w → K.kind T = .cgroup → mm = w.mode T (p.kind.how skb m).1) := by
      unfold detachProg
      rw [hatt, hmode, hhere, hmhere]
      unfold listAfter
      simp only [hatw]
      unfold replaces at hr
      cases ht : targetOf p.kind with
      | cgroup =>
        rw [ht] at hk hr
        obtain ⟨hk1, hk2⟩ := hfit.1 ht
        obtain ⟨-, hq, hdup⟩ := hcg hk
        rw [hk2] at hq hdup ⊢
        simp only [hk, hk1] at hr ⊢
        cases m with
        | allowMultiple =>
          have hnd := hdup rfl
          simp only [Mode.flags] at hq ⊢
          simp only [if_true, herase _ hnd]
          refine ⟨keep (w.att T (p.kind.how skb .allowMultiple).1) 2, by simp, ?_⟩
          intro htidy _
          unfold keep
          split
          · rename_i h0; exact (htidy _ _ h0).symm
          · rename_i h0; exact (hq h0).symm
        | single =>
          have h0 := hr (by decide)
          refine ⟨0, by simp [Mode.flags, h0], ?_⟩
          intro htidy _
          exact (htidy _ _ h0).symm
        | allowOverride =>
          have h0 := hr (by decide)
          refine ⟨0, by simp [Mode.flags, h0], ?_⟩
          intro htidy _
          exact (htidy _ _ h0).symm
      | netns =>
        rw [ht] at hk hr
        have h0 := hr (by simp [hfit.2 ht])
        simp only [hk]
        exact ⟨0, by simp [h0], by intro _ hc; simp at hc⟩
      | sockMap =>
        rw [ht] at hk hr
        have h0 := hr rfl
        simp only [hk]
        exact ⟨_, by simp [h0]; rfl, by intro _ hc; simp at hc⟩
      | lirc =>
        rw [ht] at hk hr
        have hnd := hli hk
        simp only [hk, herase _ hnd]
        exact ⟨_, by simp; rfl, by intro _ hc; simp at hc⟩
    obtain ⟨mm, hd, hmm⟩ := hd
    have hrun := detach_prog_run ha2 hb2 (fd_ne hf) hd
    refine ⟨_, by
      simp only [detach, hrun]
      simp only [erase_last ((new_link hw hf).2 _ _)]
      rw [if_pos (by simp)], ?_, ?_, ?_⟩
    · simp only [setAtt, hatt]
      refine att_ext (T := T) (ty := (p.kind.how skb m).1) ?_ ?_
      · simp
      · intro t' ty' hn
        simp only [hn, if_false]
        exact (haf.frame t' ty' hn).1
    · intro htidy hkc
      funext t' ty'
      simp only [setAtt, hmode]
      by_cases hn : t' = T ∧ ty' = (p.kind.how skb m).1
      · obtain ⟨rfl, rfl⟩ := hn
        simp [hmm htidy hkc]
      · simp only [hn, if_false]
        exact (haf.frame t' ty' hn).2
    · intro x
      simp only [setAtt, owns, List.mem_cons, List.not_mem_nil, or_false, put]
      by_cases h1 : x = fd1 K w
      · subst h1; simp
      · by_cases h2 : x = fd2 K w P
        · subst h2; simp
        · simp [h1, h2]

/-- **C70.** Detaching a link takes its program off and leaves everybody else's. -/
theorem C70_detached_link (K : Kernel) (w : World) (p : Prog) (g L : Nat) (hg : w.fd g = some (.link L))
    (hl : Inner.fd g ∈ p.links) :
    ∃ w', detach (sys K) p (.fd g) w = (.ok (), { p with links := p.links.erase (.fd g) }, w') ∧
      ∀ t ty, w'.att t ty = (w.att t ty).filter (fun e => e.link != some L) := by
  refine ⟨unlink { w with fd := put w.fd g none } L, ?_, ?_⟩
  · simp only [detach, List.contains_iff_mem.mpr hl, if_true, Inner.detach, sys, hg]
  · intro t ty; rfl

/-- **C70.** Detaching where programs are compared (several programs in a control group, socket maps, infrared devices),
whatever others have done since: exactly this program is taken off; if it is no longer there, an error says so and
nothing else changes. -/
theorem C70_detached_prog_partial (K : Kernel) (w : World) (p : Prog) (a b P T ty : Nat) (ha : w.fd a = some (.prog P))
    (hb : w.fd b = some (.target T)) (hl : Inner.prog a b ty ∈ p.links)
    (hk : K.kind T = .sockMap ∨ K.kind T = .lirc ∨ (K.kind T = .cgroup ∧ w.mode T ty = 2)) :
    ∃ r w', detach (sys K) p (.prog a b ty) w = (r, { p with links := p.links.erase (.prog a b ty) }, w') ∧
      (r = .ok () ↔ (⟨none, P⟩ : Entry) ∈ w.att T ty) ∧
      w'.att T ty = (w.att T ty).erase ⟨none, P⟩ ∧
      ∀ t' ty', ¬ (t' = T ∧ ty' = ty) → w'.att t' ty' = w.att t' ty' := by
  have hab : b ≠ a := by
    intro hc
    rw [hc, ha] at hb
    simp at hb
  have hcmp : ¬ ((K.kind T = .cgroup ∧ w.mode T ty ≠ 2) ∨ K.kind T = .netns) := by
    rcases hk with h | h | ⟨h, h2⟩ <;> simp [h] <;> exact h2
  by_cases hin : (⟨none, P⟩ : Entry) ∈ w.att T ty
  · have hd : detachProg K w T ty P = .ok (setAtt w T ty ((w.att T ty).erase ⟨none, P⟩)
        (keep ((w.att T ty).erase ⟨none, P⟩) (w.mode T ty))) := by
      unfold detachProg
      rw [if_neg hcmp, if_pos hin]
    refine ⟨.ok (), { (setAtt w T ty ((w.att T ty).erase ⟨none, P⟩)
        (keep ((w.att T ty).erase ⟨none, P⟩) (w.mode T ty))) with fd := put (put w.fd a none) b none },
      by simp only [detach, detach_prog_run ha hb hab hd, List.contains_iff_mem.mpr hl, if_true],
      by simp [hin], by simp [setAtt], ?_⟩
    intro t' ty' hn
    simp only [setAtt, hn, if_false]
  · have hd : detachProg K w T ty P = .error 2 := by
      unfold detachProg
      rw [if_neg hcmp, if_neg hin]
    have h1 : sys K w (.progDetach a b ty) = (.error 2, w) := by simp [sys, ha, hb, hd]
    have h2 : (sys K w (.close a)).2 = { w with fd := put w.fd a none } := close_prog ha
    have h3 : (sys K { w with fd := put w.fd a none } (.close b)).2 =
        { w with fd := put (put w.fd a none) b none } := by
      rw [close_target (t := T) (by exact (put_other hab).trans hb)]
    refine ⟨.error (.syscall 2), { w with fd := put (put w.fd a none) b none }, ?_, by simp [hin], ?_, fun _ _ _ => rfl⟩
    · simp only [detach, Inner.detach, h1, h2, h3, List.contains_iff_mem.mpr hl, if_true]
    · exact (List.erase_of_not_mem hin).symm

/-- The same with the limit on locked memory raised. -/
def raised (w : World) : World := { w with limit := true }

theorem withRetry_raised {K : Kernel} {c : Call} {w : World} {e : Nat} (he : e = 1 ∨ e = 12)
    (hc : ∀ w e w1, sys K w c = (.error e, w1) → w1 = w) (h : sys K w c = (.error e, w)) :
    withRetry (sys K) false c w = withRetry (sys K) false c (raised w) := by
  have hb : (!false && (e == 1 || e == 12)) = true := by rcases he with h | h <;> subst h <;> rfl
  have h1 : withRetry (sys K) false c w = sys K (raised w) c := by
    simp only [withRetry, h, hb, if_true]
    rfl
  rw [h1]
  unfold withRetry
  cases hs : sys K (raised w) c with
  | mk r s =>
    cases r with
    | ok v => rfl
    | error e' =>
      have := hc _ _ _ hs
      subst this
      simp only
      split
      · exact hs.symm
      · rfl

/-- **C70.** Where the kernel refuses to attach because of the limit on locked memory (before 5.11, with `EPERM` or
`ENOMEM`), attaching goes as if the limit had been raised before. -/
theorem C70_limit (K : Kernel) (w : World) (p : Prog) (f g P T : Nat) (skb : CgroupSkbAttachType) (m : Mode)
    (hw : Holds w p f P) (hg : w.fd g = some (.target T)) (hf : K.Fresh w) (hl : w.limit = false)
    (hr : ∀ (w : World) (a b ty fl : Nat), w.limit = false →
      (K.refuse w (.linkCreate a b ty fl) = some 1 ∨ K.refuse w (.linkCreate a b ty fl) = some 12) ∧
      (K.refuse w (.progAttach a b ty fl) = some 1 ∨ K.refuse w (.progAttach a b ty fl) = some 12))
    (hd : ∀ w a, K.refuse w (.dup a) = none) :
    attach (sys K) K.links false p g skb m w = attach (sys K) K.links false p g skb m (raised w) := by
  have hlink : ∀ ty fl, fdLink (sys K) false f g ty fl w = fdLink (sys K) false f g ty fl (raised w) := by
    intro ty fl
    have : withRetry (sys K) false (.linkCreate f g ty fl) w = withRetry (sys K) false (.linkCreate f g ty fl) (raised w) := by
      rcases (hr w f g ty fl hl).1 with h | h
      · exact withRetry_raised (.inl rfl) (fun w e w1 => sys_err_link) (by simp [sys, h])
      · exact withRetry_raised (.inr rfl) (fun w e w1 => sys_err_link) (by simp [sys, h])
    simp only [fdLink, this]
  have hprog : ∀ ty m, progAttachLink (sys K) false f g ty m w = progAttachLink (sys K) false f g ty m (raised w) := by
    intro ty m
    have h1 : sys K w (.dup f) = (.ok (K.newFd w.fd), { w with fd := put w.fd (K.newFd w.fd) (some (.prog P)) }) := by
      simp [sys, hd, hw.prog]
    have h1' : sys K (raised w) (.dup f) =
        (.ok (K.newFd w.fd), raised { w with fd := put w.fd (K.newFd w.fd) (some (.prog P)) }) := by
      simp [sys, hd, hw.prog, raised]
    have hgn : put w.fd (K.newFd w.fd) (some (.prog P)) g = some (.target T) := by
      unfold put
      rw [if_neg]
      · exact hg
      · intro hc
        rw [hc, hf.fd] at hg
        simp at hg
    have h2 : ∀ l, sys K { { w with fd := put w.fd (K.newFd w.fd) (some (.prog P)) } with limit := l } (.dup g) =
        (.ok (fd2 K w P), { { w with fd := twoFds K w P T } with limit := l }) := by
      intro l
      simp [sys, hd, hgn, fd2, fd1, twoFds]
    have h2a : sys K { w with fd := put w.fd (K.newFd w.fd) (some (.prog P)) } (.dup g) =
        (.ok (fd2 K w P), { w with fd := twoFds K w P T }) := h2 w.limit
    have h2b : sys K (raised { w with fd := put w.fd (K.newFd w.fd) (some (.prog P)) }) (.dup g) =
        (.ok (fd2 K w P), raised { w with fd := twoFds K w P T }) := h2 true
    have h3 : withRetry (sys K) false (.progAttach (K.newFd w.fd) (fd2 K w P) ty m.flags) { w with fd := twoFds K w P T } =
        withRetry (sys K) false (.progAttach (K.newFd w.fd) (fd2 K w P) ty m.flags)
          (raised { w with fd := twoFds K w P T }) := by
      rcases (hr { w with fd := twoFds K w P T } (K.newFd w.fd) (fd2 K w P) ty m.flags hl).2 with h | h
      · exact withRetry_raised (.inl rfl) (fun w e w1 => sys_err_attach) (by simp [sys, h])
      · exact withRetry_raised (.inr rfl) (fun w e w1 => sys_err_attach) (by simp [sys, h])
    simp only [progAttachLink, h1, h1', h2a, h2b, h3]
  have hmake : makeLink (sys K) K.links false (p.kind.how skb m).2 f g (p.kind.how skb m).1 w =
      makeLink (sys K) K.links false (p.kind.how skb m).2 f g (p.kind.how skb m).1 (raised w) := by
    unfold makeLink
    split
    · split
      · exact hlink _ _
      · exact hprog _ _
    · exact hlink _ _
    · exact hprog _ _
  simp only [attach, hw.fd, hmake]

/-! ### Runs -/

/-- Descriptors 3 and 4 are programs 70 and 71, 5 and 6 the control groups 100 and 101, 101 below 100; 7 is a socket
map. New descriptors: the first free one from 10. -/
private def firstFree (t : Table) : Nat := ((List.range 20).map (· + 10)).find? (fun f => (t f).isNone) |>.getD 99
private def kern (links : Bool) : Kernel where
  links := links
  kind := fun t => if t < 200 then .cgroup else .sockMap
  above := fun t => if t = 101 then [100] else []
  refuse := fun w c => match c with
    | .progAttach .. => if w.limit then none else some 1
    | _ => none
  newFd := firstFree
  newLink := fun att => 900 + (att 100 3).length
private def w0 : World where
  fd := fun f => if f = 3 then some (.prog 70) else if f = 4 then some (.prog 71) else if f = 5 then some (.target 100)
    else if f = 6 then some (.target 101) else if f = 7 then some (.target 200) else none
  att := fun _ _ => []
  mode := fun _ _ => 0
  limit := false
private def pa : Prog := ⟨.sockOps, some 3, []⟩
private def pb : Prog := ⟨.sockOps, some 4, []⟩

private theorem w0_free : ∀ f, 8 ≤ f → w0.fd f = none := by
  intro f hf
  have h3 : f ≠ 3 := by omega
  have h4 : f ≠ 4 := by omega
  have h5 : f ≠ 5 := by omega
  have h6 : f ≠ 6 := by omega
  have h7 : f ≠ 7 := by omega
  simp [w0, h3, h4, h5, h6, h7]

private theorem fresh0 (b : Bool) : (kern b).Fresh w0 := by
  refine ⟨by cases b <;> decide, ?_, by intro t ty e he; simp [w0] at he⟩
  intro o
  cases o with
  | none => cases b <;> decide
  | some o =>
    have : firstFree (put w0.fd 10 (some o)) = 11 := by simp [firstFree, put, w0, List.range, List.range.loop, List.find?]
    show put w0.fd 10 (some o) (firstFree (put w0.fd 10 (some o))) = none
    rw [this]
    simp [put, w0]

private theorem holds0 : Holds w0 pa 3 70 :=
  ⟨rfl, rfl, by intro g hg; simp [pa] at hg, by intro a b ty hg; simp [pa] at hg⟩

/-- The hypotheses are met: on an old kernel attaching succeeds, after the limit was raised. -/
example : attachTypes[3]? = some (hook .ingress pa.kind) ∧ Holds w0 pa 3 70 ∧ (kern false).Fresh w0 ∧
    w0.fd 5 = some (.target 100) ∧
    (let (r, _, w) := attach (sys (kern false)) false false pa 5 .ingress .allowMultiple w0
     (r, w.att 100 3, w.mode 100 3)) = (.ok (.prog 10 11 3), [⟨none, 70⟩], 2) :=
  ⟨rfl, holds0, fresh0 _, rfl, by decide +kernel⟩

/-- A kernel that refuses with `ENOMEM` until the limit is raised, in the sense of `C70_limit`. -/
private def small : Kernel := { kern false with refuse := fun w c => match c with
    | .progAttach .. => if w.limit then none else some 12
    | .linkCreate .. => if w.limit then none else some 12
    | _ => none }

example : (∀ (w : World) (a b ty fl : Nat), w.limit = false →
      (small.refuse w (.linkCreate a b ty fl) = some 1 ∨ small.refuse w (.linkCreate a b ty fl) = some 12) ∧
      (small.refuse w (.progAttach a b ty fl) = some 1 ∨ small.refuse w (.progAttach a b ty fl) = some 12)) ∧
    (let (r, _, w) := attach (sys small) small.links false pa 5 .ingress .allowMultiple w0
     (r, w.att 100 3)) = (.ok (.prog 10 11 3), [⟨none, 70⟩]) :=
  ⟨fun w a b ty fl h => by simp [small, h], by decide +kernel⟩

/-- On a new one with a link. -/
example : (let (r, _, w) := attach (sys (kern true)) true true pa 5 .ingress .single w0
     (r, w.att 100 3, w.mode 100 3)) = (.ok (.fd 10), [⟨some 900, 70⟩], 2) := by decide +kernel

/-- Without the retry the old kernel refuses; nothing is left behind. -/
example : (let (r, _, w) := attach (sys (kern false)) false true pa 5 .ingress .allowMultiple w0
     (r, w.att 100 3, w.fd 10, w.fd 11)) = (.error (.syscall 1), [], none, none) := by decide +kernel

/-- `Single` on an old kernel: nothing can be attached below. -/
example : (let (_, _, w) := attach (sys (kern false)) false false pa 5 .ingress .single w0
     let (r, _, w) := attach (sys (kern false)) false false pb 6 .ingress .single w
     (r, w.att 100 3, w.att 101 3)) = (.error (.syscall 1), [⟨none, 70⟩], []) := by decide +kernel

/-- Detaching after the descriptor of the control group was closed. -/
example : (let (_, p, w) := attach (sys (kern false)) false false pa 5 .ingress .single w0
     let w := (sys (kern false) w (.close 5)).2
     let (r, p, w) := detach (sys (kern false)) p (.prog 10 11 3) w
     (r, p.links, w.att 100 3, w.fd 10, w.fd 11)) = (.ok (), [], [], none, none) := by decide +kernel

/-- **C70, violated.** On kernels with links, `Single` does not keep other programs out: a second one can be attached to
the same control group, also with `Single`. -/
theorem C70_single_violated :
    ∃ (K : Kernel) (w : World) (p q p' q' : Prog) (i j : Inner) (w1 w2 : World),
      K.links = true ∧ Holds w p 3 70 ∧ Holds w q 4 71 ∧ K.Fresh w ∧
      attach (sys K) K.links true p 5 .ingress .single w = (.ok i, p', w1) ∧
      attach (sys K) K.links true q 5 .ingress .single w1 = (.ok j, q', w2) ∧
      w2.att 100 3 = [⟨some 900, 70⟩, ⟨some 901, 71⟩] := by
  refine ⟨kern true, w0, pa, pb, _, _, _, _, _, _, rfl, holds0,
    ⟨rfl, rfl, by intro g hg; simp [pb] at hg, by intro a b ty hg; simp [pb] at hg⟩, fresh0 _, rfl, rfl, by decide +kernel⟩

/-- **C70, violated.** On kernels before 5.7, the link of a program that was replaced detaches the program that replaced
it. -/
theorem C70_detach_other_violated :
    ∃ (K : Kernel) (w : World) (p q p' q' : Prog) (i j : Inner) (w1 w2 : World),
      K.links = false ∧ Holds w p 3 70 ∧ Holds w q 4 71 ∧ K.Fresh w ∧
      attach (sys K) K.links false p 5 .ingress .single w = (.ok i, p', w1) ∧
      attach (sys K) K.links false q 5 .ingress .single w1 = (.ok j, q', w2) ∧ w2.att 100 3 = [⟨none, 71⟩] ∧
      (detach (sys K) p' i w2).1 = .ok () ∧ (detach (sys K) p' i w2).2.2.att 100 3 = [] := by
  refine ⟨kern false, w0, pa, pb, _, _, _, _, _, _, rfl, holds0,
    ⟨rfl, rfl, by intro g hg; simp [pb] at hg, by intro a b ty hg; simp [pb] at hg⟩, fresh0 _, rfl, rfl, by decide +kernel,
    by decide +kernel, by decide +kernel⟩

end Verif.Attach.Fd
