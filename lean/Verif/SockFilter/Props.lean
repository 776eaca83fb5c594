import Verif.SockFilter.Run
import Verif.Common.Except

/-!
# Programs attached by socket options: what is promised is kept
-/
set_option linter.unusedSimpArgs false
set_option linter.unusedVariables false
namespace Verif.SockFilter
open Spec Verif.Bytes

def H.fd : H → Option Nat
  | .prog p => p.fd
  | .own fd => some fd

def fdAt (w : W) (h : Nat) : Option Nat := (w.hs h).bind H.fd

def PMatch (k : K) (v : Variant) : Option Nat → Option Nat → Prop
  | none, none => True
  | some fd, some o => k.fds fd = some (.prog o) ∧ k.net.progs[o]? = some (kernelType v)
  | _, _ => False

def Match (k : K) : Option H → Option Stands → Prop
  | none, none => True
  | some (.prog p), some (.prog v o) => p.variant = v ∧ PMatch k v p.fd o
  | some (.own fd), some (.sock n) => k.fds fd = some (.sock n) ∧ n < k.net.socks.length
  | some (.own fd), some .file => k.fds fd = some .file
  | _, _ => False

structure Rel (w : W) (a : A) : Prop where
  net : w.k.net = a.net
  hand : ∀ h, Match w.k (w.hs h) (a.names h)
  inj : ∀ h h' fd, fdAt w h = some fd → fdAt w h' = some fd → h = h'
  small : ∀ fd x, w.k.fds fd = some x → fd < 2 ^ 31

theorem Match.mono {k k' : K} {x : Option H} {y : Option Stands} (m : Match k x y)
    (same : ∀ fd, x.bind H.fd = some fd → k'.fds fd = k.fds fd)
    (progs : ∀ (o t : Nat), k.net.progs[o]? = some t → k'.net.progs[o]? = some t) (socks : k.net.socks.length ≤ k'.net.socks.length) :
    Match k' x y := by
  rcases x with _ | (⟨v, fd⟩ | fd) <;> rcases y with _ | (⟨v', o⟩ | n | _) <;> simp only [Match] at m ⊢
  · refine ⟨m.1, ?_⟩
    have m2 := m.2
    rcases fd with _ | fd <;> rcases o with _ | o <;> simp only [PMatch] at m2 ⊢
    exact ⟨by rw [same fd rfl]; exact m2.1, progs _ _ m2.2⟩
  · exact ⟨by rw [same fd rfl]; exact m.1, by omega⟩
  · rw [same fd rfl]; exact m

theorem Match.isOpen {k : K} {x : Option H} {y : Option Stands} (m : Match k x y) {fd : Nat} (h : x.bind H.fd = some fd) :
    ∃ o, k.fds fd = some o := by
  rcases x with _ | (⟨v, fd'⟩ | fd') <;> rcases y with _ | (⟨v', o⟩ | n | _) <;> simp only [Match] at m
  · cases h
  · have m2 := m.2
    rcases fd' with _ | fd' <;> rcases o with _ | o <;> simp only [PMatch] at m2
    · cases h
    · cases h; exact ⟨_, m2.1⟩
  · cases h; exact ⟨_, m.1⟩
  · cases h; exact ⟨_, m⟩

theorem Rel.isOpen {w : W} {a : A} (r : Rel w a) {h fd : Nat} (e : fdAt w h = some fd) : ∃ o, w.k.fds fd = some o :=
  (r.hand h).isOpen e

/-- Something is done to the net, no descriptor is touched. -/
theorem Rel.changeNet {w : W} {a : A} (r : Rel w a) (net : Net)
    (progs : ∀ (o t : Nat), w.k.net.progs[o]? = some t → net.progs[o]? = some t) (socks : w.k.net.socks.length ≤ net.socks.length) :
    Rel { w with k := { w.k with net := net } } { a with net := net } where
  net := rfl
  hand h := (r.hand h).mono (fun _ _ => rfl) progs socks
  inj := r.inj
  small := r.small

/-- A name changes, which has no descriptor now. -/
theorem Rel.setPlain {w : W} {a : A} (r : Rel w a) (h : Nat) (x : Option H) (y : Option Stands) (hx : x.bind H.fd = none)
    (m : Match w.k x y) : Rel (w.set h x) (a.set h y) where
  net := r.net
  hand n := by
    by_cases e : n = h
    · simp only [W.set, A.set, e, if_true]; exact m
    · simp only [W.set, A.set, if_neg e]; exact r.hand n
  inj n n' fd e e' := by
    simp only [fdAt, W.set] at e e'
    split at e
    · rw [hx] at e; cases e
    · split at e'
      · rw [hx] at e'; cases e'
      · exact r.inj n n' fd e e'
  small := r.small

/-- A descriptor is opened for a name which had none. -/
theorem Rel.open {w : W} {a : A} (r : Rel w a) {h fd : Nat} (hf : fdAt w h = none) (free : w.k.fds fd = none) (lt : fd < 2 ^ 31)
    (net : Net) (progs : ∀ (o t : Nat), w.k.net.progs[o]? = some t → net.progs[o]? = some t)
    (socks : w.k.net.socks.length ≤ net.socks.length) (o : Obj) (x : H) (hx : x.fd = some fd) (y : Stands)
    (m : Match (({ w.k with net := net } : K).openFd fd o) (some x) (some y)) :
    Rel (({ w with k := ({ w.k with net := net } : K).openFd fd o } : W).set h (some x)) (({ a with net := net } : A).set h (some y)) where
  net := rfl
  hand n := by
    by_cases e : n = h
    · simp only [W.set, A.set, e, if_true]; exact m
    · simp only [W.set, A.set, if_neg e]
      refine (r.hand n).mono (fun fd' e' => ?_) progs socks
      obtain ⟨q, hq⟩ := r.isOpen (h := n) e'
      have : fd' ≠ fd := by rintro rfl; rw [free] at hq; cases hq
      simp only [K.openFd, if_neg this]
  inj n n' fd' e e' := by
    have key : ∀ n, n ≠ h → fdAt w n = some fd → False := by
      intro n hn e
      obtain ⟨x, hx⟩ := r.isOpen e
      rw [free] at hx; cases hx
    simp only [fdAt, W.set] at e e'
    split at e <;> split at e'
    · rename_i h1 h2; rw [h1, h2]
    · rename_i h1 h2
      simp only [Option.bind_some, hx] at e; cases e
      exact (key n' h2 e').elim
    · rename_i h1 h2
      simp only [Option.bind_some, hx] at e'; cases e'
      exact (key n h1 e).elim
    · exact r.inj n n' fd' e e'
  small fd' x' e := by
    simp only [K.openFd, W.set] at e
    split at e
    · rename_i h1; rw [h1]; exact lt
    · exact r.small fd' x' e

/-- The descriptor of a name is closed. -/
theorem Rel.close {w : W} {a : A} (r : Rel w a) {h fd : Nat} (hf : fdAt w h = some fd) (x : Option H) (hx : x.bind H.fd = none)
    (y : Option Stands) (m : ∀ k, Match k x y) :
    Rel (({ w with k := w.k.closeFd fd } : W).set h x) (a.set h y) where
  net := r.net
  hand n := by
    by_cases e : n = h
    · simp only [W.set, A.set, e, if_true]; exact m _
    · simp only [W.set, A.set, if_neg e]
      refine (r.hand n).mono (fun fd' e' => ?_) (fun _ _ h => h) (Nat.le_refl _)
      have : fd' ≠ fd := by rintro rfl; exact e (r.inj n h fd' e' hf)
      simp only [K.closeFd, if_neg this]
  inj n n' fd' e e' := by
    simp only [fdAt, W.set] at e e'
    split at e
    · rw [hx] at e; cases e
    · split at e'
      · rw [hx] at e'; cases e'
      · exact r.inj n n' fd' e e'
  small fd' x' e := by
    simp only [K.closeFd, W.set] at e
    split at e
    · cases e
    · exact r.small fd' x' e

theorem progs_append {l : List Nat} {x : Nat} (o t : Nat) (h : l[o]? = some t) : (l ++ [x])[o]? = some t := by
  rw [List.getElem?_append_left (List.getElem?_eq_some_iff.mp h).1]; exact h

theorem Rel.sockOf {w : W} {a : A} (r : Rel w a) : w.sockOf = a.sockOf := by
  funext h
  have m := r.hand h
  unfold W.sockOf A.sockOf
  rcases e : w.hs h with _ | (⟨v, fd⟩ | fd) <;> rcases e' : a.names h with _ | (⟨v', o⟩ | n | _) <;>
    simp only [e, e', Match] at m ⊢
  · rw [m.1]
  · rw [m]

/-- What the operations of the environment leave alone. -/
theorem env_grows {net net' : Net} {f : Nat → Option Nat} {op : Op} (h : net.env f op = some net') :
    (∀ (o t : Nat), net.progs[o]? = some t → net'.progs[o]? = some t) ∧ net.socks.length ≤ net'.socks.length := by
  have hr : ∀ n s o, ((net.receive n s o).progs = net.progs) ∧ (net.receive n s o).socks.length = net.socks.length := by
    intro n s o
    unfold Net.receive
    rcases o with _ | t
    · dsimp only
      split
      · exact ⟨rfl, by simp⟩
      · exact ⟨rfl, by simp⟩
    · dsimp only
      split
      · exact ⟨rfl, by simp⟩
      · exact ⟨rfl, rfl⟩
  cases op <;> simp only [Net.env] at h
  case setReuse s | lock s =>
    split at h
    · cases h
    · obtain ⟨x, -, rfl⟩ := Option.map_eq_some_iff.mp h
      exact ⟨fun _ _ h => h, by simp⟩
  case elsewhere s =>
    split at h
    · cases h
    · obtain ⟨x, -, rfl⟩ := Option.map_eq_some_iff.mp h
      exact ⟨fun _ _ h => progs_append _ _ h, by simp⟩
  case receive s t =>
    rcases t with _ | t <;> simp only [Net.env] at h
    · split at h
      · cases h
      · obtain ⟨x, -, rfl⟩ := Option.map_eq_some_iff.mp h
        exact ⟨fun _ _ h => by rw [(hr _ _ _).1]; exact h, Nat.le_of_eq (hr _ _ _).2.symm⟩
    · split at h
      · obtain ⟨x, -, rfl⟩ := Option.map_eq_some_iff.mp h
        exact ⟨fun _ _ h => by rw [(hr _ _ _).1]; exact h, Nat.le_of_eq (hr _ _ _).2.symm⟩
      · cases h
  all_goals cases h

/-! ## Attaching and detaching -/

theorem type_eq (v : Variant) : v.type = kernelType v := by cases v <;> rfl

theorem promiseAttach_grows {net net' : Net} {f : Option Nat} {v : View} {o n : Nat} {s : Sock}
    (h : promiseAttach net f v o n s = .ok net') : net'.progs = net.progs ∧ net'.socks.length = net.socks.length := by
  unfold promiseAttach at h
  repeat' (split at h)
  all_goals (first | (cases h; done) | (cases h; simp [filterSock]))

theorem promiseDetach_grows {net net' : Net} {v : View} {n : Nat} {s : Sock}
    (h : promiseDetach net v n s = .ok net') : net'.progs = net.progs ∧ net'.socks.length = net.socks.length := by
  unfold promiseDetach at h
  repeat' (split at h)
  all_goals (first | (cases h; done) | (cases h; simp [filterSock]))

theorem prog_of {k : K} {fd o t : Nat} (hf : k.fds fd = some (.prog o)) (hp : k.net.progs[o]? = some t) (lt : fd < 2 ^ 31)
    (ts : List Nat) (ht : t ∈ ts) : k.prog ts (le 4 fd) = .ok o := by
  have : ofLe (le 4 fd) = fd := ofLe_le_of_lt 4 fd (by omega)
  simp only [K.prog, this, hf, hp, if_pos ht]

theorem attach_sock {k : K} {f : Option Nat} {v : View} {p : Variant} (hu : usable v p = true) {fd sfd o n : Nat} {s : Sock}
    (hf : k.fds fd = some (.prog o)) (hp : k.net.progs[o]? = some (kernelType p)) (lt : fd < 2 ^ 31)
    (hs : k.fds sfd = some (.sock n)) (hn : k.net.socks[n]? = some s) :
    setsockopt f sfd 1 (if v = .socketFilter then 50 else 52) (le 4 fd) k = promiseAttach k.net f v o n s := by
  unfold setsockopt promiseAttach
  simp only [hs, hn, ne_eq, not_true_eq_false, if_false, le_length, Nat.lt_irrefl]
  obtain ⟨inet, reuse, receives, group, filter, locked⟩ := s
  cases v
  · have ht : kernelType p = 1 := by
      cases p <;> simp [usable] at hu <;> rfl
    simp only [if_true, skAttachBpf, reduceCtorEq, false_and, if_false]
    rw [prog_of hf hp lt [1] (by simp [ht])]
    cases locked <;> rcases f with _ | e <;> rfl
  · have ht : kernelType p = 1 := by
      cases p <;> simp [usable] at hu <;> rfl
    simp only [reduceCtorEq, if_false, skReuseportAttachBpf, false_and]
    rw [prog_of hf hp lt [1, 21] (by simp [ht])]
    have : (k.net.progs[o]? = some 21) = False := by rw [hp, ht]; simp
    simp only [this, decide_false, Bool.false_and, Bool.false_eq_true, if_false]
    cases locked <;> rcases f with _ | e <;> rcases group with _ | g <;> cases receives <;> cases reuse <;> rfl
  · have ht : kernelType p = 21 := by
      cases p <;> simp [usable] at hu <;> rfl
    simp only [reduceCtorEq, if_false, skReuseportAttachBpf, true_and]
    rw [prog_of hf hp lt [1, 21] (by simp [ht])]
    have : (k.net.progs[o]? = some 21) = True := by rw [hp, ht]; simp
    simp only [this, decide_true, Bool.true_and]
    cases inet <;> cases locked <;> rcases f with _ | e <;> rcases group with _ | g <;> cases receives <;> cases reuse <;> rfl

theorem detach_sock {k : K} {f : Option Nat} {v : View} {sfd n : Nat} {s : Sock} {val : List UInt8} (hl : val.length = 4)
    (hs : k.fds sfd = some (.sock n)) (hn : k.net.socks[n]? = some s) :
    setsockopt f sfd 1 (if v = .socketFilter then 27 else 68) val k = promiseDetach k.net v n s := by
  unfold setsockopt promiseDetach
  simp only [hs, hn, ne_eq, not_true_eq_false, if_false, hl, Nat.lt_irrefl]
  obtain ⟨inet, reuse, receives, group, filter, locked⟩ := s
  by_cases hv : v = .socketFilter
  · simp only [hv, if_true, skDetachFilter]
    cases locked <;> cases filter <;> simp [filterSock]
  · simp only [if_neg hv, reuseportDetach]
    rcases group with _ | g
    · rfl
    · simp only
      rcases hq : k.net.selectors[g]? with _ | (_ | q)
      · have := List.getElem?_eq_none_iff.mp hq
        simp [this]
      · simp
      · have := (List.getElem?_eq_some_iff.mp hq).1
        have h2 : ¬ k.net.selectors.length ≤ g := by omega
        simp [h2]

theorem file_refuses {k : K} {f : Option Nat} {sfd l o : Nat} {val : List UInt8} (hs : k.fds sfd = some .file) :
    setsockopt f sfd l o val k = .error 88 := by
  unfold setsockopt; simp only [hs]

theorem attachAs_eq (S : Sys K) (v : View) (p : Prog) (sfd : Nat) (k : K) :
    attachAs S v p sfd k =
      if usable v p.variant then
        match p.fd with
        | none => (.error .notLoaded, k)
        | some fd =>
            match S.setsockopt sfd 1 (if v = .socketFilter then 50 else 52) (le 4 fd) k with
            | (.ok (), k) => (.ok (), k)
            | (.error e, k) => (.error (refused v true e), k)
      else (.error .unexpectedType, k) := by
  obtain ⟨pv, fd⟩ := p
  cases v <;> cases pv <;> cases fd <;>
    simp [attachAs, tryInto, usable, filterAttach, reuseAttach, skAttach, setFilter, setReuseport, refused] <;>
    (rename_i fd
     first
     | (rcases S.setsockopt sfd 1 50 (le 4 fd) k with ⟨_ | _, _⟩ <;> rfl)
     | (rcases S.setsockopt sfd 1 52 (le 4 fd) k with ⟨_ | _, _⟩ <;> rfl))

theorem detachAs_eq (S : Sys K) (v : View) (sfd : Nat) (k : K) :
    detachAs S v sfd k =
      match S.setsockopt sfd 1 (if v = .socketFilter then 27 else 68) (le 4 0) k with
      | (.ok (), k) => (.ok (), k)
      | (.error e, k) => (.error (refused v false e), k) := by
  cases v <;> simp [detachAs, filterDetach, reuseDetach, skDetach, setFilter, setReuseport, refused]
  · rcases S.setsockopt sfd 1 27 (le 4 0) k with ⟨_ | _, _⟩ <;> rfl
  · rcases S.setsockopt sfd 1 68 (le 4 0) k with ⟨_ | _, _⟩ <;> rfl
  · rcases S.setsockopt sfd 1 68 (le 4 0) k with ⟨_ | _, _⟩ <;> rfl

theorem Rel.cases {w : W} {a : A} (r : Rel w a) (h : Nat) :
    (w.hs h = none ∧ a.names h = none) ∨
    (∃ v, w.hs h = some (.prog ⟨v, none⟩) ∧ a.names h = some (.prog v none)) ∨
    (∃ v fd o, w.hs h = some (.prog ⟨v, some fd⟩) ∧ a.names h = some (.prog v (some o)) ∧
      w.k.fds fd = some (.prog o) ∧ w.k.net.progs[o]? = some (kernelType v)) ∨
    (∃ fd n, w.hs h = some (.own fd) ∧ a.names h = some (.sock n) ∧ w.k.fds fd = some (.sock n) ∧ n < w.k.net.socks.length) ∨
    (∃ fd, w.hs h = some (.own fd) ∧ a.names h = some .file ∧ w.k.fds fd = some .file) := by
  have m := r.hand h
  rcases e : w.hs h with _ | (⟨v, fd⟩ | fd) <;> rcases e' : a.names h with _ | (⟨v', o⟩ | n | _) <;>
    simp only [e, e', Match] at m
  · exact .inl ⟨rfl, rfl⟩
  · obtain ⟨rfl, m2⟩ := m
    rcases fd with _ | fd <;> rcases o with _ | o <;> simp only [PMatch] at m2
    · exact .inr (.inl ⟨v, rfl, rfl⟩)
    · exact .inr (.inr (.inl ⟨v, fd, o, rfl, rfl, m2⟩))
  · exact .inr (.inr (.inr (.inl ⟨fd, n, rfl, rfl, m⟩)))
  · exact .inr (.inr (.inr (.inr ⟨fd, rfl, rfl, m⟩)))

theorem W.set_same {w : W} {h : Nat} {x : Option H} (e : w.hs h = x) : w.set h x = w := by
  obtain ⟨k, hs⟩ := w
  simp only [W.set, W.mk.injEq, true_and]
  funext n
  split
  · rename_i hn; rw [hn]; exact e.symm
  · rfl

theorem A.set_same {a : A} {h : Nat} {x : Option Stands} (e : a.names h = x) : a.set h x = a := by
  obtain ⟨k, hs⟩ := a
  simp only [A.set, A.mk.injEq, true_and]
  funext n
  split
  · rename_i hn; rw [hn]; exact e.symm
  · rfl

/-- The step of the code keeps the promise. -/
theorem step_rel {fresh : (Nat → Option Obj) → Option Nat} (hF : Fresh fresh) {w : W} {a : A} (r : Rel w a) (op : Op) (f : Option Nat) :
    Rel (wstep fresh w op f).1 (step a op f (fresh w.k.fds).isSome).1 ∧
    (wstep fresh w op f).2 = (step a op f (fresh w.k.fds).isSome).2 := by
  have env : ∀ op, wstep fresh w op f = (match w.k.net.env w.sockOf op with
        | some net => ({ w with k := { w.k with net := net } }, .done)
        | none => (w, .nothing)) →
      step a op f (fresh w.k.fds).isSome = (match a.net.env a.sockOf op with
        | some net => ({ a with net := net }, .done)
        | none => (a, .nothing)) →
      Rel (wstep fresh w op f).1 (step a op f (fresh w.k.fds).isSome).1 ∧
      (wstep fresh w op f).2 = (step a op f (fresh w.k.fds).isSome).2 := by
    intro op e1 e2
    rw [e1, e2, ← r.net, r.sockOf]
    rcases e : w.k.net.env a.sockOf op with _ | net
    · exact ⟨r, rfl⟩
    · obtain ⟨h1, h2⟩ := env_grows e
      exact ⟨r.changeNet net h1 h2, rfl⟩
  cases op
  case setReuse s => exact env _ rfl rfl
  case receive s t => exact env _ rfl rfl
  case lock s => exact env _ rfl rfl
  case elsewhere s => exact env _ rfl rfl
  case program h v =>
    simp only [wstep, step]
    rcases r.cases h with ⟨e, e'⟩ | ⟨v', e, e'⟩ | ⟨v', fd, o, e, e', m⟩ | ⟨fd, n, e, e', m⟩ | ⟨fd, e, e', m⟩ <;> rw [e, e']
    · exact ⟨r.setPlain h _ _ rfl ⟨rfl, trivial⟩, rfl⟩
    all_goals exact ⟨r, rfl⟩
  case load h =>
    simp only [wstep, step]
    rcases r.cases h with ⟨e, e'⟩ | ⟨v', e, e'⟩ | ⟨v', fd, o, e, e', m⟩ | ⟨fd, n, e, e', m⟩ | ⟨fd, e, e', m⟩ <;> rw [e, e']
    · exact ⟨r, rfl⟩
    · simp only [load, sys]
      have same : Rel (({ w with k := w.k } : W).set h (some (.prog ⟨v', none⟩))) a := by rw [W.set_same e]; exact r
      rcases f with _ | er
      · rcases ef : fresh w.k.fds with _ | fd
        · exact ⟨same, rfl⟩
        · obtain ⟨hfree, hlt⟩ := hF _ _ ef
          simp only [Option.isSome_some, if_true]
          refine ⟨?_, rfl⟩
          rw [type_eq, ← r.net]
          refine r.open (h := h) (by simp [fdAt, e, H.fd]) hfree hlt { w.k.net with progs := w.k.net.progs ++ [kernelType v'] }
            (fun _ _ h => progs_append _ _ h) (Nat.le_refl _) (.prog w.k.net.progs.length) (.prog ⟨v', some fd⟩) rfl _ ?_
          exact ⟨rfl, by simp [K.openFd], by simp [K.openFd]⟩
      · exact ⟨same, rfl⟩
    · simp only [load]
      refine ⟨?_, rfl⟩
      rw [W.set_same e]; exact r
    · exact ⟨r, rfl⟩
    · exact ⟨r, rfl⟩
  case unload h =>
    simp only [wstep, step]
    rcases r.cases h with ⟨e, e'⟩ | ⟨v', e, e'⟩ | ⟨v', fd, o, e, e', m⟩ | ⟨fd, n, e, e', m⟩ | ⟨fd, e, e', m⟩ <;> rw [e, e']
    · exact ⟨r, rfl⟩
    · simp only [unload]
      refine ⟨?_, rfl⟩
      rw [W.set_same e]; exact r
    · simp only [unload, sys]
      exact ⟨r.close (h := h) (by simp [fdAt, e, H.fd]) _ rfl _ (fun _ => ⟨rfl, trivial⟩), rfl⟩
    · exact ⟨r, rfl⟩
    · exact ⟨r, rfl⟩
  case drop h =>
    simp only [wstep, step]
    rcases r.cases h with ⟨e, e'⟩ | ⟨v', e, e'⟩ | ⟨v', fd, o, e, e', m⟩ | ⟨fd, n, e, e', m⟩ | ⟨fd, e, e', m⟩ <;> rw [e, e']
    · exact ⟨r, rfl⟩
    · exact ⟨r.setPlain h none none rfl trivial, rfl⟩
    all_goals exact ⟨r.close (h := h) (by simp [fdAt, e, H.fd]) none rfl none (fun _ => trivial), rfl⟩
  case socket h inet =>
    simp only [wstep, step]
    rcases r.cases h with ⟨e, e'⟩ | ⟨v', e, e'⟩ | ⟨v', fd, o, e, e', m⟩ | ⟨fd, n, e, e', m⟩ | ⟨fd, e, e', m⟩ <;> rw [e, e']
    · rcases ef : fresh w.k.fds with _ | fd
      · exact ⟨r, rfl⟩
      · obtain ⟨hfree, hlt⟩ := hF _ _ ef
        simp only [Option.isSome_some, if_true]
        refine ⟨?_, trivial⟩
        rw [← r.net]
        refine r.open (h := h) (by simp [fdAt, e, H.fd]) hfree hlt { w.k.net with socks := w.k.net.socks ++ [({ inet := inet } : Sock)] }
          (fun _ _ h => h) (by simp) (.sock w.k.net.socks.length) (.own fd) rfl _ ?_
        exact ⟨by simp [K.openFd], by simp [K.openFd]⟩
    all_goals exact ⟨r, rfl⟩
  case file h =>
    simp only [wstep, step]
    rcases r.cases h with ⟨e, e'⟩ | ⟨v', e, e'⟩ | ⟨v', fd, o, e, e', m⟩ | ⟨fd, n, e, e', m⟩ | ⟨fd, e, e', m⟩ <;> rw [e, e']
    · rcases ef : fresh w.k.fds with _ | fd
      · exact ⟨r, rfl⟩
      · obtain ⟨hfree, hlt⟩ := hF _ _ ef
        simp only [Option.isSome_some, if_true]
        refine ⟨?_, trivial⟩
        have := r.open (h := h) (by simp [fdAt, e, H.fd]) hfree hlt w.k.net (fun _ _ h => h) (Nat.le_refl _) .file (.own fd) rfl .file
          (by simp [Match, K.openFd])
        have ea : ({ a with net := w.k.net } : A) = a := by rw [r.net]
        rw [ea] at this
        exact this
    all_goals exact ⟨r, rfl⟩
  case attach h v s =>
    simp only [wstep, step]
    rcases r.cases h with ⟨e, e'⟩ | ⟨v', e, e'⟩ | ⟨v', fd, o, e, e', m⟩ | ⟨fd, n, e, e', m⟩ | ⟨fd, e, e', m⟩ <;> rw [e, e']
    · exact ⟨r, rfl⟩
    · rcases r.cases s with ⟨es, es'⟩ | ⟨sv, es, es'⟩ | ⟨sv, sfd, so, es, es', ms⟩ | ⟨sfd, n, es, es', hs, hn⟩ | ⟨sfd, es, es', ms⟩ <;>
        rw [es, es'] <;> first
        | exact ⟨r, rfl⟩
        | (dsimp only
           rw [attachAs_eq]
           by_cases hu : usable v v' = true
           · simp only [hu, if_true]; exact ⟨r, rfl⟩
           · simp only [hu, if_false]; exact ⟨r, rfl⟩)
    · rcases r.cases s with ⟨es, es'⟩ | ⟨sv, es, es'⟩ | ⟨sv, sfd, so, es, es', ms⟩ | ⟨sfd, n, es, es', hs, hn⟩ | ⟨sfd, es, es', ms⟩ <;>
        rw [es, es']
      · exact ⟨r, rfl⟩
      · exact ⟨r, rfl⟩
      · exact ⟨r, rfl⟩
      · dsimp only
        rw [attachAs_eq]
        by_cases hu : usable v v' = true
        · simp only [hu, if_true]
          obtain ⟨x, hx⟩ : ∃ x, w.k.net.socks[n]? = some x := ⟨_, List.getElem?_eq_getElem hn⟩
          have hx' : a.net.socks[n]? = some x := by rw [← r.net]; exact hx
          have key := attach_sock (f := f) hu m.1 m.2 (r.small _ _ m.1) hs hx
          simp only [sys, key, A.through, ← r.net, hx]
          rcases ep : promiseAttach w.k.net f v o n x with er | net
          · exact ⟨r, rfl⟩
          · obtain ⟨h1, h2⟩ := promiseAttach_grows ep
            exact ⟨r.changeNet net (fun _ _ h => by rw [h1]; exact h) (Nat.le_of_eq h2.symm), rfl⟩
        · simp only [hu, if_false]; exact ⟨r, rfl⟩
      · dsimp only
        rw [attachAs_eq]
        by_cases hu : usable v v' = true
        · simp only [hu, if_true]
          simp only [sys, file_refuses ms, A.through]
          exact ⟨r, rfl⟩
        · simp only [hu, if_false]; exact ⟨r, rfl⟩
    · rcases r.cases s with ⟨es, es'⟩ | ⟨sv, es, es'⟩ | ⟨sv, sfd, so, es, es', ms⟩ | ⟨sfd, n, es, es', hs, hn⟩ | ⟨sfd, es, es', ms⟩ <;>
        rw [es, es'] <;> exact ⟨r, rfl⟩
    · rcases r.cases s with ⟨es, es'⟩ | ⟨sv, es, es'⟩ | ⟨sv, sfd, so, es, es', ms⟩ | ⟨sfd, n, es, es', hs, hn⟩ | ⟨sfd, es, es', ms⟩ <;>
        rw [es, es'] <;> exact ⟨r, rfl⟩
  case detach v s =>
    simp only [wstep, step]
    rcases r.cases s with ⟨es, es'⟩ | ⟨sv, es, es'⟩ | ⟨sv, sfd, so, es, es', ms⟩ | ⟨sfd, n, es, es', hs, hn⟩ | ⟨sfd, es, es', ms⟩ <;>
      rw [es, es']
    · exact ⟨r, rfl⟩
    · exact ⟨r, rfl⟩
    · exact ⟨r, rfl⟩
    · dsimp only
      rw [detachAs_eq]
      obtain ⟨x, hx⟩ : ∃ x, w.k.net.socks[n]? = some x := ⟨_, List.getElem?_eq_getElem hn⟩
      have hx' : a.net.socks[n]? = some x := by rw [← r.net]; exact hx
      have key := detach_sock (f := f) (v := v) (le_length 4 0) hs hx
      simp only [sys, key, A.through, ← r.net, hx]
      rcases ep : promiseDetach w.k.net v n x with er | net
      · exact ⟨r, rfl⟩
      · obtain ⟨h1, h2⟩ := promiseDetach_grows ep
        exact ⟨r.changeNet net (fun _ _ h => by rw [h1]; exact h) (Nat.le_of_eq h2.symm), rfl⟩
    · dsimp only
      rw [detachAs_eq]
      simp only [sys, file_refuses ms, A.through]
      exact ⟨r, rfl⟩

theorem run_rel {fresh : (Nat → Option Obj) → Option Nat} (hF : Fresh fresh) (ops : List (Op × Option Nat)) :
    ∀ {w : W} {a : A}, Rel w a → Rel (wrun fresh w ops).1 (Spec.run a ops (rooms fresh w ops)).1 ∧
      (wrun fresh w ops).2 = (Spec.run a ops (rooms fresh w ops)).2 := by
  induction ops with
  | nil => intro w a r; exact ⟨r, rfl⟩
  | cons o ops ih =>
    intro w a r
    obtain ⟨op, f⟩ := o
    obtain ⟨h1, h2⟩ := step_rel hF r op f
    obtain ⟨h3, h4⟩ := ih h1
    exact ⟨h3, by simp only [wrun, rooms, Spec.run, h2, h4]⟩

theorem rel_init : Rel {} {} where
  net := rfl
  hand _ := trivial
  inj h h' fd e := nomatch e
  small fd x e := nomatch e

/-- **C92.** In every history of programs and sockets, whatever numbers the descriptors have and however they are reused, what the
    caller sees and the state of all sockets and groups is what is promised. -/
theorem C92_histories (fresh : (Nat → Option Obj) → Option Nat) (hF : Fresh fresh) (ops : List (Op × Option Nat)) :
    (wrun fresh {} ops).2 = (Spec.run {} ops (rooms fresh {} ops)).2 ∧
    (wrun fresh {} ops).1.k.net = (Spec.run {} ops (rooms fresh {} ops)).1.net :=
  let r := run_rel hF ops rel_init
  ⟨r.2, r.1.net⟩

/-! ## What follows -/

theorem Rel.progOf {w : W} {a : A} (r : Rel w a) (h : Nat) : w.progOf h = a.progOf h := by
  unfold W.progOf A.progOf
  rcases r.cases h with ⟨e, e'⟩ | ⟨v', e, e'⟩ | ⟨v', fd, o, e, e', m⟩ | ⟨fd, n, e, e', m⟩ | ⟨fd, e, e', m⟩ <;> simp only [e, e']
  rw [m.1]

theorem filter_set {l : List Sock} {m : Nat} {x y : Sock} (hx : l[m]? = some x) (e : y.filter = x.filter) (n : Nat) :
    (l.set m y)[n]?.map Sock.filter = l[n]?.map Sock.filter := by
  rw [List.getElem?_set]
  split
  · rename_i h; subst h
    split
    · rw [hx]; simp [e]
    · rename_i h; rw [List.getElem?_eq_none (by omega)]
  · rfl

theorem filter_set_ne {l : List Sock} {m n : Nat} {y : Sock} (h : m ≠ n) :
    (l.set m y)[n]?.map Sock.filter = l[n]?.map Sock.filter := by
  rw [List.getElem?_set_ne h]

theorem group_set {l : List Sock} {m : Nat} {x y : Sock} (hx : l[m]? = some x) (e : y.group = x.group) (n : Nat) :
    (l.set m y)[n]?.map Sock.group = l[n]?.map Sock.group := by
  rw [List.getElem?_set]
  split
  · rename_i h; subst h
    split
    · rw [hx]; simp [e]
    · rename_i h; rw [List.getElem?_eq_none (by omega)]
  · rfl

theorem attach_filters {net net' : Net} {f : Option Nat} {v : View} {o m : Nat} {s : Sock} (hs : net.socks[m]? = some s)
    (h : promiseAttach net f v o m s = .ok net') (n : Nat) (c : v ≠ .socketFilter ∨ n ≠ m) :
    net'.socks[n]?.map Sock.filter = net.socks[n]?.map Sock.filter := by
  unfold promiseAttach at h
  repeat' (split at h)
  all_goals first
    | cases h; done
    | skip
  · rename_i hv
    cases h
    exact filter_set_ne (by rcases c with c | c; exact absurd hv c; exact fun e => c e.symm)
  · cases h; rfl
  · cases h
    (apply filter_set hs; rfl)

theorem detach_filters {net net' : Net} {v : View} {m : Nat} {s : Sock} (hs : net.socks[m]? = some s)
    (h : promiseDetach net v m s = .ok net') (n : Nat) (c : v ≠ .socketFilter ∨ n ≠ m) :
    net'.socks[n]?.map Sock.filter = net.socks[n]?.map Sock.filter := by
  unfold promiseDetach at h
  repeat' (split at h)
  all_goals first
    | cases h; done
    | skip
  · rename_i hv _ _
    cases h
    exact filter_set_ne (by rcases c with c | c; exact absurd hv c; exact fun e => c e.symm)
  · cases h; rfl

theorem receive_filters {net : Net} {m : Nat} {s : Sock} (hs : net.socks[m]? = some s) (o : Option Sock) (n : Nat) :
    (net.receive m s o).socks[n]?.map Sock.filter = net.socks[n]?.map Sock.filter := by
  unfold Net.receive
  rcases o with _ | t
  · dsimp only
    split <;> (apply filter_set hs; rfl)
  · dsimp only
    split
    · (apply filter_set hs; rfl)
    · rfl

theorem env_filters {net net' : Net} {g : Nat → Option Nat} {op : Op} (h : net.env g op = some net') (n : Nat)
    (c : ∀ s, op = .elsewhere s → g s ≠ some n) :
    net'.socks[n]?.map Sock.filter = net.socks[n]?.map Sock.filter := by
  cases op <;> simp only [Net.env] at h
  case setReuse s | lock s =>
    split at h
    · cases h
    · obtain ⟨x, hx, rfl⟩ := Option.map_eq_some_iff.mp h
      (apply filter_set hx; rfl)
  case elsewhere s =>
    split at h
    · cases h
    · rename_i m hm
      obtain ⟨x, hx, rfl⟩ := Option.map_eq_some_iff.mp h
      exact filter_set_ne (fun e => c s rfl (e ▸ hm))
  case receive s t =>
    rcases t with _ | t <;> simp only [Net.env] at h
    · split at h
      · cases h
      · obtain ⟨x, hx, rfl⟩ := Option.map_eq_some_iff.mp h
        exact receive_filters hx _ n
    · split at h
      · obtain ⟨x, hx, rfl⟩ := Option.map_eq_some_iff.mp h
        exact receive_filters hx _ n
      · cases h
  all_goals cases h

theorem step_filters (a : A) (op : Op) (f : Option Nat) (room : Bool) (n : Nat) (hn : n < a.net.socks.length)
    (c : ∀ s, a.sockOf s = some n → ¬ Refilters s op) :
    (step a op f room).1.net.socks[n]?.map Sock.filter = a.net.socks[n]?.map Sock.filter := by
  have env : ∀ op, (∀ s, a.sockOf s = some n → ¬ Refilters s op) → ((match a.net.env a.sockOf op with
        | some net => (({ a with net := net } : A), Res.done)
        | none => (a, Res.nothing)).1).net.socks[n]?.map Sock.filter = a.net.socks[n]?.map Sock.filter := by
    intro op c
    rcases e : a.net.env a.sockOf op with _ | net
    · rfl
    · exact env_filters e n (fun s e hs => c s hs (by rw [e]; exact .elsewhere))
  cases op
  case setReuse s => exact env _ c
  case receive s t => exact env _ c
  case lock s => exact env _ c
  case elsewhere s => exact env _ c
  case socket h inet =>
    simp only [step]
    split
    · split
      · simp only [A.set]
        rw [List.getElem?_append_left hn]
      · rfl
    · rfl
  case attach h v s =>
    simp only [step]
    rcases eh : a.names h with _ | (⟨v', o⟩ | m | _) <;> rcases e : a.names s with _ | (⟨sv', so⟩ | m | _) <;> try rfl
    · simp only [A.through]
      split
      · rcases o with _ | o
        · rfl
        · dsimp only
          split
          · rename_i x hx
            rcases e2 : promiseAttach a.net f v o m x with er | net
            · rfl
            · refine attach_filters hx e2 n ?_
              by_cases hv : v = .socketFilter
              · refine .inr (fun e3 => c s ?_ (by rw [hv]; exact .attach))
                unfold A.sockOf
                simp only [e, e3]
              · exact .inl hv
          · rfl
      · rfl
    · dsimp only
      split
      · rcases o with _ | o <;> rfl
      · rfl
  case detach v s =>
    simp only [step]
    rcases e : a.names s with _ | (⟨sv', so⟩ | m | _)
    · rfl
    · rfl
    · simp only [A.through]
      split
      · rename_i x hx
        rcases e2 : promiseDetach a.net v m x with er | net
        · rfl
        · refine detach_filters hx e2 n ?_
          by_cases hv : v = .socketFilter
          · refine .inr (fun e3 => c s ?_ (by rw [hv]; exact .detach))
            unfold A.sockOf
            simp only [e, e3]
          · exact .inl hv
      · rfl
    · rfl
  all_goals
    simp only [step]
    repeat' split
    all_goals rfl

/-- Names of sockets are old, or new with a new socket. -/
theorem step_names (a : A) (op : Op) (f : Option Nat) (room : Bool) :
    a.net.socks.length ≤ (step a op f room).1.net.socks.length ∧
    ∀ h n, (step a op f room).1.sockOf h = some n → a.sockOf h = some n ∨
      ((∃ inet, op = .socket h inet) ∧ n = a.net.socks.length ∧ (step a op f room).1.net.socks.length = n + 1) := by
  have setNone : ∀ (a : A) h x, (∀ n, x ≠ some (.sock n)) → ∀ h' n, (a.set h x).sockOf h' = some n → a.sockOf h' = some n := by
    intro a h x hx h' n e
    unfold A.sockOf A.set at e
    dsimp only at e
    split at e
    · rename_i heq
      split at heq
      · exact absurd heq (hx _)
      · unfold A.sockOf; rw [heq]; exact e
    · cases e
  have env : ∀ op, a.net.socks.length ≤ ((match a.net.env a.sockOf op with
        | some net => (({ a with net := net } : A), Res.done)
        | none => (a, Res.nothing)).1).net.socks.length ∧
      ∀ h n, ((match a.net.env a.sockOf op with
        | some net => (({ a with net := net } : A), Res.done)
        | none => (a, Res.nothing)).1).sockOf h = some n → a.sockOf h = some n := by
    intro op
    rcases e : a.net.env a.sockOf op with _ | net
    · exact ⟨Nat.le_refl _, fun _ _ h => h⟩
    · exact ⟨(env_grows e).2, fun _ _ h => h⟩
  have thr : ∀ v b x g, (∀ n s net, g n s = .ok net → net.socks.length = a.net.socks.length) →
      a.net.socks.length ≤ (a.through v b x g).1.net.socks.length ∧ ∀ h n, (a.through v b x g).1.sockOf h = some n → a.sockOf h = some n := by
    intro v b x g hg
    unfold A.through
    repeat' split
    all_goals first
      | exact ⟨Nat.le_refl _, fun _ _ h => h⟩
      | skip
    rename_i e
    exact ⟨Nat.le_of_eq (hg _ _ _ e).symm, fun _ _ h => h⟩
  have old : ∀ a' : A, (a.net.socks.length ≤ a'.net.socks.length ∧ ∀ h n, a'.sockOf h = some n → a.sockOf h = some n) →
      a.net.socks.length ≤ a'.net.socks.length ∧ ∀ h n, a'.sockOf h = some n → a.sockOf h = some n ∨
      ((∃ inet, op = .socket h inet) ∧ n = a.net.socks.length ∧ a'.net.socks.length = n + 1) :=
    fun a' x => ⟨x.1, fun h n e => .inl (x.2 h n e)⟩
  cases op
  case setReuse s => exact old _ (env _)
  case receive s t => exact old _ (env _)
  case lock s => exact old _ (env _)
  case elsewhere s => exact old _ (env _)
  case socket h inet =>
    simp only [step]
    split
    · split
      · refine ⟨by simp [A.set], fun h' n e => ?_⟩
        by_cases hh : h' = h
        · subst hh
          simp only [A.sockOf, A.set, if_true, Option.some.injEq] at e
          exact .inr ⟨⟨inet, rfl⟩, e.symm, by simp [A.set, e]⟩
        · simp only [A.sockOf, A.set, if_neg hh] at e
          exact .inl e
      · exact old _ ⟨Nat.le_refl _, fun _ _ h => h⟩
    · exact old _ ⟨Nat.le_refl _, fun _ _ h => h⟩
  case attach h v s =>
    refine old _ ?_
    simp only [step]
    repeat' split
    all_goals first
      | exact ⟨Nat.le_refl _, fun _ _ h => h⟩
      | exact thr _ _ _ _ (fun n s net e => (promiseAttach_grows e).2)
  case detach v s =>
    refine old _ ?_
    simp only [step]
    repeat' split
    all_goals first
      | exact ⟨Nat.le_refl _, fun _ _ h => h⟩
      | exact thr _ _ _ _ (fun n s net e => (promiseDetach_grows e).2)
  all_goals
    refine old _ ?_
    simp only [step]
    repeat' split
    all_goals first
      | exact ⟨Nat.le_refl _, fun _ _ h => h⟩
      | exact ⟨Nat.le_refl _, fun h' n e => setNone _ _ _ (by simp) h' n e⟩

/-- Each socket has at most one name, and each named socket is there. -/
def Distinct (a : A) : Prop :=
  (∀ h n, a.sockOf h = some n → n < a.net.socks.length) ∧ ∀ h h' n, a.sockOf h = some n → a.sockOf h' = some n → h = h'

theorem step_distinct {a : A} (d : Distinct a) (op : Op) (f : Option Nat) (room : Bool) : Distinct (step a op f room).1 := by
  obtain ⟨hl, hn⟩ := step_names a op f room
  refine ⟨fun h n e => ?_, fun h h' n e e' => ?_⟩
  · rcases hn h n e with x | ⟨-, x, y⟩
    · exact Nat.lt_of_lt_of_le (d.1 h n x) hl
    · omega
  · rcases hn h n e with x | ⟨⟨i, x⟩, y, -⟩ <;> rcases hn h' n e' with x' | ⟨⟨i', x'⟩, y', -⟩
    · exact d.2 h h' n x x'
    · have := d.1 h n x; omega
    · have := d.1 h' n x'; omega
    · rw [x] at x'; cases x'; rfl

theorem run_distinct (ops : List (Op × Option Nat)) : ∀ (a : A) (rs : List Bool), Distinct a → Distinct (Spec.run a ops rs).1 := by
  induction ops with
  | nil => intro a rs d; exact d
  | cons o ops ih =>
    intro a rs d
    obtain ⟨op, f⟩ := o
    rcases rs with _ | ⟨r, rs⟩
    · exact d
    · exact ih _ _ (step_distinct d op f r)

theorem run_filters (ops : List (Op × Option Nat)) : ∀ (a : A) (rs : List Bool) (s n : Nat), n < a.net.socks.length →
    (∀ h, a.sockOf h = some n → h = s) → (∀ x ∈ ops, ¬ Refilters s x.1) →
    (Spec.run a ops rs).1.net.socks[n]?.map Sock.filter = a.net.socks[n]?.map Sock.filter := by
  induction ops with
  | nil => intro a rs s n _ _ _; rfl
  | cons o ops ih =>
    intro a rs s n hn hs hr
    obtain ⟨op, f⟩ := o
    rcases rs with _ | ⟨r, rs⟩
    · rfl
    · simp only [Spec.run]
      obtain ⟨h1, h2⟩ := step_names a op f r
      rw [ih _ rs s n (Nat.lt_of_lt_of_le hn h1) ?_ (fun x hx => hr x (List.mem_cons_of_mem _ hx))]
      · exact step_filters a op f r n hn (fun h e => by rw [hs h e]; exact hr _ List.mem_cons_self)
      · intro h e
        rcases h2 h n e with x | ⟨-, x, -⟩
        · exact hs h x
        · omega

theorem distinct_init : Distinct {} := ⟨fun h n e => (nomatch e), fun h h' n e => (nomatch e)⟩

/-- The state the code is in after a history is that of a promise kept, with every socket named once. -/
theorem reach {fresh : (Nat → Option Obj) → Option Nat} (hF : Fresh fresh) (ops : List (Op × Option Nat)) :
    ∃ a, Rel (wrun fresh {} ops).1 a ∧ Distinct a :=
  ⟨_, (run_rel hF ops rel_init).1, run_distinct ops _ _ distinct_init⟩

/-- What attaching did when it is done. -/
theorem attached {a a' : A} {h s : Nat} {v : View} {f : Option Nat} {room : Bool} (e : step a (.attach h v s) f room = (a', .done)) :
    ∃ n o x net, a.sockOf s = some n ∧ a.progOf h = some o ∧ a.net.socks[n]? = some x ∧
      promiseAttach a.net f v o n x = .ok net ∧ a' = { a with net := net } := by
  simp only [step] at e
  rcases eh : a.names h with _ | (⟨v', o⟩ | m | _) <;> rcases es : a.names s with _ | (⟨sv', so⟩ | m | _) <;>
    simp only [eh, es, Prod.mk.injEq, reduceCtorEq, and_false] at e
  · by_cases hu : usable v v' = true
    · rcases o with _ | o <;> simp only [hu, if_true, Prod.mk.injEq, reduceCtorEq, and_false, A.through] at e
      rcases hx : a.net.socks[m]? with _ | x <;> simp only [hx, Prod.mk.injEq, reduceCtorEq, and_false] at e
      rcases e2 : promiseAttach a.net f v o m x with er | net <;> simp only [e2, Prod.mk.injEq, reduceCtorEq, and_false] at e
      exact ⟨m, o, x, net, by simp [A.sockOf, es], by simp [A.progOf, eh], hx, e2, e.1.symm⟩
    · simp only [hu, if_false, Prod.mk.injEq, reduceCtorEq, and_false] at e
  · by_cases hu : usable v v' = true
    · rcases o with _ | o <;> simp only [hu, if_true, Prod.mk.injEq, reduceCtorEq, and_false, A.through] at e
    · simp only [hu, if_false, Prod.mk.injEq, reduceCtorEq, and_false] at e

/-- What detaching did when it is done. -/
theorem detached {a a' : A} {s : Nat} {v : View} {f : Option Nat} {room : Bool} (e : step a (.detach v s) f room = (a', .done)) :
    ∃ n x net, a.sockOf s = some n ∧ a.net.socks[n]? = some x ∧ promiseDetach a.net v n x = .ok net ∧ a' = { a with net := net } := by
  simp only [step] at e
  rcases es : a.names s with _ | (⟨sv', so⟩ | m | _) <;> simp only [es, Prod.mk.injEq, reduceCtorEq, and_false, A.through] at e
  rcases hx : a.net.socks[m]? with _ | x <;> simp only [hx, Prod.mk.injEq, reduceCtorEq, and_false] at e
  rcases e2 : promiseDetach a.net v m x with er | net <;> simp only [e2, Prod.mk.injEq, reduceCtorEq, and_false] at e
  exact ⟨m, x, net, by simp [A.sockOf, es], hx, e2, e.1.symm⟩

theorem attach_filter {net net' : Net} {f : Option Nat} {o n : Nat} {x : Sock} (h : promiseAttach net f .socketFilter o n x = .ok net') :
    net' = filterSock net n x (some o) := by
  unfold promiseAttach at h
  rcases f with _ | f <;> rcases hl : x.locked <;>
    simp only [hl, if_true, reduceCtorEq, if_false, Bool.false_eq_true, false_and, Except.ok.injEq] at h
  exact h.symm

theorem detach_filter {net net' : Net} {n : Nat} {x : Sock} (h : promiseDetach net .socketFilter n x = .ok net') :
    net' = filterSock net n x none := by
  unfold promiseDetach at h
  rcases hl : x.locked <;> rcases hf : x.filter <;>
    simp only [hl, hf, if_true, reduceCtorEq, if_false, Bool.false_eq_true, Except.ok.injEq] at h
  exact h.symm

theorem through_failed {a : A} {v : View} {b : Bool} {x : Stands} {g : Nat → Sock → Except Nat Net}
    (h : (a.through v b x g).2 ≠ .done) : (a.through v b x g).1.net = a.net := by
  unfold A.through at *
  repeat' split
  all_goals first
    | rfl
    | skip
  simp_all

theorem attach_failed {a a' : A} {h s : Nat} {v : View} {f : Option Nat} {room : Bool} {rr : Res}
    (e : step a (.attach h v s) f room = (a', rr)) (hd : rr ≠ .done) : a'.net = a.net := by
  have e1 : a' = (step a (.attach h v s) f room).1 := by rw [e]
  have e2 : (step a (.attach h v s) f room).2 ≠ .done := by rw [e]; exact hd
  rw [e1]
  clear e e1
  simp only [step] at e2 ⊢
  revert e2
  rcases a.names h with _ | (⟨v', o⟩ | m | _) <;> rcases a.names s with _ | (⟨sv', so⟩ | m | _) <;> intro e2 <;> try rfl
  all_goals
    dsimp only at e2 ⊢
    by_cases hu : usable v v' = true
    · simp only [hu, if_true] at e2 ⊢
      rcases o with _ | o
      · rfl
      · exact through_failed e2
    · simp only [hu, if_false] at e2 ⊢
      rfl

theorem detach_failed {a a' : A} {s : Nat} {v : View} {f : Option Nat} {room : Bool} {rr : Res}
    (e : step a (.detach v s) f room = (a', rr)) (hd : rr ≠ .done) : a'.net = a.net := by
  have e1 : a' = (step a (.detach v s) f room).1 := by rw [e]
  have e2 : (step a (.detach v s) f room).2 ≠ .done := by rw [e]; exact hd
  rw [e1]
  clear e e1
  simp only [step] at e2 ⊢
  revert e2
  rcases a.names s with _ | (⟨sv', so⟩ | m | _) <;> intro e2 <;> first
    | rfl
    | exact through_failed e2

/-- **C92.** A program attached as the filter of a socket is its filter from then on: whatever is done, to the program too, until the
    socket itself is given another filter or none. -/
theorem C92_stays (fresh : (Nat → Option Obj) → Option Nat) (hF : Fresh fresh) (before after : List (Op × Option Nat))
    (h s : Nat) (f : Option Nat)
    (done : (wstep fresh (wrun fresh {} before).1 (.attach h .socketFilter s) f).2 = .done)
    (others : ∀ x ∈ after, ¬ Refilters s x.1) :
    ∃ n o, (wrun fresh {} before).1.sockOf s = some n ∧ (wrun fresh {} before).1.progOf h = some o ∧
      ((wrun fresh (wstep fresh (wrun fresh {} before).1 (.attach h .socketFilter s) f).1 after).1.k.net.socks[n]?).map Sock.filter =
        some (some o) := by
  obtain ⟨a, r, d⟩ := reach hF before
  generalize (wrun fresh {} before).1 = w at *
  obtain ⟨h1, h2⟩ := step_rel hF r (.attach h .socketFilter s) f
  rw [done] at h2
  rcases es : step a (.attach h .socketFilter s) f (fresh w.k.fds).isSome with ⟨a', rr⟩
  rw [es] at h1 h2
  dsimp only at h1 h2
  subst h2
  obtain ⟨n, o, x, net, e1, e2, e3, e4, e5⟩ := attached es
  have d' : Distinct a' := by
    have := step_distinct d (.attach h .socketFilter s) f (fresh w.k.fds).isSome
    rw [es] at this; exact this
  have es' : a'.sockOf s = some n := by rw [e5]; exact e1
  have hn := d'.1 s n es'
  refine ⟨n, o, by rw [r.sockOf]; exact e1, by rw [r.progOf]; exact e2, ?_⟩
  obtain ⟨h3, -⟩ := run_rel hF after h1
  rw [h3.net, run_filters after a' _ s n hn (fun h e => d'.2 h s n e es') others]
  rw [e5, attach_filter e4]
  simp only [filterSock]
  rw [List.getElem?_set_self (List.getElem?_eq_some_iff.mp e3).1]
  rfl

/-- Every group there is has a place for a selector. -/
def Grouped (net : Net) : Prop :=
  ∀ (n g : Nat) (x : Sock), net.socks[n]? = some x → x.group = some g → g < net.selectors.length

theorem Grouped.set {net : Net} (h : Grouped net) {m : Nat} {y : Sock} {progs : List Nat} {selectors : List (Option Nat)}
    (l : net.selectors.length ≤ selectors.length) (hy : ∀ g, y.group = some g → g < selectors.length) :
    Grouped { progs := progs, socks := net.socks.set m y, selectors := selectors } := by
  intro n g x hx hg
  simp only at hx ⊢
  rw [List.getElem?_set] at hx
  split at hx
  · split at hx
    · cases hx; exact hy g hg
    · cases hx
  · exact Nat.lt_of_lt_of_le (h n g x hx hg) l

theorem attach_grouped {net net' : Net} (hg : Grouped net) {f : Option Nat} {v : View} {o m : Nat} {s : Sock}
    (hs : net.socks[m]? = some s) (h : promiseAttach net f v o m s = .ok net') : Grouped net' := by
  unfold promiseAttach at h
  repeat' (split at h)
  all_goals first
    | cases h; done
    | skip
  · cases h
    exact hg.set (Nat.le_refl _) (fun g e => hg m g s hs e)
  · cases h
    intro n g x hx e
    simpa using hg n g x hx e
  · cases h
    refine hg.set (by simp) (fun g e => ?_)
    cases e; simp

theorem detach_grouped {net net' : Net} (hg : Grouped net) {v : View} {m : Nat} {s : Sock}
    (hs : net.socks[m]? = some s) (h : promiseDetach net v m s = .ok net') : Grouped net' := by
  unfold promiseDetach at h
  repeat' (split at h)
  all_goals first
    | cases h; done
    | skip
  · cases h
    exact hg.set (Nat.le_refl _) (fun g e => hg m g s hs e)
  · cases h
    intro n g x hx e
    simpa using hg n g x hx e

theorem env_grouped {net net' : Net} (hg : Grouped net) {f : Nat → Option Nat} {op : Op} (h : net.env f op = some net') : Grouped net' := by
  have hr : ∀ (m m' : Nat) (s : Sock), net.socks[m]? = some s → Grouped (net.receive m s net.socks[m']?) := by
    intro m m' s hs
    unfold Net.receive
    rcases ht : net.socks[m']? with _ | t
    · dsimp only
      split
      · refine hg.set (by simp) (fun g e => ?_)
        cases e; simp
      · exact hg.set (Nat.le_refl _) (fun g e => hg m g s hs e)
    · dsimp only
      split
      · rename_i g _ _ hgt
        exact hg.set (Nat.le_refl _) (fun g' e => by cases e; exact hg m' _ t ht hgt)
      · exact hg
  have hr0 : ∀ (m : Nat) (s : Sock), net.socks[m]? = some s → Grouped (net.receive m s none) := by
    intro m s hs
    unfold Net.receive
    dsimp only
    split
    · refine hg.set (by simp) (fun g e => ?_)
      cases e; simp
    · exact hg.set (Nat.le_refl _) (fun g e => hg m g s hs e)
  cases op <;> simp only [Net.env] at h
  case setReuse s | lock s | elsewhere s =>
    split at h
    · cases h
    · obtain ⟨x, hx, rfl⟩ := Option.map_eq_some_iff.mp h
      exact hg.set (Nat.le_refl _) (fun g e => hg _ g x hx e)
  case receive s t =>
    rcases t with _ | t <;> simp only [Net.env] at h
    · split at h
      · cases h
      · obtain ⟨x, hx, rfl⟩ := Option.map_eq_some_iff.mp h
        exact hr0 _ _ hx
    · split at h
      · obtain ⟨x, hx, rfl⟩ := Option.map_eq_some_iff.mp h
        exact hr _ _ _ hx
      · cases h
  all_goals cases h

theorem step_grouped {a : A} (hg : Grouped a.net) (op : Op) (f : Option Nat) (room : Bool) : Grouped (step a op f room).1.net := by
  have env : ∀ op, Grouped ((match a.net.env a.sockOf op with
        | some net => (({ a with net := net } : A), Res.done)
        | none => (a, Res.nothing)).1).net := by
    intro op
    rcases e : a.net.env a.sockOf op with _ | net
    · exact hg
    · exact env_grouped hg e
  have thr : ∀ v b x g, (∀ n s net, a.net.socks[n]? = some s → g n s = .ok net → Grouped net) →
      Grouped (a.through v b x g).1.net := by
    intro v b x g h
    unfold A.through
    repeat' split
    all_goals first
      | exact hg
      | exact h _ _ _ (by assumption) (by assumption)
  cases op
  case setReuse s => exact env _
  case receive s t => exact env _
  case lock s => exact env _
  case elsewhere s => exact env _
  case attach h v s =>
    simp only [step]
    repeat' split
    all_goals first
      | exact hg
      | exact thr _ _ _ _ (fun n s net hs e => attach_grouped hg hs e)
  case detach v s =>
    simp only [step]
    repeat' split
    all_goals first
      | exact hg
      | exact thr _ _ _ _ (fun n s net hs e => detach_grouped hg hs e)
  case socket h inet =>
    simp only [step]
    repeat' split
    all_goals first
      | exact hg
      | skip
    intro n g x hx e
    simp only [A.set] at hx ⊢
    rw [List.getElem?_append] at hx
    split at hx
    · exact hg n g x hx e
    · have := List.mem_of_getElem? hx
      simp only [List.mem_singleton] at this
      rw [this] at e; cases e
  all_goals
    simp only [step]
    repeat' split
    all_goals exact hg

theorem run_grouped (ops : List (Op × Option Nat)) : ∀ (a : A) (rs : List Bool), Grouped a.net → Grouped (Spec.run a ops rs).1.net := by
  induction ops with
  | nil => intro a rs d; exact d
  | cons o ops ih =>
    intro a rs d
    obtain ⟨op, f⟩ := o
    rcases rs with _ | ⟨r, rs⟩
    · exact d
    · exact ih _ _ (step_grouped d op f r)

theorem reach_grouped {fresh : (Nat → Option Obj) → Option Nat} (hF : Fresh fresh) (ops : List (Op × Option Nat)) :
    Grouped (wrun fresh {} ops).1.k.net := by
  rw [(run_rel hF ops rel_init).1.net]
  exact run_grouped ops _ _ (fun n g x hx => nomatch hx)

/-- **C92.** A selector attached through a socket is that of the group of the socket, so of every socket in it. Every other group keeps
    the one it has. -/
theorem C92_group (fresh : (Nat → Option Obj) → Option Nat) (hF : Fresh fresh) (before : List (Op × Option Nat))
    (v : View) (hv : v ≠ .socketFilter) (f : Option Nat) (h s : Nat) (w' : W)
    (done : wstep fresh (wrun fresh {} before).1 (.attach h v s) f = (w', .done)) :
    ∃ (n o g : Nat), w'.sockOf s = some n ∧ w'.progOf h = some o ∧ (w'.k.net.socks[n]?).map Sock.group = some (some g) ∧
      w'.k.net.selectors[g]? = some (some o) ∧
      ∀ (g' : Nat), g' ≠ g → w'.k.net.selectors[g']? = (wrun fresh {} before).1.k.net.selectors[g']? := by
  obtain ⟨a, r, d⟩ := reach hF before
  have hg := reach_grouped hF before
  generalize (wrun fresh {} before).1 = w at *
  obtain ⟨h1, h2⟩ := step_rel hF r (.attach h v s) f
  rw [done] at h1 h2
  rcases es : step a (.attach h v s) f (fresh w.k.fds).isSome with ⟨a', rr⟩
  rw [es] at h1 h2
  dsimp only at h1 h2
  subst h2
  obtain ⟨n, o, x, net, e1, e2, e3, e4, e5⟩ := attached es
  rw [r.net] at hg
  have key : ∃ g : Nat, net.socks[n]?.map Sock.group = some (some g) ∧ net.selectors[g]? = some (some o) ∧
      ∀ (g' : Nat), g' ≠ g → net.selectors[g']? = a.net.selectors[g']? := by
    unfold promiseAttach at e4
    repeat' (split at e4)
    all_goals first
      | cases e4; done
      | (rename_i hv'; exact absurd hv' hv)
      | skip
    · rename_i g hgx
      cases e4
      refine ⟨g, by simp [e3, hgx], List.getElem?_set_self (hg n g x e3 hgx), fun g' hne => ?_⟩
      exact List.getElem?_set_ne (fun e => hne e.symm)
    · cases e4
      refine ⟨a.net.selectors.length, ?_, by simp, fun g' hne => ?_⟩
      · simp only
        rw [List.getElem?_set_self (List.getElem?_eq_some_iff.mp e3).1]
        rfl
      · simp only
        rw [List.getElem?_append]
        split
        · rfl
        · rename_i hlt
          rw [List.getElem?_eq_none (by simp; omega), List.getElem?_eq_none (by omega)]
  obtain ⟨g, k1, k2, k3⟩ := key
  refine ⟨n, o, g, by rw [h1.sockOf, e5]; exact e1, by rw [h1.progOf, e5]; exact e2, ?_, ?_, ?_⟩
  · rw [h1.net, e5]; exact k1
  · rw [h1.net, e5]; exact k2
  · rw [h1.net, e5, r.net]; exact k3

/-- **C92.** Detached through any socket of it, the group has no selector; other groups keep theirs. It is an error if it had none. -/
theorem C92_ungroup (fresh : (Nat → Option Obj) → Option Nat) (hF : Fresh fresh) (before : List (Op × Option Nat))
    (v : View) (hv : v ≠ .socketFilter) (f : Option Nat) (s : Nat) (w' : W)
    (done : wstep fresh (wrun fresh {} before).1 (.detach v s) f = (w', .done)) :
    ∃ (n o g : Nat), w'.sockOf s = some n ∧ (w'.k.net.socks[n]?).map Sock.group = some (some g) ∧
      (wrun fresh {} before).1.k.net.selectors[g]? = some (some o) ∧ w'.k.net.selectors[g]? = some none ∧
      ∀ (g' : Nat), g' ≠ g → w'.k.net.selectors[g']? = (wrun fresh {} before).1.k.net.selectors[g']? := by
  obtain ⟨a, r, d⟩ := reach hF before
  generalize (wrun fresh {} before).1 = w at *
  obtain ⟨h1, h2⟩ := step_rel hF r (.detach v s) f
  rw [done] at h1 h2
  rcases es : step a (.detach v s) f (fresh w.k.fds).isSome with ⟨a', rr⟩
  rw [es] at h1 h2
  dsimp only at h1 h2
  subst h2
  obtain ⟨n, x, net, e1, e3, e4, e5⟩ := detached es
  have key : ∃ o g : Nat, net.socks[n]?.map Sock.group = some (some g) ∧ a.net.selectors[g]? = some (some o) ∧
      net.selectors[g]? = some none ∧ ∀ (g' : Nat), g' ≠ g → net.selectors[g']? = a.net.selectors[g']? := by
    unfold promiseDetach at e4
    rw [if_neg hv] at e4
    repeat' (split at e4)
    all_goals first
      | cases e4; done
      | skip
    rename_i g hgx hne
    cases e4
    have hlt : g < a.net.selectors.length := by
      rcases Nat.lt_or_ge g a.net.selectors.length with h | h
      · exact h
      · exact absurd (.inr h) hne
    rcases hq : a.net.selectors[g]? with _ | (_ | o)
    · have := List.getElem?_eq_none_iff.mp hq; omega
    · exact absurd (.inl hq) hne
    · exact ⟨o, g, by simp [e3, hgx], hq, List.getElem?_set_self hlt, fun g' h => List.getElem?_set_ne (fun e => h e.symm)⟩
  obtain ⟨o, g, k1, k2, k3, k4⟩ := key
  refine ⟨n, o, g, by rw [h1.sockOf, e5]; exact e1, ?_, ?_, ?_, ?_⟩
  · rw [h1.net, e5]; exact k1
  · rw [r.net]; exact k2
  · rw [h1.net, e5]; exact k3
  · rw [h1.net, e5, r.net]; exact k4

/-- **C92.** The two ways do not meet: a filter attached or detached leaves all groups and selectors as they are, a selector attached or
    detached leaves all filters as they are. And what fails leaves everything as it is. -/
theorem C92_apart (fresh : (Nat → Option Obj) → Option Nat) (hF : Fresh fresh) (before : List (Op × Option Nat))
    (v : View) (op : Op) (hop : (∃ h s, op = .attach h v s) ∨ ∃ s, op = .detach v s) (f : Option Nat) :
    let w := (wrun fresh {} before).1
    let w' := (wstep fresh w op f).1
    (v = .socketFilter → w'.k.net.selectors = w.k.net.selectors ∧
      ∀ (n : Nat), (w'.k.net.socks[n]?).map Sock.group = (w.k.net.socks[n]?).map Sock.group) ∧
    (v ≠ .socketFilter → ∀ (n : Nat), (w'.k.net.socks[n]?).map Sock.filter = (w.k.net.socks[n]?).map Sock.filter) ∧
    ((wstep fresh w op f).2 ≠ .done → w'.k.net = w.k.net) := by
  intro w w'
  obtain ⟨a, r, d⟩ := reach hF before
  obtain ⟨h1, h2⟩ := step_rel hF r op f
  have e : w'.k.net = (step a op f (fresh w.k.fds).isSome).1.net := h1.net
  have ew : w.k.net = a.net := r.net
  have h2' : (wstep fresh w op f).2 = (step a op f (fresh w.k.fds).isSome).2 := h2
  rw [h2', e, ew]
  clear_value w w'
  have same : ∀ b : A × Res, b.1.net = a.net →
      (v = .socketFilter → b.1.net.selectors = a.net.selectors ∧
        ∀ (n : Nat), (b.1.net.socks[n]?).map Sock.group = (a.net.socks[n]?).map Sock.group) ∧
      (v ≠ .socketFilter → ∀ (n : Nat), (b.1.net.socks[n]?).map Sock.filter = (a.net.socks[n]?).map Sock.filter) ∧
      (b.2 ≠ .done → b.1.net = a.net) := by
    intro b hb
    rw [hb]
    exact ⟨fun _ => ⟨rfl, fun _ => rfl⟩, fun _ _ => rfl, fun _ => rfl⟩
  rcases hop with ⟨h, s, rfl⟩ | ⟨s, rfl⟩
  · rcases es : step a (.attach h v s) f (fresh w.k.fds).isSome with ⟨a', rr⟩
    by_cases hd : rr = .done
    · subst hd
      obtain ⟨n, o, x, net, e1, e2, e3, e4, e5⟩ := attached es
      subst e5
      refine ⟨fun hv => ?_, fun hv m => attach_filters e3 e4 m (.inl hv), fun hd => absurd rfl hd⟩
      subst hv
      rw [attach_filter e4]
      exact ⟨rfl, fun m => by apply group_set e3; rfl⟩
    · exact same (a', rr) (attach_failed es hd)
  · rcases es : step a (.detach v s) f (fresh w.k.fds).isSome with ⟨a', rr⟩
    by_cases hd : rr = .done
    · subst hd
      obtain ⟨n, x, net, e1, e3, e4, e5⟩ := detached es
      subst e5
      refine ⟨fun hv => ?_, fun hv m => detach_filters e3 e4 m (.inl hv), fun hd => absurd rfl hd⟩
      subst hv
      rw [detach_filter e4]
      exact ⟨rfl, fun m => by apply group_set e3; rfl⟩
    · exact same (a', rr) (detach_failed es hd)

/-! ### Instances -/

/-- The lowest free number of a thousand. -/
def lowest (fds : Nat → Option Obj) : Option Nat := (List.range 1000).find? (fun n => (fds n).isNone)

theorem lowest_fresh : Fresh lowest := by
  intro fds n h
  have h1 := List.find?_some h
  have h2 := List.mem_range.mp (List.mem_of_find?_eq_some h)
  exact ⟨by simpa using h1, by omega⟩

/-- Two sockets share a port; a selector is attached through one and detached through the other, and a filter stays although its
    program is unloaded and the number of its descriptor is used again. -/
def demo : List (Op × Option Nat) :=
  [(.program 0 .socketFilter, none), (.program 1 .skReuseport, none), (.attach 0 .socketFilter 2, none), (.load 0, none), (.load 1, none),
   (.socket 2 true, none), (.socket 3 true, none), (.setReuse 2, none), (.setReuse 3, none), (.receive 2 none, none),
   (.receive 3 (some 2), none), (.attach 0 .socketFilter 2, none), (.attach 1 .skReuseport 3, none), (.attach 1 .socketFilter 3, none),
   (.unload 0, none), (.file 4, none), (.detach .skReuseport 2, none), (.detach .skReuseport 3, none), (.attach 0 .socketFilter 3, none)]

example : (wrun lowest {} demo).2 =
    [.done, .done, .nothing, .done, .done, .done, .done, .done, .done, .done, .done, .done, .done, .failed .unexpectedType, .done, .done, .done,
     .failed (.skReuseport "SO_DETACH_REUSEPORT_BPF" 2), .failed .notLoaded] ∧
    ((wrun lowest {} demo).1.k.net.socks.map Sock.filter, (wrun lowest {} demo).1.k.net.selectors) = ([some 0, none], [none]) := by
  decide +kernel

example : (wrun lowest {} (demo.take 13)).1.k.net.selectors = [some 1] := by decide +kernel

example : (wstep lowest (wrun lowest {} (demo.take 11)).1 (.attach 0 .socketFilter 2) none).2 = .done ∧
    (wstep lowest (wrun lowest {} (demo.take 12)).1 (.attach 1 .skReuseport 3) none).2 = .done ∧
    (wstep lowest (wrun lowest {} (demo.take 16)).1 (.detach .skReuseport 2) none).2 = .done ∧
    (wstep lowest (wrun lowest {} (demo.take 10)).1 (.attach 0 .reusePortSocketFilter 2) (some 12)).2 =
      .failed (.socketFilter "SO_ATTACH_REUSEPORT_EBPF" 12) := by decide +kernel

end Verif.SockFilter
