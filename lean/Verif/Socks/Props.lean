import Verif.Socks.Run
import Verif.Common.Except

/-!
# Socket maps: what is promised is kept
-/
set_option linter.unusedSimpArgs false
set_option linter.unusedVariables false
namespace Verif.Socks
open Spec Verif.Bytes

def Match (k : K) : Option H → Option Stands → Prop
  | none, none => True
  | some (.map kind d), some (.map kind' max m) => kind = kind' ∧ d.max = max ∧ k.fds d.fd = some (.map m)
  | some (.sock fd), some (.sock n) => k.fds fd = some (.sock n)
  | _, _ => False

def fdAt (w : W) (h : Nat) : Option Nat := (w.hs[h]?.join).map H.fd

structure Rel (w : W) (a : A) : Prop where
  net : w.k.net = a.net
  len : w.hs.length = a.names.length
  hand : ∀ h : Nat, Match w.k (w.hs[h]?.join) (a.names[h]?.join)
  inj : ∀ h h' fd : Nat, fdAt w h = some fd → fdAt w h' = some fd → h = h'
  small : ∀ fd x, w.k.fds fd = some x → fd < 2 ^ 31
  refs : ∀ n, w.k.refs n = a.names.count (some (.sock n))

theorem Match.mono {k k' : K} {x : Option H} {y : Option Stands} (m : Match k x y)
    (same : ∀ fd, x.map H.fd = some fd → k'.fds fd = k.fds fd) : Match k' x y := by
  rcases x with _ | (⟨v, d⟩ | fd) <;> rcases y with _ | (⟨v', mx, o⟩ | n) <;> simp only [Match] at m ⊢
  · exact ⟨m.1, m.2.1, by rw [same d.fd rfl]; exact m.2.2⟩
  · rw [same fd rfl]; exact m

theorem Match.isOpen {k : K} {x : Option H} {y : Option Stands} (m : Match k x y) {fd : Nat} (h : x.map H.fd = some fd) :
    ∃ o, k.fds fd = some o := by
  rcases x with _ | (⟨v, d⟩ | fd') <;> rcases y with _ | (⟨v', mx, o⟩ | n) <;> simp only [Match] at m
  · cases h
  · cases h; exact ⟨_, m.2.2⟩
  · cases h; exact ⟨_, m⟩

theorem Rel.isOpen {w : W} {a : A} (r : Rel w a) {h fd : Nat} (e : fdAt w h = some fd) : ∃ o, w.k.fds fd = some o :=
  (r.hand h).isOpen e

/-- Something is done to the net, no descriptor is touched. -/
theorem Rel.changeNet {w : W} {a : A} (r : Rel w a) (net : Net) :
    Rel { w with k := { w.k with net := net } } { a with net := net } where
  net := rfl
  len := r.len
  hand h := (r.hand h).mono (fun _ _ => rfl)
  inj := r.inj
  small := r.small
  refs := r.refs

theorem Rel.sock {w : W} {a : A} (r : Rel w a) (h : Nat) :
    (∃ fd n, w.sockOf h = some fd ∧ a.sockOf h = some n ∧ w.k.fds fd = some (.sock n) ∧ w.hs[h]?.join = some (.sock fd) ∧
      a.names[h]?.join = some (.sock n)) ∨
    (w.sockOf h = none ∧ a.sockOf h = none) := by
  have m := r.hand h
  simp only [W.sockOf, A.sockOf]
  rcases ex : w.hs[h]?.join with _ | (⟨v, d⟩ | fd) <;> rcases ey : a.names[h]?.join with _ | (⟨v', mx, o⟩ | n) <;>
    rw [ex, ey] at m <;> simp only [Match] at m
  · exact .inr ⟨rfl, rfl⟩
  · exact .inr ⟨rfl, rfl⟩
  · exact .inl ⟨fd, n, rfl, rfl, m, rfl, rfl⟩

theorem Rel.map {w : W} {a : A} (r : Rel w a) (h : Nat) :
    (∃ (kind : Kind) (d : Data) (m : Nat), w.mapOf h = some (kind, d) ∧ a.mapOf h = some (kind, d.max, m) ∧ w.k.fds d.fd = some (.map m)) ∨
    (w.mapOf h = none ∧ a.mapOf h = none) := by
  have m := r.hand h
  simp only [W.mapOf, A.mapOf]
  rcases ex : w.hs[h]?.join with _ | (⟨v, d⟩ | fd) <;> rcases ey : a.names[h]?.join with _ | (⟨v', mx, o⟩ | n) <;>
    rw [ex, ey] at m <;> simp only [Match] at m
  · exact .inr ⟨rfl, rfl⟩
  · obtain ⟨rfl, rfl, m⟩ := m
    exact .inl ⟨v, d, o, rfl, rfl, m⟩
  · exact .inr ⟨rfl, rfl⟩

theorem getElem?_join_append {α : Type} (l : List (Option α)) (x : Option α) (n : Nat) :
    (l ++ [x])[n]?.join = if n = l.length then x else l[n]?.join := by
  by_cases e : n = l.length
  · subst e; simp
  · rw [if_neg e]
    by_cases lt : n < l.length
    · rw [List.getElem?_append_left lt]
    · rw [List.getElem?_eq_none (l := l ++ [x]) (by simp; omega), List.getElem?_eq_none (l := l) (by omega)]

/-- A descriptor is opened for a new name. -/
theorem Rel.open {w : W} {a : A} (r : Rel w a) {fd : Nat} (free : w.k.fds fd = none) (lt : fd < 2 ^ 31)
    (net : Net) (o : Obj) (x : H) (hx : x.fd = fd) (y : Stands) (k : K)
    (hk : k.net = net) (hf : k.fds = fun n => if n = fd then some o else w.k.fds n)
    (hr : ∀ n, k.refs n = w.k.refs n + if y = .sock n then 1 else 0)
    (m : Match k (some x) (some y)) :
    Rel { k := k, hs := w.hs ++ [some x] } { net := net, names := a.names ++ [some y] } where
  net := hk
  len := by simp [r.len]
  hand n := by
    simp only [getElem?_join_append]
    by_cases e : n = w.hs.length
    · rw [if_pos e, if_pos (by rw [← r.len]; exact e)]; exact m
    · rw [if_neg e, if_neg (by rw [← r.len]; exact e)]
      refine (r.hand n).mono (fun fd' e' => ?_)
      obtain ⟨q, hq⟩ := r.isOpen (h := n) e'
      have : fd' ≠ fd := by rintro rfl; rw [free] at hq; cases hq
      simp only [hf, if_neg this]
  inj n n' fd' e e' := by
    have key : ∀ n, fdAt w n = some fd → False := by
      intro n e
      obtain ⟨x, hx⟩ := r.isOpen e
      rw [free] at hx; cases hx
    simp only [fdAt, getElem?_join_append] at e e'
    split at e <;> split at e'
    · rename_i h1 h2; rw [h1, h2]
    · rename_i h1 h2
      simp only [Option.map_some, hx, Option.some.injEq] at e; subst e
      exact (key n' e').elim
    · rename_i h1 h2
      simp only [Option.map_some, hx, Option.some.injEq] at e'; subst e'
      exact (key n e).elim
    · exact r.inj n n' fd' e e'
  small fd' x' e := by
    simp only [hf] at e
    split at e
    · omega
    · exact r.small _ _ e
  refs n := by
    rw [hr, r.refs, List.count_append, List.count_singleton]
    congr 1
    by_cases e : y = .sock n <;> simp [e]

theorem getElem?_join_set {α : Type} (l : List (Option α)) (h n : Nat) :
    (l.set h none)[n]?.join = if n = h then none else l[n]?.join := by
  rw [List.getElem?_set]
  by_cases e : h = n
  · subst e
    simp only [if_true]
    split <;> rfl
  · rw [if_neg e, if_neg (Ne.symm e)]

theorem join_some {α : Type} {l : List (Option α)} {h : Nat} {x : α} (e : l[h]?.join = some x) : l[h]? = some (some x) := by
  rcases q : l[h]? with _ | y
  · rw [q] at e; cases e
  · rw [q] at e
    simp only [Option.join_some] at e
    rw [e]

theorem count_set_none (l : List (Option Stands)) (h : Nat) (y : Stands) (e : l[h]?.join = some y) (n : Nat) :
    (l.set h none).count (some (.sock n)) = l.count (some (.sock n)) - if y = .sock n then 1 else 0 := by
  obtain ⟨hl, e'⟩ := List.getElem?_eq_some_iff.mp (join_some e)
  rw [List.count_set hl, e']
  by_cases q : y = .sock n <;> simp [q]

/-- A descriptor is closed with its name. -/
theorem Rel.close {w : W} {a : A} (r : Rel w a) {h : Nat} {x : H} (ex : w.hs[h]?.join = some x) :
    Rel { k := w.k.close x.fd, hs := w.hs.set h none } (a.forget h) := by
  have hm := r.hand h
  rw [ex] at hm
  obtain ⟨y, ey⟩ : ∃ y, a.names[h]?.join = some y := by
    rcases ey : a.names[h]?.join with _ | y
    · rw [ey] at hm; cases x <;> simp only [Match] at hm
    · exact ⟨y, rfl⟩
  rw [ey] at hm
  have hfd : fdAt w h = some x.fd := by simp [fdAt, ex]
  have core : ∀ (k : K) (net : Net), k.net = net → k.fds = (w.k.closeFd x.fd).fds →
      (∀ n, k.refs n = w.k.refs n - if y = .sock n then 1 else 0) →
      Rel { k := k, hs := w.hs.set h none } { net := net, names := a.names.set h none } := by
    intro k net hk hf hr
    refine ⟨hk, by simp [r.len], fun n => ?_, fun n n' fd e e' => ?_, fun fd o e => ?_, fun n => ?_⟩
    · simp only [getElem?_join_set]
      by_cases e : n = h
      · simp only [e, if_true, Match]
      · simp only [if_neg e]
        refine (r.hand n).mono fun fd e' => ?_
        have : fd ≠ x.fd := by
          rintro rfl
          exact e (r.inj n h _ e' hfd)
        simp only [hf, K.closeFd, if_neg this]
    · simp only [fdAt, getElem?_join_set] at e e'
      split at e
      · cases e
      · split at e'
        · cases e'
        · exact r.inj n n' fd e e'
    · rw [hf] at e
      simp only [K.closeFd] at e
      split at e
      · cases e
      · exact r.small _ _ e
    · rw [hr, r.refs, count_set_none _ _ _ ey]
  rcases x with ⟨kind, d⟩ | fd <;> rcases y with ⟨kind', mx, m⟩ | n <;> simp only [Match] at hm
  · simp only [H.fd, K.close, hm.2.2]
    have : a.forget h = { net := a.net, names := a.names.set h none } := by simp only [A.forget, A.sockOf, ey]
    rw [this]
    exact core _ _ r.net rfl (fun n => by simp [K.closeFd])
  · simp only [H.fd, K.close, hm]
    have hc : (some (Stands.sock n) ∈ a.names.set h none) ↔ w.k.refs n ≠ 1 := by
      rw [← List.count_pos_iff, count_set_none _ _ _ ey, if_pos rfl, r.refs]
      have : 0 < a.names.count (some (.sock n)) := by
        rw [List.count_pos_iff]
        exact List.mem_of_getElem? (join_some ey)
      omega
    have hr : ∀ n', ((w.k.closeFd fd).unref n).refs n' = w.k.refs n' - if Stands.sock n = .sock n' then 1 else 0 := by
      intro n'
      simp only [K.unref, K.closeFd, Stands.sock.injEq]
      by_cases q : n' = n
      · subst q; simp
      · rw [if_neg q, if_neg (fun e => q e.symm)]; omega
    by_cases q : w.k.refs n = 1
    · have : a.forget h = { net := a.net.leave n, names := a.names.set h none } := by
        simp only [A.forget, A.sockOf, ey]
        rw [if_neg (by rw [hc]; simpa using q)]
      rw [this, if_pos q]
      exact core _ _ (by rw [r.net]) rfl hr
    · have : a.forget h = { net := a.net, names := a.names.set h none } := by
        simp only [A.forget, A.sockOf, ey]
        rw [if_pos (hc.mpr q)]
      rw [this, if_neg q]
      exact core _ _ r.net rfl hr

/-! ## Errors -/

/-- Error numbers of Linux. -/
def Errno (fault : Option Nat) : Prop := ∀ e, fault = some e → 0 < e ∧ e < 4096

theorem exists_errno (t : Table) (key : Spec.Bytes) (flags e : Nat) (h : exists_ t key flags = some e) : 0 < e ∧ e < 4096 := by
  simp only [exists_] at h
  split at h
  · cases h; omega
  · split at h
    · cases h; omega
    · cases h

theorem store_errno (net : Net) (fault : Option Nat) (hf : Errno fault) (m : Nat) (key : Spec.Bytes) (n flags e : Nat)
    (h : net.store fault m key n flags = .error e) : 0 < e ∧ e < 4096 := by
  simp only [Net.store] at h
  split at h
  · split at h
    · rename_i t s _ _ e' h'
      cases h
      simp only [refusal] at h'
      repeat' split at h'
      all_goals first
        | (cases h'; omega)
        | (cases h'; done)
        | exact hf _ h'
        | exact exists_errno _ _ _ _ h'
    · cases h
  · cases h; omega

theorem asI32_errno (e : Nat) (h : e < 4096) : asI32 (-(e : Int)) = -(e : Int) := by
  rw [asI32, BitVec.toInt_ofInt, Int.bmod_eq_of_le] <;> omega

theorem told_rel {w : W} {a : A} (r : Rel w a) (fault : Option Nat) (hf : Errno fault) (m : Nat) (key : Spec.Bytes) (n flags : Nat)
    (out : Except Int Unit × Work)
    (h1 : ∀ net, w.k.net.store fault m key n flags = .ok net → out = (outcome 0, { w.work n with net := net }))
    (h2 : ∀ e, w.k.net.store fault m key n flags = .error e → out = (outcome (-(e : Int)), w.work n)) :
    Rel (w.told out).1 (a.told (a.net.store fault m key n flags)).1 ∧ (w.told out).2 = (a.told (a.net.store fault m key n flags)).2 := by
  rw [← r.net]
  rcases e : w.k.net.store fault m key n flags with e' | net
  · rw [h2 e' e]
    have := store_errno _ _ hf _ _ _ _ _ e
    refine ⟨r.changeNet w.k.net |> fun q => ?_, ?_⟩
    · have ea : ({ a with net := w.k.net } : A) = a := by rw [r.net]
      rw [ea] at q
      exact q
    · simp only [W.told, A.told, outcome]
      rw [if_neg (by omega), asI32_errno _ this.2]
  · rw [h1 net e]
    exact ⟨r.changeNet net, rfl⟩

theorem ofLe_le4 (fd : Nat) (h : fd < 2 ^ 31) : ofLe (le 4 fd) = fd := ofLe_le_of_lt 4 fd (by omega)

theorem mapInsert_rel {w : W} {a : A} (r : Rel w a) (fresh : (Nat → Option Obj) → Option Nat) (fault : Option Nat)
    (d : Data) (m : Nat) (hm : w.k.fds d.fd = some (.map m)) (fd n : Nat) (hn : w.k.fds fd = some (.sock n)) (key : Spec.Bytes) (flags : Nat) :
    (∀ net, a.net.store fault m key n flags = .ok net →
      (sys fresh fault).update d.fd key (le 4 fd) flags w.k = (.ok (), { w.k with net := net })) ∧
    (∀ e, a.net.store fault m key n flags = .error e → (sys fresh fault).update d.fd key (le 4 fd) flags w.k = (.error e, w.k)) := by
  have lt := r.small _ _ hn
  have e4 := ofLe_le4 fd lt
  rw [← r.net]
  constructor
  · intro net e
    simp only [sys, hm, e4, hn, e]
    rw [if_neg (by omega)]
  · intro x e
    simp only [sys, hm, e4, hn, e]
    rw [if_neg (by omega)]

theorem mapRemove_rel {w : W} {a : A} (r : Rel w a) (fresh : (Nat → Option Obj) → Option Nat) (fault : Option Nat)
    (d : Data) (m : Nat) (hm : w.k.fds d.fd = some (.map m)) (key : Spec.Bytes) :
    (∀ net, a.net.erase m key = .ok net → (sys fresh fault).delete d.fd key w.k = (.ok (), { w.k with net := net })) ∧
    (∀ e, a.net.erase m key = .error e → (sys fresh fault).delete d.fd key w.k = (.error e, w.k)) := by
  rw [← r.net]
  constructor
  · intro net e
    simp only [sys, hm, e]
  · intro x e
    simp only [sys, hm, e]

/-- One step: the caller sees what is promised. -/
theorem step_rel (fresh : (Nat → Option Obj) → Option Nat) (hfresh : Fresh fresh) {w : W} {a : A} (r : Rel w a) (op : Op)
    (fault : Option Nat) (hf : Errno fault) :
    Rel (wstep fresh w op fault).1 (Spec.step a op fault (fresh w.k.fds).isSome).1 ∧
      (wstep fresh w op fault).2 = (Spec.step a op fault (fresh w.k.fds).isSome).2 := by
  cases op with
  | map kind max =>
    rcases fault with _ | e
    · rcases ef : fresh w.k.fds with _ | fd
      · simp only [wstep, Spec.step, create, sys, ef, Option.isSome]
        exact ⟨r, trivial⟩
      · obtain ⟨free, lt⟩ := hfresh _ _ ef
        simp only [wstep, Spec.step, create, sys, ef, Option.isSome, ← r.net]
        refine ⟨?_, trivial⟩
        refine r.open free lt _ (.map w.k.net.tables.length) _ rfl _ _ rfl rfl (fun n => ?_) ?_
        · simp [K.openFd]
        · exact ⟨rfl, rfl, by simp [K.openFd]⟩
    · simp only [wstep, Spec.step, create, sys]
      exact ⟨r, trivial⟩
  | socket s =>
    rcases ef : fresh w.k.fds with _ | fd
    · simp only [wstep, Spec.step, ef, Option.isSome, Bool.false_eq_true, if_false]
      exact ⟨r, trivial⟩
    · obtain ⟨free, lt⟩ := hfresh _ _ ef
      simp only [wstep, Spec.step, ef, Option.isSome, if_true, ← r.net]
      refine ⟨?_, trivial⟩
      refine r.open free lt _ (.sock w.k.net.socks.length) _ rfl _ _ rfl rfl (fun n => ?_) ?_
      · simp only [K.ref, K.openFd, Stands.sock.injEq]
        by_cases q : n = w.k.net.socks.length
        · subst q; simp
        · rw [if_neg q, if_neg (fun e => q e.symm)]; rfl
      · show (if fd = fd then some (Obj.sock w.k.net.socks.length) else _) = _
        rw [if_pos rfl]
  | clone h =>
    rcases r.sock h with ⟨fd, n, e1, e2, e3, _, _⟩ | ⟨e1, e2⟩
    · rcases ef : fresh w.k.fds with _ | fd'
      · simp only [wstep, Spec.step, e1, e2, e3, ef, Option.isSome]
        exact ⟨r, trivial⟩
      · obtain ⟨free, lt⟩ := hfresh _ _ ef
        simp only [wstep, Spec.step, e1, e2, e3, ef, Option.isSome]
        refine ⟨?_, trivial⟩
        refine r.open free lt _ (.sock n) _ rfl _ _ r.net rfl (fun n' => ?_) ?_
        · simp only [K.ref, K.openFd, Stands.sock.injEq]
          by_cases q : n' = n
          · subst q; simp
          · rw [if_neg q, if_neg (fun e => q e.symm)]; rfl
        · show (if fd' = fd' then some (Obj.sock n) else _) = _
          rw [if_pos rfl]
    · simp only [wstep, Spec.step, e1, e2]
      exact ⟨r, trivial⟩
  | drop h =>
    have m := r.hand h
    rcases ex : w.hs[h]?.join with _ | x
    · rcases ey : a.names[h]?.join with _ | y
      · simp only [wstep, Spec.step, ex, ey, Option.isSome, Bool.false_eq_true, if_false]
        exact ⟨r, trivial⟩
      · rw [ex, ey] at m; simp only [Match] at m
    · rcases ey : a.names[h]?.join with _ | y
      · rw [ex, ey] at m; cases x <;> simp only [Match] at m
      · simp only [wstep, Spec.step, ex, ey, Option.isSome, if_true]
        exact ⟨r.close ex, trivial⟩
  | connect h s =>
    rcases r.sock h with ⟨fd, n, e1, e2, e3, _, _⟩ | ⟨e1, e2⟩
    · simp only [wstep, Spec.step, e1, e2, Option.bind_some, e3, ← r.net]
      exact ⟨r.changeNet _, trivial⟩
    · simp only [wstep, Spec.step, e1, e2, Option.bind_none]
      exact ⟨r, trivial⟩
  | disconnect h =>
    rcases r.sock h with ⟨fd, n, e1, e2, e3, _, _⟩ | ⟨e1, e2⟩
    · simp only [wstep, Spec.step, e1, e2, Option.bind_some, e3, ← r.net]
      exact ⟨r.changeNet _, trivial⟩
    · simp only [wstep, Spec.step, e1, e2, Option.bind_none]
      exact ⟨r, trivial⟩
  | set m index s flags =>
    rcases r.map m with ⟨kind, d, t, m1, m2, m3⟩ | ⟨m1, m2⟩
    · rcases r.sock s with ⟨fd, n, e1, e2, e3, _, _⟩ | ⟨e1, e2⟩
      · obtain ⟨h1, h2⟩ := mapInsert_rel r fresh fault d t m3 fd n e3 (indexKey index) flags
        cases kind
        · simp only [wstep, Spec.step, m1, m2, e1, e2, reduceCtorEq, if_false, sockMapSet, checkBounds]
          by_cases hb : index.toNat ≥ d.max
          · simp only [hb, if_true, W.result]
            exact ⟨r, trivial⟩
          · simp only [hb, if_false, mapInsert]
            rcases es : a.net.store fault t (indexKey index) n flags with e | net
            · simp only [indexKey] at h2 es
              simp only [h2 e es, W.result, A.change]
              exact ⟨r, trivial⟩
            · simp only [indexKey] at h1 es
              simp only [h1 net es, W.result, A.change]
              exact ⟨r.changeNet net, trivial⟩
        · simp only [wstep, Spec.step, m1, m2, e1, e2, if_true]
          exact ⟨r, trivial⟩
        · simp only [wstep, Spec.step, m1, m2, e1, e2, reduceCtorEq, if_false, reuseSet, checkBounds]
          by_cases hb : index.toNat ≥ d.max
          · simp only [hb, if_true, W.result]
            exact ⟨r, trivial⟩
          · simp only [hb, if_false]
            rcases es : a.net.store fault t (indexKey index) n flags with e | net
            · simp only [indexKey] at h2 es
              simp only [h2 e es, W.result, A.change]
              exact ⟨r, trivial⟩
            · simp only [indexKey] at h1 es
              simp only [h1 net es, W.result, A.change]
              exact ⟨r.changeNet net, trivial⟩
      · cases kind <;> simp only [wstep, Spec.step, m1, m2, e1, e2] <;> exact ⟨r, trivial⟩
    · simp only [wstep, Spec.step, m1, m2]
      exact ⟨r, trivial⟩
  | clear m index =>
    rcases r.map m with ⟨kind, d, t, m1, m2, m3⟩ | ⟨m1, m2⟩
    · obtain ⟨h1, h2⟩ := mapRemove_rel r fresh fault d t m3 (indexKey index)
      cases kind
      · simp only [wstep, Spec.step, m1, m2, reduceCtorEq, if_false, sockMapClear, checkBounds]
        by_cases hb : index.toNat ≥ d.max
        · simp only [hb, if_true, W.result]
          exact ⟨r, trivial⟩
        · simp only [hb, if_false, mapRemove]
          rcases es : a.net.erase t (indexKey index) with e | net
          · simp only [indexKey] at h2 es
            simp only [h2 e es, W.result, A.change]
            exact ⟨r, trivial⟩
          · simp only [indexKey] at h1 es
            simp only [h1 net es, W.result, A.change]
            exact ⟨r.changeNet net, trivial⟩
      · simp only [wstep, Spec.step, m1, m2, if_true]
        exact ⟨r, trivial⟩
      · simp only [wstep, Spec.step, m1, m2, reduceCtorEq, if_false, reuseClear, checkBounds]
        by_cases hb : index.toNat ≥ d.max
        · simp only [hb, if_true, W.result]
          exact ⟨r, trivial⟩
        · simp only [hb, if_false]
          rcases es : a.net.erase t (indexKey index) with e | net
          · simp only [indexKey] at h2 es
            simp only [h2 e es, W.result, A.change]
            exact ⟨r, trivial⟩
          · simp only [indexKey] at h1 es
            simp only [h1 net es, W.result, A.change]
            exact ⟨r.changeNet net, trivial⟩
    · simp only [wstep, Spec.step, m1, m2]
      exact ⟨r, trivial⟩
  | insert m key s flags =>
    rcases r.map m with ⟨kind, d, t, m1, m2, m3⟩ | ⟨m1, m2⟩
    · rcases r.sock s with ⟨fd, n, e1, e2, e3, _, _⟩ | ⟨e1, e2⟩
      · obtain ⟨h1, h2⟩ := mapInsert_rel r fresh fault d t m3 fd n e3 key flags
        cases kind <;> simp only [wstep, Spec.step, m1, m2, e1, e2] <;> try exact ⟨r, trivial⟩
        simp only [sockHashInsert, mapInsert]
        rcases es : a.net.store fault t key n flags with e | net
        · simp only [h2 e es, W.result, A.change]
          exact ⟨r, trivial⟩
        · simp only [h1 net es, W.result, A.change]
          exact ⟨r.changeNet net, trivial⟩
      · cases kind <;> simp only [wstep, Spec.step, m1, m2, e1, e2] <;> exact ⟨r, trivial⟩
    · simp only [wstep, Spec.step, m1, m2]
      exact ⟨r, trivial⟩
  | insertOwned m key s flags =>
    rcases r.map m with ⟨kind, d, t, m1, m2, m3⟩ | ⟨m1, m2⟩
    · rcases r.sock s with ⟨fd, n, e1, e2, e3, e4, e5⟩ | ⟨e1, e2⟩
      · obtain ⟨h1, h2⟩ := mapInsert_rel r fresh fault d t m3 fd n e3 key flags
        cases kind <;> simp only [wstep, Spec.step, m1, m2, e1, e2] <;> try exact ⟨r, trivial⟩
        simp only [sockHashInsertOwned, mapInsert]
        rcases es : a.net.store fault t key n flags with e | net
        · simp only [h2 e es, W.result, A.change]
          exact ⟨r.close e4, trivial⟩
        · simp only [h1 net es, W.result, A.change]
          exact ⟨(r.changeNet net).close (x := .sock fd) e4, trivial⟩
      · cases kind <;> simp only [wstep, Spec.step, m1, m2, e1, e2] <;> exact ⟨r, trivial⟩
    · simp only [wstep, Spec.step, m1, m2]
      exact ⟨r, trivial⟩
  | remove m key =>
    rcases r.map m with ⟨kind, d, t, m1, m2, m3⟩ | ⟨m1, m2⟩
    · obtain ⟨h1, h2⟩ := mapRemove_rel r fresh fault d t m3 key
      cases kind <;> simp only [wstep, Spec.step, m1, m2] <;> try exact ⟨r, trivial⟩
      simp only [sockHashRemove, mapRemove]
      rcases es : a.net.erase t key with e | net
      · simp only [h2 e es, W.result, A.change]
        exact ⟨r, trivial⟩
      · simp only [h1 net es, W.result, A.change]
        exact ⟨r.changeNet net, trivial⟩
    · simp only [wstep, Spec.step, m1, m2]
      exact ⟨r, trivial⟩
  | update m index n flags =>
    have hc : (some (Stands.sock n) ∈ a.names) ↔ w.k.refs n ≠ 0 := by
      rw [r.refs, ← List.count_pos_iff]; omega
    simp only [wstep, Spec.step]
    by_cases q : w.k.refs n = 0
    · rw [if_pos q, if_neg (by rw [hc]; simpa using q)]
      exact ⟨r, rfl⟩
    · rw [if_neg q, if_pos (hc.mpr q)]
      refine told_rel r fault hf m (indexKey index) n flags _ (fun net e => ?_) (fun x e => ?_)
      · simp only [indexKey] at e
        simp only [progMapUpdate, helpers, W.work, e]
      · simp only [indexKey] at e
        simp only [progMapUpdate, helpers, W.work, e]
  | updateHash m key n flags =>
    have hc : (some (Stands.sock n) ∈ a.names) ↔ w.k.refs n ≠ 0 := by
      rw [r.refs, ← List.count_pos_iff]; omega
    simp only [wstep, Spec.step]
    by_cases q : w.k.refs n = 0
    · rw [if_pos q, if_neg (by rw [hc]; simpa using q)]
      exact ⟨r, rfl⟩
    · rw [if_neg q, if_pos (hc.mpr q)]
      refine told_rel r fault hf m key n flags _ (fun net e => ?_) (fun x e => ?_)
      · simp only [progHashUpdate, helpers, W.work, e]
      · simp only [progHashUpdate, helpers, W.work, e]

theorem rel_init : Rel {} {} where
  net := rfl
  len := rfl
  hand h := by simp [Match]
  inj h h' fd e := by simp [fdAt] at e
  small fd x e := by cases e
  refs n := by simp

theorem run_rel (fresh : (Nat → Option Obj) → Option Nat) (hfresh : Fresh fresh) (ops : List (Op × Option Nat))
    (hf : ∀ o ∈ ops, Errno o.2) : ∀ {w : W} {a : A}, Rel w a →
      Rel (wrun fresh w ops).1 (Spec.run a ops (rooms fresh w ops)).1 ∧
        (wrun fresh w ops).2 = (Spec.run a ops (rooms fresh w ops)).2 := by
  induction ops with
  | nil => intro w a r; exact ⟨r, rfl⟩
  | cons o ops ih =>
    intro w a r
    obtain ⟨op, f⟩ := o
    obtain ⟨r1, e1⟩ := step_rel fresh hfresh r op f (hf (op, f) (by simp))
    obtain ⟨r2, e2⟩ := ih (fun o h => hf o (by simp [h])) r1
    simp only [wrun, rooms, Spec.run]
    exact ⟨r2, by rw [e1, e2]⟩

/-! ## The theorems -/

/-- The socket a name stands for, the number of a map. -/
def W.socket (w : W) (h : Nat) : Option Nat :=
  match (w.sockOf h).bind w.k.fds with
  | some (.sock n) => some n
  | _ => none

def W.table (w : W) (h : Nat) : Option Nat :=
  match (w.mapOf h).bind (fun d => w.k.fds d.2.fd) with
  | some (.map m) => some m
  | _ => none

/-- The socket under a key of a map, as programs and the system see it. -/
def W.at_ (w : W) (t : Nat) (key : Spec.Bytes) : Option Nat := w.k.net.at_ t key

theorem Rel.socket {w : W} {a : A} (r : Rel w a) (h : Nat) : w.socket h = a.sockOf h := by
  rcases r.sock h with ⟨fd, n, e1, e2, e3, _, _⟩ | ⟨e1, e2⟩
  · simp [W.socket, e1, e2, e3]
  · simp [W.socket, e1, e2]

theorem Rel.table {w : W} {a : A} (r : Rel w a) (h : Nat) : w.table h = (a.mapOf h).map fun x => x.2.2 := by
  rcases r.map h with ⟨kind, d, m, e1, e2, e3⟩ | ⟨e1, e2⟩
  · simp [W.table, e1, e2, e3]
  · simp [W.table, e1, e2]

/-- States that histories lead to. -/
def Reached (fresh : (Nat → Option Obj) → Option Nat) (w : W) : Prop :=
  ∃ ops : List (Op × Option Nat), (∀ o ∈ ops, Errno o.2) ∧ w = (wrun fresh {} ops).1

/-- States the promise leads to. -/
inductive Promised : A → Prop
  | init : Promised {}
  | step {a : A} (op : Op) (f : Option Nat) (room : Bool) : Promised a → Promised (Spec.step a op f room).1

theorem run_promised (ops : List (Op × Option Nat)) : ∀ (a : A) (rs : List Bool), Promised a → Promised (Spec.run a ops rs).1 := by
  induction ops with
  | nil => intro a rs h; exact h
  | cons o ops ih =>
    intro a rs h
    cases rs with
    | nil => exact h
    | cons r rs => exact ih _ rs (.step o.1 o.2 r h)

theorem Reached.rel {fresh : (Nat → Option Obj) → Option Nat} (hfresh : Fresh fresh) {w : W} (h : Reached fresh w) :
    ∃ a, Rel w a ∧ Promised a := by
  obtain ⟨ops, hf, rfl⟩ := h
  exact ⟨_, (run_rel fresh hfresh ops hf rel_init).1, run_promised ops _ _ .init⟩

/-- **C97 (histories).** Whatever is done, in any order, with any failures: the caller is told, and the maps hold, what is promised
    of maps and sockets, whichever numbers their descriptors had. -/
theorem C97_histories (fresh : (Nat → Option Obj) → Option Nat) (hfresh : Fresh fresh) (ops : List (Op × Option Nat))
    (hf : ∀ o ∈ ops, Errno o.2) :
    (wrun fresh {} ops).2 = (Spec.run {} ops (rooms fresh {} ops)).2 ∧
      (wrun fresh {} ops).1.k.net = (Spec.run {} ops (rooms fresh {} ops)).1.net := by
  have h := run_rel fresh hfresh ops hf rel_init
  exact ⟨h.2, h.1.net⟩

/-! ### Entries -/

theorem lookup_filter_ne (l : List (Spec.Bytes × Nat)) (k k' : Spec.Bytes) (h : k ≠ k') :
    (l.filter fun e => e.1 != k').lookup k = l.lookup k := by
  induction l with
  | nil => rfl
  | cons e l ih =>
    obtain ⟨a, b⟩ := e
    by_cases q : a = k'
    · subst q
      have hk : (k == a) = false := by simpa using h
      simp [List.filter_cons, List.lookup_cons, hk, ih]
    · have : (a != k') = true := by simpa [bne_iff_ne] using q
      simp only [List.filter_cons, this, if_true, List.lookup_cons, ih]

theorem lookup_filter_self (l : List (Spec.Bytes × Nat)) (k : Spec.Bytes) :
    (l.filter fun e => e.1 != k).lookup k = none := by
  induction l with
  | nil => rfl
  | cons e l ih =>
    obtain ⟨a, b⟩ := e
    by_cases q : a = k
    · subst q; simp [List.filter_cons, ih]
    · have h1 : (a != k) = true := by simpa [bne_iff_ne] using q
      have h2 : (k == a) = false := by simpa using Ne.symm q
      simp only [List.filter_cons, h1, if_true, List.lookup_cons, h2, ih]

theorem at_put (t : Table) (k k' : Spec.Bytes) (n : Nat) : (t.put k n).at_ k' = if k' = k then some n else t.at_ k' := by
  simp only [Table.at_, Table.put, List.lookup_cons]
  by_cases h : k' = k
  · subst h; simp
  · have : (k' == k) = false := by simpa using h
    rw [this, if_neg h]
    exact lookup_filter_ne _ _ _ h

theorem at_erase (t : Table) (k k' : Spec.Bytes) : (t.erase k).at_ k' = if k' = k then none else t.at_ k' := by
  simp only [Table.at_, Table.erase]
  by_cases h : k' = k
  · subst h; rw [if_pos rfl]; exact lookup_filter_self _ _
  · rw [if_neg h]; exact lookup_filter_ne _ _ _ h

/-- No key has two entries. -/
def Spec.Table.Keys (t : Table) : Prop := (t.entries.map (·.1)).Nodup

theorem lookup_mem (l : List (Spec.Bytes × Nat)) (k : Spec.Bytes) (n : Nat) (h : l.lookup k = some n) : (k, n) ∈ l := by
  induction l with
  | nil => cases h
  | cons e l ih =>
    obtain ⟨a, b⟩ := e
    simp only [List.lookup_cons] at h
    split at h
    · rename_i q
      cases h
      have : k = a := by simpa using q
      subst this
      simp
    · exact List.mem_cons_of_mem _ (ih h)

theorem lookup_of_mem (l : List (Spec.Bytes × Nat)) (k : Spec.Bytes) (n : Nat) (nd : (l.map (·.1)).Nodup) (h : (k, n) ∈ l) :
    l.lookup k = some n := by
  induction l with
  | nil => cases h
  | cons e l ih =>
    obtain ⟨a, b⟩ := e
    simp only [List.map_cons, List.nodup_cons] at nd
    simp only [List.lookup_cons]
    rcases List.mem_cons.mp h with h' | h'
    · cases h'; simp
    · have : k ≠ a := by
        intro q
        exact nd.1 (List.mem_map.mpr ⟨(k, n), h', q⟩)
      have : (k == a) = false := by simpa using this
      rw [this]
      exact ih nd.2 h'

theorem keys_filter (l : List (Spec.Bytes × Nat)) (p : Spec.Bytes × Nat → Bool) (nd : (l.map (·.1)).Nodup) :
    ((l.filter p).map (·.1)).Nodup :=
  nd.sublist (List.Sublist.map _ List.filter_sublist)

theorem at_without (t : Table) (hk : t.Keys) (n : Nat) (k : Spec.Bytes) :
    (t.without n).at_ k = if t.at_ k = some n then none else t.at_ k := by
  simp only [Table.at_, Table.without]
  have cases_ : t.entries.lookup k = none ∨ ∃ x, t.entries.lookup k = some x := by
    cases t.entries.lookup k with
    | none => exact .inl rfl
    | some x => exact .inr ⟨x, rfl⟩
  rcases cases_ with e | ⟨x, e⟩
  · simp only [e, reduceCtorEq, if_false]
    rcases e' : (t.entries.filter fun e => e.2 != n).lookup k with _ | y
    · exact e'
    · have := lookup_mem _ _ _ e'
      rw [List.mem_filter] at this
      rw [lookup_of_mem _ _ _ hk this.1] at e
      cases e
  · simp only [e]
    by_cases q : x = n
    · subst q
      rw [if_pos rfl]
      rcases e' : (t.entries.filter fun e => e.2 != x).lookup k with _ | y
      · exact e'
      · have := lookup_mem _ _ _ e'
        rw [List.mem_filter] at this
        rw [lookup_of_mem _ _ _ hk this.1] at e
        cases e
        simp at this
    · rw [if_neg (by simpa using q)]
      apply lookup_of_mem _ _ _ (keys_filter _ _ hk)
      rw [List.mem_filter]
      exact ⟨lookup_mem _ _ _ e, by simpa [bne_iff_ne] using q⟩

/-- What holds of all states: keys are unique; entries are sockets with a name that can be in such a map; names stand for sockets. -/
structure Inv (a : A) : Prop where
  keys : ∀ (t : Nat) (T : Table), a.net.tables[t]? = some T → T.Keys
  named : ∀ (t : Nat) (T : Table), a.net.tables[t]? = some T → ∀ e ∈ T.entries, some (Stands.sock e.2) ∈ a.names
  suited : ∀ (t : Nat) (T : Table), a.net.tables[t]? = some T → ∀ e ∈ T.entries,
    ∃ s, a.net.socks[e.2]? = some s ∧ s.kind.suited = true ∧ (T.kind = .reuse → s.group.isSome = true)
  bounds : ∀ n, some (Stands.sock n) ∈ a.names → n < a.net.socks.length

/-- The net changes in tables only, each of which has entries that were there already, or the sockets are as good. -/
theorem Inv.shrink {a : A} (i : Inv a) (net : Net) (names : List (Option Stands)) (n : Nat)
    (ht : ∀ (t : Nat) (T : Table), net.tables[t]? = some T → ∃ T0, a.net.tables[t]? = some T0 ∧ T = T0.without n)
    (hn : ∀ m, m ≠ n → some (Stands.sock m) ∈ a.names → some (Stands.sock m) ∈ names)
    (hb : ∀ m, some (Stands.sock m) ∈ names → some (Stands.sock m) ∈ a.names)
    (hs : ∀ m, m ≠ n → net.socks[m]? = a.net.socks[m]?) (hl : net.socks.length = a.net.socks.length) :
    Inv { net := net, names := names } where
  keys t T h := by
    obtain ⟨T0, h0, rfl⟩ := ht t T h
    exact keys_filter _ _ (i.keys t T0 h0)
  named t T h e he := by
    obtain ⟨T0, h0, rfl⟩ := ht t T h
    simp only [Table.without, List.mem_filter, bne_iff_ne, ne_eq] at he
    exact hn _ he.2 (i.named t T0 h0 e he.1)
  suited t T h e he := by
    obtain ⟨T0, h0, rfl⟩ := ht t T h
    simp only [Table.without, List.mem_filter, bne_iff_ne, ne_eq] at he
    rw [hs _ he.2]
    exact i.suited t T0 h0 e he.1
  bounds m h := by rw [hl]; exact i.bounds m (hb m h)

theorem leave_tables (net : Net) (n t : Nat) (T : Table) (h : (net.leave n).tables[t]? = some T) :
    ∃ T0, net.tables[t]? = some T0 ∧ T = T0.without n := by
  simp only [Net.leave, List.getElem?_map, Option.map_eq_some_iff] at h
  obtain ⟨T0, h0, rfl⟩ := h
  exact ⟨T0, h0, rfl⟩

theorem sockOf_mem {a : A} {h n : Nat} (e : a.sockOf h = some n) : a.names[h]?.join = some (.sock n) := by
  simp only [A.sockOf] at e
  split at e
  · rename_i q; cases e; exact q
  · cases e

theorem mem_set_none (l : List (Option Stands)) (h n : Nat) (hm : some (Stands.sock n) ∈ l.set h none) : some (Stands.sock n) ∈ l := by
  rcases List.mem_or_eq_of_mem_set hm with q | q
  · exact q
  · cases q

theorem mem_set_none_of (l : List (Option Stands)) (h n : Nat) (hm : some (Stands.sock n) ∈ l) (hne : l[h]?.join ≠ some (.sock n)) :
    some (Stands.sock n) ∈ l.set h none := by
  obtain ⟨i, hi, e⟩ := List.mem_iff_getElem.mp hm
  have : h ≠ i := by
    rintro rfl
    apply hne
    rw [List.getElem?_eq_getElem hi, e]
    rfl
  refine List.mem_iff_getElem.mpr ⟨i, by simpa using hi, ?_⟩
  rw [List.getElem_set, if_neg this, e]

theorem Inv.forget {a : A} (i : Inv a) (h : Nat) : Inv (a.forget h) := by
  simp only [A.forget]
  rcases e : a.sockOf h with _ | n
  · simp only
    have hne : ∀ m, a.names[h]?.join ≠ some (.sock m) := by
      intro m q
      simp [A.sockOf, q] at e
    exact ⟨i.keys, fun t T ht x hx => mem_set_none_of _ _ _ (i.named t T ht x hx) (hne _), i.suited,
      fun m hm => i.bounds m (mem_set_none _ _ _ hm)⟩
  · simp only
    have hn := sockOf_mem e
    have hne : ∀ m, m ≠ n → a.names[h]?.join ≠ some (.sock m) := by
      intro m q
      rw [hn]
      simpa using Ne.symm q
    split
    · rename_i hq
      refine ⟨i.keys, fun t T ht x hx => ?_, i.suited, fun m hm => i.bounds m (mem_set_none _ _ _ hm)⟩
      by_cases q : x.2 = n
      · rw [q]; exact hq
      · exact mem_set_none_of _ _ _ (i.named t T ht x hx) (hne _ q)
    · exact i.shrink _ _ n (leave_tables a.net n) (fun m q hm => mem_set_none_of _ _ _ hm (hne m q))
        (fun m hm => mem_set_none _ _ _ hm) (fun m _ => rfl) rfl

theorem Inv.store {a : A} (i : Inv a) (fault : Option Nat) (m : Nat) (key : Spec.Bytes) (n flags : Nat) (net : Net)
    (hn : some (Stands.sock n) ∈ a.names) (h : a.net.store fault m key n flags = .ok net) : Inv { a with net := net } := by
  simp only [Net.store] at h
  split at h
  · rename_i T s hT hs
    split at h
    · cases h
    · rename_i hr
      cases h
      have ok : s.kind.suited = true ∧ (T.kind = .reuse → s.group.isSome = true) := by
        simp only [refusal] at hr
        rcases hk : T.kind <;> simp only [hk] at hr
        · refine ⟨?_, fun q => by cases q⟩
          split at hr
          · cases hr
          · rename_i q; simpa using q
        · refine ⟨?_, fun q => by cases q⟩
          split at hr
          · cases hr
          · rename_i q; simpa using q
        · split at hr
          · cases hr
          · split at hr
            · cases hr
            · split at hr
              · rename_i q; rw [hr] at q; cases q
              · split at hr
                · rename_i q; rw [hr] at q; cases q
                · split at hr
                  · cases hr
                  · rename_i q
                    rcases hg : s.group with _ | g
                    · rw [hg] at q; simp at q
                    · rw [hg] at q
                      exact ⟨by simpa using q, fun _ => rfl⟩
      have key2 : ∀ (t : Nat) (T' : Table), (a.net.tables.set m (T.put key n))[t]? = some T' →
          (a.net.tables[t]? = some T') ∨ (t = m ∧ T' = T.put key n) := by
        intro t T' h'
        rw [List.getElem?_set] at h'
        by_cases q : m = t
        · subst q
          simp only [if_true] at h'
          split at h'
          · cases h'; exact .inr ⟨rfl, rfl⟩
          · cases h'
        · rw [if_neg q] at h'; exact .inl h'
      refine ⟨fun t T' h' => ?_, fun t T' h' e he => ?_, fun t T' h' e he => ?_, i.bounds⟩
      · rcases key2 t T' h' with q | ⟨rfl, rfl⟩
        · exact i.keys t T' q
        · simp only [Table.Keys, Table.put, List.map_cons, List.nodup_cons]
          refine ⟨?_, keys_filter _ _ (i.keys t T hT)⟩
          intro hm
          obtain ⟨x, hx, hx'⟩ := List.mem_map.mp hm
          rw [List.mem_filter] at hx
          rw [hx'] at hx
          simp at hx
      · rcases key2 t T' h' with q | ⟨rfl, rfl⟩
        · exact i.named t T' q e he
        · simp only [Table.put, List.mem_cons, List.mem_filter] at he
          rcases he with rfl | he
          · exact hn
          · exact i.named t T hT e he.1
      · rcases key2 t T' h' with q | ⟨rfl, rfl⟩
        · exact i.suited t T' q e he
        · simp only [Table.put, List.mem_cons, List.mem_filter] at he
          rcases he with rfl | he
          · exact ⟨s, hs, ok.1, ok.2⟩
          · exact i.suited t T hT e he.1
  · cases h

theorem Inv.erase {a : A} (i : Inv a) (m : Nat) (key : Spec.Bytes) (net : Net) (h : a.net.erase m key = .ok net) :
    Inv { a with net := net } := by
  simp only [Net.erase] at h
  split at h
  · cases h
  · rename_i T hT
    split at h
    · cases h
    · cases h
    · cases h
      have key2 : ∀ (t : Nat) (T' : Table), (a.net.tables.set m (T.erase key))[t]? = some T' →
          (a.net.tables[t]? = some T') ∨ (t = m ∧ T' = T.erase key) := by
        intro t T' h'
        rw [List.getElem?_set] at h'
        by_cases q : m = t
        · subst q
          simp only [if_true] at h'
          split at h'
          · cases h'; exact .inr ⟨rfl, rfl⟩
          · cases h'
        · rw [if_neg q] at h'; exact .inl h'
      refine ⟨fun t T' h' => ?_, fun t T' h' e he => ?_, fun t T' h' e he => ?_, i.bounds⟩
      · rcases key2 t T' h' with q | ⟨rfl, rfl⟩
        · exact i.keys t T' q
        · exact keys_filter _ _ (i.keys t T hT)
      · rcases key2 t T' h' with q | ⟨rfl, rfl⟩
        · exact i.named t T' q e he
        · exact i.named t T hT e (List.mem_filter.mp he).1
      · rcases key2 t T' h' with q | ⟨rfl, rfl⟩
        · exact i.suited t T' q e he
        · exact i.suited t T hT e (List.mem_filter.mp he).1

theorem Inv.change {a : A} (i : Inv a) (call : String) (out : Except Nat Net) (h : ∀ net, out = .ok net → Inv { a with net := net }) :
    Inv (a.change call out).1 := by
  rcases out with e | net
  · exact i
  · exact h net rfl

theorem Inv.told {a : A} (i : Inv a) (out : Except Nat Net) (h : ∀ net, out = .ok net → Inv { a with net := net }) :
    Inv (a.told out).1 := by
  rcases out with e | net
  · exact i
  · exact h net rfl

theorem sockOf_names {a : A} {h n : Nat} (e : a.sockOf h = some n) : some (Stands.sock n) ∈ a.names :=
  List.mem_of_getElem? (join_some (sockOf_mem e))

theorem Inv.step {a : A} (i : Inv a) (op : Op) (f : Option Nat) (room : Bool) : Inv (Spec.step a op f room).1 := by
  cases op with
  | map kind max =>
    simp only [Spec.step]
    split
    · exact i
    · exact i
    · have key2 : ∀ (t : Nat) (T : Table), (a.net.tables ++ [{ kind := kind, max := max.toNat }])[t]? = some T →
          a.net.tables[t]? = some T ∨ T = { kind := kind, max := max.toNat } := by
        intro t T h
        rw [List.getElem?_append] at h
        split at h
        · exact .inl h
        · right
          rcases q : t - a.net.tables.length with _ | x
          · rw [q] at h; cases h; rfl
          · rw [q] at h; cases h
      refine ⟨fun t T h => ?_, fun t T h e he => ?_, fun t T h e he => ?_, fun n hn => ?_⟩
      · rcases key2 t T h with q | rfl
        · exact i.keys t T q
        · simp [Table.Keys]
      · rcases key2 t T h with q | rfl
        · exact List.mem_append_left _ (i.named t T q e he)
        · cases he
      · rcases key2 t T h with q | rfl
        · exact i.suited t T q e he
        · cases he
      · rcases List.mem_append.mp hn with q | q
        · exact i.bounds n q
        · simp at q
  | socket s =>
    simp only [Spec.step]
    split
    · refine ⟨i.keys, fun t T h e he => List.mem_append_left _ (i.named t T h e he), fun t T h e he => ?_, fun n hn => ?_⟩
      · obtain ⟨s', h1, h2⟩ := i.suited t T h e he
        refine ⟨s', ?_, h2⟩
        have lt := (List.getElem?_eq_some_iff.mp h1).1
        simp only
        rw [List.getElem?_append_left lt]
        exact h1
      · rcases List.mem_append.mp hn with q | q
        · have := i.bounds n q
          simp only [List.length_append, List.length_singleton]
          omega
        · simp only [List.mem_singleton, Option.some.injEq, Stands.sock.injEq] at q
          simp [q]
    · exact i
  | clone h =>
    simp only [Spec.step]
    split
    · rename_i n e
      refine ⟨i.keys, fun t T h e he => List.mem_append_left _ (i.named t T h e he), i.suited, fun m hm => ?_⟩
      rcases List.mem_append.mp hm with q | q
      · exact i.bounds m q
      · simp only [List.mem_singleton, Option.some.injEq, Stands.sock.injEq] at q
        rw [q]
        exact i.bounds n (sockOf_names (by assumption))
    · exact i
  | drop h =>
    simp only [Spec.step]
    split
    · exact i.forget h
    · exact i
  | connect h s =>
    simp only [Spec.step]
    split
    · rename_i n e
      simp only [Net.connect]
      split
      · rename_i old ho
        split
        · rename_i hi
          refine ⟨i.keys, i.named, fun t T hT x hx => ?_, fun m hm => ?_⟩
          · obtain ⟨s', h1, h2, h3⟩ := i.suited t T hT x hx
            have : n ≠ x.2 := by
              rintro rfl
              rw [ho] at h1
              cases h1
              rw [hi] at h2
              cases h2
            refine ⟨s', ?_, h2, h3⟩
            simp only
            rw [List.getElem?_set, if_neg this]
            exact h1
          · simp only [List.length_set]; exact i.bounds m hm
        · exact i
      · exact i
    · exact i
  | disconnect h =>
    simp only [Spec.step]
    split
    · rename_i n e
      refine i.shrink _ _ n (leave_tables a.net n) (fun m _ hm => hm) (fun m hm => hm) (fun m hm => ?_) ?_
      · simp only [Net.disconnect]
        rw [List.getElem?_modify]
        rcases a.net.socks[m]? with _ | s
        · rfl
        · simp [Ne.symm hm]
      · simp [Net.disconnect]
    · exact i
  | set m index s flags =>
    simp only [Spec.step]
    split
    · rename_i e
      split
      · exact i
      · split
        · exact i
        · exact i.change _ _ fun net hnet => i.store _ _ _ _ _ _ (sockOf_names e) hnet
    · exact i
  | clear m index =>
    simp only [Spec.step]
    split
    · split
      · exact i
      · split
        · exact i
        · exact i.change _ _ fun net hnet => i.erase _ _ _ hnet
    · exact i
  | insert m key s flags =>
    simp only [Spec.step]
    split
    · rename_i e
      exact i.change _ _ fun net hnet => i.store _ _ _ _ _ _ (sockOf_names e) hnet
    · exact i
  | insertOwned m key s flags =>
    simp only [Spec.step]
    split
    · rename_i e
      exact (i.change _ _ fun net hnet => i.store _ _ _ _ _ _ (sockOf_names e) hnet).forget s
    · exact i
  | remove m key =>
    simp only [Spec.step]
    split
    · exact i.change _ _ fun net hnet => i.erase _ _ _ hnet
    · exact i
  | update m index n flags =>
    simp only [Spec.step]
    split
    · rename_i e
      exact i.told _ fun net hnet => i.store _ _ _ _ _ _ e hnet
    · exact i
  | updateHash m key n flags =>
    simp only [Spec.step]
    split
    · rename_i e
      exact i.told _ fun net hnet => i.store _ _ _ _ _ _ e hnet
    · exact i

theorem Promised.inv {a : A} (h : Promised a) : Inv a := by
  induction h with
  | init => exact ⟨fun t T h => (by cases h), fun t T h => (by cases h), fun t T h => (by cases h), fun n h => (by cases h)⟩
  | step op f room _ ih => exact ih.step op f room

/-! ### What operations do to entries -/

theorem store_at {net net' : Net} {fault : Option Nat} {m n flags : Nat} {key : Spec.Bytes}
    (h : net.store fault m key n flags = .ok net') (t : Nat) (k : Spec.Bytes) :
    net'.at_ t k = if t = m ∧ k = key then some n else net.at_ t k := by
  simp only [Net.store] at h
  split at h
  · rename_i T s hT hs
    split at h
    · cases h
    · cases h
      have lt := (List.getElem?_eq_some_iff.mp hT).1
      simp only [Net.at_]
      rw [List.getElem?_set]
      by_cases q : m = t
      · subst q
        simp only [if_true, lt, Option.bind_some, at_put, true_and, hT]
      · rw [if_neg q, if_neg (fun x => q x.1.symm)]
  · cases h

theorem erase_at {net net' : Net} {m : Nat} {key : Spec.Bytes} (h : net.erase m key = .ok net') (t : Nat) (k : Spec.Bytes) :
    net'.at_ t k = if t = m ∧ k = key then none else net.at_ t k := by
  simp only [Net.erase] at h
  split at h
  · cases h
  · rename_i T hT
    split at h
    · cases h
    · cases h
    · cases h
      have lt := (List.getElem?_eq_some_iff.mp hT).1
      simp only [Net.at_]
      rw [List.getElem?_set]
      by_cases q : m = t
      · subst q
        simp only [if_true, lt, Option.bind_some, at_erase, true_and, hT]
      · rw [if_neg q, if_neg (fun x => q x.1.symm)]

theorem leave_at {a : A} (i : Inv a) (n t : Nat) (k : Spec.Bytes) :
    (a.net.leave n).at_ t k = if a.net.at_ t k = some n then none else a.net.at_ t k := by
  simp only [Net.at_, Net.leave, List.getElem?_map]
  have cases_ : a.net.tables[t]? = none ∨ ∃ T, a.net.tables[t]? = some T := by
    cases a.net.tables[t]? with
    | none => exact .inl rfl
    | some x => exact .inr ⟨x, rfl⟩
  rcases cases_ with e | ⟨T, e⟩
  · simp [e]
  · simp only [e, Option.map_some, Option.bind_some]
    exact at_without T (i.keys t T e) n k

theorem sockOf_append {a : A} {net : Net} {h n : Nat} (y : Option Stands) (e : a.sockOf h = some n) :
    ({ net := net, names := a.names ++ [y] } : A).sockOf h = some n := by
  have q := sockOf_mem e
  have lt := (List.getElem?_eq_some_iff.mp (join_some q)).1
  simp only [A.sockOf]
  rw [List.getElem?_append_left lt, q]

theorem sockOf_set {a : A} {net : Net} {h h' n : Nat} (ne : h' ≠ h) (e : a.sockOf h = some n) :
    ({ net := net, names := a.names.set h' none } : A).sockOf h = some n := by
  have q := sockOf_mem e
  simp only [A.sockOf]
  rw [getElem?_join_set, if_neg (Ne.symm ne), q]

/-- A name is given up while another name of the socket is there. -/
theorem forget_at {a : A} (i : Inv a) {h h0 n t : Nat} {key : Spec.Bytes} (ne : h ≠ h0) (hs : a.sockOf h0 = some n)
    (ha : a.net.at_ t key = some n) : (a.forget h).sockOf h0 = some n ∧ (a.forget h).net.at_ t key = some n := by
  simp only [A.forget]
  split
  · rename_i n' e
    split
    · exact ⟨sockOf_set ne hs, ha⟩
    · rename_i hq
      refine ⟨sockOf_set ne hs, ?_⟩
      show (a.net.leave n').at_ t key = some n
      rw [leave_at i, ha]
      rw [if_neg]
      intro q
      cases q
      apply hq
      have := sockOf_mem (sockOf_set (net := a.net) ne hs)
      exact List.mem_of_getElem? (join_some this)
  · exact ⟨sockOf_set ne hs, ha⟩

/-- The operation leaves the entry alone, does not give up the name `h0` and does not disconnect the socket. -/
def SparesA (a : A) (h0 n t : Nat) (key : Spec.Bytes) : Op → Prop
  | .drop h => h ≠ h0
  | .disconnect h => a.sockOf h ≠ some n
  | .set m index _ _ => ¬((a.mapOf m).map (fun x => x.2.2) = some t ∧ indexKey index = key)
  | .clear m index => ¬((a.mapOf m).map (fun x => x.2.2) = some t ∧ indexKey index = key)
  | .insert m k _ _ => ¬((a.mapOf m).map (fun x => x.2.2) = some t ∧ k = key)
  | .insertOwned m k s _ => s ≠ h0 ∧ ¬((a.mapOf m).map (fun x => x.2.2) = some t ∧ k = key)
  | .remove m k => ¬((a.mapOf m).map (fun x => x.2.2) = some t ∧ k = key)
  | .update m index _ _ => ¬(m = t ∧ indexKey index = key)
  | .updateHash m k _ _ => ¬(m = t ∧ k = key)
  | _ => True

theorem change_keeps {a : A} {h0 n t : Nat} {key : Spec.Bytes} (call : String) (out : Except Nat Net)
    (hs : a.sockOf h0 = some n) (ha : a.net.at_ t key = some n)
    (h : ∀ net, out = .ok net → net.at_ t key = a.net.at_ t key) :
    (a.change call out).1.sockOf h0 = some n ∧ (a.change call out).1.net.at_ t key = some n := by
  rcases out with e | net
  · exact ⟨hs, ha⟩
  · exact ⟨hs, by rw [← ha]; exact h net rfl⟩

theorem told_keeps {a : A} {h0 n t : Nat} {key : Spec.Bytes} (out : Except Nat Net)
    (hs : a.sockOf h0 = some n) (ha : a.net.at_ t key = some n)
    (h : ∀ net, out = .ok net → net.at_ t key = a.net.at_ t key) :
    (a.told out).1.sockOf h0 = some n ∧ (a.told out).1.net.at_ t key = some n := by
  rcases out with e | net
  · exact ⟨hs, ha⟩
  · exact ⟨hs, by rw [← ha]; exact h net rfl⟩

theorem step_keeps {a : A} (i : Inv a) {h0 n t : Nat} {key : Spec.Bytes} (hs : a.sockOf h0 = some n)
    (ha : a.net.at_ t key = some n) (op : Op) (f : Option Nat) (room : Bool) (sp : SparesA a h0 n t key op) :
    (Spec.step a op f room).1.sockOf h0 = some n ∧ (Spec.step a op f room).1.net.at_ t key = some n := by
  have lt : t < a.net.tables.length := by
    simp only [Net.at_] at ha
    rcases e : a.net.tables[t]? with _ | T
    · rw [e] at ha; cases ha
    · exact (List.getElem?_eq_some_iff.mp e).1
  cases op with
  | map kind max =>
    simp only [Spec.step]
    split
    · exact ⟨hs, ha⟩
    · exact ⟨hs, ha⟩
    · refine ⟨sockOf_append _ hs, ?_⟩
      simp only [Net.at_] at ha ⊢
      rw [List.getElem?_append_left lt]
      exact ha
  | socket s =>
    simp only [Spec.step]
    split
    · exact ⟨sockOf_append _ hs, ha⟩
    · exact ⟨hs, ha⟩
  | clone h =>
    simp only [Spec.step]
    split
    · exact ⟨sockOf_append _ hs, ha⟩
    · exact ⟨hs, ha⟩
  | drop h =>
    simp only [Spec.step]
    split
    · exact forget_at i sp hs ha
    · exact ⟨hs, ha⟩
  | connect h s =>
    simp only [Spec.step]
    split
    · refine ⟨hs, ?_⟩
      simp only [Net.connect]
      split
      · split
        · exact ha
        · exact ha
      · exact ha
    · exact ⟨hs, ha⟩
  | disconnect h =>
    simp only [Spec.step]
    split
    · rename_i n' e
      refine ⟨hs, ?_⟩
      show (a.net.leave n').at_ t key = some n
      rw [leave_at i, ha, if_neg]
      intro q
      cases q
      exact sp e
    · exact ⟨hs, ha⟩
  | set m index s flags =>
    simp only [Spec.step]
    split
    · rename_i kind max t' n' e1 e2
      split
      · exact ⟨hs, ha⟩
      · split
        · exact ⟨hs, ha⟩
        · refine change_keeps _ _ hs ha fun net hnet => ?_
          rw [store_at hnet, if_neg]
          rintro ⟨rfl, rfl⟩
          exact sp ⟨by rw [e1]; rfl, rfl⟩
    · exact ⟨hs, ha⟩
  | clear m index =>
    simp only [Spec.step]
    split
    · rename_i kind max t' e1
      split
      · exact ⟨hs, ha⟩
      · split
        · exact ⟨hs, ha⟩
        · refine change_keeps _ _ hs ha fun net hnet => ?_
          rw [erase_at hnet, if_neg]
          rintro ⟨rfl, rfl⟩
          exact sp ⟨by rw [e1]; rfl, rfl⟩
    · exact ⟨hs, ha⟩
  | insert m k s flags =>
    simp only [Spec.step]
    split
    · rename_i mx t' n' e1 e2
      refine change_keeps _ _ hs ha fun net hnet => ?_
      rw [store_at hnet, if_neg]
      rintro ⟨rfl, rfl⟩
      exact sp ⟨by rw [e1]; rfl, rfl⟩
    · exact ⟨hs, ha⟩
  | insertOwned m k s flags =>
    simp only [Spec.step]
    split
    · rename_i mx t' n' e1 e2
      obtain ⟨q1, q2⟩ := change_keeps (t := t) (key := key) "bpf_map_update_elem" (a.net.store f t' k n' flags) hs ha (fun net hnet => by
        rw [store_at hnet, if_neg]
        rintro ⟨rfl, rfl⟩
        exact sp.2 ⟨by rw [e1]; rfl, rfl⟩)
      exact forget_at (i.change _ _ fun net hnet => i.store _ _ _ _ _ _ (sockOf_names e2) hnet) sp.1 q1 q2
    · exact ⟨hs, ha⟩
  | remove m k =>
    simp only [Spec.step]
    split
    · rename_i mx t' e1
      refine change_keeps _ _ hs ha fun net hnet => ?_
      rw [erase_at hnet, if_neg]
      rintro ⟨rfl, rfl⟩
      exact sp ⟨by rw [e1]; rfl, rfl⟩
    · exact ⟨hs, ha⟩
  | update m index n' flags =>
    simp only [Spec.step]
    split
    · refine told_keeps _ hs ha fun net hnet => ?_
      rw [store_at hnet, if_neg]
      rintro ⟨rfl, rfl⟩
      exact sp ⟨rfl, rfl⟩
    · exact ⟨hs, ha⟩
  | updateHash m k n' flags =>
    simp only [Spec.step]
    split
    · refine told_keeps _ hs ha fun net hnet => ?_
      rw [store_at hnet, if_neg]
      rintro ⟨rfl, rfl⟩
      exact sp ⟨rfl, rfl⟩
    · exact ⟨hs, ha⟩

/-! ### In terms of the process -/

/-- **C97 (set).** When `set` or `insert` of a socket succeeds, the entry is the socket, and no other entry of any map has
    changed. -/
theorem C97_set (fresh : (Nat → Option Obj) → Option Nat) (hfresh : Fresh fresh) (w : W) (hw : Reached fresh w) (m s flags : Nat)
    (fault : Option Nat) (hf : Errno fault) :
    (∀ index : BitVec 32, (wstep fresh w (.set m index s flags) fault).2 = .done →
      ∃ t n, w.table m = some t ∧ w.socket s = some n ∧
        ∀ t' k, (wstep fresh w (.set m index s flags) fault).1.at_ t' k = if t' = t ∧ k = indexKey index then some n else w.at_ t' k) ∧
    (∀ key : Spec.Bytes, (wstep fresh w (.insert m key s flags) fault).2 = .done →
      ∃ t n, w.table m = some t ∧ w.socket s = some n ∧
        ∀ t' k, (wstep fresh w (.insert m key s flags) fault).1.at_ t' k = if t' = t ∧ k = key then some n else w.at_ t' k) := by
  obtain ⟨a, r, p⟩ := hw.rel hfresh
  constructor
  · intro index hd
    obtain ⟨r', e'⟩ := step_rel fresh hfresh r (.set m index s flags) fault hf
    rw [e'] at hd
    simp only [W.at_, r'.net, r.net, r.table, r.socket]
    simp only [Spec.step] at hd ⊢
    split at hd
    · rename_i kind max t n e1 e2
      split at hd
      · cases hd
      · rename_i q1
        split at hd
        · cases hd
        · rename_i q2
          refine ⟨t, n, by rw [e1]; rfl, e2, fun t' k => ?_⟩
          simp only [e1, e2, q1, q2, if_false]
          rcases es : a.net.store fault t (indexKey index) n flags with e | net
          · rw [es] at hd; cases hd
          · exact store_at es t' k
    · cases hd
  · intro key hd
    obtain ⟨r', e'⟩ := step_rel fresh hfresh r (.insert m key s flags) fault hf
    rw [e'] at hd
    simp only [W.at_, r'.net, r.net, r.table, r.socket]
    simp only [Spec.step] at hd ⊢
    split at hd
    · rename_i max t n e1 e2
      refine ⟨t, n, by rw [e1]; rfl, e2, fun t' k => ?_⟩
      rcases es : a.net.store fault t key n flags with e | net
      · rw [es] at hd; cases hd
      · exact store_at es t' k
    · cases hd

/-- **C97 (clear).** When `clear_index` or `remove` succeeds, the entry is gone and no other has changed. -/
theorem C97_clear (fresh : (Nat → Option Obj) → Option Nat) (hfresh : Fresh fresh) (w : W) (hw : Reached fresh w) (m : Nat)
    (fault : Option Nat) (hf : Errno fault) :
    (∀ index : BitVec 32, (wstep fresh w (.clear m index) fault).2 = .done →
      ∃ t, w.table m = some t ∧
        ∀ t' k, (wstep fresh w (.clear m index) fault).1.at_ t' k = if t' = t ∧ k = indexKey index then none else w.at_ t' k) ∧
    (∀ key : Spec.Bytes, (wstep fresh w (.remove m key) fault).2 = .done →
      ∃ t, w.table m = some t ∧
        ∀ t' k, (wstep fresh w (.remove m key) fault).1.at_ t' k = if t' = t ∧ k = key then none else w.at_ t' k) := by
  obtain ⟨a, r, p⟩ := hw.rel hfresh
  constructor
  · intro index hd
    obtain ⟨r', e'⟩ := step_rel fresh hfresh r (.clear m index) fault hf
    rw [e'] at hd
    simp only [W.at_, r'.net, r.net, r.table, r.socket]
    simp only [Spec.step] at hd ⊢
    split at hd
    · rename_i kind max t e1
      split at hd
      · cases hd
      · rename_i q1
        split at hd
        · cases hd
        · rename_i q2
          refine ⟨t, by rw [e1]; rfl, fun t' k => ?_⟩
          simp only [e1, q1, q2, if_false]
          rcases es : a.net.erase t (indexKey index) with e | net
          · rw [es] at hd; cases hd
          · exact erase_at es t' k
    · cases hd
  · intro key hd
    obtain ⟨r', e'⟩ := step_rel fresh hfresh r (.remove m key) fault hf
    rw [e'] at hd
    simp only [W.at_, r'.net, r.net, r.table, r.socket]
    simp only [Spec.step] at hd ⊢
    split at hd
    · rename_i max t e1
      refine ⟨t, by rw [e1]; rfl, fun t' k => ?_⟩
      rcases es : a.net.erase t key with e | net
      · rw [es] at hd; cases hd
      · exact erase_at es t' k
    · cases hd

/-- The operation, done in state `w`, leaves the entry alone, does not drop the name `h0` and does not disconnect the socket. -/
def Spares (w : W) (h0 n t : Nat) (key : Spec.Bytes) : Op → Prop
  | .drop h => h ≠ h0
  | .disconnect h => w.socket h ≠ some n
  | .set m index _ _ => ¬(w.table m = some t ∧ indexKey index = key)
  | .clear m index => ¬(w.table m = some t ∧ indexKey index = key)
  | .insert m k _ _ => ¬(w.table m = some t ∧ k = key)
  | .insertOwned m k s _ => s ≠ h0 ∧ ¬(w.table m = some t ∧ k = key)
  | .remove m k => ¬(w.table m = some t ∧ k = key)
  | .update m index _ _ => ¬(m = t ∧ indexKey index = key)
  | .updateHash m k _ _ => ¬(m = t ∧ k = key)
  | _ => True

/-- A history of such operations. -/
def Quiet (fresh : (Nat → Option Obj) → Option Nat) (h0 n t : Nat) (key : Spec.Bytes) : W → List (Op × Option Nat) → Prop
  | _, [] => True
  | w, (op, f) :: ops => Spares w h0 n t key op ∧ Errno f ∧ Quiet fresh h0 n t key (wstep fresh w op f).1 ops

/-- **C97 (stays).** An entry stays while a descriptor of the socket is open and it is connected, whatever else is done, to other entries, maps,
    sockets, and other descriptors of the same socket. -/
theorem C97_stays (fresh : (Nat → Option Obj) → Option Nat) (hfresh : Fresh fresh) (h0 n t : Nat) (key : Spec.Bytes)
    (ops : List (Op × Option Nat)) (w : W) (hw : Reached fresh w) (hs : w.socket h0 = some n) (ha : w.at_ t key = some n)
    (hq : Quiet fresh h0 n t key w ops) : (wrun fresh w ops).1.at_ t key = some n := by
  obtain ⟨a, r, p⟩ := hw.rel hfresh
  clear hw
  induction ops generalizing w a with
  | nil => exact ha
  | cons o ops ih =>
    obtain ⟨op, f⟩ := o
    obtain ⟨sp, hf, hq⟩ := hq
    obtain ⟨r', e'⟩ := step_rel fresh hfresh r op f hf
    rw [r.socket] at hs
    simp only [W.at_, r.net] at ha
    have sp' : SparesA a h0 n t key op := by
      cases op <;> simp only [Spares, SparesA, r.socket, r.table] at sp ⊢ <;> exact sp
    obtain ⟨k1, k2⟩ := step_keeps p.inv hs ha op f (fresh w.k.fds).isSome sp'
    exact ih _ (by rw [r'.socket]; exact k1) (by simp only [W.at_, r'.net]; exact k2) hq _ r' (.step _ _ _ p)

/-- **C97 (open).** Whatever has been done, every entry is a socket that has an open descriptor and that is connected, listening or UDP; in an
    array for `SO_REUSEPORT` it is in a group. -/
theorem C97_open (fresh : (Nat → Option Obj) → Option Nat) (hfresh : Fresh fresh) (w : W) (hw : Reached fresh w) (t n : Nat)
    (key : Spec.Bytes) (h : w.at_ t key = some n) :
    (∃ h, w.socket h = some n) ∧
      ∃ s T, w.k.net.socks[n]? = some s ∧ w.k.net.tables[t]? = some T ∧ (s.kind = .conn ∨ s.kind = .listen ∨ s.kind = .udp) ∧
        (T.kind = .reuse → s.group.isSome = true) := by
  obtain ⟨a, r, p⟩ := hw.rel hfresh
  have i := p.inv
  simp only [W.at_, r.net, Net.at_] at h
  rcases e : a.net.tables[t]? with _ | T
  · rw [e] at h; cases h
  · rw [e] at h
    have hm := lookup_mem _ _ _ h
    have hn := i.named t T e _ hm
    obtain ⟨s, h1, h2, h3⟩ := i.suited t T e _ hm
    constructor
    · obtain ⟨j, hj, ej⟩ := List.mem_iff_getElem.mp hn
      refine ⟨j, ?_⟩
      rw [r.socket, A.sockOf, List.getElem?_eq_getElem hj, ej]
      rfl
    · rw [r.net]
      refine ⟨s, T, h1, e, ?_, h3⟩
      rcases hk : s.kind <;> rw [hk] at h2 <;> simp [SockKind.suited] at h2 ⊢

/-- **C97 (failures).** A call that fails changes no map, and no socket, except that `insert` given the socket itself still closes it. -/
theorem C97_failed (fresh : (Nat → Option Obj) → Option Nat) (hfresh : Fresh fresh) (w : W) (hw : Reached fresh w) (op : Op)
    (fault : Option Nat) (hf : Errno fault) (e : Error) (h : (wstep fresh w op fault).2 = .failed e)
    (ho : ∀ m k s fl, op ≠ .insertOwned m k s fl) : (wstep fresh w op fault).1.k.net = w.k.net := by
  obtain ⟨a, r, p⟩ := hw.rel hfresh
  obtain ⟨r', e'⟩ := step_rel fresh hfresh r op fault hf
  rw [e'] at h
  rw [r'.net, r.net]
  have key : ∀ call out, (a.change call out).2 = .failed e → (a.change call out).1.net = a.net := by
    intro call out h
    rcases out with x | net
    · rfl
    · cases h
  have key2 : ∀ out, (a.told out).2 = .failed e → False := by
    intro out h
    rcases out with x | net <;> cases h
  cases op with
  | map kind max => simp only [Spec.step] at h ⊢; split at h <;> first | rfl | cases h
  | socket s => simp only [Spec.step] at h ⊢; split at h <;> cases h
  | clone x => simp only [Spec.step] at h ⊢; split at h <;> cases h
  | drop x => simp only [Spec.step] at h ⊢; split at h <;> cases h
  | connect x s => simp only [Spec.step] at h ⊢; split at h <;> cases h
  | disconnect x => simp only [Spec.step] at h ⊢; split at h <;> cases h
  | set m index s flags =>
    simp only [Spec.step] at h ⊢
    split at h
    · split at h
      · cases h
      · rename_i q
        split at h
        · rename_i q2; simp only [q, q2, if_true, if_false]
        · rename_i q2; simp only [q, q2, if_false]; exact key _ _ h
    · cases h
  | clear m index =>
    simp only [Spec.step] at h ⊢
    split at h
    · split at h
      · cases h
      · rename_i q
        split at h
        · rename_i q2; simp only [q, q2, if_true, if_false]
        · rename_i q2; simp only [q, q2, if_false]; exact key _ _ h
    · cases h
  | insert m k s flags =>
    simp only [Spec.step] at h ⊢
    split at h
    · exact key _ _ h
    · cases h
  | insertOwned m k s fl => exact absurd rfl (ho m k s fl)
  | remove m k =>
    simp only [Spec.step] at h ⊢
    split at h
    · exact key _ _ h
    · cases h
  | update m index n flags =>
    simp only [Spec.step] at h ⊢
    split at h
    · exact (key2 _ h).elim
    · cases h
  | updateHash m k n flags =>
    simp only [Spec.step] at h ⊢
    split at h
    · exact (key2 _ h).elim
    · cases h

/-! ### Programs -/

/-- A redirection: it gives 1 and the packet goes to the socket under the key, if there is one that can receive and the flags are known, and otherwise
    0, and nothing has changed. -/
def RedirectRight (run : Nat → Work → Int × Work) (m : Nat) (key : Spec.Bytes) : Prop :=
  ∀ (flags : Nat) (w : Work),
    (∀ n s, flags ≤ 1 → w.net.at_ m key = some n → w.net.socks[n]? = some s → s.kind ≠ .listen →
      run flags w = (1, { w with target := some n })) ∧
    (w.net.at_ m key = none → run flags w = (0, w)) ∧
    ((run flags w).1 = 1 ∨ run flags w = (0, w)) ∧
    ((run flags w).1 = 1 → (run flags w).2.target = w.net.at_ m key)

theorem redirect_right (m : Nat) (key : Spec.Bytes) : RedirectRight (redirect m key) m key := by
  intro flags w
  refine ⟨?_, ?_, ?_, ?_⟩
  · intro n s hf hn hs hk
    simp only [redirect, hn, hs, hk, if_false]
    rw [if_neg (by omega)]
  · intro h
    simp only [redirect, h]
    split <;> rfl
  · simp only [redirect]
    repeat' split
    all_goals first | exact .inr rfl | exact .inl rfl
  · intro h
    simp only [redirect] at h ⊢
    repeat' split at h
    all_goals first | (cases h; done) | skip
    rename_i hf _ n hn _ s hs hk
    simp only [hf, hn, hs, hk, if_false]

/-- **C97 (redirecting).** `redirect_msg` and `redirect_skb` of both kinds of map send the packet to the socket under the index or key. -/
theorem C97_redirect (fault : Option Nat) (m : Nat) :
    (∀ index : BitVec 32, RedirectRight (mapRedirectMsg (helpers fault) m index) m (indexKey index) ∧
      RedirectRight (mapRedirectSkb (helpers fault) m index) m (indexKey index)) ∧
    ∀ key : Spec.Bytes, RedirectRight (hashRedirectMsg (helpers fault) m key) m key ∧
      RedirectRight (hashRedirectSkb (helpers fault) m key) m key :=
  ⟨fun _ => ⟨redirect_right _ _, redirect_right _ _⟩, fun _ => ⟨redirect_right _ _, redirect_right _ _⟩⟩

/-- A selection for a lookup: if it succeeds the socket under the key is selected, otherwise the selection is as it was; no entry, -2; a socket that fits
    is selected; the program holds the references it held, and nothing else has changed. -/
def LookupRight (run : Nat → Work → Except Int Unit × Work) (m : Nat) (key : Spec.Bytes) : Prop :=
  ∀ (flags : Nat) (w : Work),
    (run flags w).2.refs = w.refs ∧ (run flags w).2.net = w.net ∧ (run flags w).2.target = w.target ∧
    ((run flags w).1 = .ok () → ∃ n, w.net.at_ m key = some n ∧ (run flags w).2.selected = some n) ∧
    (∀ e, (run flags w).1 = .error e → e < 0 ∧ (run flags w).2.selected = w.selected) ∧
    (w.net.at_ m key = none → (run flags w).1 = .error (-2)) ∧
    ∀ n s, w.net.at_ m key = some n → w.net.socks[n]? = some s → s.kind ≠ .conn → (s.kind = .udp ↔ w.packet.kind = .udp) →
      s.family = w.packet.family → flags ≤ 3 → (w.selected = none ∨ flags % 2 = 1) → (run flags w).1 = .ok ()

/-- `redirect_sk_lookup` on Linux. -/
theorem lookup_right (m : Nat) (key : Spec.Bytes) (fault : Option Nat) :
    LookupRight (hashRedirectSkLookup (helpers fault) m key) m key := by
  intro flags w
  simp only [hashRedirectSkLookup, helpers]
  rcases hn : w.net.at_ m key with _ | n
  · refine ⟨rfl, rfl, rfl, ?_, ?_, fun _ => rfl, ?_⟩
    · intro h; cases h
    · intro e h; cases h; exact ⟨by decide, rfl⟩
    · intro n s h; cases h
  · simp only
    by_cases hc : counted w.net n = true
    · -- a connected socket: refused, and the reference given back
      simp only [hc, if_true]
      have fin : (fun x => if x = n then (if n = n then w.refs n + 1 else w.refs n) - 1
          else (if x = n then w.refs n + 1 else w.refs x)) = w.refs := by
        funext x
        by_cases q : x = n
        · subst q; simp
        · simp [q]
      split
      · refine ⟨fin, rfl, rfl, ?_, ?_, ?_, ?_⟩
        · intro h; cases h
        · intro e h; cases h; exact ⟨(show asI32 (-22) < 0 by decide), rfl⟩
        · intro h; cases h
        · intro n' s h h1 _ _ _ hf; omega
      · refine ⟨fin, rfl, rfl, ?_, ?_, ?_, ?_⟩
        · intro h; cases h
        · intro e h; cases h; exact ⟨(show asI32 (-94) < 0 by decide), rfl⟩
        · intro h; cases h
        · intro n' s h h1 h2
          cases h
          simp only [counted, h1] at hc
          exact absurd (by simpa using hc) h2
    · simp only [hc, if_false, Bool.false_eq_true]
      rcases hs : w.net.socks[n]? with _ | s
      · simp only
        split
        all_goals
          refine ⟨by rfl, by rfl, by rfl, ?_, ?_, ?_, ?_⟩
          · intro h; cases h
          · intro e h; cases h; exact ⟨(show asI32 (-22) < 0 by decide), rfl⟩
          · intro h; cases h
          · intro n' s h h1
            cases h
            rw [hs] at h1
            cases h1
      · simp only
        split
        · refine ⟨rfl, rfl, rfl, ?_, ?_, ?_, ?_⟩
          · intro h; cases h
          · intro e h; cases h; exact ⟨(show asI32 (-22) < 0 by decide), rfl⟩
          · intro h; cases h
          · intro n' s h h1 _ _ _ hf; omega
        · split
          · rename_i hp
            refine ⟨rfl, rfl, rfl, ?_, ?_, ?_, ?_⟩
            · intro h; cases h
            · intro e h; cases h; exact ⟨(show asI32 (-91) < 0 by decide), rfl⟩
            · intro h; cases h
            · intro n' s' h h1 _ h3
              cases h
              rw [hs] at h1
              cases h1
              simp only [sameProtocol] at hp
              by_cases q : s.kind = .udp
              · simp [q, h3.mp q] at hp
              · have : w.packet.kind ≠ .udp := fun x => q (h3.mpr x)
                have a1 : (s.kind == SockKind.udp) = false := by simpa using q
                have a2 : (w.packet.kind == SockKind.udp) = false := by simpa using this
                simp [a1, a2] at hp
          · split
            · rename_i hp
              refine ⟨rfl, rfl, rfl, ?_, ?_, ?_, ?_⟩
              · intro h; cases h
              · intro e h; cases h; exact ⟨(show asI32 (-97) < 0 by decide), rfl⟩
              · intro h; cases h
              · intro n' s' h h1 _ _ h4
                cases h
                rw [hs] at h1
                cases h1
                exact absurd h4 hp
            · split
              · rename_i hp
                refine ⟨rfl, rfl, rfl, ?_, ?_, ?_, ?_⟩
                · intro h; cases h
                · intro e h; cases h; exact ⟨(show asI32 (-17) < 0 by decide), rfl⟩
                · intro h; cases h
                · intro n' s' h h1 _ _ h4 _ h5
                  rcases h5 with h5 | h5
                  · rw [h5] at hp; simp at hp
                  · rw [h5] at hp; simp at hp
              · refine ⟨rfl, rfl, rfl, ?_, ?_, ?_, ?_⟩
                · intro _; exact ⟨n, rfl, rfl⟩
                · intro e h; cases h
                · intro h; cases h
                · intros; rfl

/-- **C97 (socket lookup).** `redirect_sk_lookup` of both kinds of map selects the socket under the index or key or says why not; every reference taken
    is given back, in all cases. -/
theorem C97_lookup (fault : Option Nat) (m : Nat) :
    (∀ index : BitVec 32, LookupRight (mapRedirectSkLookup (helpers fault) m index) m (indexKey index)) ∧
    ∀ key : Spec.Bytes, LookupRight (hashRedirectSkLookup (helpers fault) m key) m key :=
  ⟨fun index => lookup_right m (indexKey index) fault, fun key => lookup_right m key fault⟩

/-- **C97 (reuseport).** `select_reuseport` selects the socket under the index if it is in the group of the packet, and otherwise gives a negative
    number, -2 if there is no entry, and changes nothing. -/
theorem C97_select (fault : Option Nat) (m : Nat) (key : BitVec 32) (w : Work) :
    (∀ n s g, w.net.at_ m (indexKey key) = some n → w.net.socks[n]? = some s → s.group = some g → w.packet.group = some g →
      selectReuseport (helpers fault) m key w = (.ok (), { w with selected := some n })) ∧
    ((selectReuseport (helpers fault) m key w).1 = .ok () →
      ∃ n, w.net.at_ m (indexKey key) = some n ∧ (selectReuseport (helpers fault) m key w).2.selected = some n) ∧
    (w.net.at_ m (indexKey key) = none → selectReuseport (helpers fault) m key w = (.error (-2), w)) ∧
    ∀ e, (selectReuseport (helpers fault) m key w).1 = .error e → e < 0 ∧ (selectReuseport (helpers fault) m key w).2 = w := by
  have out : ∀ ret w', (helpers fault).select m (indexKey key) 0 w = (ret, w') →
      selectReuseport (helpers fault) m key w = (if ret = 0 then .ok () else .error ret, w') := by
    intro ret w' h
    have hk : Verif.Bytes.le 4 key.toNat = indexKey key := rfl
    simp only [selectReuseport, hk, h]
  have bad : ∀ ret : Int, ret < 0 → (helpers fault).select m (indexKey key) 0 w = (ret, w) →
      selectReuseport (helpers fault) m key w = (.error ret, w) := by
    intro ret hr h
    rw [out _ _ h, if_neg (by omega)]
  rcases hn : w.net.at_ m (indexKey key) with _ | n
  · rw [bad (-2) (by decide) (by simp only [helpers, ne_eq, not_true_eq_false, if_false, hn])]
    refine ⟨?_, ?_, fun _ => rfl, ?_⟩
    · intro n s g h; cases h
    · intro h; cases h
    · intro e h; cases h; exact ⟨by decide, rfl⟩
  · rcases hs : w.net.socks[n]? with _ | s
    · rw [bad (-2) (by decide) (by simp only [helpers, ne_eq, not_true_eq_false, if_false, hn, hs])]
      refine ⟨?_, ?_, ?_, ?_⟩
      · intro n s g h h1; cases h; rw [hs] at h1; cases h1
      · intro h; cases h
      · intro h; cases h
      · intro e h; cases h; exact ⟨by decide, rfl⟩
    · by_cases q1 : (s.group.isSome && s.group == w.packet.group) = true
      · rw [out 0 { w with selected := some n } (by simp only [helpers, ne_eq, hn, hs, q1, not_true_eq_false, if_false, if_true]), if_pos rfl]
        refine ⟨?_, ?_, ?_, ?_⟩
        · intro n' s' g h h1 h2 h3; cases h; rfl
        · intro _; exact ⟨n, rfl, rfl⟩
        · intro h; cases h
        · intro e h; cases h
      · have no : ∀ n' s' g, some n = some n' → w.net.socks[n']? = some s' → s'.group = some g → w.packet.group = some g → False := by
          intro n' s' g h h1 h2 h3
          cases h
          rw [hs] at h1
          cases h1
          rw [h2, h3] at q1
          simp at q1
        have fin : ∀ ret : Int, ret < 0 → selectReuseport (helpers fault) m key w = (.error ret, w) →
            (∀ n' s' g, some n = some n' → w.net.socks[n']? = some s' → s'.group = some g → w.packet.group = some g →
              selectReuseport (helpers fault) m key w = (.ok (), { w with selected := some n' })) ∧
            ((selectReuseport (helpers fault) m key w).1 = .ok () →
              ∃ n', some n = some n' ∧ (selectReuseport (helpers fault) m key w).2.selected = some n') ∧
            (some n = none → selectReuseport (helpers fault) m key w = (.error (-2), w)) ∧
            ∀ e, (selectReuseport (helpers fault) m key w).1 = .error e →
              e < 0 ∧ (selectReuseport (helpers fault) m key w).2 = w := by
          intro ret hr h
          rw [h]
          refine ⟨fun n' s' g a1 a2 a3 a4 => (no n' s' g a1 a2 a3 a4).elim, ?_, ?_, ?_⟩
          · intro h; cases h
          · intro h; cases h
          · intro e h; cases h; exact ⟨hr, rfl⟩
        by_cases q2 : (!sameProtocol s w.packet) = true
        · exact fin (-91) (by decide) (bad _ (by decide) (by simp only [helpers, ne_eq, hn, hs, q1, q2, not_true_eq_false, if_true, if_false, Bool.false_eq_true]))
        · by_cases q3 : s.family = w.packet.family
          · exact fin (-77) (by decide) (bad _ (by decide) (by
              simp only [helpers, ne_eq, hn, hs, q1, q2, q3, if_true, if_false, Bool.false_eq_true, not_true_eq_false]))
          · exact fin (-97) (by decide) (bad _ (by decide) (by
              simp only [helpers, ne_eq, hn, hs, q1, q2, q3, not_true_eq_false, if_true, if_false, Bool.false_eq_true, not_false_eq_true]))

/-! ### Cases, and where the code falls short -/

/-- The smallest free number below 100. -/
def lowest (fds : Nat → Option Obj) : Option Nat := (List.range 100).find? fun n => (fds n).isNone

theorem lowest_fresh : Fresh lowest := by
  intro fds n h
  have h1 := List.find?_some h
  have h2 := List.mem_of_find?_eq_some h
  rw [List.mem_range] at h2
  exact ⟨by simpa using h1, Nat.lt_trans h2 (by decide)⟩

/-- A hash, an array and a connected socket, with a second descriptor. -/
def setup : List (Op × Option Nat) :=
  [(.map .hash 4, none), (.map .array 4, none), (.socket { kind := .conn }, none), (.clone 2, none)]

/-- Set, cleared, set again; full, out of range, taken; the first descriptor dropped, then the second. -/
example : (wrun lowest {} (setup ++ [(.set 1 3 2 0, none), (.insert 0 [7] 3 0, none), (.set 1 4 2 0, none), (.set 1 3 2 1, none),
    (.drop 2, none)])).2 = [.done, .done, .done, .done, .done, .done, .failed (.outOfBounds 4 4),
      .failed (.syscall "bpf_map_update_elem" 17), .done] := by decide +kernel

def mid : W := (wrun lowest {} (setup ++ [(.set 1 3 2 0, none), (.insert 0 [7] 3 0, none), (.drop 2, none)])).1

example : (mid.at_ 1 (indexKey 3), mid.at_ 0 [7], mid.socket 3) = (some 0, some 0, some 0) := by decide +kernel
example : (wrun lowest mid [(.drop 3, none)]).1.at_ 1 (indexKey 3) = none := by decide +kernel

/-- The hypotheses of `C97_stays` are met. -/
example : Reached lowest mid ∧ mid.socket 3 = some 0 ∧ mid.at_ 1 (indexKey 3) = some 0 ∧
    Quiet lowest 3 0 1 (indexKey 3) mid [(.remove 0 [7], none), (.set 1 2 3 0, none), (.clear 1 2, none)] := by
  refine ⟨⟨_, (by intro x hx; revert x; simp only [setup, List.cons_append, List.nil_append, List.forall_mem_cons]; simp [Errno]), rfl⟩,
    by decide +kernel, by decide +kernel, ?_⟩
  refine ⟨?_, by simp [Errno], ?_, by simp [Errno], ?_, by simp [Errno], trivial⟩
  · show ¬ _
    decide +kernel
  · show ¬ _
    decide +kernel
  · show ¬ _
    decide +kernel

/-- **C97, refuted.** A socket given to `SockHash::insert` itself, not by reference, is not in the map after the call, though the call succeeded: it is
    closed at the end of the call, so it leaves the map. -/
theorem C97_owned_violated :
    (wrun lowest {} [(.map .hash 4, none), (.socket { kind := .conn }, none), (.insertOwned 0 [7] 1 0, none)]).2 =
        [.done, .done, .done] ∧
      (wrun lowest {} [(.map .hash 4, none), (.socket { kind := .conn }, none), (.insertOwned 0 [7] 1 0, none)]).1.at_ 0 [7] = none ∧
      (wrun lowest {} [(.map .hash 4, none), (.socket { kind := .conn }, none), (.insert 0 [7] 1 0, none)]).1.at_ 0 [7] = some 0 := by
  decide +kernel

/-- **C97, refuted.** `indices` is "an iterator over the indices of the array that point to a socket", and gives all indices, of an array without
    sockets too. -/
theorem C97_indices_violated :
    let w := (wrun lowest {} [(.map .array 4, none)]).1
    (∀ key : BitVec 32, w.at_ 0 (indexKey key) = none) ∧
      (w.mapOf 0).map (fun x => indices (sys lowest none) x.2 10 none w.k) = some [.ok 0, .ok 1, .ok 2, .ok 3] := by
  refine ⟨fun key => ?_, by decide +kernel⟩
  have : (wrun lowest {} [(.map .array 4, none)]).1.k.net = { socks := [], tables := [{ kind := .array, max := 4, entries := [] }] } := by
    decide +kernel
  simp only [W.at_, this]
  rfl

/-- A hash with a listening socket under `[7]` and a connected one under `[8]`. -/
def working : Work :=
  { net := { socks := [{ kind := .listen }, { kind := .conn }], tables := [{ kind := .hash, max := 4, entries := [([7], 0), ([8], 1)] }] },
    own := 1, packet := { kind := .conn } }

example : ((hashRedirectSkLookup (helpers none) 0 [7] 0 working).1, (hashRedirectSkLookup (helpers none) 0 [7] 0 working).2.selected) =
    (.ok (), some 0) := by decide +kernel
example : (hashRedirectSkLookup (helpers none) 0 [8] 0 working).1 = .error (-94) := by decide +kernel
example : ((hashRedirectMsg (helpers none) 0 [8] 0 working).1, (hashRedirectMsg (helpers none) 0 [8] 0 working).2.target) =
    (1, some 1) := by decide +kernel
example : ((selectReuseport (helpers none) 0 3
    { net := { socks := [{ kind := .listen, group := some 5 }], tables := [{ kind := .reuse, max := 4, entries := [(indexKey 3, 0)] }] },
      own := 0, packet := { kind := .conn, group := some 5 } }).2.selected) = some 0 := by decide +kernel

end Verif.Socks
