import Verif.Local.Rel

/-!
# Storage of sockets, inodes and cgroups: each step does what is promised
-/
set_option linter.unusedSimpArgs false
set_option linter.unusedVariables false
namespace Verif.Local
open Spec Verif.Bytes

/-- What a name stands for: a descriptor, and the map or object. -/
def Match (k : K) : Option H → Option Stands → Prop
  | none, none => True
  | some (.map kind d), some (.map kind' vsize max m) =>
      kind = kind' ∧ d.vsize = vsize ∧ d.max = max ∧ k.fds d.fd = some (.map m) ∧ k.world.tables[m]? = some ⟨kind', d.ksize, vsize, max⟩
  | some (.thing fd), some (.thing n) => k.fds fd = some (.thing n)
  | _, _ => False

def fdAt (hs : List (Option H)) (h : Nat) : Option Nat := (hs[h]?.join).map H.fd

structure RelH (k : K) (hs : List (Option H)) (names : List (Option Stands)) : Prop where
  len : hs.length = names.length
  hand : ∀ h : Nat, Match k (hs[h]?.join) (names[h]?.join)
  inj : ∀ h h' fd : Nat, fdAt hs h = some fd → fdAt hs h' = some fd → h = h'
  small : ∀ fd x, k.fds fd = some x → fd < 2 ^ 31

structure Rel (w : W) (a : A) : Prop where
  world : w.k.world = a.world
  values : ∃ γ, RelV γ w.k w.ptrs a
  handles : RelH w.k w.hs a.names
  pos : ∀ (m : Nat) t, a.world.tables[m]? = some t → 0 < t.vsize

theorem Match.mono {k k' : K} {x : Option H} {y : Option Stands} (q : Match k x y)
    (same : ∀ fd, x.map H.fd = some fd → k'.fds fd = k.fds fd)
    (grow : ∀ (m : Nat) t, k.world.tables[m]? = some t → k'.world.tables[m]? = some t) : Match k' x y := by
  rcases x with _ | (⟨v, d⟩ | fd) <;> rcases y with _ | (⟨v', sz, mx, o⟩ | n) <;> simp only [Match] at q ⊢
  · exact ⟨q.1, q.2.1, q.2.2.1, by rw [same d.fd rfl]; exact q.2.2.2.1, grow _ _ q.2.2.2.2⟩
  · rw [same fd rfl]; exact q

theorem Match.isOpen {k : K} {x : Option H} {y : Option Stands} (q : Match k x y) {fd : Nat} (h : x.map H.fd = some fd) :
    ∃ o, k.fds fd = some o := by
  rcases x with _ | (⟨v, d⟩ | fd') <;> rcases y with _ | (⟨v', sz, mx, o⟩ | n) <;> simp only [Match] at q
  · cases h
  · cases h; exact ⟨_, q.2.2.2.1⟩
  · cases h; exact ⟨_, q⟩

theorem RelH.isOpen {k : K} {hs : List (Option H)} {ns : List (Option Stands)} (r : RelH k hs ns) {h fd : Nat} (e : fdAt hs h = some fd) :
    ∃ o, k.fds fd = some o := (r.hand h).isOpen e

/-- Descriptors stay. -/
theorem RelH.keep {k k' : K} {hs : List (Option H)} {ns : List (Option Stands)} (r : RelH k hs ns) (hf : k'.fds = k.fds)
    (grow : ∀ (m : Nat) t, k.world.tables[m]? = some t → k'.world.tables[m]? = some t) : RelH k' hs ns where
  len := r.len
  hand h := (r.hand h).mono (fun _ _ => by rw [hf]) grow
  inj := r.inj
  small := by rw [hf]; exact r.small

theorem getElem?_join_append {α : Type} (l : List (Option α)) (x : Option α) (n : Nat) :
    (l ++ [x])[n]?.join = if n = l.length then x else l[n]?.join := by
  by_cases e : n = l.length
  · subst e; simp
  · rw [if_neg e]
    by_cases lt : n < l.length
    · rw [List.getElem?_append_left lt]
    · rw [List.getElem?_eq_none (l := l ++ [x]) (by simp; omega), List.getElem?_eq_none (l := l) (by omega)]

theorem getElem?_join_set {α : Type} (l : List (Option α)) (h n : Nat) :
    (l.set h none)[n]?.join = if n = h then none else l[n]?.join := by
  rw [List.getElem?_set]
  by_cases e : h = n
  · subst e
    simp only [if_true]
    split <;> rfl
  · rw [if_neg e, if_neg (Ne.symm e)]

/-- A descriptor is opened for a new name. -/
theorem RelH.open {k : K} {hs : List (Option H)} {ns : List (Option Stands)} (r : RelH k hs ns) {fd : Nat} (free : k.fds fd = none)
    (lt : fd < 2 ^ 31) (o : Obj) (x : H) (hx : x.fd = fd) (y : Stands) (k' : K)
    (hf : k'.fds = fun n => if n = fd then some o else k.fds n)
    (grow : ∀ (m : Nat) t, k.world.tables[m]? = some t → k'.world.tables[m]? = some t)
    (q : Match k' (some x) (some y)) : RelH k' (hs ++ [some x]) (ns ++ [some y]) where
  len := by simp [r.len]
  hand n := by
    simp only [getElem?_join_append]
    by_cases e : n = hs.length
    · rw [if_pos e, if_pos (by rw [← r.len]; exact e)]; exact q
    · rw [if_neg e, if_neg (by rw [← r.len]; exact e)]
      refine (r.hand n).mono (fun fd' e' => ?_) grow
      obtain ⟨q, hq⟩ := r.isOpen (h := n) e'
      have : fd' ≠ fd := by rintro rfl; rw [free] at hq; cases hq
      simp only [hf, if_neg this]
  inj n n' fd' e e' := by
    have key : ∀ n, fdAt hs n = some fd → False := by
      intro n e
      obtain ⟨x, hx⟩ := r.isOpen e
      rw [free] at hx; cases hx
    simp only [fdAt, getElem?_join_append] at e e'
    split at e <;> split at e'
    · rename_i h1 h2; rw [h1, h2]
    · rename_i h1 h2
      simp only [Option.map_some, hx, Option.some.injEq] at e; subst e
      exact (key n' e').elim
    · rename_i h1 h2
      simp only [Option.map_some, hx, Option.some.injEq] at e'; subst e'
      exact (key n e).elim
    · exact r.inj n n' fd' e e'
  small fd' x' e := by
    simp only [hf] at e
    split at e
    · omega
    · exact r.small _ _ e

/-- A descriptor is closed with its name. -/
theorem RelH.close {k : K} {hs : List (Option H)} {ns : List (Option Stands)} (r : RelH k hs ns) {h : Nat} {x : H}
    (ex : hs[h]?.join = some x) : RelH (k.closeFd x.fd) (hs.set h none) (ns.set h none) := by
  have hfd : fdAt hs h = some x.fd := by simp [fdAt, ex]
  refine ⟨by simp [r.len], fun n => ?_, fun n n' fd e e' => ?_, fun fd o e => ?_⟩
  · simp only [getElem?_join_set]
    by_cases e : n = h
    · simp only [e, if_true, Match]
    · simp only [if_neg e]
      refine (r.hand n).mono (fun fd e' => ?_) (fun _ _ q => q)
      have : fd ≠ x.fd := by
        rintro rfl
        exact e (r.inj n h _ e' hfd)
      simp only [K.closeFd, if_neg this]
  · simp only [fdAt, getElem?_join_set] at e e'
    split at e
    · cases e
    · split at e'
      · cases e'
      · exact r.inj n n' fd e e'
  · simp only [K.closeFd] at e
    split at e
    · cases e
    · exact r.small _ _ e

/-- A descriptor without a name is closed. -/
theorem RelH.closeFree {k : K} {hs : List (Option H)} {ns : List (Option Stands)} (r : RelH k hs ns) {fd : Nat} (free : k.fds fd = none)
    (k' : K) (hf : k'.fds = k.fds) (grow : ∀ (m : Nat) t, k.world.tables[m]? = some t → k'.world.tables[m]? = some t) :
    RelH k' hs ns := r.keep hf grow

theorem Rel.thing {w : W} {a : A} (r : Rel w a) (h : Nat) :
    (∃ fd n, w.thingOf h = some fd ∧ a.thingOf h = some n ∧ w.k.fds fd = some (.thing n) ∧ fd < 2 ^ 31 ∧ w.hs[h]?.join = some (.thing fd)) ∨
    (w.thingOf h = none ∧ a.thingOf h = none) := by
  have q := r.handles.hand h
  simp only [W.thingOf, A.thingOf]
  rcases ex : w.hs[h]?.join with _ | (⟨v, d⟩ | fd) <;> rcases ey : a.names[h]?.join with _ | (⟨v', sz, mx, o⟩ | n) <;>
    rw [ex, ey] at q <;> simp only [Match] at q
  · exact .inr ⟨rfl, rfl⟩
  · exact .inr ⟨rfl, rfl⟩
  · exact .inl ⟨fd, n, rfl, rfl, q, r.handles.small _ _ q, rfl⟩

theorem Rel.map {w : W} {a : A} (r : Rel w a) (h : Nat) :
    (∃ (kind : Kind) (d : Data) (m : Nat), w.mapOf h = some (kind, d) ∧ a.mapOf h = some (kind, d.vsize, d.max, m) ∧
      w.k.table d.fd = some (m, ⟨kind, d.ksize, d.vsize, d.max⟩) ∧ a.world.tables[m]? = some ⟨kind, d.ksize, d.vsize, d.max⟩) ∨
    (w.mapOf h = none ∧ a.mapOf h = none) := by
  have q := r.handles.hand h
  simp only [W.mapOf, A.mapOf]
  rcases ex : w.hs[h]?.join with _ | (⟨v, d⟩ | fd) <;> rcases ey : a.names[h]?.join with _ | (⟨v', sz, mx, o⟩ | n) <;>
    rw [ex, ey] at q <;> simp only [Match] at q
  · exact .inr ⟨rfl, rfl⟩
  · obtain ⟨rfl, rfl, rfl, q1, q2⟩ := q
    refine .inl ⟨v, d, o, rfl, rfl, ?_, by rw [← r.world]; exact q2⟩
    simp only [K.table, q1, q2, Option.map_some]
  · exact .inr ⟨rfl, rfl⟩

/-! ## Keys -/

theorem ofLe_le4 (fd : Nat) (h : fd < 2 ^ 31) : ofLe (le 4 fd) = fd := ofLe_le_of_lt 4 fd (by omega)

theorem ofLe_index (i : BitVec 32) : ofLe (le 4 i.toNat) = i.toNat := ofLe_le_of_lt 4 _ (by have := i.isLt; omega)

theorem find_thing (k : K) (kind : Kind) (fd n : Nat) (h : k.fds fd = some (.thing n)) (lt : fd < 2 ^ 31) :
    (∀ e, suits k.world kind n = some e → k.find kind (le 4 fd) = .error e) ∧
    (suits k.world kind n = none → k.find kind (le 4 fd) = .ok n) := by
  have e4 := ofLe_le4 fd lt
  simp only [suits, K.find, e4, h]
  rw [if_neg (by omega)]
  rcases k.world.things[n]? with _ | t
  · exact ⟨fun e q => by cases q; rfl, fun q => nomatch q⟩
  · simp only
    rcases unsuited kind t with _ | e'
    · exact ⟨fun e q => (nomatch q), fun _ => rfl⟩
    · exact ⟨fun e q => by cases q; rfl, fun q => nomatch q⟩

theorem keySlot_key (key : CgKey) (p : BitVec 32) : keySlot (key.toKernel p) = .cg key.ino.toNat key.attach.toNat := by
  have l8 : (le 8 key.ino.toNat).length = 8 := le_length 8 _
  have l4 : (le 4 key.attach.toNat).length = 4 := le_length 4 _
  have h1 : (key.toKernel p).take 8 = le 8 key.ino.toNat := by
    rw [CgKey.toKernel, List.append_assoc, List.take_append_of_le_length (by omega), List.take_of_length_le (by omega)]
  have h2 : ((key.toKernel p).drop 8).take 4 = le 4 key.attach.toNat := by
    rw [CgKey.toKernel, List.append_assoc, List.drop_append, l8, List.drop_of_length_le (by omega), List.nil_append, Nat.sub_self,
      List.drop_zero, List.take_append_of_le_length (by omega), List.take_of_length_le (by omega)]
  rw [keySlot, h1, h2, ofLe_le_of_lt 8 _ (by have := key.ino.isLt; omega), ofLe_le_of_lt 4 _ (by have := key.attach.isLt; omega)]

/-! ## The system calls -/

/-- Error numbers of Linux. -/
def Errno (fault : Option Nat) : Prop := ∀ e, fault = some e → 0 < e ∧ e < 4096

theorem suits_ne (w : World) (kind : Kind) (n e : Nat) (h : suits w kind n = some e) : e ≠ 2 := by
  simp only [suits] at h
  split at h
  · rename_i t _
    cases kind <;> cases t <;> simp only [unsuited] at h <;> cases h <;> omega
  · cases h; omega

section
variable {w : W} {a : A} (r : Rel w a) (cpus : Nat) (fresh : (Nat → Option Obj) → Option Nat) (fault : Option Nat)
include r

theorem Rel.valAt (m : Nat) (s : Slot) : a.val m s = (w.k.at_ m s).map w.k.cells := r.values.elim fun _ v => v.val m s

theorem Rel.isSome (m : Nat) (s : Slot) : (a.val m s).isSome = (w.k.at_ m s).isSome := by rw [r.valAt, Option.isSome_map]

/-- The value of an object is read. -/
theorem Rel.get {kind : Kind} {d : Data} {m : Nat} (ht : w.k.table d.fd = some (m, ⟨kind, d.ksize, d.vsize, d.max⟩))
    (ho : Kind.ofObjects kind = true) {fd n : Nat} (hn : w.k.fds fd = some (.thing n)) (lt : fd < 2 ^ 31) (flags : Nat) :
    w.given (mapGet (sys cpus fresh fault) d (le 4 fd) flags w.k) =
      (w, if flags ≠ 0 then .failed (.syscall "bpf_map_lookup_elem" 22)
        else
          match suits a.world kind n, a.val m (.thing n) with
          | some e, _ => .failed (.syscall "bpf_map_lookup_elem" e)
          | none, some f => .value (f 0)
          | none, none => .failed .keyNotFound) := by
  obtain ⟨f1, f2⟩ := find_thing w.k kind fd n hn lt
  rw [r.world] at f1 f2
  by_cases hf : flags = 0
  · rw [if_neg (by simpa using hf)]
    have look : w.k.lookup cpus m ⟨kind, d.ksize, d.vsize, d.max⟩ (le 4 fd) =
        match w.k.find kind (le 4 fd) with
        | .error e => .error e
        | .ok n =>
            match w.k.at_ m (.thing n) with
            | none => .error 2
            | some id => .ok (w.k.cells id 0) := by
      cases kind <;> simp only [Kind.ofObjects, Bool.false_eq_true] at ho <;> rfl
    simp only [mapGet, bpfLookup, sys, ht, hf, look, r.valAt]
    simp only [ne_eq, not_true_eq_false, if_false]
    rcases e : suits a.world kind n with _ | x
    · simp only [f2 e]
      rcases w.k.at_ m (.thing n) with _ | id
      · rfl
      · rfl
    · have := suits_ne _ _ _ _ e
      simp only [f1 x e, this, if_false, W.given]
  · simp only [mapGet, bpfLookup, sys, ht, hf, ne_eq, not_false_eq_true, if_true]
    rfl

/-- Only the values have changed. -/
theorem Rel.with {k : K} {ps : List (Nat × Nat)} {b : A} (hw : k.world = w.k.world) (hf : k.fds = w.k.fds) (gw : b.world = a.world)
    (gn : b.names = a.names) (v : ∃ γ, RelV γ k ps b) : Rel { w with k := k, ptrs := ps } b where
  world := by rw [hw, gw]; exact r.world
  values := v
  handles := by
    have := r.handles.keep (k' := k) hf (by rw [hw]; exact fun _ _ q => q)
    rw [gn]; exact this
  pos := by rw [gw]; exact r.pos

theorem renew_world (m : Nat) (s : Slot) (x : Option (Nat → Spec.Bytes)) : (a.renew m s x).world = a.world ∧ (a.renew m s x).names = a.names := by
  simp only [A.renew]; split <;> exact ⟨rfl, rfl⟩

/-- A value is stored for a slot. -/
theorem Rel.put {m : Nat} {t : Table} (ht : a.world.tables[m]? = some t) (s : Slot) (f : Nat → Spec.Bytes) (hl : ∀ c, (f c).length = t.vsize) :
    Rel { w with k := w.k.put m s f } (a.renew m s (some f)) := by
  obtain ⟨γ, v⟩ := r.values
  have q := renew_world r m s (some f)
  exact r.with rfl rfl q.1 q.2 (v.replace m s f ⟨t, ht, hl⟩)

theorem Rel.erased {m : Nat} {s : Slot} (h : (w.k.at_ m s).isSome = true) : Rel { w with k := w.k.erase m s } (a.renew m s none) := by
  obtain ⟨γ, v⟩ := r.values
  have q := renew_world r m s none
  obtain ⟨id, hid⟩ := Option.isSome_iff_exists.mp h
  exact r.with rfl rfl q.1 q.2 ⟨_, v.erase m s id hid⟩

/-- A value is stored for an object. -/
theorem Rel.insert {kind : Kind} {d : Data} {m : Nat} (ht : w.k.table d.fd = some (m, ⟨kind, d.ksize, d.vsize, d.max⟩))
    (ht' : a.world.tables[m]? = some ⟨kind, d.ksize, d.vsize, d.max⟩)
    (ho : Kind.ofObjects kind = true) {fd n : Nat} (hn : w.k.fds fd = some (.thing n)) (lt : fd < 2 ^ 31) (value : Spec.Bytes)
    (hl : value.length = d.vsize) (flags : Nat) (b : A × Res)
    (hb : b = match suits a.world kind n, refusal (a.val m (.thing n)).isSome flags fault with
            | some e, _ => (a, .failed (.syscall "bpf_map_update_elem" e))
            | none, some e => (a, .failed (.syscall "bpf_map_update_elem" e))
            | none, none => (a.renew m (.thing n) (some fun _ => value), .done)) :
    Rel (w.result (mapInsert (sys cpus fresh fault) d (le 4 fd) value flags w.k)).1 b.1 ∧
      (w.result (mapInsert (sys cpus fresh fault) d (le 4 fd) value flags w.k)).2 = b.2 := by
  obtain ⟨f1, f2⟩ := find_thing w.k kind fd n hn lt
  rw [r.world] at f1 f2
  have upd : w.k.update cpus fault m ⟨kind, d.ksize, d.vsize, d.max⟩ (le 4 fd) value flags =
      match w.k.find kind (le 4 fd) with
      | .error e => .error e
      | .ok n =>
          match refusal (w.k.at_ m (.thing n)).isSome flags fault with
          | some e => .error e
          | none => .ok (w.k.put m (.thing n) fun _ => value) := by
    cases kind <;> simp only [Kind.ofObjects, Bool.false_eq_true] at ho <;> rfl
  subst hb
  simp only [mapInsert, sys, ht, upd, r.isSome]
  rcases e : suits a.world kind n with _ | x
  · simp only [f2 e]
    rcases e2 : refusal (w.k.at_ m (.thing n)).isSome flags fault with _ | y
    · simp only [W.result]
      exact ⟨r.put ht' _ _ (fun _ => hl), trivial⟩
    · exact ⟨r, rfl⟩
  · simp only [f1 x e]
    exact ⟨r, rfl⟩

/-- The value of an object is removed. -/
theorem Rel.remove {kind : Kind} {d : Data} {m : Nat} (ht : w.k.table d.fd = some (m, ⟨kind, d.ksize, d.vsize, d.max⟩))
    (ho : Kind.ofObjects kind = true) {fd n : Nat} (hn : w.k.fds fd = some (.thing n)) (lt : fd < 2 ^ 31) (b : A × Res)
    (hb : b = match suits a.world kind n with
            | some e => (a, .failed (.syscall "bpf_map_delete_elem" e))
            | none =>
                if (a.val m (.thing n)).isSome then (a.renew m (.thing n) none, .done)
                else (a, .failed (.syscall "bpf_map_delete_elem" 2))) :
    Rel (w.result (mapRemove (sys cpus fresh fault) d (le 4 fd) w.k)).1 b.1 ∧
      (w.result (mapRemove (sys cpus fresh fault) d (le 4 fd) w.k)).2 = b.2 := by
  obtain ⟨f1, f2⟩ := find_thing w.k kind fd n hn lt
  rw [r.world] at f1 f2
  have del : w.k.delete m ⟨kind, d.ksize, d.vsize, d.max⟩ (le 4 fd) =
      match w.k.find kind (le 4 fd) with
      | .error e => .error e
      | .ok n => if (w.k.at_ m (.thing n)).isSome then .ok (w.k.erase m (.thing n)) else .error 2 := by
    cases kind <;> simp only [Kind.ofObjects, Bool.false_eq_true] at ho <;> rfl
  subst hb
  simp only [mapRemove, sys, ht, del, r.isSome]
  rcases e : suits a.world kind n with _ | x
  · simp only [f2 e]
    rcases e2 : (w.k.at_ m (.thing n)).isSome with _ | _
    · simp only [Bool.false_eq_true, if_false]
      exact ⟨r, rfl⟩
    · simp only [if_true, W.result]
      exact ⟨r.erased e2, trivial⟩
  · simp only [f1 x e]
    exact ⟨r, rfl⟩

end

end Verif.Local
