import Verif.Shared.Spec
import Verif.Common.Except

set_option linter.unusedSimpArgs false
set_option linter.unusedVariables false

/-!
# C87: a hash map shared with programs is one map
-/
namespace Verif.Shared
open Verif.Maps Verif.Bytes Verif.Shared.Spec

/-- What an `Err` of a program's operation says: the errno, negated. -/
def ofErr : Except Int Unit → Res
  | .ok () => .done
  | .error e => .failed (-e).toNat

/-- What the process is told. -/
def ofHashRes : Maps.Spec.HashRes → Res
  | .value v => .value v
  | .done => .done
  | .notFound => .missing
  | .failed e => .failed e

/-- Run one operation of the process or of a program on the kernel's hash map. -/
def hashShared (m : MapData) (cap : Nat) (es : Maps.Spec.Entries) : HashOp → Maps.Spec.Entries × Res
  | .process op =>
      let r := asProcess (Maps.Spec.hashStep m.fd cap) (fun k h => runHash k m op h) es
      (r.2, ofHashRes r.1)
  | .program (.get key) =>
      match hmGet (hashHelpers m.fd cap) key es with
      | some v => (es, .value v)
      | none => (es, .missing)
  | .program (.insert key v flags) =>
      let r := hmInsert (hashHelpers m.fd cap) key v flags es
      (r.2, ofErr r.1)
  | .program (.remove key) =>
      let r := hmRemove (hashHelpers m.fd cap) key es
      (r.2, ofErr r.1)
  | .write key v =>
      match hmWrite (hashHelpers m.fd cap) key v es with
      | (some (), es) => (es, .done)
      | (none, es) => (es, .missing)

/-- Run several. -/
def hashSharedAll (m : MapData) (cap : Nat) : Maps.Spec.Entries → List HashOp → Maps.Spec.Entries × List Res
  | es, [] => (es, [])
  | es, op :: ops =>
      let r := hashShared m cap es op
      let rs := hashSharedAll m cap r.1 ops
      (rs.1, r.2 :: rs.2)

theorem toI32_small (e : Nat) (h : e ≤ 4095) : toI32 (-(e : Int)) = -(e : Int) := by
  unfold toI32
  rw [Int.bmod_eq_of_le] <;> omega

/-- The outcome of a system call. -/
def ofSys : Except Nat Out → Res
  | .ok _ => .done
  | .error e => .failed e

theorem ofErr_helper (r : Except Nat Out) (he : ∀ e, r = .error e → 0 < e ∧ e ≤ 4095) :
    ofErr (if helperRet r = 0 then .ok () else .error (toI32 (helperRet r)))
      = ofSys r := by
  cases r with
  | ok o => simp [helperRet, ofErr, ofSys]
  | error e =>
    obtain ⟨h1, h2⟩ := he e rfl
    have hne : ¬ (-(e : Int)) = 0 := by omega
    simp only [helperRet, if_neg hne, ofErr, toI32_small e h2, ofSys]
    congr 1
    omega

theorem insert_eq {σ : Type} (H : Helpers σ) (key v : Bytes) (flags : Nat) (s s' : σ) (r : Except Nat Out)
    (hu : H.update key v flags s = (helperRet r, s')) (he : ∀ e, r = .error e → 0 < e ∧ e ≤ 4095) :
    (insert H key v flags s).2 = s' ∧ ofErr (insert H key v flags s).1 = ofSys r := by
  have h := ofErr_helper r he
  simp only [insert, hu]
  by_cases h0 : helperRet r = 0
  · rw [if_pos h0] at h; rw [if_pos h0]; exact ⟨rfl, h⟩
  · rw [if_neg h0] at h; rw [if_neg h0]; exact ⟨rfl, h⟩

theorem remove_eq {σ : Type} (H : Helpers σ) (key : Bytes) (s s' : σ) (r : Except Nat Out)
    (hu : H.delete key s = (helperRet r, s')) (he : ∀ e, r = .error e → 0 < e ∧ e ≤ 4095) :
    (remove H key s).2 = s' ∧ ofErr (remove H key s).1 = ofSys r := by
  have h := ofErr_helper r he
  simp only [remove, hu]
  by_cases h0 : helperRet r = 0
  · rw [if_pos h0] at h; rw [if_pos h0]; exact ⟨rfl, h⟩
  · rw [if_neg h0] at h; rw [if_neg h0]; exact ⟨rfl, h⟩

theorem qPush_eq {σ : Type} (H : Helpers σ) (v : Bytes) (flags : Nat) (s s' : σ) (r : Except Nat Out)
    (hu : H.push v flags s = (helperRet r, s')) (he : ∀ e, r = .error e → 0 < e ∧ e ≤ 4095) :
    (qPush H v flags s).2 = s' ∧ ofErr (qPush H v flags s).1 = ofSys r := by
  have h := ofErr_helper r he
  simp only [qPush, hu]
  by_cases h0 : helperRet r = 0
  · rw [if_pos h0] at h; rw [if_pos h0]; exact ⟨rfl, h⟩
  · rw [if_neg h0] at h; rw [if_neg h0]; exact ⟨rfl, h⟩

theorem put_length (key v : Bytes) (es : Maps.Spec.Entries) :
    (Maps.Spec.put key v es).length = if (es.lookup key).isSome then es.length else es.length + 1 := by
  by_cases h : (es.lookup key).isSome
  · rw [if_pos h]
    have := congrArg List.length (put_keys_mem key v es ((lookup_isSome_iff key es).mp h))
    simpa using this
  · rw [if_neg h]
    have := congrArg List.length (put_keys_new key v es (fun hk => h ((lookup_isSome_iff key es).mpr hk)))
    simpa using this

theorem filter_length (key : Bytes) (es : Maps.Spec.Entries) (hn : (es.map Prod.fst).Nodup)
    (h : (es.lookup key).isSome) : (es.filter (fun e => e.1 ≠ key)).length = es.length - 1 := by
  induction es with
  | nil => simp at h
  | cons e es ih =>
    simp only [List.map_cons, List.nodup_cons] at hn
    by_cases hk : e.1 = key
    · rw [List.filter_cons_of_neg (by simp [hk])]
      have : es.filter (fun e => e.1 ≠ key) = es := by
        apply List.filter_eq_self.mpr
        intro x hx
        have : x.1 ≠ key := by
          intro hxk
          exact hn.1 (by rw [hk, ← hxk]; exact List.mem_map_of_mem hx)
        simpa using this
      rw [this]; simp
    · rw [List.filter_cons_of_pos (by simpa using hk)]
      have hx : (key == e.1) = false := by simpa using fun hh => hk (Eq.symm hh)
      have h' : (es.lookup key).isSome := by
        obtain ⟨a, b⟩ := e
        simpa [List.lookup, hx] using h
      have hpos : 0 < es.length := by
        cases es with
        | nil => simp at h'
        | cons => simp
      simp only [List.length_cons, ih hn.2 h']
      omega

/-- The kernel's entries are the finite map. -/
structure Same (es : Maps.Spec.Entries) (m : AMap) : Prop where
  nodup : (es.map Prod.fst).Nodup
  lookup : ∀ key, es.lookup key = m.contents key
  count : es.length = m.count

theorem same_put {es : Maps.Spec.Entries} {m : AMap} (h : Same es m) (key v : Bytes) :
    Same (Maps.Spec.put key v es) (m.bind key v) where
  nodup := put_nodup h.nodup
  lookup x := by rw [lookup_put, AMap.bind]; simp only [h.lookup]
  count := by rw [put_length, AMap.bind]; simp only [h.lookup, h.count]

theorem same_filter {es : Maps.Spec.Entries} {m : AMap} (h : Same es m) (key : Bytes)
    (hk : (es.lookup key).isSome) :
    Same (es.filter (fun e => e.1 ≠ key)) (m.unbind key) where
  nodup := filter_nodup h.nodup
  lookup x := by rw [lookup_filter, AMap.unbind]; simp only [h.lookup]
  count := by rw [filter_length key es h.nodup hk, AMap.unbind]; simp only [h.count]

/-- What an update does to the entries, and what it answers. -/
theorem update_same {es : Maps.Spec.Entries} {m : AMap} (h : Same es m) (fd cap : Nat) (key v : Bytes)
    (flags : Nat) :
    let r := Maps.Spec.hashStep fd cap es (.update fd (some key) v flags)
    let a := mapOp cap m (.insert key v flags)
    Same r.1 a.1 ∧ ofSys r.2 = a.2 ∧
      ∀ e, r.2 = .error e → 0 < e ∧ e ≤ 4095 := by
  intro r a
  have hl := h.lookup key
  by_cases hf : flags > 2
  · have hr : r = (es, .error 22) := by simp [r, Maps.Spec.hashStep, hf]
    have ha : a = (m, .failed 22) := by simp [a, mapOp, hf]
    rw [hr, ha]; exact ⟨h, rfl, by intro e he; cases he; omega⟩
  · cases hk : m.contents key with
    | some w =>
      rw [hk] at hl
      by_cases h1 : flags = 1
      · have hr : r = (es, .error 17) := by simp [r, Maps.Spec.hashStep, hf, hl, h1]
        have ha : a = (m, .failed 17) := by simp [a, mapOp, hf, hk, h1]
        rw [hr, ha]; exact ⟨h, rfl, by intro e he; cases he; omega⟩
      · have hr : r = (Maps.Spec.put key v es, .ok {}) := by simp [r, Maps.Spec.hashStep, hf, hl, h1]
        have ha : a = (m.bind key v, .done) := by simp [a, mapOp, hf, hk, h1]
        rw [hr, ha]; exact ⟨same_put h key v, rfl, by intro e he; cases he⟩
    | none =>
      rw [hk] at hl
      by_cases h2 : flags = 2
      · have hr : r = (es, .error 2) := by simp [r, Maps.Spec.hashStep, hf, hl, h2]
        have ha : a = (m, .failed 2) := by simp [a, mapOp, hf, hk, h2]
        rw [hr, ha]; exact ⟨h, rfl, by intro e he; cases he; omega⟩
      · by_cases hc : cap ≤ es.length
        · have hr : r = (es, .error 7) := by simp [r, Maps.Spec.hashStep, hf, hl, h2, hc]
          have ha : a = (m, .failed 7) := by
            rw [h.count] at hc; simp [a, mapOp, hf, hk, h2, hc]
          rw [hr, ha]; exact ⟨h, rfl, by intro e he; cases he; omega⟩
        · have hr : r = (Maps.Spec.put key v es, .ok {}) := by
            simp [r, Maps.Spec.hashStep, hf, hl, h2, hc]
          have ha : a = (m.bind key v, .done) := by
            rw [h.count] at hc; simp [a, mapOp, hf, hk, h2, hc]
          rw [hr, ha]; exact ⟨same_put h key v, rfl, by intro e he; cases he⟩

theorem delete_same {es : Maps.Spec.Entries} {m : AMap} (h : Same es m) (fd cap : Nat) (key : Bytes) :
    let r := Maps.Spec.hashStep fd cap es (.delete fd key)
    let a := mapOp cap m (.remove key)
    Same r.1 a.1 ∧ ofSys r.2 = a.2 ∧
      ∀ e, r.2 = .error e → 0 < e ∧ e ≤ 4095 := by
  intro r a
  have hl := h.lookup key
  cases hk : m.contents key with
  | some w =>
    rw [hk] at hl
    have hs : (es.lookup key).isSome := by rw [hl]; rfl
    have hr : r = (es.filter (fun e => e.1 ≠ key), .ok {}) := by simp [r, Maps.Spec.hashStep, hl]
    have ha : a = (m.unbind key, .done) := by simp [a, mapOp, hk]
    rw [hr, ha]; exact ⟨same_filter h key hs, rfl, by intro e he; cases he⟩
  | none =>
    rw [hk] at hl
    have hr : r = (es, .error 2) := by simp [r, Maps.Spec.hashStep, hl]
    have ha : a = (m, .failed 2) := by simp [a, mapOp, hk]
    rw [hr, ha]; exact ⟨h, rfl, by intro e he; cases he; omega⟩

theorem hashShared_same (m : MapData) (cap : Nat) {es : Maps.Spec.Entries} {a : AMap} (h : Same es a)
    (op : HashOp) :
    Same (hashShared m cap es op).1 (sharedOp cap a op).1 ∧
      (hashShared m cap es op).2 = (sharedOp cap a op).2 := by
  cases op with
  | process op =>
    cases op with
    | get key =>
      have hl := h.lookup key
      cases hk : a.contents key with
      | some v =>
        rw [hk] at hl
        simp [hashShared, asProcess, seenBy, runHash, hashGet, bpfLookup, sys, Maps.Spec.hashStep, hl,
          ofHashRes, sharedOp, mapOp, hk, h]
      | none =>
        rw [hk] at hl
        simp [hashShared, asProcess, seenBy, runHash, hashGet, bpfLookup, sys, Maps.Spec.hashStep, hl,
          ofHashRes, sharedOp, mapOp, hk, h, ENOENT]
    | insert key v flags =>
      obtain ⟨h1, h2, h3⟩ := update_same h m.fd cap key v flags
      refine ⟨?_, ?_⟩
      · have : (hashShared m cap es (.process (.insert key v flags))).1
            = (Maps.Spec.hashStep m.fd cap es (.update m.fd (some key) v flags)).1 := by
          simp only [hashShared, asProcess, seenBy, runHash, hashInsert, bpfUpdate, sys, List.foldl_nil]
          cases (Maps.Spec.hashStep m.fd cap es (.update m.fd (some key) v flags)).2 <;> rfl
        rw [this]; exact h1
      · rw [show (sharedOp cap a (.process (.insert key v flags))).2
            = (mapOp cap a (.insert key v flags)).2 from rfl, ← h2]
        simp only [hashShared, asProcess, seenBy, runHash, hashInsert, bpfUpdate, sys, List.foldl_nil]
        cases (Maps.Spec.hashStep m.fd cap es (.update m.fd (some key) v flags)).2 <;> rfl
    | remove key =>
      obtain ⟨h1, h2, h3⟩ := delete_same h m.fd cap key
      refine ⟨?_, ?_⟩
      · have : (hashShared m cap es (.process (.remove key))).1
            = (Maps.Spec.hashStep m.fd cap es (.delete m.fd key)).1 := by
          simp only [hashShared, asProcess, seenBy, runHash, hashRemove, bpfDelete, sys, List.foldl_nil]
          cases (Maps.Spec.hashStep m.fd cap es (.delete m.fd key)).2 <;> rfl
        rw [this]; exact h1
      · rw [show (sharedOp cap a (.process (.remove key))).2
            = (mapOp cap a (.remove key)).2 from rfl, ← h2]
        simp only [hashShared, asProcess, seenBy, runHash, hashRemove, bpfDelete, sys, List.foldl_nil]
        cases (Maps.Spec.hashStep m.fd cap es (.delete m.fd key)).2 <;> rfl
  | program op =>
    cases op with
    | get key =>
      have hl := h.lookup key
      cases hk : a.contents key with
      | some v => rw [hk] at hl; simp [hashShared, hmGet, lookup, hashHelpers, hl, sharedOp, mapOp, hk, h]
      | none => rw [hk] at hl; simp [hashShared, hmGet, lookup, hashHelpers, hl, sharedOp, mapOp, hk, h]
    | insert key v flags =>
      obtain ⟨h1, h2, h3⟩ := update_same h m.fd cap key v flags
      obtain ⟨g1, g2⟩ := insert_eq (hashHelpers m.fd cap) key v flags es _ _ rfl h3
      simp only [hashShared, hmInsert, g1, g2, h2]
      exact ⟨h1, rfl⟩
    | remove key =>
      obtain ⟨h1, h2, h3⟩ := delete_same h m.fd cap key
      obtain ⟨g1, g2⟩ := remove_eq (hashHelpers m.fd cap) key es _ _ rfl h3
      simp only [hashShared, hmRemove, g1, g2, h2]
      exact ⟨h1, rfl⟩
  | write key v =>
    have hl := h.lookup key
    cases hk : a.contents key with
    | some w =>
      rw [hk] at hl
      simp only [hashShared, hmWrite, lookup, hashHelpers, hl, sharedOp, hk, Option.isSome_some, if_true]
      exact ⟨same_put h key v, trivial⟩
    | none =>
      rw [hk] at hl
      simp only [hashShared, hmWrite, lookup, hashHelpers, hl, sharedOp, hk]
      exact ⟨h, trivial⟩

/-- **C87 (hash maps).** A process and any number of programs use a freshly created hash map, in any order.
    Every operation returns what it returns on one finite map to which all operations were applied in
    that order: a value inserted or written by either side is what both sides get, an element removed by
    either side is gone for both, and the limit on the number of elements and the conditions in the flags
    count the elements of both. At the end the map holds what the finite map holds. -/
theorem C87_hash (m : MapData) (cap : Nat) (ops : List HashOp) :
    let r := hashSharedAll m cap [] ops
    let a := sharedRun cap { contents := fun _ => none, count := 0 } ops
    r.2 = a.2 ∧ (∀ key, r.1.lookup key = a.1.contents key) ∧ r.1.length = a.1.count := by
  intro r a
  have key : ∀ (ops : List HashOp) (es : Maps.Spec.Entries) (x : AMap), Same es x →
      Same (hashSharedAll m cap es ops).1 (sharedRun cap x ops).1 ∧
        (hashSharedAll m cap es ops).2 = (sharedRun cap x ops).2 := by
    intro ops
    induction ops with
    | nil => intro es x h; exact ⟨h, rfl⟩
    | cons op ops ih =>
      intro es x h
      obtain ⟨h1, h2⟩ := hashShared_same m cap h op
      obtain ⟨h3, h4⟩ := ih _ _ h1
      simp only [hashSharedAll, sharedRun]
      exact ⟨h3, by rw [h2, h4]⟩
  obtain ⟨h1, h2⟩ := key ops [] { contents := fun _ => none, count := 0 }
    { nodup := by simp, lookup := by simp, count := rfl }
  exact ⟨h2, h1.lookup, h1.count⟩

/- A program counts packets of two flows while the process reads, resets and refuses. -/
example :
    (hashSharedAll ⟨5, 1, 1, 2⟩ 2 []
      [.program (.insert [1] [1] 1), .process (.get [1]), .write [1] [2], .process (.get [1]),
       .process (.remove [1]), .program (.get [1]), .write [1] [3], .process (.insert [1] [9] 0),
       .program (.insert [2] [1] 0), .program (.insert [3] [1] 0), .process (.insert [3] [1] 0),
       .program (.insert [1] [5] 1), .program (.remove [3])]).2
    = [.done, .value [1], .done, .value [2], .done, .missing, .missing, .done, .done, .failed 7, .failed 7,
       .failed 17, .failed 2] := by decide +kernel

end Verif.Shared
