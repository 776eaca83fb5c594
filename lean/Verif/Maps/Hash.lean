import Verif.Maps.Props

set_option linter.unusedSimpArgs false
set_option linter.unusedVariables false

/-!
# C56: a hash map handle behaves like a map

The kernel's hash map is specified by `Spec.hashStep`; the handle operations of `Verif.Maps.Model`, run
against it, are shown to behave like the same operations on a finite map, including iteration.
-/
namespace Verif.Maps
namespace Spec

/-- The entries of a kernel hash map, in the kernel's internal order. -/
abbrev Entries := List (Bytes × Bytes)

/-- Replace the value of `key`, or add an entry. -/
def put (key v : Bytes) : Entries → Entries
  | [] => [(key, v)]
  | e :: es => if e.1 = key then (key, v) :: es else e :: put key v es

/-- The first key after `key` in the kernel's order; the first key of all if `key` is not there. -/
def after (key : Bytes) (es : Entries) : Option Bytes :=
  if key ∈ es.map Prod.fst then
    ((es.dropWhile (fun e => e.1 ≠ key)).drop 1).head?.map Prod.fst
  else es.head?.map Prod.fst

/-- The kernel's hash map of at most `cap` entries behind descriptor `fd` (Linux `kernel/bpf/hashtab.c`):
    flag 1 of an update means "must not exist", flag 2 "must exist". -/
def hashStep (fd cap : Nat) (es : Entries) (c : Call) : Entries × Except Nat Out :=
  match c with
  | .lookup f (some key) _ =>
      if f ≠ fd then (es, .error 9) else
      match es.lookup key with
      | some v => (es, .ok { data := v })
      | none => (es, .error 2)
  | .update f (some key) v flags =>
      if f ≠ fd then (es, .error 9)
      else if flags > 2 then (es, .error 22)
      else if (es.lookup key).isSome ∧ flags = 1 then (es, .error 17)
      else if (es.lookup key).isNone ∧ flags = 2 then (es, .error 2)
      else if (es.lookup key).isNone ∧ cap ≤ es.length then (es, .error 7)
      else (put key v es, .ok {})
  | .delete f key =>
      if f ≠ fd then (es, .error 9)
      else if (es.lookup key).isSome then (es.filter (fun e => e.1 ≠ key), .ok {}) else (es, .error 2)
  | .nextKey f none =>
      if f ≠ fd then (es, .error 9) else
      match es with
      | [] => (es, .error 2)
      | e :: _ => (es, .ok { data := e.1 })
  | .nextKey f (some key) =>
      if f ≠ fd then (es, .error 9) else
      match after key es with
      | some n => (es, .ok { data := n })
      | none => (es, .error 2)
  | _ => (es, .error 22)

/-- The entries after the calls `h`. -/
def entries (fd cap : Nat) (h : Hist) : Entries := h.foldl (fun es c => (hashStep fd cap es c).1) []

/-- The kernel with a freshly created, empty hash map that nobody else uses. -/
def hashKernel (fd cap : Nat) : Kernel := fun h c => (hashStep fd cap (entries fd cap h) c).2

/-- Operations of the handle. -/
inductive HashOp where
  | get (key : Bytes)
  | insert (key value : Bytes) (flags : Nat)
  | remove (key : Bytes)

/-- Results of the handle. -/
inductive HashRes where
  | value (v : Bytes)
  | done
  | notFound
  | failed (errno : Nat)
deriving DecidableEq

/-- A finite map. -/
abbrev FMap := Bytes → Option Bytes

/-- The finite map with `key` bound to `v`. -/
def FMap.set (m : FMap) (key : Bytes) (v : Option Bytes) : FMap := fun x => if x = key then v else m x

/-- What an operation on a finite map of at most `cap` entries, currently `n`, is meant to do. -/
def absOp (cap n : Nat) (m : FMap) : HashOp → FMap × HashRes
  | .get key =>
      match m key with
      | some v => (m, .value v)
      | none => (m, .notFound)
  | .insert key v flags =>
      if flags > 2 then (m, .failed 22)
      else
        match m key with
        | some _ => if flags = 1 then (m, .failed 17) else (m.set key (some v), .done)
        | none =>
            if flags = 2 then (m, .failed 2)
            else if cap ≤ n then (m, .failed 7)
            else (m.set key (some v), .done)
  | .remove key =>
      match m key with
      | some _ => (m.set key none, .done)
      | none => (m, .failed 2)

end Spec
open Spec

/-- Run an operation of the handle (`/repo/aya/src/maps/hash_map/hash_map.rs:51,79,84`), keeping of the
    result what the specification speaks about. -/
def runHash (k : Kernel) (m : MapData) (op : HashOp) (h : Hist) : HashRes × Hist :=
  let err : MapError → HashRes
    | .keyNotFound => .notFound
    | .syscall _ e => .failed e
    | _ => .failed 0
  match op with
  | .get key => match hashGet k m key 0 h with
    | (.ok v, h) => (.value v, h)
    | (.error e, h) => (err e, h)
  | .insert key v flags => match hashInsert k m key v flags h with
    | (.ok (), h) => (.done, h)
    | (.error e, h) => (err e, h)
  | .remove key => match hashRemove k m key h with
    | (.ok (), h) => (.done, h)
    | (.error e, h) => (err e, h)

/-- Run several. -/
def runHashAll (k : Kernel) (m : MapData) : List HashOp → Hist → List HashRes × Hist
  | [], h => ([], h)
  | op :: ops, h =>
      let (r, h) := runHash k m op h
      let (rs, h) := runHashAll k m ops h
      (r :: rs, h)

/-! ## Entries -/

theorem lookup_put (key v x : Bytes) (es : Entries) :
    (put key v es).lookup x = if x = key then some v else es.lookup x := by
  induction es with
  | nil => by_cases h : x = key <;> simp [put, List.lookup, h]
  | cons e es ih =>
    obtain ⟨a, b⟩ := e
    simp only [put]
    by_cases hak : a = key
    · subst hak
      rw [if_pos rfl]
      by_cases h : x = a
      · subst h; simp [List.lookup]
      · have hx : (x == a) = false := by simpa using h
        simp [List.lookup, h, hx]
    · rw [if_neg hak]
      by_cases h : x = a
      · subst h
        have : ¬ x = key := hak
        simp [List.lookup, this]
      · have hx : (x == a) = false := by simpa using h
        simp only [List.lookup, hx, ih]

theorem lookup_filter (key x : Bytes) (es : Entries) :
    (es.filter (fun e => e.1 ≠ key)).lookup x = if x = key then none else es.lookup x := by
  induction es with
  | nil => simp
  | cons e es ih =>
    obtain ⟨a, b⟩ := e
    by_cases hak : a = key
    · subst hak
      rw [List.filter_cons_of_neg (by simp), ih]
      by_cases h : x = a
      · simp [h]
      · have hx : (x == a) = false := by simpa using h
        simp [List.lookup, h, hx]
    · rw [List.filter_cons_of_pos (by simpa using hak)]
      by_cases h : x = a
      · subst h
        simp [List.lookup, hak]
      · have hx : (x == a) = false := by simpa using h
        simp only [List.lookup, hx, ih]

theorem lookup_isSome_iff (x : Bytes) (es : Entries) : (es.lookup x).isSome ↔ x ∈ es.map Prod.fst := by
  induction es with
  | nil => simp
  | cons e es ih =>
    obtain ⟨a, b⟩ := e
    by_cases h : x = a
    · subst h; simp [List.lookup]
    · have hx : (x == a) = false := by simpa using h
      simp [List.lookup, hx, ih, h]

theorem put_keys_mem (key v : Bytes) (es : Entries) (h : key ∈ es.map Prod.fst) :
    (put key v es).map Prod.fst = es.map Prod.fst := by
  induction es with
  | nil => simp at h
  | cons e es ih =>
    simp only [put]
    by_cases hak : e.1 = key
    · simp [hak]
    · rw [if_neg hak]
      simp only [List.map_cons, List.mem_cons] at h
      rcases h with h | h
      · exact absurd h.symm hak
      · simp [ih h]

theorem put_keys_new (key v : Bytes) (es : Entries) (h : key ∉ es.map Prod.fst) :
    (put key v es).map Prod.fst = es.map Prod.fst ++ [key] := by
  induction es with
  | nil => simp [put]
  | cons e es ih =>
    simp only [List.map_cons, List.mem_cons, not_or] at h
    simp only [put, if_neg (Ne.symm h.1), List.map_cons, ih h.2, List.cons_append]

theorem put_nodup {key v : Bytes} {es : Entries} (hn : (es.map Prod.fst).Nodup) :
    ((put key v es).map Prod.fst).Nodup := by
  by_cases h : key ∈ es.map Prod.fst
  · rw [put_keys_mem _ _ _ h]; exact hn
  · rw [put_keys_new _ _ _ h]
    exact List.nodup_append.mpr ⟨hn, by simp, by
      intro a ha b hb; simp at hb; subst hb; intro he; subst he; exact h ha⟩

theorem filter_nodup {p : Bytes × Bytes → Bool} {es : Entries} (hn : (es.map Prod.fst).Nodup) :
    ((es.filter p).map Prod.fst).Nodup := hn.sublist ((List.filter_sublist).map _)

theorem hashStep_nodup (fd cap : Nat) (es : Entries) (c : Call) (hn : (es.map Prod.fst).Nodup) :
    ((hashStep fd cap es c).1.map Prod.fst).Nodup := by
  unfold hashStep
  split
  · split
    · exact hn
    · split <;> exact hn
  · repeat' split
    all_goals first | exact hn | exact put_nodup hn
  · repeat' split
    all_goals first | exact hn | exact filter_nodup hn
  · repeat' split
    all_goals exact hn
  · repeat' split
    all_goals exact hn
  · exact hn

theorem entries_append (fd cap : Nat) (h : Hist) (c : Call) :
    entries fd cap (h ++ [c]) = (hashStep fd cap (entries fd cap h) c).1 := by
  simp [entries]

theorem entries_nodup (fd cap : Nat) (h : Hist) : ((entries fd cap h).map Prod.fst).Nodup := by
  have : ∀ (h : Hist) (es : Entries), (es.map Prod.fst).Nodup →
      ((h.foldl (fun es c => (hashStep fd cap es c).1) es).map Prod.fst).Nodup := by
    intro h
    induction h with
    | nil => intro es hn; exact hn
    | cons c h ih => intro es hn; exact ih _ (hashStep_nodup fd cap es c hn)
  exact this h [] (by simp)

/-- The finite map held in the kernel after the calls `h`. -/
def fmapOf (fd cap : Nat) (h : Hist) : FMap := fun key => (entries fd cap h).lookup key

theorem fmapOf_append (fd cap : Nat) (h : Hist) (c : Call) :
    fmapOf fd cap (h ++ [c]) = fun key => (hashStep fd cap (entries fd cap h) c).1.lookup key := by
  funext key; simp only [fmapOf, entries_append]

/-- **C56 (one operation).** Against a kernel hash map nobody else uses, each `get`, `insert` and `remove`
    returns what the operation on a finite map returns, and leaves that finite map in the kernel. -/
theorem C56_step (m : MapData) (cap : Nat) (op : HashOp) (h : Hist) :
    let r := runHash (hashKernel m.fd cap) m op h
    let a := absOp cap (entries m.fd cap h).length (fmapOf m.fd cap h) op
    r.1 = a.2 ∧ fmapOf m.fd cap r.2 = a.1 := by
  intro r a
  cases op with
  | get key =>
    cases hl : (entries m.fd cap h).lookup key with
    | some v =>
      have hr : r = (.value v, h ++ [.lookup m.fd (some key) 0]) := by
        simp [r, runHash, hashGet, bpfLookup, sys, hashKernel, hashStep, hl]
      have ha : a = (fmapOf m.fd cap h, .value v) := by simp [a, absOp, fmapOf, hl]
      rw [hr, ha]
      refine ⟨rfl, ?_⟩
      funext x
      simp [fmapOf, entries_append, hashStep, hl]
    | none =>
      have hr : r = (.notFound, h ++ [.lookup m.fd (some key) 0]) := by
        simp [r, runHash, hashGet, bpfLookup, sys, hashKernel, hashStep, hl, ENOENT]
      have ha : a = (fmapOf m.fd cap h, .notFound) := by simp [a, absOp, fmapOf, hl]
      rw [hr, ha]
      refine ⟨rfl, ?_⟩
      funext x
      simp [fmapOf, entries_append, hashStep, hl]
  | insert key v flags =>
    have hres : r = (match hashKernel m.fd cap h (.update m.fd (some key) v flags) with
        | .ok _ => .done
        | .error e => .failed e, h ++ [.update m.fd (some key) v flags]) := by
      simp only [r, runHash, hashInsert, bpfUpdate, sys]
      cases hashKernel m.fd cap h (.update m.fd (some key) v flags) <;> rfl
    rw [hres]
    dsimp only
    rw [fmapOf_append]
    have hm : fmapOf m.fd cap h = fun key => (entries m.fd cap h).lookup key := rfl
    simp only [a, absOp, hashKernel, hm]
    generalize entries m.fd cap h = es
    by_cases hf : flags > 2
    · have hs : hashStep m.fd cap es (.update m.fd (some key) v flags) = (es, .error 22) := by
        simp [hashStep, hf]
      rw [hs]; simp [hf]
    · cases hl : es.lookup key with
      | some w =>
        by_cases h1 : flags = 1
        · have hs : hashStep m.fd cap es (.update m.fd (some key) v flags) = (es, .error 17) := by
            simp [hashStep, hf, hl, h1]
          rw [hs]; simp [hf, h1]
        · have hs : hashStep m.fd cap es (.update m.fd (some key) v flags) = (put key v es, .ok {}) := by
            simp [hashStep, hf, hl, h1]
          rw [hs]; simp only [if_neg hf, if_neg h1]
          exact ⟨trivial, by funext x; simp only [lookup_put, FMap.set]⟩
      | none =>
        by_cases h2 : flags = 2
        · have hs : hashStep m.fd cap es (.update m.fd (some key) v flags) = (es, .error 2) := by
            simp [hashStep, hf, hl, h2]
          rw [hs]; simp [hf, h2]
        · by_cases hc : cap ≤ es.length
          · have hs : hashStep m.fd cap es (.update m.fd (some key) v flags) = (es, .error 7) := by
              simp [hashStep, hf, hl, h2, hc]
            rw [hs]; simp [hf, h2, hc]
          · have hs : hashStep m.fd cap es (.update m.fd (some key) v flags) = (put key v es, .ok {}) := by
              simp [hashStep, hf, hl, h2, hc]
            rw [hs]; simp only [if_neg hf, if_neg h2, if_neg hc]
            exact ⟨trivial, by funext x; simp only [lookup_put, FMap.set]⟩
  | remove key =>
    have hres : r = (match hashKernel m.fd cap h (.delete m.fd key) with
        | .ok _ => .done
        | .error e => .failed e, h ++ [.delete m.fd key]) := by
      simp only [r, runHash, hashRemove, bpfDelete, sys]
      cases hashKernel m.fd cap h (.delete m.fd key) <;> rfl
    rw [hres]
    dsimp only
    rw [fmapOf_append]
    have hm : fmapOf m.fd cap h = fun key => (entries m.fd cap h).lookup key := rfl
    simp only [a, absOp, hashKernel, hm]
    generalize entries m.fd cap h = es
    cases hl : es.lookup key with
    | none =>
      have hs : hashStep m.fd cap es (.delete m.fd key) = (es, .error 2) := by simp [hashStep, hl]
      rw [hs]; simp
    | some w =>
      have hs : hashStep m.fd cap es (.delete m.fd key) = (es.filter (fun e => e.1 ≠ key), .ok {}) := by
        simp [hashStep, hl]
      rw [hs]
      exact ⟨rfl, by funext x; simp only; rw [lookup_filter]; simp only [FMap.set]⟩

/-- What a sequence of operations does to a finite map; `sizes` gives the number of entries before each
    operation. -/
def Spec.absRun (cap : Nat) : List HashOp → List Nat → FMap → FMap × List HashRes
  | [], _, m => (m, [])
  | op :: ops, ns, m =>
      let (m, r) := absOp cap (ns.headD 0) m op
      let (m, rs) := absRun cap ops ns.tail m
      (m, r :: rs)

/-- **C56 (sequences).** Every sequence of operations on a fresh hash map returns exactly what the same
    operations on a finite map return; `sizes` are the numbers of entries at the time of each operation
    and matter only for the "full" error. -/
theorem C56_sequence (m : MapData) (cap : Nat) (ops : List HashOp) (h : Hist) :
    ∃ sizes : List Nat, sizes.length = ops.length ∧
      (runHashAll (hashKernel m.fd cap) m ops h).1 = (absRun cap ops sizes (fmapOf m.fd cap h)).2 ∧
      fmapOf m.fd cap (runHashAll (hashKernel m.fd cap) m ops h).2
        = (absRun cap ops sizes (fmapOf m.fd cap h)).1 := by
  induction ops generalizing h with
  | nil => exact ⟨[], rfl, rfl, rfl⟩
  | cons op ops ih =>
    obtain ⟨h1, h2⟩ := C56_step m cap op h
    obtain ⟨ns, g0, g1, g2⟩ := ih (runHash (hashKernel m.fd cap) m op h).2
    refine ⟨(entries m.fd cap h).length :: ns, by simp [g0], ?_, ?_⟩
    · simp only [runHashAll, absRun, List.headD_cons, List.tail_cons]
      rw [h1, g1, h2]
    · simp only [runHashAll, absRun, List.headD_cons, List.tail_cons]
      rw [g2, h2]

example : (runHashAll (hashKernel 5 2) ⟨5, 1, 1, 2⟩
    [.insert [1] [10] 0, .insert [1] [11] 1, .get [1], .insert [2] [20] 0, .insert [3] [30] 0,
     .remove [1], .get [1], .remove [1]] []).1
    = [.done, .failed 17, .value [10], .done, .failed 7, .done, .notFound, .failed 2] := by decide +kernel

/-! ## Iteration over the kernel's hash map -/

/-- Reads leave the entries alone. -/
theorem entries_read (fd cap : Nat) (h : Hist) (key : Option Bytes) :
    entries fd cap (h ++ [.nextKey fd key]) = entries fd cap h := by
  rw [entries_append]
  cases key with
  | none =>
    simp only [hashStep]
    repeat' split
    all_goals rfl
  | some key =>
    simp only [hashStep]
    repeat' split
    all_goals rfl

theorem entries_lookup (fd cap : Nat) (h : Hist) (key : Bytes) (fl : Nat) :
    entries fd cap (h ++ [.lookup fd (some key) fl]) = entries fd cap h := by
  rw [entries_append]
  simp only [hashStep]
  repeat' split
  all_goals rfl

/-- The kernel frozen at the entries `es`. -/
def frozen (fd cap : Nat) (es : Entries) : Kernel := fun _ c => (hashStep fd cap es c).2

/-- `iterNext` only makes lookups and next-key calls, so against kernels that agree on these it behaves the
    same. -/
theorem iterNext_frozen (m : MapData) (cap : Nat) (es : Entries) :
    ∀ (fuel : Nat) (s : Keys) (h : Hist), entries m.fd cap h = es →
      iterNext (hashKernel m.fd cap) m.fd (fun key h => hashGet (hashKernel m.fd cap) m key 0 h) fuel s h
        = iterNext (frozen m.fd cap es) m.fd (fun key h => hashGet (frozen m.fd cap es) m key 0 h) fuel s h ∧
      ∀ it s' h', iterNext (hashKernel m.fd cap) m.fd
          (fun key h => hashGet (hashKernel m.fd cap) m key 0 h) fuel s h = some (it, s', h') →
        entries m.fd cap h' = es := by
  intro fuel
  induction fuel with
  | zero => intro s h _; exact ⟨rfl, by intro it s' h' hh; simp [iterNext] at hh⟩
  | succ f ih =>
    intro s h he
    have hkn : keysNext (hashKernel m.fd cap) m.fd s h = keysNext (frozen m.fd cap es) m.fd s h ∧
        entries m.fd cap (keysNext (hashKernel m.fd cap) m.fd s h).2.2 = es := by
      unfold keysNext
      split
      · exact ⟨rfl, he⟩
      · have hk : ∀ key, bpfNextKey (hashKernel m.fd cap) m.fd key h = bpfNextKey (frozen m.fd cap es) m.fd key h := by
          intro key; simp only [bpfNextKey, sys, hashKernel, frozen, he]
        rw [hk]
        have hh : (bpfNextKey (frozen m.fd cap es) m.fd s.key h).2 = h ++ [.nextKey m.fd s.key] := by
          unfold bpfNextKey sys
          cases frozen m.fd cap es h (.nextKey m.fd s.key) with
          | ok o => rfl
          | error e => by_cases hE : e = ENOENT <;> simp [hE]
        refine ⟨rfl, ?_⟩
        cases hq : bpfNextKey (frozen m.fd cap es) m.fd s.key h with
        | mk q1 q2 =>
          rw [hq] at hh
          simp only at hh
          subst hh
          cases q1 with
          | error e => simp only; rw [entries_read, he]
          | ok key => simp only; rw [entries_read, he]
    obtain ⟨hkn1, hkn2⟩ := hkn
    simp only [iterNext]
    rw [← hkn1]
    cases hq : keysNext (hashKernel m.fd cap) m.fd s h with
    | mk q1 q23 =>
      obtain ⟨q2, q3⟩ := q23
      rw [hq] at hkn2
      simp only at hkn2
      cases q1 with
      | none => refine ⟨rfl, ?_⟩; intro it s' h' hh; simp at hh; rw [← hh.2.2]; exact hkn2
      | some q1 =>
        cases q1 with
        | error e => refine ⟨rfl, ?_⟩; intro it s' h' hh; simp at hh; rw [← hh.2.2]; exact hkn2
        | ok key =>
          have hg : hashGet (hashKernel m.fd cap) m key 0 q3 = hashGet (frozen m.fd cap es) m key 0 q3 := by
            simp only [hashGet, bpfLookup, sys, hashKernel, frozen, hkn2]
          have hgh : (hashGet (hashKernel m.fd cap) m key 0 q3).2 = q3 ++ [.lookup m.fd (some key) 0] := by
            unfold hashGet bpfLookup sys
            cases hashKernel m.fd cap q3 (.lookup m.fd (some key) 0) with
            | ok o => rfl
            | error e => by_cases hE : e = ENOENT <;> simp [hE]
          simp only
          rw [← hg]
          cases hw : hashGet (hashKernel m.fd cap) m key 0 q3 with
          | mk w1 w2 =>
            rw [hw] at hgh
            simp only at hgh
            subst hgh
            have hes : entries m.fd cap (q3 ++ [.lookup m.fd (some key) 0]) = es := by
              rw [entries_lookup, hkn2]
            cases w1 with
            | ok v => refine ⟨rfl, ?_⟩; intro it s' h' hh; simp at hh; rw [← hh.2.2]; exact hes
            | error e =>
              cases e
              case keyNotFound => exact ih q2 _ hes
              all_goals
                refine ⟨rfl, ?_⟩
                intro it s' h' hh
                simp at hh
                rw [← hh.2.2]
                exact hes

theorem iterAll_frozen (m : MapData) (cap : Nat) (es : Entries) :
    ∀ (fuel : Nat) (s : Keys) (h : Hist), entries m.fd cap h = es →
      iterAll (hashKernel m.fd cap) m.fd (fun key h => hashGet (hashKernel m.fd cap) m key 0 h) fuel s h
        = iterAll (frozen m.fd cap es) m.fd (fun key h => hashGet (frozen m.fd cap es) m key 0 h) fuel s h := by
  intro fuel
  induction fuel with
  | zero => intro s h _; rfl
  | succ f ih =>
    intro s h he
    obtain ⟨h1, h2⟩ := iterNext_frozen m cap es (f + 1) s h he
    simp only [iterAll]
    rw [← h1]
    cases hn : iterNext (hashKernel m.fd cap) m.fd
        (fun key h => hashGet (hashKernel m.fd cap) m key 0 h) (f + 1) s h with
    | none => rfl
    | some q =>
      obtain ⟨q1, q2, q3⟩ := q
      cases q1 with
      | none => rfl
      | some item =>
        have := ih q2 q3 (h2 _ _ _ hn)
        simp only [this]

theorem after_getElem (es : Entries) (hn : (es.map Prod.fst).Nodup) :
    ∀ (i : Nat) key, (es.map Prod.fst)[i]? = some key → after key es = (es.map Prod.fst)[i + 1]? := by
  have aux : ∀ (es : Entries), (es.map Prod.fst).Nodup → ∀ (i : Nat) key,
      (es.map Prod.fst)[i]? = some key →
      ((es.dropWhile (fun e => e.1 ≠ key)).drop 1).head?.map Prod.fst = (es.map Prod.fst)[i + 1]? := by
    intro es
    induction es with
    | nil => intro _ i key h; simp at h
    | cons e es ih =>
      intro hn i key h
      simp only [List.map_cons, List.nodup_cons] at hn
      match i, h with
      | 0, h =>
        simp at h
        subst h
        simp [List.dropWhile, List.head?_eq_getElem?]
      | i + 1, h =>
        simp only [List.map_cons, List.getElem?_cons_succ] at h
        have hne : e.1 ≠ key := by
          intro hh; subst hh; exact hn.1 (List.mem_of_getElem? h)
        have := ih hn.2 i key h
        simp only [List.map_cons, List.getElem?_cons_succ]
        rw [← this]
        rw [List.dropWhile_cons_of_pos (by simpa using hne)]
  intro i key h
  unfold after
  rw [if_pos (List.mem_of_getElem? h), aux es hn i key h]

/-- The kernel frozen at some entries enumerates their keys. -/
theorem frozen_enumerates (fd cap : Nat) (es : Entries) (hn : (es.map Prod.fst).Nodup) :
    Enumerates (frozen fd cap es) fd (es.map Prod.fst) where
  nodup := hn
  empty := by
    intro he h
    have : es = [] := by simpa using he
    subst this
    simp [frozen, hashStep]
  first := by
    intro h key hk
    cases es with
    | nil => simp at hk
    | cons e es => simp at hk; subst hk; simp [frozen, hashStep]
  next := by
    intro h i key key' h1 h2
    have := after_getElem es hn i key h1
    rw [h2] at this
    simp [frozen, hashStep, this]
  last := by
    intro h key hk
    rw [List.getLast?_eq_getElem?] at hk
    have hlt : (es.map Prod.fst).length - 1 < (es.map Prod.fst).length := (List.getElem?_eq_some_iff.mp hk).1
    have := after_getElem es hn _ key hk
    rw [List.getElem?_eq_none (by omega)] at this
    simp [frozen, hashStep, this]

/-- **C56 (iteration).** After any history of calls on a kernel hash map nobody else uses, iterating ends and
    yields exactly the entries of the finite map the kernel holds, each key once. -/
theorem C56_iteration (m : MapData) (cap : Nat) (h : Hist) :
    ∃ (fuel : Nat) (items : List (Bytes × Bytes)) (s : Keys) (h' : Hist),
      iterAll (hashKernel m.fd cap) m.fd (fun key h => hashGet (hashKernel m.fd cap) m key 0 h) fuel {} h
        = some (items.map .ok, s, h') ∧
      (items.map Prod.fst).Nodup ∧
      ∀ key v, (key, v) ∈ items ↔ fmapOf m.fd cap h key = some v := by
  have hn := entries_nodup m.fd cap h
  generalize hes : entries m.fd cap h = es at hn
  have hen := frozen_enumerates m.fd cap es hn
  obtain ⟨h', s, hit⟩ := C30_unmodified (frozen m.fd cap es) m (es.map Prod.fst)
    (fun key => (es.lookup key).getD []) hen (by
      intro h key hk
      have hs := (lookup_isSome_iff key es).mpr hk
      obtain ⟨v, hv⟩ := Option.isSome_iff_exists.mp hs
      exact ⟨{ data := v }, by simp [frozen, hashStep, hv], by simp [hv]⟩) h
  refine ⟨(es.map Prod.fst).length + 1,
    (es.map Prod.fst).map (fun key => (key, (es.lookup key).getD [])), s, h', ?_, ?_, ?_⟩
  · rw [iterAll_frozen m cap es _ _ _ hes, hit]; simp only [List.map_map]; rfl
  · rw [List.map_map]
    have : (Prod.fst ∘ fun key => (key, (es.lookup key).getD [])) = (id : Bytes → Bytes) := rfl
    rw [this, List.map_id]; exact hn
  · intro key v
    simp only [fmapOf, hes, List.mem_map, Prod.mk.injEq]
    constructor
    · rintro ⟨a, ⟨e, he, rfl⟩, rfl, hv⟩
      have hs := (lookup_isSome_iff e.1 es).mpr (List.mem_map.mpr ⟨e, he, rfl⟩)
      obtain ⟨w, hw⟩ := Option.isSome_iff_exists.mp hs
      rw [hw] at hv
      simp at hv
      rw [hw, hv]
    · intro hl
      have : key ∈ es.map Prod.fst := (lookup_isSome_iff key es).mp (by rw [hl]; rfl)
      obtain ⟨e, he, hek⟩ := List.mem_map.mp this
      exact ⟨key, ⟨e, he, hek⟩, rfl, by rw [hl]; rfl⟩

/-! ## Queues and stacks -/

/-- The kernel's queue (`fifo = true`) or stack of at most `cap` elements (Linux
    `kernel/bpf/queue_stack_maps.c`): a push with flag 2 replaces the oldest element of a full map. -/
def Spec.queueStep (fifo : Bool) (fd cap : Nat) (q : List Bytes) (c : Call) : List Bytes × Except Nat Out :=
  match c with
  | .update f none v flags =>
      if f ≠ fd then (q, .error 9)
      else if flags = 1 ∨ flags > 2 then (q, .error 22)
      else if q.length < cap then (q ++ [v], .ok {})
      else if flags = 2 then (q.drop 1 ++ [v], .ok {})
      else (q, .error 7)
  | .lookupDelete f none flags =>
      if f ≠ fd then (q, .error 9)
      else if flags ≠ 0 then (q, .error 22)
      else
        match (if fifo then q.head? else q.getLast?) with
        | some v => (if fifo then q.drop 1 else q.dropLast, .ok { data := v })
        | none => (q, .error 2)
  | _ => (q, .error 22)

/-- The kernel with a fresh queue or stack. -/
def Spec.queueKernel (fifo : Bool) (fd cap : Nat) : Kernel := fun h c =>
  (queueStep fifo fd cap (h.foldl (fun q c => (queueStep fifo fd cap q c).1) []) c).2

/-- Push several values, then pop several times. -/
def pushAll (k : Kernel) (m : MapData) : List Bytes → Hist → Bool × Hist
  | [], h => (true, h)
  | v :: vs, h =>
      match push k m v 0 h with
      | (.ok (), h) => pushAll k m vs h
      | (.error _, h) => (false, h)

/-- Pop until the map reports that no element is left, at most `n` times. -/
def popAll (k : Kernel) (m : MapData) : Nat → Hist → List (Except MapError Bytes) × Hist
  | 0, h => ([], h)
  | n + 1, h =>
      match pop k m 0 h with
      | (r, h) => let (rs, h) := popAll k m n h; (r :: rs, h)

/-- The contents of the queue after the calls `h`. -/
def queueOf (fifo : Bool) (fd cap : Nat) (h : Hist) : List Bytes :=
  h.foldl (fun q c => (queueStep fifo fd cap q c).1) []

theorem pushAll_queue (fifo : Bool) (m : MapData) (cap : Nat) (vs : List Bytes) :
    ∀ (h : Hist), (queueOf fifo m.fd cap h).length + vs.length ≤ cap →
      (pushAll (queueKernel fifo m.fd cap) m vs h).1 = true ∧
      queueOf fifo m.fd cap (pushAll (queueKernel fifo m.fd cap) m vs h).2
        = queueOf fifo m.fd cap h ++ vs := by
  induction vs with
  | nil => intro h _; simp [pushAll]
  | cons v vs ih =>
    intro h hc
    simp only [List.length_cons] at hc
    have hlt : (queueOf fifo m.fd cap h).length < cap := by omega
    have hst : queueStep fifo m.fd cap (queueOf fifo m.fd cap h) (.update m.fd none v 0)
        = (queueOf fifo m.fd cap h ++ [v], .ok {}) := by simp [queueStep, hlt]
    have hk : queueKernel fifo m.fd cap h (.update m.fd none v 0) = .ok {} := by
      show (queueStep fifo m.fd cap (queueOf fifo m.fd cap h) _).2 = _
      rw [hst]
    have hq : queueOf fifo m.fd cap (h ++ [.update m.fd none v 0]) = queueOf fifo m.fd cap h ++ [v] := by
      rw [queueOf, List.foldl_append]
      show (queueStep fifo m.fd cap (queueOf fifo m.fd cap h) _).1 = _
      rw [hst]
    have hp : push (queueKernel fifo m.fd cap) m v 0 h = (.ok (), h ++ [.update m.fd none v 0]) := by
      simp [push, bpfUpdate, sys, hk]
    obtain ⟨h1, h2⟩ := ih (h ++ [.update m.fd none v 0]) (by rw [hq]; simp; omega)
    rw [pushAll, hp]
    exact ⟨h1, by rw [h2, hq]; simp⟩

theorem popAll_queue (fifo : Bool) (m : MapData) (cap : Nat) :
    ∀ (n : Nat) (h : Hist), (queueOf fifo m.fd cap h).length ≤ n →
      (popAll (queueKernel fifo m.fd cap) m n h).1
        = ((if fifo then queueOf fifo m.fd cap h else (queueOf fifo m.fd cap h).reverse).map .ok) ++
          List.replicate (n - (queueOf fifo m.fd cap h).length) (.error .elementNotFound) := by
  intro n
  induction n with
  | zero =>
    intro h hn
    have : queueOf fifo m.fd cap h = [] := List.length_eq_zero_iff.mp (by omega)
    simp [popAll, this]
  | succ n ih =>
    intro h hn
    cases hv : (if fifo then (queueOf fifo m.fd cap h).head? else (queueOf fifo m.fd cap h).getLast?) with
    | none =>
      have hq : queueOf fifo m.fd cap h = [] := by cases fifo <;> simpa using hv
      have hst : queueStep fifo m.fd cap (queueOf fifo m.fd cap h) (.lookupDelete m.fd none 0)
          = (queueOf fifo m.fd cap h, .error 2) := by simp [queueStep, hq]
      have hk : queueKernel fifo m.fd cap h (.lookupDelete m.fd none 0) = .error 2 := by
        show (queueStep fifo m.fd cap (queueOf fifo m.fd cap h) _).2 = _
        rw [hst]
      have hq' : queueOf fifo m.fd cap (h ++ [.lookupDelete m.fd none 0]) = [] := by
        rw [queueOf, List.foldl_append]
        show (queueStep fifo m.fd cap (queueOf fifo m.fd cap h) _).1 = _
        rw [hst, hq]
      have hp : pop (queueKernel fifo m.fd cap) m 0 h
          = (.error .elementNotFound, h ++ [.lookupDelete m.fd none 0]) := by
        simp [pop, bpfLookupDelete, sys, hk, ENOENT]
      rw [popAll, hp]
      simp only
      rw [ih _ (by rw [hq']; simp), hq', hq]
      simp [List.replicate_succ]
    | some v =>
      have hst : queueStep fifo m.fd cap (queueOf fifo m.fd cap h) (.lookupDelete m.fd none 0)
          = (if fifo then (queueOf fifo m.fd cap h).drop 1 else (queueOf fifo m.fd cap h).dropLast,
            .ok { data := v }) := by simp [queueStep, hv]
      have hk : queueKernel fifo m.fd cap h (.lookupDelete m.fd none 0) = .ok { data := v } := by
        show (queueStep fifo m.fd cap (queueOf fifo m.fd cap h) _).2 = _
        rw [hst]
      have hq' : queueOf fifo m.fd cap (h ++ [.lookupDelete m.fd none 0])
          = if fifo then (queueOf fifo m.fd cap h).drop 1 else (queueOf fifo m.fd cap h).dropLast := by
        rw [queueOf, List.foldl_append]
        show (queueStep fifo m.fd cap (queueOf fifo m.fd cap h) _).1 = _
        rw [hst]
      have hp : pop (queueKernel fifo m.fd cap) m 0 h
          = (.ok v, h ++ [.lookupDelete m.fd none 0]) := by
        simp [pop, bpfLookupDelete, sys, hk]
      rw [popAll, hp]
      simp only
      rw [ih _ (by rw [hq']; cases fifo <;> simp <;> omega), hq']
      generalize queueOf fifo m.fd cap h = q at hv hn ⊢
      cases fifo with
      | true =>
        cases q with
        | nil => simp at hv
        | cons w q =>
          simp at hv
          subst hv
          simp
      | false =>
        simp at hv
        obtain ⟨q', rfl⟩ : ∃ q', q = q' ++ [v] := by
          obtain ⟨ys, hys⟩ := List.getLast?_eq_some_iff.mp hv
          exact ⟨ys, hys⟩
        simp

/-- **C56 (queues and stacks).** Values pushed to a fresh queue of sufficient size are popped in the order
    they were pushed (a stack: in reverse), each once; popping further reports "element not found". -/
theorem C56_queue_order (fifo : Bool) (m : MapData) (cap : Nat) (vs : List Bytes) (extra : Nat)
    (hc : vs.length ≤ cap) :
    let k := queueKernel fifo m.fd cap
    (pushAll k m vs []).1 = true ∧
    (popAll k m (vs.length + extra) (pushAll k m vs []).2).1
      = ((if fifo then vs else vs.reverse).map .ok) ++
        List.replicate extra (.error .elementNotFound) := by
  intro k
  obtain ⟨h1, h2⟩ := pushAll_queue fifo m cap vs [] (by simpa [queueOf] using hc)
  have h2' : queueOf fifo m.fd cap (pushAll k m vs []).2 = vs := by simpa [queueOf] using h2
  refine ⟨h1, ?_⟩
  rw [popAll_queue fifo m cap (vs.length + extra) _ (by rw [h2']; omega), h2',
    show vs.length + extra - vs.length = extra by omega]

example : (popAll (queueKernel true 5 4) ⟨5, 0, 1, 4⟩ 3
    (pushAll (queueKernel true 5 4) ⟨5, 0, 1, 4⟩ [[1], [2]] []).2).1
    = [.ok [1], .ok [2], .error .elementNotFound] := by decide +kernel

end Verif.Maps
