import Verif.Shared.Array

set_option linter.unusedSimpArgs false
set_option linter.unusedVariables false

/-!
# C87: queues, stacks and Bloom filters shared with programs
-/
namespace Verif.Shared
open Verif.Maps Verif.Bytes Verif.Shared.Spec

/-- The outcome of a program's `pop` or `peek`. -/
def ofPop : Except Int (Option Bytes) → Res
  | .ok (some v) => .value v
  | .ok none => .missing
  | .error e => .failed (-e).toNat

/-- Run one operation of the process or of a program on the kernel's queue or stack; `junk` is what the
    program's uninitialised buffer holds. -/
def queueShared (m : MapData) (fifo : Bool) (cap : Nat) (junk : Bytes) (q : List Bytes) :
    QueueOp → List Bytes × Res
  | .processPush v flags =>
      let r := asProcess (Maps.Spec.queueStep fifo m.fd cap) (fun k h => push k m v flags h) q
      (r.2, ofSet r.1)
  | .processPop =>
      let r := asProcess (Maps.Spec.queueStep fifo m.fd cap) (fun k h => pop k m 0 h) q
      (r.2, ofGet r.1)
  | .programPush v flags =>
      let r := qPush (queueHelpers fifo m.fd cap) v flags q
      (r.2, ofErr r.1)
  | .programPop =>
      let r := qPop (queueHelpers fifo m.fd cap) junk q
      (r.2, ofPop r.1)
  | .programPeek =>
      let r := qPeek (queueHelpers fifo m.fd cap) junk q
      (r.2, ofPop r.1)

/-- Run several. -/
def queueSharedAll (m : MapData) (fifo : Bool) (cap : Nat) (junk : Bytes) :
    List Bytes → List QueueOp → List Bytes × List Res
  | q, [] => (q, [])
  | q, op :: ops =>
      let r := queueShared m fifo cap junk q op
      let rs := queueSharedAll m fifo cap junk r.1 ops
      (rs.1, r.2 :: rs.2)

theorem next_some {fifo : Bool} {q : List Bytes} {v : Bytes} {rest : List Bytes}
    (h : next fifo q = some (v, rest)) :
    (if fifo then q.head? else q.getLast?) = some v ∧ (if fifo then q.drop 1 else q.dropLast) = rest := by
  cases fifo with
  | true =>
    cases q with
    | nil => simp [next] at h
    | cons w q => simp [next] at h; simp [h]
  | false =>
    rcases List.eq_nil_or_concat q with rfl | ⟨q', w, rfl⟩
    · simp [next] at h
    · simp [next] at h; simp [h]

theorem next_none {fifo : Bool} {q : List Bytes} (h : next fifo q = none) : q = [] := by
  cases fifo with
  | true => cases q with
    | nil => rfl
    | cons w q => simp [next] at h
  | false =>
    rcases List.eq_nil_or_concat q with rfl | ⟨q', w, rfl⟩
    · rfl
    · simp [next] at h

theorem pushStep (fifo : Bool) (fd cap : Nat) (q : List Bytes) (v : Bytes) (flags : Nat) :
    let r := Maps.Spec.queueStep fifo fd cap q (.update fd none v flags)
    r.1 = (offer cap q v flags).1 ∧ ofSys r.2 = (offer cap q v flags).2 ∧
      ∀ e, r.2 = .error e → 0 < e ∧ e ≤ 4095 := by
  intro r
  by_cases h1 : flags = 1 ∨ flags > 2
  · have hr : r = (q, .error 22) := by simp [r, Maps.Spec.queueStep, h1]
    rw [hr, offer, if_pos h1]; exact ⟨rfl, rfl, by intro e he; cases he; omega⟩
  · by_cases h2 : q.length < cap
    · have hr : r = (q ++ [v], .ok {}) := by simp [r, Maps.Spec.queueStep, h1, h2]
      rw [hr, offer, if_neg h1, if_pos h2]; exact ⟨rfl, rfl, by intro e he; cases he⟩
    · by_cases h3 : flags = 2
      · have hr : r = (q.drop 1 ++ [v], .ok {}) := by
          simp only [r, Maps.Spec.queueStep, if_neg h1, if_neg h2, if_pos h3, ne_eq, not_true_eq_false,
            if_false]
        rw [hr, offer, if_neg h1, if_neg h2, if_pos h3, List.drop_one]
        exact ⟨rfl, rfl, by intro e he; cases he⟩
      · have hr : r = (q, .error 7) := by
          simp only [r, Maps.Spec.queueStep, if_neg h1, if_neg h2, if_neg h3, ne_eq, not_true_eq_false,
            if_false]
        rw [hr, offer, if_neg h1, if_neg h2, if_neg h3]; exact ⟨rfl, rfl, by intro e he; cases he; omega⟩

theorem queueShared_same (m : MapData) (fifo : Bool) (cap : Nat) (junk : Bytes) (q : List Bytes)
    (op : QueueOp) : queueShared m fifo cap junk q op = queueOp fifo cap q op := by
  cases op with
  | processPush v flags =>
    obtain ⟨h1, h2, h3⟩ := pushStep fifo m.fd cap q v flags
    simp only [queueOp]
    rw [Prod.ext_iff, ← h1, ← h2]
    simp only [queueShared, asProcess, seenBy, push, bpfUpdate, sys, List.foldl_nil]
    cases (Maps.Spec.queueStep fifo m.fd cap q (.update m.fd none v flags)).2 <;> exact ⟨rfl, rfl⟩
  | programPush v flags =>
    obtain ⟨h1, h2, h3⟩ := pushStep fifo m.fd cap q v flags
    obtain ⟨g1, g2⟩ := qPush_eq (queueHelpers fifo m.fd cap) v flags q _ _ rfl h3
    simp only [queueOp, queueShared, g1, g2, h1, h2]
  | processPop =>
    cases hn : next fifo q with
    | some p =>
      obtain ⟨v, rest⟩ := p
      obtain ⟨h1, h2⟩ := next_some hn
      have hs : Maps.Spec.queueStep fifo m.fd cap q (.lookupDelete m.fd none 0)
          = (rest, .ok { data := v }) := by
        simp only [Maps.Spec.queueStep, h1, h2, ne_eq, not_true_eq_false, if_false]
      simp only [queueOp, hn, queueShared, asProcess, seenBy, pop, bpfLookupDelete, sys, List.foldl_nil, hs,
        List.nil_append, List.foldl_cons, ofGet]
    | none =>
      have hq := next_none hn
      subst hq
      simp [queueOp, hn, queueShared, asProcess, seenBy, pop, bpfLookupDelete, sys, Maps.Spec.queueStep,
        ENOENT, ofGet, ofMapErr]
  | programPop =>
    cases hn : next fifo q with
    | some p =>
      obtain ⟨v, rest⟩ := p
      obtain ⟨h1, h2⟩ := next_some hn
      have hs : Maps.Spec.queueStep fifo m.fd cap q (.lookupDelete m.fd none 0)
          = (rest, .ok { data := v }) := by
        simp only [Maps.Spec.queueStep, h1, h2, ne_eq, not_true_eq_false, if_false]
      simp only [queueOp, hn, queueShared, qPop, queueHelpers, hs]
      rfl
    | none =>
      have hq := next_none hn
      subst hq
      have hs : Maps.Spec.queueStep fifo m.fd cap [] (.lookupDelete m.fd none 0) = ([], .error 2) := by
        simp [Maps.Spec.queueStep]
      simp only [queueOp, hn, queueShared, qPop, queueHelpers, hs]
      rfl
  | programPeek =>
    cases hn : next fifo q with
    | some p =>
      obtain ⟨v, rest⟩ := p
      obtain ⟨h1, h2⟩ := next_some hn
      simp only [queueOp, hn, queueShared, qPeek, queueHelpers, h1]
      rfl
    | none =>
      have hq := next_none hn
      subst hq
      have hs : (if fifo then ([] : List Bytes).head? else ([] : List Bytes).getLast?) = none := by simp
      simp only [queueOp, hn, queueShared, qPeek, queueHelpers, hs]
      rfl

/-- **C87 (queues and stacks).** A process and any number of programs push to and pop from a queue or
    stack, in any order. Every operation returns what it returns on one queue (stack): values leave in the
    order they were pushed by either side (in reverse), each to exactly one taker, an empty queue is
    reported as empty to both sides and never as a value from the uninitialised buffer, and a full one
    refuses the push, or drops its oldest value if the flags ask for it, on both sides. -/
theorem C87_queue (m : MapData) (fifo : Bool) (cap : Nat) (junk : Bytes) (ops : List QueueOp) (q : List Bytes) :
    queueSharedAll m fifo cap junk q ops = queueRun fifo cap q ops := by
  induction ops generalizing q with
  | nil => rfl
  | cons op ops ih => simp only [queueSharedAll, queueRun, queueShared_same, ih]

example :
    (queueSharedAll ⟨5, 0, 1, 2⟩ true 2 [0] []
      [.programPush [1] 0, .processPush [2] 0, .programPush [3] 0, .programPeek, .programPush [3] 2,
       .processPop, .programPop, .programPop, .processPop]).2
    = [.done, .done, .failed 7, .value [1], .done, .value [2], .value [3], .missing, .missing] := by
  decide +kernel

example :
    (queueSharedAll ⟨5, 0, 1, 2⟩ false 2 [0] []
      [.programPush [1] 0, .processPush [2] 0, .programPeek, .programPop, .processPop, .programPeek]).2
    = [.done, .done, .value [2], .value [2], .value [1], .missing] := by decide +kernel

/-- What a function of the kernel returned, as the 32 bits an eBPF program looks at: zero, an error number, and the buffer. -/
def Spec.Told (ret : Int) (buf : Bytes) : Except Int (Option Bytes) → Prop
  | .ok (some v) => (2 ^ 32 : Int) ∣ ret ∧ v = buf
  | .ok none => (2 ^ 32 : Int) ∣ ret + 2
  | .error e => e ≠ 0 ∧ e ≠ -2 ∧ (2 ^ 32 : Int) ∣ ret - e

theorem qVerdict_told (ret : Int) (buf : Bytes) : Spec.Told ret buf (qVerdict ret buf) := by
  have hd : (2 ^ 32 : Int) ∣ ret - toI32 ret := by
    unfold toI32
    have h := Int.bmod_emod (x := ret) (m := 4294967296)
    show (4294967296 : Int) ∣ _
    omega
  unfold qVerdict
  split
  · rename_i h; rw [h] at hd; exact ⟨by simpa using hd, rfl⟩
  · split
    · rename_i h; rw [h] at hd; exact hd
    · rename_i h1 h2; exact ⟨h1, h2, hd⟩

/-- **C87.** Whatever the kernel does, `pop` and `peek` of eBPF programs give a value only if the kernel said that it wrote one, and
then that value; they say that there is none only if the kernel did; every other error is passed on. -/
theorem C87_told {σ : Type} (H : Helpers σ) (junk : Bytes) (s : σ) :
    Spec.Told (H.pop junk s).1 (H.pop junk s).2.1 (qPop H junk s).1 ∧ (qPop H junk s).2 = (H.pop junk s).2.2 ∧
    Spec.Told (H.peek junk s).1 (H.peek junk s).2.1 (qPeek H junk s).1 ∧ (qPeek H junk s).2 = (H.peek junk s).2.2 :=
  ⟨qVerdict_told _ _, rfl, qVerdict_told _ _, rfl⟩

example : (qPop (queueHelpers true 3 4) [1] [[7], [8]]).1 = .ok (some [7]) ∧
    (qPop (queueHelpers true 3 4) [1] []).1 = .ok none := by decide +kernel

/-- **C87 (every value once).** Of all values pushed with flag 0 to a queue by either side, those not
    refused are, in the order of the pushes, the values popped by either side in the order of the pops,
    followed by those still queued. -/
theorem C87_conserved (m : MapData) (cap : Nat) (junk : Bytes) (ops : List QueueOp) (q : List Bytes)
    (hf : ∀ v f, (QueueOp.processPush v f ∈ ops ∨ QueueOp.programPush v f ∈ ops) → f = 0) :
    let r := queueSharedAll m true cap junk q ops
    q ++ (ops.zip r.2).filterMap (fun x => match x with
      | (.processPush v _, .done) => some v
      | (.programPush v _, .done) => some v
      | _ => none)
    = (ops.zip r.2).filterMap (fun x => match x with
      | (.processPop, .value v) => some v
      | (.programPop, .value v) => some v
      | _ => none) ++ r.1 := by
  intro r
  simp only [r, C87_queue]
  clear r
  induction ops generalizing q with
  | nil => simp [queueRun]
  | cons op ops ih =>
    have ih' := fun q' => ih q' (fun v f h => hf v f (by
      rcases h with h | h
      · exact Or.inl (List.mem_cons_of_mem _ h)
      · exact Or.inr (List.mem_cons_of_mem _ h)))
    simp only [queueRun, List.zip_cons_cons]
    cases op with
    | processPush v f =>
      have h0 : f = 0 := hf v f (Or.inl (by simp))
      subst h0
      by_cases hc : q.length < cap
      · have : queueOp true cap q (.processPush v 0) = (q ++ [v], .done) := by simp [queueOp, offer, hc]
        rw [this]
        have := ih' (q ++ [v])
        simp only [List.filterMap_cons] at *
        rw [← this]; simp
      · have : queueOp true cap q (.processPush v 0) = (q, .failed 7) := by simp [queueOp, offer, hc]
        rw [this]
        have := ih' q
        simp only [List.filterMap_cons] at *
        rw [← this]
    | programPush v f =>
      have h0 : f = 0 := hf v f (Or.inr (by simp))
      subst h0
      by_cases hc : q.length < cap
      · have : queueOp true cap q (.programPush v 0) = (q ++ [v], .done) := by simp [queueOp, offer, hc]
        rw [this]
        have := ih' (q ++ [v])
        simp only [List.filterMap_cons] at *
        rw [← this]; simp
      · have : queueOp true cap q (.programPush v 0) = (q, .failed 7) := by simp [queueOp, offer, hc]
        rw [this]
        have := ih' q
        simp only [List.filterMap_cons] at *
        rw [← this]
    | processPop =>
      cases q with
      | nil =>
        have : queueOp true cap [] .processPop = ([], .missing) := by simp [queueOp, next]
        rw [this]
        have := ih' []
        simp only [List.filterMap_cons] at *
        rw [← this]
      | cons w q =>
        have : queueOp true cap (w :: q) .processPop = (q, .value w) := by simp [queueOp, next]
        rw [this]
        have := ih' q
        simp only [List.filterMap_cons, List.cons_append] at *
        rw [← this]
    | programPop =>
      cases q with
      | nil =>
        have : queueOp true cap [] .programPop = ([], .missing) := by simp [queueOp, next]
        rw [this]
        have := ih' []
        simp only [List.filterMap_cons] at *
        rw [← this]
      | cons w q =>
        have : queueOp true cap (w :: q) .programPop = (q, .value w) := by simp [queueOp, next]
        rw [this]
        have := ih' q
        simp only [List.filterMap_cons, List.cons_append] at *
        rw [← this]
    | programPeek =>
      have : (queueOp true cap q .programPeek).1 = q := by
        cases q <;> simp [queueOp, next]
      rw [this]
      have := ih' q
      simp only [List.filterMap_cons] at *
      rw [← this]

/-! ## Bloom filters -/

/-- Run one operation of the process or of a program on the kernel's Bloom filter. -/
def bloomShared (m : MapData) (extra : List Bytes → Bytes → Bool) (vs : List Bytes) : BloomOp → List Bytes × Res
  | .processInsert v =>
      let r := asProcess (bloomStep m.fd extra) (fun k h => push k m v 0 h) vs
      (r.2, ofSet r.1)
  | .processContains v =>
      let r := asProcess (bloomStep m.fd extra) (fun k h => bloomContains k m v 0 h) vs
      (r.2, ofSet r.1)
  | .programInsert v =>
      let r := qPush (bloomHelpers m.fd extra) v 0 vs
      (r.2, ofErr r.1)
  | .programContains v =>
      let r := bfContains (bloomHelpers m.fd extra) v vs
      (r.2, ofErr r.1)

/-- Run several. -/
def bloomSharedAll (m : MapData) (extra : List Bytes → Bytes → Bool) : List Bytes → List BloomOp → List Bytes × List Res
  | vs, [] => (vs, [])
  | vs, op :: ops =>
      let r := bloomShared m extra vs op
      let rs := bloomSharedAll m extra r.1 ops
      (rs.1, r.2 :: rs.2)

theorem bloomShared_eq (m : MapData) (extra : List Bytes → Bytes → Bool) (vs : List Bytes) (op : BloomOp) :
    (bloomShared m extra vs op).1 = op.added.toList ++ vs ∧
    (op.added.isSome → (bloomShared m extra vs op).2 = .done) ∧
    (∀ v, op.asked = some v → v ∈ vs → (bloomShared m extra vs op).2 = .done) ∧
    (∀ v, op.asked = some v → v ∉ vs → extra vs v = false →
      (bloomShared m extra vs op).2 = .missing ∨ (bloomShared m extra vs op).2 = .failed 2) := by
  cases op with
  | processInsert v =>
    have : bloomShared m extra vs (.processInsert v) = (v :: vs, .done) := by
      simp [bloomShared, asProcess, seenBy, push, bpfUpdate, sys, bloomStep, ofSet]
    simp [this, BloomOp.added, BloomOp.asked]
  | programInsert v =>
    have : bloomShared m extra vs (.programInsert v) = (v :: vs, .done) := by
      simp [bloomShared, qPush, bloomHelpers, bloomStep, helperRet, ofErr]
    simp [this, BloomOp.added, BloomOp.asked]
  | processContains v =>
    by_cases h : v ∈ vs ∨ extra vs v = true
    · have : bloomShared m extra vs (.processContains v) = (vs, .done) := by
        simp only [bloomShared, asProcess, seenBy, bloomContains, bpfPeek, sys, List.foldl_nil, bloomStep,
          ne_eq, not_true_eq_false, if_false, if_pos h, List.nil_append, List.foldl_cons, ofSet]
      rw [this]
      refine ⟨rfl, by simp [BloomOp.added], fun _ _ _ => rfl, fun w hw h1 h2 => ?_⟩
      cases hw
      rcases h with h | h
      · exact absurd h h1
      · rw [h2] at h; cases h
    · have : bloomShared m extra vs (.processContains v) = (vs, .missing) := by
        simp only [bloomShared, asProcess, seenBy, bloomContains, bpfPeek, sys, List.foldl_nil, bloomStep,
          ne_eq, not_true_eq_false, if_false, if_neg h, List.nil_append, List.foldl_cons, ofSet, ENOENT,
          if_true, ofMapErr]
      rw [this]
      refine ⟨rfl, by simp [BloomOp.added], fun w hw h1 => ?_, fun _ _ _ _ => Or.inl rfl⟩
      cases hw
      exact absurd (Or.inl h1) h
  | programContains v =>
    by_cases h : v ∈ vs ∨ extra vs v = true
    · have : bloomShared m extra vs (.programContains v) = (vs, .done) := by
        simp only [bloomShared, bfContains, bloomHelpers, bloomStep, ne_eq, not_true_eq_false, if_false,
          if_pos h, helperRet, if_true, ofErr]
      rw [this]
      refine ⟨rfl, by simp [BloomOp.added], fun _ _ _ => rfl, fun w hw h1 h2 => ?_⟩
      cases hw
      rcases h with h | h
      · exact absurd h h1
      · rw [h2] at h; cases h
    · have : bloomShared m extra vs (.programContains v) = (vs, .failed 2) := by
        simp only [bloomShared, bfContains, bloomHelpers, bloomStep, ne_eq, not_true_eq_false, if_false,
          if_neg h, helperRet]
        rfl
      rw [this]
      refine ⟨rfl, by simp [BloomOp.added], fun w hw h1 => ?_, fun _ _ _ _ => Or.inr rfl⟩
      cases hw
      exact absurd (Or.inl h1) h

theorem bloomSharedAll_append (m : MapData) (extra : List Bytes → Bytes → Bool) (a b : List BloomOp)
    (vs : List Bytes) :
    bloomSharedAll m extra vs (a ++ b)
      = ((bloomSharedAll m extra (bloomSharedAll m extra vs a).1 b).1,
         (bloomSharedAll m extra vs a).2 ++ (bloomSharedAll m extra (bloomSharedAll m extra vs a).1 b).2) := by
  induction a generalizing vs with
  | nil => rfl
  | cons op a ih => simp only [List.cons_append, bloomSharedAll, ih]

theorem bloomSharedAll_mem (m : MapData) (extra : List Bytes → Bytes → Bool) (ops : List BloomOp)
    (vs : List Bytes) (v : Bytes) :
    v ∈ (bloomSharedAll m extra vs ops).1 ↔ v ∈ vs ∨ ∃ op ∈ ops, op.added = some v := by
  induction ops generalizing vs with
  | nil => simp [bloomSharedAll]
  | cons op ops ih =>
    simp only [bloomSharedAll, ih, (bloomShared_eq m extra vs op).1, List.mem_append, List.mem_cons]
    constructor
    · rintro ((h | h) | ⟨o, h1, h2⟩)
      · exact Or.inr ⟨op, Or.inl rfl, by simpa using h⟩
      · exact Or.inl h
      · exact Or.inr ⟨o, Or.inr h1, h2⟩
    · rintro (h | ⟨o, rfl | h1, h2⟩)
      · exact Or.inl (Or.inr h)
      · exact Or.inl (Or.inl (by simp [h2]))
      · exact Or.inr ⟨o, h1, h2⟩

/-- **C87 (Bloom filters).** A process and any number of programs insert values into a Bloom filter and ask
    for values, in any order. Inserting succeeds on both sides. A value inserted by either side is
    reported as present to both sides ever after; a value nobody inserted is reported as absent unless it
    collides in the kernel's filter. -/
theorem C87_bloom (m : MapData) (extra : List Bytes → Bytes → Bool) (before after : List BloomOp)
    (op : BloomOp) :
    ∃ res, (bloomSharedAll m extra [] (before ++ op :: after)).2[before.length]? = some res ∧
      (op.added.isSome → res = .done) ∧
      (∀ v, op.asked = some v → (∃ o ∈ before, o.added = some v) → res = .done) ∧
      (∀ v, op.asked = some v → (¬ ∃ o ∈ before, o.added = some v) → (∀ vs w, extra vs w = false) →
        res = .missing ∨ res = .failed 2) := by
  have hlen : ∀ (ops : List BloomOp) (vs : List Bytes), (bloomSharedAll m extra vs ops).2.length = ops.length := by
    intro ops
    induction ops with
    | nil => intro vs; rfl
    | cons o ops ih => intro vs; simp [bloomSharedAll, ih]
  obtain ⟨h1, h2, h3, h4⟩ := bloomShared_eq m extra (bloomSharedAll m extra [] before).1 op
  refine ⟨(bloomShared m extra (bloomSharedAll m extra [] before).1 op).2, ?_, h2, ?_, ?_⟩
  · rw [bloomSharedAll_append, List.getElem?_append_right (by rw [hlen]; omega), hlen, Nat.sub_self]
    simp [bloomSharedAll]
  · intro v hv hb
    exact h3 v hv ((bloomSharedAll_mem m extra before [] v).mpr (Or.inr hb))
  · intro v hv hb hx
    refine h4 v hv (fun hm => ?_) (hx _ _)
    rcases (bloomSharedAll_mem m extra before [] v).mp hm with h | h
    · simp at h
    · exact hb h

example :
    (bloomSharedAll ⟨5, 0, 1, 2⟩ (fun _ _ => false) []
      [.programInsert [1], .processContains [1], .processContains [2], .processInsert [2], .programContains [2],
       .programContains [3]]).2
    = [.done, .done, .missing, .done, .done, .failed 2] := by decide +kernel

end Verif.Shared
