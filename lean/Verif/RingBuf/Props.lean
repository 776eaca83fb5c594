import Verif.RingBuf.Invariant
/-!
# C01-C03: the ring buffer consumer

All theorems quantify over every schedule of the system in `Model.lean`: any interleaving of consumer
steps, store-buffer flushes, reservations, writes, commits and notification decisions, from an empty
ring at any position with any memory content. Ring sizes are `2 ^ m` with `3 ≤ m ≤ 30`; `m = 31` is
the only other size a `u32` can express and is refuted at the end of the file.
-/
set_option linter.unusedSimpArgs false
set_option linter.unusedVariables false
namespace Verif.RingBuf
open Verif.Bytes

/-! ## C01: exact delivery -/

/-- What `next` has returned so far is exactly the submitted samples among the first `n`
reservations, in reservation order, each once, none altered, and all of those reservations are
committed. Missing for the full claim: ring size 2^31 (see `C01_size_2_31_violated`). -/
theorem C01_delivered_exact_partial (m : Nat) (h3 : 3 ≤ m) (hm : m ≤ 30) (s : Sys)
    (h : Spec.Reachable (2 ^ m) s) :
    ∃ n, n ≤ s.recs.length ∧ (∀ r ∈ s.recs.take n, Spec.Committed r) ∧
      s.delivered = Spec.samples s.recs n := by
  obtain ⟨k, hk⟩ := reachable_inv (2 ^ m) m rfl h3 hm h
  have committed : ∀ n, (∀ (i : Nat) (r : Rec), i < n → s.recs[i]? = some r → r.status ≠ .busy) →
      ∀ r ∈ s.recs.take n, Spec.Committed r := by
    intro n hn r hr
    obtain ⟨i, hi, rfl⟩ := List.mem_iff_getElem.mp hr
    rw [List.getElem_take]
    simp only [List.length_take] at hi
    exact hn i _ (by omega) (List.getElem?_eq_getElem (by omega))
  have hd := hk.deliv
  have hp := hk.pcInv
  cases hpc : s.con.pc with
  | held data =>
    rw [hpc] at hd hp
    obtain ⟨_, _, r, hr, hsam⟩ := hp
    refine ⟨k + 1, (List.getElem?_eq_some_iff.mp hr).1, committed _ ?_, ?_⟩
    · intro i q hi hq
      rcases Nat.lt_or_ge i k with h' | h'
      · exact hk.comm i q h' hq
      · have : i = k := by omega
        subst this
        rw [hr] at hq; cases hq
        intro hb; simp [Spec.sample, hb] at hsam
    · rw [hd, samples_succ _ _ _ hr, hsam]; rfl
  | _ =>
    rw [hpc] at hd
    exact ⟨k, hk.klen, committed _ hk.comm, by simpa using hd⟩

/-- When `next` returns `None`, every sample committed up to the first still-busy reservation has
been delivered: either all reservations have been passed, or the next one is busy. -/
theorem C01_none_means_drained_partial (m : Nat) (h3 : 3 ≤ m) (hm : m ≤ 30) (s s' : Sys) (a : CAct)
    (h : Spec.Reachable (2 ^ m) s) (hs : cstep (2 ^ m) s a = some s')
    (hbefore : s.sleeping = false) (hnone : s'.sleeping = true) :
    ∃ n, n ≤ s'.recs.length ∧ s'.delivered = Spec.samples s'.recs n ∧
      (n = s'.recs.length ∨ ∃ r, s'.recs[n]? = some r ∧ r.status = .busy) := by
  obtain ⟨k, hk⟩ := reachable_inv (2 ^ m) m rfl h3 hm h
  have hp := hk.pcInv
  have hd := hk.deliv
  cases a with
  | daLoad =>
    simp only [cstep] at hs
    split at hs
    · rename_i hpc
      rw [hpc] at hp hd
      split at hs
      · cases hs; simp [hbefore] at hnone
      · rename_i heq
        have heq : s.con.pos = s.prod := by simpa using heq
        cases hs
        refine ⟨k, hk.klen, by simpa [returnNone] using hd, Or.inl ?_⟩
        rcases Nat.lt_or_ge k s.recs.length with h' | h'
        · exfalso
          have hr : s.recs[k]? = some s.recs[k] := List.getElem?_eq_getElem h'
          have h1 := hk.le_prod k _ hr
          have h2 := size_ge s.recs[k]
          rw [hp.1.1, hk.lp, startAt_of s k _ hr] at heq
          omega
        · exact Nat.le_antisymm hk.klen h'
    · cases hs
  | readHdr =>
    simp only [cstep] at hs
    split at hs
    · rename_i hpc
      rw [hpc] at hp hd
      obtain ⟨hlive, hne⟩ := hp
      have hkl := hk.lt_len hlive hne
      have hr : s.recs[k]? = some s.recs[k] := List.getElem?_eq_getElem hkl
      generalize s.recs[k] = r at hr
      have hread := readItem_eq (2 ^ m) m rfl h3 hm hk r hr hlive.1
      split at hs
      · rename_i hbusy
        rw [hread] at hbusy
        split at hs
        · cases hs
          refine ⟨k, hk.klen, by simpa [returnNone] using hd, Or.inr ⟨r, hr, ?_⟩⟩
          split at hbusy <;> simp_all
        · cases hs; simp [hbefore] at hnone
      · cases hs; simp [consume, hbefore] at hnone
      · cases hs; simp [hbefore] at hnone
      · cases hs; simp [hbefore] at hnone
    · cases hs
  | newPos => simp only [cstep] at hs; split at hs <;> cases hs; simp [hbefore] at hnone
  | newCache => simp only [cstep] at hs; split at hs <;> cases hs; simp [hbefore] at hnone
  | destroy => simp only [cstep] at hs; split at hs <;> cases hs; simp [hbefore] at hnone
  | callNext => simp only [cstep] at hs; split at hs <;> cases hs; simp [hbefore] at hnone
  | daFence => simp only [cstep] at hs; split at hs <;> cases hs; simp [hbefore] at hnone
  | busyFence => simp only [cstep] at hs; split at hs <;> cases hs; simp [hbefore] at hnone
  | drop =>
    simp only [cstep] at hs
    split at hs
    · cases hs; simp [consume, hbefore] at hnone
    · cases hs

/-- The consumer never panics. -/
theorem C01_no_panic_partial (m : Nat) (h3 : 3 ≤ m) (hm : m ≤ 30) (s : Sys)
    (h : Spec.Reachable (2 ^ m) s) : s.con.pc ≠ .panicked := by
  obtain ⟨k, hk⟩ := reachable_inv (2 ^ m) m rfl h3 hm h
  intro hpc
  have := hk.pcInv
  rw [hpc] at this
  exact this

/-- The consumer is inside a call of `next`. -/
def InNext (s : Sys) : Prop :=
  s.con.pc = .daFence ∨ s.con.pc = .daLoad ∨ s.con.pc = .readHdr ∨ s.con.pc = .busyFence

def pcFuel : Pc → Bool → Nat
  | .daFence, _ => 3
  | .daLoad, _ => 2
  | .busyFence, _ => 2
  | .readHdr, w => if w then 3 else 1
  | _, _ => 0

/-- Bound on the number of steps `next` can still take, used by `C01_next_returns_partial`. -/
def nextFuel (s : Sys) : Nat :=
  2 * (s.prod - s.con.pos) + s.buf.length + pcFuel s.con.pc s.con.needsWakeup

/-- One step of `next`, or of the store buffer during it, with no kernel activity. -/
inductive NextStep (size : Nat) : Sys → Sys → Prop
  | con (s s' : Sys) (a : CAct) (hin : InNext s) (h : cstep size s a = some s') : NextStep size s s'
  | flush (s s' : Sys) (hin : InNext s) (h : kstep size s .flush = some s') : NextStep size s s'

/-- `next` always gets nearer to returning: without kernel activity every step decreases a natural
number, so a call returns after at most `nextFuel` steps. -/
theorem C01_next_returns_partial (m : Nat) (h3 : 3 ≤ m) (hm : m ≤ 30) (s s' : Sys)
    (h : Spec.Reachable (2 ^ m) s) (hs : NextStep (2 ^ m) s s') : nextFuel s' < nextFuel s := by
  obtain ⟨k, hk⟩ := reachable_inv (2 ^ m) m rfl h3 hm h
  have hp := hk.pcInv
  cases hs with
  | flush hin hs =>
    simp only [kstep, kHdrSz_eq, kBusyBit_eq, kDiscardBit_eq, kRoundUp8_eq, kBytes_eq] at hs
    split at hs
    · cases hs
    · rename_i p rest hb
      cases hs
      simp only [nextFuel, hb, List.length_cons]
      omega
  | con a hin hs =>
    cases a with
    | newPos => simp only [cstep] at hs; split at hs <;> cases hs; rename_i hpc; simp [InNext, hpc] at hin
    | newCache => simp only [cstep] at hs; split at hs <;> cases hs; rename_i hpc; simp [InNext, hpc] at hin
    | destroy => simp only [cstep] at hs; split at hs <;> cases hs; rename_i hpc; simp [InNext, hpc.1] at hin
    | callNext => simp only [cstep] at hs; split at hs <;> cases hs; rename_i hpc; simp [InNext, hpc] at hin
    | drop =>
      simp only [cstep] at hs
      split at hs
      · rename_i hpc; simp [InNext, hpc] at hin
      · cases hs
    | daFence =>
      simp only [cstep] at hs; split at hs <;> cases hs
      rename_i hpc
      simp only [nextFuel, hpc.1, pcFuel]; omega
    | daLoad =>
      simp only [cstep] at hs
      split at hs
      · rename_i hpc
        rw [hpc] at hp
        split at hs <;> cases hs
        · simp only [nextFuel, hpc, hp.2]; simp [pcFuel]
        · simp only [nextFuel, hpc, returnNone, pcFuel]; omega
      · cases hs
    | busyFence =>
      simp only [cstep] at hs; split at hs <;> cases hs
      rename_i hpc
      rw [hpc.1] at hp
      have hne : ¬ s.con.pos = s.con.cache := hp.2
      simp [nextFuel, hpc.1, enterLoop, hne, pcFuel]
    | readHdr =>
      simp only [cstep] at hs
      split at hs
      · rename_i hpc
        rw [hpc] at hp
        obtain ⟨hlive, hne⟩ := hp
        have hkl := hk.lt_len hlive hne
        have hr : s.recs[k]? = some s.recs[k] := List.getElem?_eq_getElem hkl
        generalize s.recs[k] = r at hr
        have hread := readItem_eq (2 ^ m) m rfl h3 hm hk r hr hlive.1
        split at hs
        · split at hs
          · cases hs
            rename_i hnw
            simp only [nextFuel, hpc, returnNone, hnw]; simp [pcFuel]
          · cases hs
            rename_i hnw
            simp only [nextFuel, hpc]
            simp [hnw, pcFuel]
        · rename_i len hdisc
          rw [hread] at hdisc
          have hlen : len = r.len := by split at hdisc <;> simp_all
          subst hlen
          cases hs
          have h1 := hk.le_prod k r hr
          have hpos : s.con.pos = r.start := by rw [hlive.1, hk.lp, startAt_of s k r hr]
          have h8 := size_ge r
          have hsz : nextMultipleOf8 (hdrSz + r.len) = r.size := rfl
          have key : ∀ c w, pcFuel c w ≤ 3 := by
            intro c w
            cases c <;> simp [pcFuel]
            split <;> omega
          have hpcs : (enterLoop (consume s r.len).con).pc = .daFence ∨ (enterLoop (consume s r.len).con).pc = .readHdr := by
            unfold enterLoop
            split
            · left; simp [consume]
            · right; rfl
          have hposs : (enterLoop (consume s r.len).con).pos = s.con.pos + r.size := by
            unfold enterLoop; split <;> (try split) <;> rfl
          have := key (enterLoop (consume s r.len).con).pc (enterLoop (consume s r.len).con).needsWakeup
          have hb : (consume s r.len).buf.length = s.buf.length + 1 := by simp [consume]
          have hpr : (consume s r.len).prod = s.prod := rfl
          have rhs : 1 ≤ pcFuel .readHdr s.con.needsWakeup := by simp only [pcFuel]; split <;> omega
          simp only [nextFuel, hpc, hposs, hb, hpr]
          omega
        · cases hs
          have rhs : 1 ≤ pcFuel .readHdr s.con.needsWakeup := by simp only [pcFuel]; split <;> omega
          have hz : ∀ d w, pcFuel (.held d) w = 0 := fun _ _ => rfl
          have hz' : ∀ w, pcFuel .panicked w = 0 := fun _ => rfl
          simp only [nextFuel, hpc, hz, hz']; omega
        · cases hs
          have rhs : 1 ≤ pcFuel .readHdr s.con.needsWakeup := by simp only [pcFuel]; split <;> omega
          have hz : ∀ d w, pcFuel (.held d) w = 0 := fun _ _ => rfl
          have hz' : ∀ w, pcFuel .panicked w = 0 := fun _ => rfl
          simp only [nextFuel, hpc, hz, hz']; omega
      · cases hs

/-! ## C02: a held item is not overwritten -/

/-- While an item is held, in every state any schedule can reach, the bytes in the ring where the
item's slice points are the bytes `next` returned, and they are the content of a submitted record.
Missing for the full claim: ring size 2^31. -/
theorem C02_held_stable_partial (m : Nat) (h3 : 3 ≤ m) (hm : m ≤ 30) (s : Sys)
    (h : Spec.Reachable (2 ^ m) s) (data : List UInt8) (hpc : s.con.pc = .held data) :
    readBytes s.mem (2 ^ m) (s.con.pos + hdrSz) data.length = data ∧
    ∃ r ∈ s.recs, r.start = s.con.pos ∧ Spec.sample r = some data := by
  obtain ⟨k, hk⟩ := reachable_inv (2 ^ m) m rfl h3 hm h
  have hp := hk.pcInv
  rw [hpc] at hp
  obtain ⟨hlive, _, r, hr, hsam⟩ := hp
  have hpos : s.con.pos = r.start := by rw [hlive.1, hk.lp, startAt_of s k r hr]
  have hc : data = r.content := by
    unfold Spec.sample at hsam
    split at hsam <;> simp_all
  refine ⟨?_, r, List.mem_of_getElem? hr, hpos.symm, hsam⟩
  have := (hk.memOk k r hr (Nat.le_refl _)).2
  rw [hpos, hc, (hk.lens k r hr).1]
  exact this

/-! ## C03: no lost wake-up -/

/-- After `next` returned `None` and until it is called again: if no notification has been sent,
then everything completely committed ahead of the first incomplete reservation has been delivered.
Equivalently, once a record is completely committed at the consumer's position, a notification has
been sent. The notification decision is the kernel's (compare the record's position with the consumer
position visible to the kernel). -/
theorem C03_no_lost_wakeup_partial (m : Nat) (h3 : 3 ≤ m) (hm : m ≤ 30) (s : Sys)
    (h : Spec.Reachable (2 ^ m) s) (hsl : s.sleeping = true) (hno : s.notified = false) :
    ∃ n, n ≤ s.recs.length ∧ (∀ r ∈ s.recs.take n, Spec.Committed r) ∧
      s.delivered = Spec.samples s.recs n ∧
      ∀ r d, s.recs[n]? = some r → r.status ≠ .done d := by
  obtain ⟨k, hk⟩ := reachable_inv (2 ^ m) m rfl h3 hm h
  obtain ⟨w1, w2, w3⟩ := hk.wake hsl
  have hd := hk.deliv
  rw [w1] at hd
  refine ⟨k, hk.klen, ?_, by simpa using hd, ?_⟩
  · intro r hr
    obtain ⟨i, hi, rfl⟩ := List.mem_iff_getElem.mp hr
    rw [List.getElem_take]
    simp only [List.length_take] at hi
    exact hk.comm i _ (by omega) (List.getElem?_eq_getElem (by omega))
  · intro r d hr hst
    have := w3 r d hr hst
    rw [hno] at this
    cases this

/-- Nor is the consumer position itself stale while the consumer waits: the kernel sees the position
up to which records have been consumed, so later reservations are not refused for space already
released. -/
theorem C03_position_published_partial (m : Nat) (h3 : 3 ≤ m) (hm : m ≤ 30) (s : Sys)
    (h : Spec.Reachable (2 ^ m) s) (hsl : s.sleeping = true) : s.consMem = s.con.pos := by
  obtain ⟨k, hk⟩ := reachable_inv (2 ^ m) m rfl h3 hm h
  obtain ⟨w1, w2, w3⟩ := hk.wake hsl
  have hb := hk.nw (by rw [w1]; simp) w2
  have hp := hk.pcInv
  rw [w1] at hp
  rw [hp.1]
  simp [lpos, hb]

/-! ## Concrete runs meeting the hypotheses -/

/-- Observation of a run. -/
def obs (o : Option Sys) : Option (List (List UInt8) × Pc × Bool × Bool × List Status) :=
  o.map (fun s => (s.delivered, s.con.pc, s.sleeping, s.notified, s.recs.map Rec.status))

/-- A 64-byte ring: two records are reserved, written, the second discarded; the consumer, created
before, is notified, reads, and sleeps again. -/
def demo : List Act :=
  [.c .newPos, .c .newCache, .c .callNext, .c .daLoad,
   .k (.reserve 2 0), .k (.write 0 0 7), .k (.reserve 1 0), .k (.commit 1 true), .k (.check 1),
   .k (.write 0 1 9), .k (.commit 0 false), .k (.check 0),
   .c .callNext, .c .daLoad, .c .readHdr]

/-- The run reaches a state where an item is held. -/
example : obs (run (2 ^ 6) (init (fun _ => 0) 56) demo) =
    some ([[7, 9]], .held [7, 9], false, true, [.done false, .done true]) := by decide +kernel

/-- The notification for record 0 was necessary and sent while the consumer slept. -/
example : obs (run (2 ^ 6) (init (fun _ => 0) 56) (demo.take 12)) =
    some ([], .idle, true, true, [.done false, .done true]) := by decide +kernel

/-- It drops the item, the store is delayed, the fence waits for it, and `next` returns `None`. -/
example : obs (run (2 ^ 6) (init (fun _ => 0) 56)
      (demo ++ [.c .drop, .c .callNext, .c .readHdr, .k .flush, .k .flush, .c .daFence, .c .daLoad])) =
    some ([[7, 9]], .idle, true, false, [.done false, .done true]) := by decide +kernel

/-- The fence cannot complete while the store is still buffered. -/
example : obs (run (2 ^ 6) (init (fun _ => 0) 56)
      (demo ++ [.c .drop, .c .callNext, .c .readHdr, .c .daFence])) = none := by decide +kernel

/-! ## Ring size 2^31 -/

/-- In a ring of 2^31 bytes the length mask includes the discard bit, so a discarded record sends the
consumer 2^30 bytes too far: it then delivers a sample nobody submitted. -/
def demo31 : List Act :=
  [.c .newPos, .c .newCache, .k (.reserve 8 0), .k (.commit 0 true), .k (.check 0),
   .c .callNext, .c .daLoad, .c .readHdr, .c .readHdr]

theorem C01_size_2_31_violated :
    ∃ s, Spec.Reachable (2 ^ 31) s ∧ ∀ n, s.delivered ≠ Spec.samples s.recs n := by
  have hrun : (run (2 ^ 31) (init (fun _ => 0) 0) demo31).map (fun s => (s.delivered, s.recs.map Rec.status)) =
      some ([[]], [.done true]) := by decide +kernel
  cases hr : run (2 ^ 31) (init (fun _ => 0) 0) demo31 with
  | none => rw [hr] at hrun; cases hrun
  | some s =>
    rw [hr] at hrun
    simp only [Option.map_some, Option.some.injEq, Prod.mk.injEq] at hrun
    obtain ⟨h1, h2⟩ := hrun
    refine ⟨s, ⟨_, 0, demo31, rfl, hr⟩, ?_⟩
    intro n hn
    rw [h1] at hn
    have hnone : ∀ r ∈ s.recs, Spec.sample r = none := by
      intro r hrm
      have : r.status ∈ s.recs.map Rec.status := List.mem_map_of_mem hrm
      rw [h2] at this
      have : r.status = .done true := by simpa using this
      simp [Spec.sample, this]
    have : Spec.samples s.recs n = [] := by
      rw [Spec.samples, List.filterMap_eq_nil_iff]
      intro r hrm
      exact hnone r (List.mem_of_mem_take hrm)
    rw [this] at hn
    cases hn

end Verif.RingBuf
