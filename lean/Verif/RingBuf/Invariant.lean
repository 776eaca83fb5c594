import Verif.RingBuf.Lemmas
/-! The system invariant of the ring buffer and its preservation by every step. -/
set_option linter.unusedSimpArgs false
set_option linter.unusedVariables false
namespace Verif.RingBuf
open Verif.Bytes

/-- Start of the `i`-th reservation, or the producer position past the end. -/
def startAt (s : Sys) (i : Nat) : Nat := ((s.recs[i]?).map Rec.start).getD s.prod

def Rec.size (r : Rec) : Nat := nextMultipleOf8 (hdrSz + r.len)

/-- The consumer position as the consumer's own thread sees it. -/
def lpos (s : Sys) : Nat := s.buf.getLast?.getD s.consMem

/-- The consumer's local positions are in step with the shared ones. -/
def Live (k : Nat) (s : Sys) : Prop :=
  s.con.pos = lpos s ∧ ∃ j, k ≤ j ∧ j ≤ s.recs.length ∧ s.con.cache = startAt s j

structure Inv (size : Nat) (k : Nat) (s : Sys) : Prop where
  chain : ∀ (i : Nat) (r : Rec), s.recs[i]? = some r → startAt s (i + 1) = r.start + r.size
  klen : k ≤ s.recs.length
  lens : ∀ (i : Nat) (r : Rec), s.recs[i]? = some r → r.content.length = r.len ∧ r.len < 2 ^ 30
  lp : lpos s = startAt s k
  sorted : (s.consMem :: s.buf).Pairwise (· ≤ ·)
  room : s.prod < s.consMem + size
  memOk : ∀ (i : Nat) (r : Rec), s.recs[i]? = some r → k ≤ i →
    readBytes s.mem size r.start 4 = le 4 r.header ∧
    readBytes s.mem size (r.start + hdrSz) r.len = r.content
  comm : ∀ (i : Nat) (r : Rec), i < k → s.recs[i]? = some r → r.status ≠ .busy
  pcInv : match s.con.pc with
    | .absent => True
    | .creating => s.con.pos = lpos s
    | .idle | .daFence => Live k s
    | .daLoad => Live k s ∧ s.con.needsWakeup = false
    | .readHdr | .busyFence => Live k s ∧ s.con.pos ≠ s.con.cache
    | .held data => Live k s ∧ s.con.pos ≠ s.con.cache ∧ ∃ r, s.recs[k]? = some r ∧ Spec.sample r = some data
    | .panicked => False
  nw : s.con.pc ≠ .absent → s.con.needsWakeup = false → s.buf = []
  absent : s.con.pc = .absent → s.buf = []
  deliv : s.delivered = Spec.samples s.recs k ++
    (match s.con.pc with | .held data => [data] | _ => [])
  wake : s.sleeping = true → s.con.pc = .idle ∧ s.con.needsWakeup = false ∧
    ∀ (r : Rec) (d : Bool), s.recs[k]? = some r → r.status = .done d → s.notified = true

theorem nm8_ge (n : Nat) : n ≤ nextMultipleOf8 n := by simp only [nextMultipleOf8]; omega

theorem size_ge (r : Rec) : 8 + r.len ≤ r.size := nm8_ge _

theorem startAt_of (s : Sys) (i : Nat) (r : Rec) (h : s.recs[i]? = some r) : startAt s i = r.start := by
  simp [startAt, h]

theorem startAt_len (s : Sys) (i : Nat) (h : s.recs.length ≤ i) : startAt s i = s.prod := by
  simp [startAt, List.getElem?_eq_none h]

theorem chain_le {s : Sys}
    (chain : ∀ (i : Nat) (r : Rec), s.recs[i]? = some r → startAt s (i + 1) = r.start + r.size)
    (i : Nat) (r : Rec) (hr : s.recs[i]? = some r) (n : Nat) :
    r.start + r.size ≤ startAt s (i + 1 + n) := by
  induction n with
  | zero => rw [Nat.add_zero, chain i r hr]; exact Nat.le_refl _
  | succ n ih =>
    cases hq : s.recs[i + 1 + n]? with
    | none =>
      have hl : s.recs.length ≤ i + 1 + n := by
        rw [List.getElem?_eq_none_iff] at hq; exact hq
      rw [startAt_len s _ hl] at ih
      rw [startAt_len s _ (by omega)]
      exact ih
    | some q =>
      rw [startAt_of s _ q hq] at ih
      have := chain _ q hq
      rw [show i + 1 + (n + 1) = i + 1 + n + 1 by omega, this]
      omega

theorem chain_lt {s : Sys}
    (chain : ∀ (i : Nat) (r : Rec), s.recs[i]? = some r → startAt s (i + 1) = r.start + r.size)
    (i j : Nat) (r : Rec) (hr : s.recs[i]? = some r) (h : i < j) :
    r.start + r.size ≤ startAt s j := by
  have := chain_le chain i r hr (j - (i + 1))
  rwa [show i + 1 + (j - (i + 1)) = j by omega] at this

theorem startAt_mono {s : Sys}
    (chain : ∀ (i : Nat) (r : Rec), s.recs[i]? = some r → startAt s (i + 1) = r.start + r.size)
    (i j : Nat) (h : i ≤ j) : startAt s i ≤ startAt s j := by
  rcases Nat.lt_or_ge i j with h | h
  · cases hr : s.recs[i]? with
    | none =>
      rw [List.getElem?_eq_none_iff] at hr
      rw [startAt_len s i hr, startAt_len s j (by omega)]
      exact Nat.le_refl _
    | some r =>
      rw [startAt_of s i r hr]
      have := chain_lt chain i j r hr h
      omega
  · have : i = j := by omega
    subst this; exact Nat.le_refl _

theorem Inv.le_prod {size k : Nat} {s : Sys} (h : Inv size k s) (i : Nat) (r : Rec) (hr : s.recs[i]? = some r) :
    r.start + r.size ≤ s.prod := by
  have hl : i < s.recs.length := (List.getElem?_eq_some_iff.mp hr).1
  have := chain_lt h.chain i s.recs.length r hr hl
  rwa [startAt_len s _ (Nat.le_refl _)] at this

theorem Inv.cons_le {size k : Nat} {s : Sys} (h : Inv size k s) : s.consMem ≤ lpos s := by
  have := h.sorted
  simp only [lpos]
  cases hb : s.buf.getLast? with
  | none => simp
  | some b =>
    rw [List.pairwise_cons] at this
    exact this.1 b (List.mem_of_getLast? hb)

theorem Inv.ge_lpos {size k : Nat} {s : Sys} (h : Inv size k s) (i : Nat) (r : Rec) (hr : s.recs[i]? = some r)
    (hk : k ≤ i) : lpos s ≤ r.start := by
  rw [h.lp, ← startAt_of s i r hr]
  exact startAt_mono h.chain k i hk

theorem Inv.lt_len {size k : Nat} {s : Sys} (h : Inv size k s) (hl : Live k s) (hne : s.con.pos ≠ s.con.cache) :
    k < s.recs.length := by
  obtain ⟨hp, j, hkj, hj, hc⟩ := hl
  rcases Nat.lt_or_ge k s.recs.length with h' | h'
  · exact h'
  · exfalso
    apply hne
    rw [hp, h.lp, hc, startAt_len s k h', startAt_len s j (by omega)]

/-! ### Reading the record at the consumer position -/

theorem readItem_eq (size m : Nat) (hsz : size = 2 ^ m) (h3 : 3 ≤ m) (hm : m ≤ 30) {k : Nat} {s : Sys}
    (h : Inv size k s) (r : Rec) (hr : s.recs[k]? = some r) (hp : s.con.pos = lpos s) :
    readItem s.mem size s.con.pos =
      match r.status with
      | .busy => .busy
      | .pending true | .done true => .discard r.len
      | .pending false | .done false => .data r.content := by
  have hpos : s.con.pos = r.start := by rw [hp, h.lp, startAt_of s k r hr]
  have hsize : 8 ≤ size := by
    rw [hsz]
    calc 8 = 2 ^ 3 := rfl
      _ ≤ 2 ^ m := Nat.pow_le_pow_right (by omega) h3
  have hfit : 8 + r.len < size := by
    have h1 := h.le_prod k r hr
    have h2 := size_ge r
    have h3 := h.room
    have h4 := h.cons_le
    rw [← hp, hpos] at h4
    omega
  obtain ⟨hmem1, hmem2⟩ := h.memOk k r hr (Nat.le_refl _)
  obtain ⟨hb1, hb2, hb3, hb4⟩ := header_bits r m hm (by omega)
  have hoff : s.con.pos &&& (size - 1) = r.start % size := by
    rw [hpos, hsz, Nat.and_two_pow_sub_one_eq_mod]
  have hlt : r.start % size < size := Nat.mod_lt _ (by omega)
  simp only [readItem, hoff, readBytes_mod, readBytes_mod_add, hmem1, hb1]
  rw [if_pos (show r.start % size + 4 ≤ 2 * size by omega)]
  cases hst : r.status with
  | busy =>
    rw [if_pos (hb2.mpr hst)]
  | pending d =>
    rw [if_neg (fun hh => by have := hb2.mp hh; simp [hst] at this)]
    have hlen : r.header &&& (size - 1) = r.len := by rw [hsz]; exact hb3 (by simp [hst])
    rw [hlen]
    cases d with
    | true => rw [if_pos ((hb4 (by simp [hst])).mpr (Or.inl hst))]
    | false =>
      rw [if_neg (fun hh => by have := (hb4 (by simp [hst])).mp hh; simp [hst] at this)]
      rw [if_pos (by simp only [hdrSz]; omega), hmem2]
  | done d =>
    rw [if_neg (fun hh => by have := hb2.mp hh; simp [hst] at this)]
    have hlen : r.header &&& (size - 1) = r.len := by rw [hsz]; exact hb3 (by simp [hst])
    rw [hlen]
    cases d with
    | true => rw [if_pos ((hb4 (by simp [hst])).mpr (Or.inr hst))]
    | false =>
      rw [if_neg (fun hh => by have := (hb4 (by simp [hst])).mp hh; simp [hst] at this)]
      rw [if_pos (by simp only [hdrSz]; omega), hmem2]

/-! ### Frame: changes that leave the kernel part alone -/

/-- Rebuild the invariant after a step that only touches consumer-local and ghost state. -/
theorem Inv.frame {size k : Nat} {s : Sys} (h : Inv size k s) (s' : Sys)
    (hmem : s'.mem = s.mem) (hprod : s'.prod = s.prod) (hcons : s'.consMem = s.consMem)
    (hbuf : s'.buf = s.buf) (hrecs : s'.recs = s.recs)
    (hpc : match s'.con.pc with
      | .absent => True
      | .creating => s'.con.pos = lpos s'
      | .idle | .daFence => Live k s'
      | .daLoad => Live k s' ∧ s'.con.needsWakeup = false
      | .readHdr | .busyFence => Live k s' ∧ s'.con.pos ≠ s'.con.cache
      | .held data => Live k s' ∧ s'.con.pos ≠ s'.con.cache ∧ ∃ r, s'.recs[k]? = some r ∧ Spec.sample r = some data
      | .panicked => False)
    (hnw : s'.con.pc ≠ .absent → s'.con.needsWakeup = false → s'.buf = [])
    (habs : s'.con.pc = .absent → s'.buf = [])
    (hdel : s'.delivered = Spec.samples s'.recs k ++
      (match s'.con.pc with | .held data => [data] | _ => []))
    (hwake : s'.sleeping = true → s'.con.pc = .idle ∧ s'.con.needsWakeup = false ∧
      ∀ (r : Rec) (d : Bool), s'.recs[k]? = some r → r.status = .done d → s'.notified = true) :
    Inv size k s' := by
  have hst : ∀ i, startAt s' i = startAt s i := by intro i; simp [startAt, hrecs, hprod]
  have hlp : lpos s' = lpos s := by simp [lpos, hbuf, hcons]
  refine ⟨?_, ?_, ?_, ?_, ?_, ?_, ?_, ?_, hpc, hnw, habs, hdel, hwake⟩
  · intro i r hr; rw [hrecs] at hr; rw [hst]; exact h.chain i r hr
  · rw [hrecs]; exact h.klen
  · rw [hrecs]; exact h.lens
  · rw [hlp, hst]; exact h.lp
  · rw [hcons, hbuf]; exact h.sorted
  · rw [hcons, hprod]; exact h.room
  · rw [hrecs, hmem]; exact h.memOk
  · rw [hrecs]; exact h.comm

theorem Live.frame {k : Nat} {s : Sys} (h : Live k s) (s' : Sys) (hprod : s'.prod = s.prod)
    (hcons : s'.consMem = s.consMem) (hbuf : s'.buf = s.buf) (hrecs : s'.recs = s.recs)
    (hp : s'.con.pos = s.con.pos) (hc : s'.con.cache = s.con.cache) : Live k s' := by
  have hst : ∀ i, startAt s' i = startAt s i := by intro i; simp [startAt, hrecs, hprod]
  have hlp : lpos s' = lpos s := by simp [lpos, hbuf, hcons]
  obtain ⟨h1, j, h2, h3, h4⟩ := h
  exact ⟨by rw [hp, hlp, h1], j, h2, by rw [hrecs]; exact h3, by rw [hc, hst, h4]⟩

/-- `consume` moves past the record at the consumer position. -/
theorem Inv.consumed {size k : Nat} {s : Sys} (h : Inv size k s) (hl : Live k s) (r : Rec)
    (hr : s.recs[k]? = some r) (hnb : r.status ≠ .busy) (s' : Sys)
    (hmem : s'.mem = s.mem) (hprod : s'.prod = s.prod) (hcons : s'.consMem = s.consMem)
    (hbuf : s'.buf = s.buf ++ [s.con.pos + nextMultipleOf8 (hdrSz + r.len)])
    (hrecs : s'.recs = s.recs)
    (hpos' : s'.con.pos = s.con.pos + nextMultipleOf8 (hdrSz + r.len))
    (hcache : s'.con.cache = s.con.cache) (hnw : s'.con.needsWakeup = true)
    (hpc : s'.con.pc = .idle ∨ s'.con.pc = .daFence ∨
      (s'.con.pc = .readHdr ∧ s'.con.pos ≠ s'.con.cache))
    (hne : s.con.pos ≠ s.con.cache)
    (hdel : s'.delivered = Spec.samples s.recs (k + 1)) (hsl : s'.sleeping = false) :
    Inv size (k + 1) s' := by
  have hpos : s.con.pos = r.start := by rw [hl.1, h.lp, startAt_of s k r hr]
  have hkl : k < s.recs.length := (List.getElem?_eq_some_iff.mp hr).1
  have hnext : s.con.pos + nextMultipleOf8 (hdrSz + r.len) = startAt s (k + 1) := by
    rw [h.chain k r hr, hpos]; rfl
  have hst : ∀ i, startAt s' i = startAt s i := by intro i; simp [startAt, hrecs, hprod]
  have hlp : lpos s' = startAt s (k + 1) := by simp [lpos, hbuf, hnext]
  have hlive : Live (k + 1) s' := by
    obtain ⟨_, j, hkj, hj, hc⟩ := hl
    refine ⟨by rw [hlp, hpos', hnext], j, ?_, by rw [hrecs]; exact hj, by rw [hst, hcache, hc]⟩
    rcases Nat.lt_or_ge k j with h' | h'
    · omega
    · exfalso
      have : j = k := by omega
      subst this
      apply hne
      rw [hc, hpos, startAt_of s j r hr]
  refine ⟨?_, ?_, ?_, ?_, ?_, ?_, ?_, ?_, ?_, ?_, ?_, ?_, ?_⟩
  · intro i q hq; rw [hrecs] at hq; rw [hst]; exact h.chain i q hq
  · rw [hrecs]; exact hkl
  · rw [hrecs]; exact h.lens
  · rw [hlp, hst]
  · rw [hbuf, hcons, hnext]
    have hs := h.sorted
    rw [show s.consMem :: (s.buf ++ [startAt s (k + 1)]) = (s.consMem :: s.buf) ++ [startAt s (k + 1)] by simp]
    rw [List.pairwise_append]
    refine ⟨hs, by simp, ?_⟩
    intro a ha b hb
    have hb : b = startAt s (k + 1) := by simpa using hb
    subst hb
    have h1 : startAt s k ≤ startAt s (k + 1) := startAt_mono h.chain _ _ (by omega)
    have h2 : a ≤ lpos s := by
      simp only [lpos]
      cases hb : s.buf.getLast? with
      | none =>
        have : s.buf = [] := List.getLast?_eq_none_iff.mp hb
        rw [this] at ha
        have : a = s.consMem := by simpa using ha
        simp [this]
      | some b =>
        simp only [Option.getD_some]
        obtain ⟨l, hl⟩ := List.getLast?_eq_some_iff.mp hb
        rw [hl, ← List.cons_append, List.pairwise_append] at hs
        rw [hl, ← List.cons_append, List.mem_append] at ha
        rcases ha with ha | ha
        · exact hs.2.2 a ha b (by simp)
        · have : a = b := by simpa using ha
          omega
    rw [h.lp] at h2
    omega
  · rw [hprod, hcons]; exact h.room
  · intro i q hq hk
    rw [hrecs] at hq; rw [hmem]
    exact h.memOk i q hq (by omega)
  · intro i q hi hq
    rw [hrecs] at hq
    rcases Nat.lt_or_ge i k with h' | h'
    · exact h.comm i q h' hq
    · have : i = k := by omega
      subst this
      rw [hr] at hq
      cases hq; exact hnb
  · rcases hpc with hpc | hpc | ⟨hpc, hx⟩ <;> rw [hpc]
    · exact hlive
    · exact hlive
    · exact ⟨hlive, hx⟩
  · intro _ hw; rw [hnw] at hw; cases hw
  · intro ha; rcases hpc with hpc | hpc | ⟨hpc, hx⟩ <;> rw [hpc] at ha <;> cases ha
  · rw [hdel, hrecs]; rcases hpc with hpc | hpc | ⟨hpc, hx⟩ <;> rw [hpc] <;> simp
  · intro hw; rw [hsl] at hw; cases hw

theorem samples_succ (recs : List Rec) (k : Nat) (r : Rec) (h : recs[k]? = some r) :
    Spec.samples recs (k + 1) = Spec.samples recs k ++ (Spec.sample r).toList := by
  simp only [Spec.samples, List.take_add_one, h, List.filterMap_append]
  cases hs : Spec.sample r <;> simp [hs]

/-- Consumer steps preserve the invariant. -/
theorem cstep_inv (size m : Nat) (hsz : size = 2 ^ m) (h3 : 3 ≤ m) (hm : m ≤ 30)
    {k : Nat} {s s' : Sys} (h : Inv size k s) (a : CAct) (hs : cstep size s a = some s') :
    ∃ k', Inv size k' s' := by
  have hpcI := h.pcInv
  have hdel := h.deliv
  have sleepF : s.con.pc ≠ .idle → s.sleeping = false := by
    intro hne
    cases hsl : s.sleeping with
    | false => rfl
    | true => exact absurd (h.wake hsl).1 hne
  cases a with
  | newPos =>
    simp only [cstep] at hs
    split at hs
    · rename_i hpc
      cases hs
      have hb := h.absent hpc
      rw [hpc] at hdel hpcI
      refine ⟨k, h.frame _ rfl rfl rfl rfl rfl ?_ ?_ ?_ hdel ?_⟩
      · simp [lpos, hb]
      · intro _ _; exact hb
      · intro hx; cases hx
      · intro hx; have := sleepF (by rw [hpc]; simp); simp [this] at hx
    · cases hs
  | newCache =>
    simp only [cstep] at hs
    split at hs
    · rename_i hpc
      cases hs
      rw [hpc] at hdel hpcI
      refine ⟨k, h.frame _ rfl rfl rfl rfl rfl ?_ ?_ ?_ hdel ?_⟩
      · refine ⟨hpcI, s.recs.length, h.klen, Nat.le_refl _, ?_⟩
        rw [startAt_len _ _ (Nat.le_refl _)]
      · intro _ hn; exact h.nw (by rw [hpc]; simp) hn
      · intro hx; cases hx
      · intro hx; have := sleepF (by rw [hpc]; simp); simp [this] at hx
    · cases hs
  | destroy =>
    simp only [cstep] at hs
    split at hs
    · rename_i hpc
      obtain ⟨hpc, hb⟩ := hpc
      cases hs
      rw [hpc] at hdel hpcI
      refine ⟨k, h.frame _ rfl rfl rfl rfl rfl ?_ ?_ ?_ hdel ?_⟩
      · trivial
      · intro hx; exact absurd rfl hx
      · intro _; exact hb
      · intro hx; cases hx
    · cases hs
  | callNext =>
    simp only [cstep] at hs
    split at hs
    · rename_i hpc
      cases hs
      rw [hpc] at hdel hpcI
      have hb := h.nw (by rw [hpc]; simp)
      have live : ∀ pc, Live k { s with con := { s.con with pc := pc }, sleeping := false } :=
        fun pc => hpcI.frame _ rfl rfl rfl rfl rfl rfl
      refine ⟨k, ?_⟩
      unfold enterLoop
      split
      · split
        · refine h.frame _ rfl rfl rfl rfl rfl (live _) ?_ ?_ hdel ?_
          · intro _ hn; exact hb hn
          · intro hx; cases hx
          · intro hx; cases hx
        · rename_i hnw
          refine h.frame _ rfl rfl rfl rfl rfl ⟨live _, by simpa using hnw⟩ ?_ ?_ hdel ?_
          · intro _ hn; exact hb hn
          · intro hx; cases hx
          · intro hx; cases hx
      · rename_i hne
        refine h.frame _ rfl rfl rfl rfl rfl ⟨live _, hne⟩ ?_ ?_ hdel ?_
        · intro _ hn; exact hb hn
        · intro hx; cases hx
        · intro hx; cases hx
    · cases hs
  | daFence =>
    simp only [cstep] at hs
    split at hs
    · rename_i hpc
      obtain ⟨hpc, hb⟩ := hpc
      cases hs
      rw [hpc] at hdel hpcI
      refine ⟨k, h.frame _ rfl rfl rfl rfl rfl ?_ ?_ ?_ hdel ?_⟩
      · exact ⟨hpcI.frame _ rfl rfl rfl rfl rfl rfl, rfl⟩
      · intro _ _; exact hb
      · intro hx; cases hx
      · intro hx; have := sleepF (by rw [hpc]; simp); simp [this] at hx
    · cases hs
  | daLoad =>
    simp only [cstep] at hs
    split at hs
    · rename_i hpc
      rw [hpc] at hdel hpcI
      have hb := h.nw (by rw [hpc]; simp)
      have hsl := sleepF (by rw [hpc]; simp)
      have live : ∀ pc sl no, Live k { s with con := { s.con with cache := s.prod, pc := pc }, sleeping := sl, notified := no } := by
        intro pc sl no
        refine ⟨hpcI.1.1, s.recs.length, h.klen, Nat.le_refl _, ?_⟩
        rw [startAt_len _ _ (Nat.le_refl _)]
      split at hs
      · rename_i hne
        cases hs
        refine ⟨k, h.frame _ rfl rfl rfl rfl rfl ⟨live _ _ _, hne⟩ ?_ ?_ hdel ?_⟩
        · intro _ hn; exact hb hn
        · intro hx; cases hx
        · intro hx; simp [hsl] at hx
      · rename_i heq
        have heq : s.con.pos = s.prod := by simpa using heq
        cases hs
        have hk : k = s.recs.length := by
          rcases Nat.lt_or_ge k s.recs.length with h' | h'
          · exfalso
            have hr : s.recs[k]? = some s.recs[k] := List.getElem?_eq_getElem h'
            have h1 := h.le_prod k _ hr
            have h2 := size_ge s.recs[k]
            rw [hpcI.1.1, h.lp, startAt_of s k _ hr] at heq
            omega
          · exact Nat.le_antisymm h.klen h'
        refine ⟨k, h.frame _ rfl rfl rfl rfl rfl (live _ _ _) ?_ ?_ hdel ?_⟩
        · intro _ hn; exact hb hn
        · intro hx; cases hx
        · intro _
          refine ⟨rfl, hpcI.2, ?_⟩
          intro r d hr
          have : s.recs[k]? = none := List.getElem?_eq_none (by omega)
          simp [returnNone, this] at hr
    · cases hs
  | readHdr =>
    simp only [cstep] at hs
    split at hs
    · rename_i hpc
      rw [hpc] at hdel hpcI
      obtain ⟨hlive, hne⟩ := hpcI
      have hb := h.nw (by rw [hpc]; simp)
      have hsl := sleepF (by rw [hpc]; simp)
      have hkl := h.lt_len hlive hne
      have hr : s.recs[k]? = some s.recs[k] := List.getElem?_eq_getElem hkl
      generalize s.recs[k] = r at hr
      have live : ∀ pc sl no, Live k { s with con := { s.con with pc := pc }, sleeping := sl, notified := no } := by
        intro pc sl no
        exact hlive.frame _ rfl rfl rfl rfl rfl rfl
      have hread := readItem_eq size m hsz h3 hm h r hr hlive.1
      have busyCase : r.status = .busy →
          (if s.con.needsWakeup = false then some (returnNone s)
            else some { s with con := { s.con with pc := .busyFence } }) = some s' →
          ∃ k', Inv size k' s' := by
        intro hst hs
        split at hs
        · rename_i hnw
          cases hs
          refine ⟨k, h.frame _ rfl rfl rfl rfl rfl (live _ _ _) ?_ ?_ hdel ?_⟩
          · intro _ hn; exact hb hn
          · intro hx; cases hx
          · intro _
            refine ⟨rfl, hnw, ?_⟩
            intro q d hq hd
            have hq : s.recs[k]? = some q := hq
            rw [hr] at hq; cases hq
            rw [hst] at hd; cases hd
        · cases hs
          refine ⟨k, h.frame _ rfl rfl rfl rfl rfl ⟨hlive.frame _ rfl rfl rfl rfl rfl rfl, hne⟩ ?_ ?_ hdel ?_⟩
          · intro _ hn; exact hb hn
          · intro hx; cases hx
          · intro hx; simp [hsl] at hx
      have discCase : r.status ≠ .busy → Spec.sample r = none →
          some { consume s r.len with con := enterLoop (consume s r.len).con } = some s' →
          ∃ k', Inv size k' s' := by
        intro hnb hsam hs
        cases hs
        refine ⟨k + 1, h.consumed hlive r hr hnb _ rfl rfl rfl rfl rfl ?_ ?_ ?_ ?_ hne ?_ hsl⟩
        · unfold enterLoop; split <;> (try split) <;> rfl
        · unfold enterLoop; split <;> (try split) <;> rfl
        · unfold enterLoop; split <;> (try split) <;> rfl
        · unfold enterLoop
          split
          · simp [consume]
          · rename_i hne'
            exact Or.inr (Or.inr ⟨rfl, hne'⟩)
        · rw [samples_succ _ _ _ hr, hsam]
          simpa [consume] using hdel
      have dataCase : Spec.sample r = some r.content →
          some { s with con := { s.con with pc := .held r.content }, delivered := s.delivered ++ [r.content] } = some s' →
          ∃ k', Inv size k' s' := by
        intro hsam hs
        cases hs
        refine ⟨k, h.frame _ rfl rfl rfl rfl rfl ⟨hlive.frame _ rfl rfl rfl rfl rfl rfl, hne, r, hr, hsam⟩ ?_ ?_ ?_ ?_⟩
        · intro _ hn; exact hb hn
        · intro hx; cases hx
        · simp [hdel]
        · intro hx; simp [hsl] at hx
      rw [hread] at hs
      cases hst : r.status with
      | busy => rw [hst] at hs; exact busyCase hst hs
      | pending d =>
        rw [hst] at hs
        cases d with
        | true => exact discCase (by simp [hst]) (by simp [Spec.sample, hst]) hs
        | false => exact dataCase (by simp [Spec.sample, hst]) hs
      | done d =>
        rw [hst] at hs
        cases d with
        | true => exact discCase (by simp [hst]) (by simp [Spec.sample, hst]) hs
        | false => exact dataCase (by simp [Spec.sample, hst]) hs
    · cases hs
  | busyFence =>
    simp only [cstep] at hs
    split at hs
    · rename_i hpc
      obtain ⟨hpc, hb⟩ := hpc
      rw [hpc] at hdel hpcI
      obtain ⟨hlive, hne⟩ := hpcI
      have hsl := sleepF (by rw [hpc]; simp)
      have : enterLoop { s.con with needsWakeup := false } =
          { s.con with needsWakeup := false, pc := .readHdr } := by
        unfold enterLoop; rw [if_neg hne]
      simp only [this] at hs
      cases hs
      refine ⟨k, h.frame _ rfl rfl rfl rfl rfl ⟨hlive.frame _ rfl rfl rfl rfl rfl rfl, hne⟩ ?_ ?_ hdel ?_⟩
      · intro _ _; exact hb
      · intro hx; cases hx
      · intro hx; simp [hsl] at hx
    · cases hs
  | drop =>
    simp only [cstep] at hs
    split at hs
    · rename_i data hpc
      rw [hpc] at hdel hpcI
      obtain ⟨hlive, hne, r, hr, hsam⟩ := hpcI
      have hsl := sleepF (by rw [hpc]; simp)
      cases hs
      have hnb : r.status ≠ .busy := by
        intro hb; simp [Spec.sample, hb] at hsam
      have hlen : data.length = r.len := by
        have hc : data = r.content := by
          unfold Spec.sample at hsam
          split at hsam <;> simp_all
        rw [hc]; exact (h.lens k r hr).1
      refine ⟨k + 1, h.consumed hlive r hr hnb _ rfl rfl rfl ?_ rfl ?_ rfl rfl (Or.inl rfl) hne ?_ hsl⟩
      · simp [consume, hlen]
      · simp [consume, hlen]
      · rw [samples_succ _ _ _ hr, hsam]
        simpa [consume] using hdel
    · cases hs

/-! ### Kernel steps -/

/-- A step that replaces one record (same place, same length) and possibly rewrites its memory. -/
theorem Inv.setRec {size k : Nat} {s : Sys} (h : Inv size k s) (i : Nat) (r r' : Rec)
    (hr : s.recs[i]? = some r) (mem' : Nat → UInt8) (n' : Bool)
    (hstart : r'.start = r.start) (hlen : r'.len = r.len) (hcl : r'.content.length = r'.len)
    (hnb : r.status ≠ .busy → r'.status ≠ .busy ∧ Spec.sample r' = Spec.sample r)
    (hframe : ∀ q, lpos s ≤ q → q < s.prod → (q < r.start ∨ r.start + r.size ≤ q) → k ≤ i →
      byteAt mem' size q = byteAt s.mem size q)
    (hmem0 : i < k → mem' = s.mem)
    (hown : k ≤ i → readBytes mem' size r.start 4 = le 4 r'.header ∧
      readBytes mem' size (r.start + hdrSz) r.len = r'.content)
    (hwake : s.sleeping = true → i = k → s.consMem = r.start → (∃ d, r'.status = .done d) → n' = true)
    (hn : s.notified = true → n' = true) :
    Inv size k { s with mem := mem', recs := s.recs.set i r', notified := n' } := by
  have hil : i < s.recs.length := (List.getElem?_eq_some_iff.mp hr).1
  have get_set : ∀ j q, (s.recs.set i r')[j]? = some q → (j = i ∧ q = r') ∨ (j ≠ i ∧ s.recs[j]? = some q) := by
    intro j q hq
    rw [List.getElem?_set] at hq
    split at hq
    · rename_i hij
      simp [hil] at hq
      exact Or.inl ⟨hij.symm, hq.symm⟩
    · rename_i hij
      exact Or.inr ⟨fun h => hij h.symm, hq⟩
  have hst : ∀ j, startAt { s with mem := mem', recs := s.recs.set i r', notified := n' } j = startAt s j := by
    intro j
    simp only [startAt, List.getElem?_set]
    split
    · rename_i hij
      subst hij
      simp [hil, hr, hstart]
      have := (List.getElem?_eq_some_iff.mp hr).2
      rw [this]
    · rfl
  have hlp : lpos { s with mem := mem', recs := s.recs.set i r', notified := n' } = lpos s := rfl
  have hlive : Live k s → Live k { s with mem := mem', recs := s.recs.set i r', notified := n' } := by
    rintro ⟨h1, j, h2, h3, h4⟩
    exact ⟨h1, j, h2, by simpa using h3, by rw [hst]; exact h4⟩
  have hk : ∀ q, (s.recs.set i r')[k]? = some q → ∃ q0, s.recs[k]? = some q0 := by
    intro q hq
    rcases get_set k q hq with ⟨h1, h2⟩ | ⟨h1, h2⟩
    · exact ⟨r, by rw [h1]; exact hr⟩
    · exact ⟨q, h2⟩
  refine ⟨?_, by simpa using h.klen, ?_, by rw [hst]; exact h.lp, h.sorted, h.room, ?_, ?_, ?_, h.nw, h.absent, ?_, ?_⟩
  · intro j q hq
    rw [hst]
    rcases get_set j q hq with ⟨h1, h2⟩ | ⟨h1, h2⟩
    · subst h1; subst h2
      rw [h.chain j r hr, hstart]
      simp [Rec.size, hlen]
    · exact h.chain j q h2
  · intro j q hq
    rcases get_set j q hq with ⟨h1, h2⟩ | ⟨h1, h2⟩
    · subst h1; subst h2
      exact ⟨hcl, by rw [hlen]; exact (h.lens j r hr).2⟩
    · exact h.lens j q h2
  · intro j q hq hkj
    rcases get_set j q hq with ⟨h1, h2⟩ | ⟨h1, h2⟩
    · subst h1; subst h2
      rw [hstart, hlen]
      exact hown hkj
    · obtain ⟨m1, m2⟩ := h.memOk j q h2 hkj
      rcases Nat.lt_or_ge i k with hik | hik
      · show readBytes mem' size q.start 4 = _ ∧ readBytes mem' size (q.start + hdrSz) q.len = _
        rw [hmem0 hik]; exact ⟨m1, m2⟩
      · have hlo := h.ge_lpos j q h2 hkj
        have hhi := h.le_prod j q h2
        have hsz := size_ge q
        have hdis : q.start + q.size ≤ r.start ∨ r.start + r.size ≤ q.start := by
          rcases Nat.lt_or_gt_of_ne h1 with h' | h'
          · left
            have := chain_lt h.chain j i q h2 h'
            rwa [startAt_of s i r hr] at this
          · right
            have := chain_lt h.chain i j r hr h'
            rwa [startAt_of s j q h2] at this
        have same : ∀ x, q.start ≤ x → x < q.start + q.size → byteAt mem' size x = byteAt s.mem size x := by
          intro x hx1 hx2
          exact hframe x (by omega) (by omega) (by omega) hik
        refine ⟨?_, ?_⟩
        · rw [← m1]
          apply readBytes_congr
          intro x hx1 hx2
          exact same x hx1 (by omega)
        · rw [← m2]
          apply readBytes_congr
          intro x hx1 hx2
          simp only [hdrSz] at *
          exact same x (by omega) (by omega)
  · intro j q hj hq
    rcases get_set j q hq with ⟨h1, h2⟩ | ⟨h1, h2⟩
    · subst h1; subst h2
      exact (hnb (h.comm j r hj hr)).1
    · exact h.comm j q hj h2
  · have hp := h.pcInv
    show match s.con.pc with
      | .absent => True
      | .creating => s.con.pos = lpos s
      | .idle | .daFence => Live k _
      | .daLoad => Live k _ ∧ s.con.needsWakeup = false
      | .readHdr | .busyFence => Live k _ ∧ s.con.pos ≠ s.con.cache
      | .held data => Live k _ ∧ s.con.pos ≠ s.con.cache ∧ ∃ r, _ ∧ Spec.sample r = some data
      | .panicked => False
    split <;> rename_i hpc <;> rw [hpc] at hp
    · trivial
    · exact hp
    · exact hlive hp
    · exact hlive hp
    · exact ⟨hlive hp.1, hp.2⟩
    · exact ⟨hlive hp.1, hp.2⟩
    · exact ⟨hlive hp.1, hp.2⟩
    · obtain ⟨h1, h2, q, hq, hsam⟩ := hp
      refine ⟨hlive h1, h2, ?_⟩
      by_cases hik : i = k
      · subst hik
        rw [hr] at hq; cases hq
        have hb : r.status ≠ .busy := by intro hb; simp [Spec.sample, hb] at hsam
        exact ⟨r', by simp [hil], by rw [(hnb hb).2]; exact hsam⟩
      · exact ⟨q, by simpa [List.getElem?_set, hik] using hq, hsam⟩
    · exact hp
  · have hsamples : Spec.samples (s.recs.set i r') k = Spec.samples s.recs k := by
      simp only [Spec.samples]
      rw [List.take_set]
      have : ∀ (l : List Rec), (∀ x, l[i]? = some x → Spec.sample r' = Spec.sample x) →
          (l.set i r').filterMap Spec.sample = l.filterMap Spec.sample := by
        intro l
        clear hil get_set hst hlp hlive hk hr hframe hmem0 hown hwake
        induction l generalizing i with
        | nil => intro _; simp
        | cons a l ih =>
          intro hx
          cases i with
          | zero =>
            have := hx a (by simp)
            simp [List.filterMap_cons, this]
          | succ i =>
            simp only [List.set_cons_succ, List.filterMap_cons]
            rw [ih i (fun x hh => hx x (by simpa using hh))]
      apply this
      intro x hx
      rw [List.getElem?_take] at hx
      split at hx
      · rename_i hik
        rw [hr] at hx; cases hx
        exact (hnb (h.comm i _ hik hr)).2
      · cases hx
    show s.delivered = Spec.samples (s.recs.set i r') k ++ _
    rw [hsamples]
    exact h.deliv
  · intro hs
    obtain ⟨w1, w2, w3⟩ := h.wake hs
    refine ⟨w1, w2, ?_⟩
    intro q d hq hd
    rcases get_set k q hq with ⟨h1, h2⟩ | ⟨h1, h2⟩
    · subst h1; subst h2
      refine hwake hs rfl ?_ ⟨d, hd⟩
      have hb := h.nw (by rw [w1]; simp) w2
      have := h.lp
      rw [startAt_of s k r hr] at this
      simpa [lpos, hb] using this
    · exact hn (w3 q d h2 hd)

theorem kstep_inv (size m : Nat) (hsz : size = 2 ^ m) (h3 : 3 ≤ m)
    {k : Nat} {s s' : Sys} (h : Inv size k s) (a : KAct) (hs : kstep size s a = some s') :
    Inv size k s' := by
  have hsize : 8 ≤ size := by
    rw [hsz]
    calc 8 = 2 ^ 3 := rfl
      _ ≤ 2 ^ m := Nat.pow_le_pow_right (by omega) h3
  cases a with
  | spurious =>
    cases hs
    refine h.frame _ rfl rfl rfl rfl rfl h.pcInv h.nw h.absent h.deliv ?_
    intro hsl
    obtain ⟨w1, w2, w3⟩ := h.wake hsl
    exact ⟨w1, w2, fun _ _ _ _ => rfl⟩
  | flush =>
    simp only [kstep, kHdrSz_eq, kBusyBit_eq, kDiscardBit_eq, kRoundUp8_eq, kBytes_eq] at hs
    split at hs
    · cases hs
    · rename_i p rest hbuf
      cases hs
      have hsort := h.sorted
      rw [hbuf] at hsort
      have hlp : lpos { s with consMem := p, buf := rest } = lpos s := by
        simp only [lpos, hbuf]
        cases rest <;> simp [List.getLast?_cons]
      have hst : ∀ i, startAt { s with consMem := p, buf := rest } i = startAt s i := fun i => rfl
      have hlive : Live k s → Live k { s with consMem := p, buf := rest } := by
        rintro ⟨h1, j, h2, h3, h4⟩
        exact ⟨by rw [hlp]; exact h1, j, h2, h3, h4⟩
      have hbne : s.buf ≠ [] := by rw [hbuf]; simp
      refine ⟨h.chain, h.klen, h.lens, by rw [hlp]; exact h.lp, (List.pairwise_cons.mp hsort).2, ?_, h.memOk, h.comm, ?_, ?_, ?_, h.deliv, ?_⟩
      · have := (List.pairwise_cons.mp hsort).1 p (by simp)
        have := h.room
        show s.prod < p + size
        omega
      · have hp := h.pcInv
        show match s.con.pc with
          | .absent => True
          | .creating => s.con.pos = lpos _
          | .idle | .daFence => Live k _
          | .daLoad => Live k _ ∧ s.con.needsWakeup = false
          | .readHdr | .busyFence => Live k _ ∧ s.con.pos ≠ s.con.cache
          | .held data => Live k _ ∧ s.con.pos ≠ s.con.cache ∧ ∃ r, _ ∧ Spec.sample r = some data
          | .panicked => False
        split <;> rename_i hpc <;> rw [hpc] at hp
        · trivial
        · rw [hlp]; exact hp
        · exact hlive hp
        · exact hlive hp
        · exact ⟨hlive hp.1, hp.2⟩
        · exact ⟨hlive hp.1, hp.2⟩
        · exact ⟨hlive hp.1, hp.2⟩
        · exact ⟨hlive hp.1, hp.2⟩
        · exact hp
      · intro h1 h2; exact absurd (h.nw h1 h2) hbne
      · intro h1; exact absurd (h.absent h1) hbne
      · intro hsl
        obtain ⟨w1, w2, w3⟩ := h.wake hsl
        exact absurd (h.nw (by rw [w1]; simp) w2) hbne
  | reserve len pgOff =>
    simp only [kstep, kHdrSz_eq, kBusyBit_eq, kDiscardBit_eq, kRoundUp8_eq, kBytes_eq] at hs
    split at hs
    · rename_i hc
      obtain ⟨hlen, hroom⟩ := hc
      cases hs
      generalize hmem : writeBytes s.mem size s.prod (le 4 (len + busyBit) ++ le 4 pgOff) = mem'
      generalize hr : (⟨s.prod, len, .busy, readBytes mem' size (s.prod + hdrSz) len⟩ : Rec) = r
      have hrs : r.start = s.prod := by rw [← hr]
      have hrl : r.len = len := by rw [← hr]
      have hrst : r.status = .busy := by rw [← hr]
      have hrc : r.content = readBytes mem' size (s.prod + hdrSz) len := by rw [← hr]
      have hrh : r.header = len + busyBit := by rw [← hr]; rfl
      have hwl : (le 4 (len + busyBit) ++ le 4 pgOff).length = 8 := by simp [le_length]
      have hcl := h.cons_le
      have hnm := nm8_ge (hdrSz + len)
      simp only [hdrSz] at hnm
      generalize hs' : ({ s with mem := mem', prod := s.prod + nextMultipleOf8 (hdrSz + len), recs := s.recs ++ [r] } : Sys) = s'
      have e1 : s'.mem = mem' := by rw [← hs']
      have e2 : s'.prod = s.prod + nextMultipleOf8 (hdrSz + len) := by rw [← hs']
      have e3 : s'.recs = s.recs ++ [r] := by rw [← hs']
      have e4 : s'.con = s.con := by rw [← hs']
      have e5 : s'.buf = s.buf := by rw [← hs']
      have e6 : s'.consMem = s.consMem := by rw [← hs']
      have e7 : s'.delivered = s.delivered := by rw [← hs']
      have e8 : s'.sleeping = s.sleeping := by rw [← hs']
      have e9 : s'.notified = s.notified := by rw [← hs']
      clear hs'
      have hlp : lpos s' = lpos s := by simp [lpos, e5, e6]
      have hst : ∀ i, i ≤ s.recs.length → startAt s' i = startAt s i := by
        intro i hi
        simp only [startAt, e3, e2]
        rcases Nat.lt_or_ge i s.recs.length with h' | h'
        · rw [List.getElem?_append_left h']; simp [List.getElem?_eq_getElem h']
        · have : i = s.recs.length := by omega
          subst this
          simp [hrs]
      have hstp : ∀ i, s.recs.length < i → startAt s' i = s'.prod := by
        intro i hi; exact startAt_len s' i (by rw [e3]; simp; omega)
      have get_app : ∀ (j : Nat) (q : Rec), s'.recs[j]? = some q →
          (j = s.recs.length ∧ q = r) ∨ (j < s.recs.length ∧ s.recs[j]? = some q) := by
        intro j q hq
        rw [e3] at hq
        rcases Nat.lt_or_ge j s.recs.length with h' | h'
        · rw [List.getElem?_append_left h'] at hq; exact Or.inr ⟨h', hq⟩
        · rw [List.getElem?_append_right h'] at hq
          rcases Nat.eq_zero_or_pos (j - s.recs.length) with h0 | h0
          · rw [h0] at hq
            exact Or.inl ⟨by omega, by simpa using hq.symm⟩
          · rw [List.getElem?_eq_none (by simp; omega)] at hq; cases hq
      have hlive : Live k s → Live k s' := by
        rintro ⟨h1, j, h2, h3, h4⟩
        exact ⟨by rw [hlp, e4]; exact h1, j, h2, by rw [e3]; simp; omega, by rw [e4, hst j h3]; exact h4⟩
      have hsam : Spec.samples s'.recs k = Spec.samples s.recs k := by
        simp only [Spec.samples, e3]
        rw [List.take_append_of_le_length h.klen]
      have keep : ∀ (q : Rec), s.recs[k]? = some q → s'.recs[k]? = some q := by
        intro q hq
        rw [e3, List.getElem?_append_left (List.getElem?_eq_some_iff.mp hq).1]; exact hq
      refine ⟨?_, by rw [e3]; simp; have := h.klen; omega, ?_, by rw [hlp, hst k h.klen]; exact h.lp, by rw [e5, e6]; exact h.sorted,
        by rw [e2, e6]; exact hroom, ?_, ?_, ?_, by rw [e4, e5]; exact h.nw, by rw [e4, e5]; exact h.absent, ?_, ?_⟩
      · intro j q hq
        rcases get_app j q hq with ⟨h1, h2⟩ | ⟨h1, h2⟩
        · subst h1; subst h2
          rw [hstp _ (by omega), e2, hrs, Rec.size, hrl]
        · rw [hst (j + 1) (by omega)]; exact h.chain j q h2
      · intro j q hq
        rcases get_app j q hq with ⟨h1, h2⟩ | ⟨h1, h2⟩
        · subst h1; subst h2
          rw [hrc, hrl]; simp [hlen]
        · exact h.lens j q h2
      · intro j q hq hkj
        rw [e1]
        rcases get_app j q hq with ⟨h1, h2⟩ | ⟨h1, h2⟩
        · subst h1; subst h2
          refine ⟨?_, by rw [hrs, hrl, hrc]⟩
          rw [hrs, hrh]
          have h4 : (le 4 (len + busyBit)).length = 4 := le_length _ _
          conv => lhs; rw [← h4]
          apply readBytes_eq
          intro d hd
          rw [← hmem, writeBytes_in _ _ _ _ d (by omega) (by omega)]
          rw [List.getElem_append_left hd]
        · obtain ⟨m1, m2⟩ := h.memOk j q h2 hkj
          have hlo := h.ge_lpos j q h2 hkj
          have hhi := h.le_prod j q h2
          have hsz := size_ge q
          have same : ∀ x, q.start ≤ x → x < q.start + q.size → byteAt mem' size x = byteAt s.mem size x := by
            intro x hx1 hx2
            rw [← hmem]
            apply writeBytes_before
            · omega
            · rw [hwl]; simp only [hdrSz] at hroom; omega
          refine ⟨?_, ?_⟩
          · rw [← m1]
            apply readBytes_congr
            intro x hx1 hx2
            exact same x hx1 (by omega)
          · rw [← m2]
            apply readBytes_congr
            intro x hx1 hx2
            simp only [hdrSz] at *
            exact same x (by omega) (by omega)
      · intro j q hj hq
        rcases get_app j q hq with ⟨h1, h2⟩ | ⟨h1, h2⟩
        · have := h.klen; omega
        · exact h.comm j q hj h2
      · have hp := h.pcInv
        rw [e4]
        split <;> rename_i hpc <;> rw [hpc] at hp
        · trivial
        · rw [hlp]; exact hp
        · exact hlive hp
        · exact hlive hp
        · exact ⟨hlive hp.1, hp.2⟩
        · exact ⟨hlive hp.1, hp.2⟩
        · exact ⟨hlive hp.1, hp.2⟩
        · obtain ⟨h1, h2, q, hq, hsam⟩ := hp
          exact ⟨hlive h1, h2, q, keep q hq, hsam⟩
        · exact hp
      · rw [e7, hsam, e4]; exact h.deliv
      · intro hsl
        rw [e8] at hsl
        obtain ⟨w1, w2, w3⟩ := h.wake hsl
        refine ⟨by rw [e4]; exact w1, by rw [e4]; exact w2, ?_⟩
        intro q d hq hd
        rcases get_app k q hq with ⟨h1, h2⟩ | ⟨h1, h2⟩
        · subst h2; rw [hrst] at hd; cases hd
        · rw [e9]; exact w3 q d h2 hd
    · cases hs
  | write i j b =>
    simp only [kstep, kHdrSz_eq, kBusyBit_eq, kDiscardBit_eq, kRoundUp8_eq, kBytes_eq] at hs
    split at hs
    · rename_i r hr
      split at hs
      · rename_i hc
        obtain ⟨hbusy, hj⟩ := hc
        cases hs
        have hki : k ≤ i := by
          rcases Nat.lt_or_ge i k with h' | h'
          · exact absurd hbusy (h.comm i r h' hr)
          · exact h'
        have hlo := h.ge_lpos i r hr hki
        have hhi := h.le_prod i r hr
        have hcl := h.cons_le
        have hroom := h.room
        have hrsz := size_ge r
        obtain ⟨m1, m2⟩ := h.memOk i r hr hki
        obtain ⟨l1, l2⟩ := h.lens i r hr
        refine h.setRec i r _ hr _ s.notified rfl rfl ?_ ?_ ?_ ?_ ?_ ?_ ?_
        · simpa using l1
        · intro hx; exact absurd hbusy hx
        · intro q h1 h2 h3 _
          simp only [hdrSz]
          rcases h3 with h3 | h3
          · apply writeBytes_before
            · omega
            · simp; omega
          · apply writeBytes_after
            · simp; omega
            · omega
        · intro hx; omega
        · intro _
          refine ⟨?_, ?_⟩
          · rw [show Rec.header { r with content := r.content.set j b } = r.header from rfl, ← m1]
            apply readBytes_congr
            intro x hx1 hx2
            apply writeBytes_before
            · simp only [hdrSz]; omega
            · simp [hdrSz]; omega
          · have hcl' : (r.content.set j b).length = r.len := by simpa using l1
            conv => lhs; rw [← hcl']
            apply readBytes_eq
            intro d hd
            rw [List.getElem_set]
            split
            · rename_i hjd
              subst hjd
              have := writeBytes_in s.mem size (r.start + hdrSz + j) [b] 0 (by simp) (by simp; omega)
              simpa using this
            · rename_i hjd
              have hd' : d < r.len := by omega
              have hdc : d < r.content.length := by omega
              have hold : byteAt s.mem size (r.start + hdrSz + d) = r.content[d] := by
                have := congrArg (fun l => l[d]?) m2
                simp [readBytes, hd', hdc] at this
                exact this
              rw [← hold]
              rcases Nat.lt_or_gt_of_ne hjd with h' | h'
              · apply writeBytes_after
                · simp; omega
                · simp only [hdrSz]; omega
              · apply writeBytes_before
                · omega
                · simp [hdrSz]; omega
        · rintro _ _ _ ⟨d, hd⟩; rw [show Rec.status { r with content := r.content.set j b } = r.status from rfl, hbusy] at hd; cases hd
        · exact id
      · cases hs
    · cases hs
  | commit i d =>
    simp only [kstep, kHdrSz_eq, kBusyBit_eq, kDiscardBit_eq, kRoundUp8_eq, kBytes_eq] at hs
    split at hs
    · rename_i r hr
      split at hs
      · rename_i hbusy
        cases hs
        have hki : k ≤ i := by
          rcases Nat.lt_or_ge i k with h' | h'
          · exact absurd hbusy (h.comm i r h' hr)
          · exact h'
        have hlo := h.ge_lpos i r hr hki
        have hhi := h.le_prod i r hr
        have hcl := h.cons_le
        have hroom := h.room
        have hrsz := size_ge r
        obtain ⟨m1, m2⟩ := h.memOk i r hr hki
        obtain ⟨l1, l2⟩ := h.lens i r hr
        refine h.setRec i r _ hr _ s.notified rfl rfl l1 ?_ ?_ ?_ ?_ ?_ id
        · intro hx; exact absurd hbusy hx
        · intro q h1 h2 h3 _
          rcases h3 with h3 | h3
          · apply writeBytes_before
            · omega
            · simp [le_length]; omega
          · apply writeBytes_after
            · simp [le_length]; omega
            · omega
        · intro hx; omega
        · intro _
          refine ⟨?_, ?_⟩
          · have h4 : (le 4 (Rec.header { r with status := .pending d })).length = 4 := le_length _ _
            conv => lhs; rw [← h4]
            apply readBytes_eq
            intro x hx
            rw [writeBytes_in _ _ _ _ x (by simpa [le_length] using hx) (by simp [le_length]; omega)]
            rfl
          · rw [← m2]
            apply readBytes_congr
            intro x hx1 hx2
            simp only [hdrSz] at *
            apply writeBytes_after
            · simp [le_length]; omega
            · omega
        · rintro _ _ _ ⟨d, hd⟩; cases hd
      · cases hs
    · cases hs
  | check i =>
    simp only [kstep, kHdrSz_eq, kBusyBit_eq, kDiscardBit_eq, kRoundUp8_eq, kBytes_eq] at hs
    split at hs
    · rename_i r hr
      split at hs
      · rename_i d hst
        cases hs
        obtain ⟨l1, l2⟩ := h.lens i r hr
        refine h.setRec i r _ hr s.mem _ rfl rfl l1 ?_ (fun _ _ _ _ _ => rfl) (fun _ => rfl) ?_ ?_ ?_
        · intro _
          refine ⟨by simp, ?_⟩
          cases d <;> simp only [Spec.sample, hst]
        · intro hki
          obtain ⟨m1, m2⟩ := h.memOk i r hr hki
          refine ⟨?_, m2⟩
          rw [m1]
          simp only [Rec.header, hst]
        · intro _ _ heq _
          rw [heq]; simp
        · intro hn; simp [hn]
      · cases hs
    · cases hs

theorem init_inv (size : Nat) (hs : 0 < size) (mem : Nat → UInt8) (base : Nat) :
    Inv size 0 (init mem base) := by
  refine ⟨?_, Nat.zero_le _, ?_, rfl, by simp [init], by simp [init]; omega, ?_, ?_, ?_, ?_, ?_, rfl, ?_⟩
  all_goals simp [init]

theorem run_inv (size m : Nat) (hsz : size = 2 ^ m) (h3 : 3 ≤ m) (hm : m ≤ 30) (sched : List Act) :
    ∀ {k : Nat} {s s' : Sys}, Inv size k s → run size s sched = some s' → ∃ k', Inv size k' s' := by
  induction sched with
  | nil => intro k s s' h hr; simp [run] at hr; subst hr; exact ⟨k, h⟩
  | cons a as ih =>
    intro k s s' h hr
    simp only [run] at hr
    cases hst : step size s a with
    | none => rw [hst] at hr; cases hr
    | some t =>
      rw [hst] at hr
      cases a with
      | c a =>
        obtain ⟨k', hk'⟩ := cstep_inv size m hsz h3 hm h a hst
        exact ih hk' hr
      | k a => exact ih (kstep_inv size m hsz h3 h a hst) hr

theorem reachable_inv (size m : Nat) (hsz : size = 2 ^ m) (h3 : 3 ≤ m) (hm : m ≤ 30) {s : Sys}
    (h : Spec.Reachable size s) : ∃ k, Inv size k s := by
  obtain ⟨mem, base, sched, _, hr⟩ := h
  exact run_inv size m hsz h3 hm sched (init_inv size (by rw [hsz]; exact Nat.two_pow_pos m) mem base) hr

end Verif.RingBuf
