import Verif.Run.Spec
import Verif.Common.Except

set_option linter.unusedVariables false
set_option linter.unusedSimpArgs false

/-!
# C77: test runs
-/
namespace Verif.Run
open Spec

theorem u32_lt {n : Nat} (h : n < 4294967296) : u32 n = n := Nat.mod_eq_of_lt h

/-- The attributes, field by field. -/
theorem attr_fields (fd : Nat) (o : Options) :
    (attr fd o).progFd = fd ∧ (attr fd o).repeats = o.repeats ∧ (attr fd o).flags = o.attrs.flags ∧
    (attr fd o).batchSize = o.attrs.batchSize ∧ (attr fd o).duration = 0 ∧
    ((attr fd o).dataIn = (o.dataIn.map Slice.addr).getD 0 ∧ (attr fd o).dataSizeIn = (o.dataIn.map (fun s => u32 s.len)).getD 0) ∧
    ((attr fd o).dataOut = (o.dataOut.map Slice.addr).getD 0 ∧ (attr fd o).dataSizeOut = (o.dataOut.map (fun s => u32 s.len)).getD 0) ∧
    ((attr fd o).ctxIn = (o.ctxIn.map Slice.addr).getD 0 ∧ (attr fd o).ctxSizeIn = (o.ctxIn.map (fun s => u32 s.len)).getD 0) ∧
    ((attr fd o).ctxOut = (o.ctxOut.map Slice.addr).getD 0 ∧ (attr fd o).ctxSizeOut = (o.ctxOut.map (fun s => u32 s.len)).getD 0) := by
  unfold attr
  cases o.dataIn <;> cases o.dataOut <;> cases o.ctxIn <;> cases o.ctxOut <;> simp

/-- The kernel runs the program on the bytes it was given. -/
theorem sys_packet_run {K : Kernel} {fd P : Nat} {o : Options} {m : Mem} (hP : K.prog fd = some P)
    (hk : K.kind P = .packet) (hf : Fits o) (hr : K.refuse (attr fd o) m = none) :
    (∃ s, (o.ctxIn = some s ∨ o.ctxOut = some s) ∧ s.len = 0) ∧ sys K (attr fd o) m = (.error 22, m) ∨
    (∀ s, o.ctxIn = some s ∨ o.ctxOut = some s → s.len ≠ 0) ∧
      sys K (attr fd o) m = finish (attr fd o) (outcome K P o m) m := by
  obtain ⟨h1, h2, h3, h4, h5, ⟨h6, h7⟩, -, ⟨h8, h9⟩, ⟨h12, h13⟩⟩ := attr_fields fd o
  have ha : read m (attr fd o).dataIn (attr fd o).dataSizeIn = (bytes m o.dataIn).getD [] := by
    rw [h6, h7]
    cases hd : o.dataIn with
    | none => rfl
    | some s => simp only [Option.map_some, Option.getD_some, bytes]; rw [u32_lt (hf.slices s (.inl hd)).2]
  have hc : (if (attr fd o).ctxIn = 0 then none else some (read m (attr fd o).ctxIn (attr fd o).ctxSizeIn)) =
      bytes m o.ctxIn := by
    rw [h8, h9]
    cases hd : o.ctxIn with
    | none => rfl
    | some s =>
      simp only [Option.map_some, Option.getD_some, bytes]
      rw [u32_lt (hf.slices s (.inr (.inr (.inl hd)))).2, if_neg (hf.slices s (.inr (.inr (.inl hd)))).1]
  by_cases hbad : ((attr fd o).ctxSizeIn = 0) ≠ ((attr fd o).ctxIn = 0) ∨
      ((attr fd o).ctxSizeOut = 0) ≠ ((attr fd o).ctxOut = 0)
  · refine .inl ⟨?_, ?_⟩
    · rw [h8, h9, h12, h13] at hbad
      rcases hbad with hb | hb
      · cases hx : o.ctxIn with
        | none => simp [hx] at hb
        | some t =>
          obtain ⟨ht0, ht1⟩ := hf.slices t (.inr (.inr (.inl hx)))
          refine ⟨t, .inl rfl, ?_⟩
          simpa [hx, u32_lt ht1, ht0] using hb
      · cases hx : o.ctxOut with
        | none => simp [hx] at hb
        | some t =>
          obtain ⟨ht0, ht1⟩ := hf.slices t (.inr (.inr (.inr hx)))
          refine ⟨t, .inr rfl, ?_⟩
          simpa [hx, u32_lt ht1, ht0] using hb
    · unfold sys
      simp only [hr, h1, hP]
      rw [if_pos hbad]
  · refine .inr ⟨?_, ?_⟩
    · intro t ht h0
      apply hbad
      rw [h8, h9, h12, h13]
      rcases ht with hx | hx
      · obtain ⟨ht0, ht1⟩ := hf.slices t (.inr (.inr (.inl hx)))
        exact .inl (by simp [hx, ht0, h0, u32])
      · obtain ⟨ht0, ht1⟩ := hf.slices t (.inr (.inr (.inr hx)))
        exact .inr (by simp [hx, ht0, h0, u32])
    · unfold sys
      simp only [hr, h1, hP]
      rw [if_neg hbad]
      simp only [hk, outcome, h2, h3, h4, ha, hc]

theorem sys_packet {K : Kernel} {fd P : Nat} {o : Options} {m : Mem} (hP : K.prog fd = some P) (hk : K.kind P = .packet)
    (hf : Fits o) :
    (∃ e, sys K (attr fd o) m = (.error e, m)) ∨
    sys K (attr fd o) m = finish (attr fd o) (outcome K P o m) m := by
  cases hr : K.refuse (attr fd o) m with
  | some e => exact .inl ⟨e, by unfold sys; simp [hr]⟩
  | none =>
    rcases sys_packet_run hP hk hf hr with ⟨-, h⟩ | ⟨-, h⟩
    · exact .inl ⟨22, h⟩
    · exact .inr h

/-- **C77, partial.** A successful test run is a run of the program on exactly the packet and context given, as often as
asked for; the return value and the sizes are those of this run; the output buffers begin with the packet and the context
the run has left, and no other memory changes. Missing: an empty output buffer, for which this is false. -/
theorem C77_run_partial (K : Kernel) (fd P : Nat) (o : Options) (m m' : Mem) (r : Result) (hP : K.prog fd = some P)
    (hk : K.kind P = .packet) (hf : Fits o) (hne : ∀ s, o.dataOut = some s → s.len ≠ 0)
    (h : testRun (sys K) (some fd) o m = (.ok r, m')) :
    r.returnValue = (outcome K P o m).retval ∧ r.duration = (outcome K P o m).duration ∧
    r.dataSizeOut = (outcome K P o m).data.length ∧
    r.ctxSizeOut = (if o.ctxOut = none then 0 else (outcome K P o m).ctx.length) ∧
    Holds m m' o.dataOut (outcome K P o m).data ∧ Holds m m' o.ctxOut (outcome K P o m).ctx ∧
    ∀ x, ¬ In x o.dataOut → ¬ In x o.ctxOut → m' x = m x := by
  have hs : sys K (attr fd o) m = finish (attr fd o) (outcome K P o m) m := by
    rcases sys_packet (m := m) hP hk hf with ⟨e, he⟩ | h'
    · simp [testRun, invoke, he] at h
    · exact h'
  obtain ⟨-, -, -, -, -, -, ⟨h1, h2⟩, -, ⟨h3, h4⟩⟩ := attr_fields fd o
  generalize hout : outcome K P o m = out at hs ⊢
  generalize hat : attr fd o = a at hs h1 h2 h3 h4
  simp only [testRun, invoke, hat] at h
  cases hd : o.dataOut with
  | none =>
    simp only [hd, Option.map_none, Option.getD_none] at h1 h2
    simp only [finish, h1, h2] at hs
    simp only [ne_eq, not_true_eq_false, false_and, if_false, if_true, ctxFinish] at hs
    cases hc : o.ctxOut with
    | none =>
      simp only [hc, Option.map_none, Option.getD_none] at h3 h4
      simp only [h3, if_true] at hs
      simp only [hs, Prod.mk.injEq, Except.ok.injEq] at h
      obtain ⟨rfl, rfl⟩ := h
      refine ⟨rfl, rfl, rfl, ?_, by intro t ht; simp at ht, by intro t ht; simp at ht, fun _ _ _ => rfl⟩
      simp [h4]
    | some s =>
      obtain ⟨hs0, hs1⟩ := hf.slices s (.inr (.inr (.inr hc)))
      simp only [hc, Option.map_some, Option.getD_some, u32_lt hs1] at h3 h4
      simp only [h3, hs0, if_false, h4] at hs
      by_cases hx : out.ctx.length > s.len
      · simp [hs, hx] at h
      · simp only [hx, if_false] at hs
        simp only [hs, Prod.mk.injEq, Except.ok.injEq] at h
        obtain ⟨rfl, rfl⟩ := h
        refine ⟨rfl, rfl, rfl, by simp, by intro t ht; simp at ht, ?_, ?_⟩
        · intro t ht
          simp only [Option.some.injEq] at ht
          subst ht
          refine ⟨by omega, read_write _ _ _, ?_⟩
          intro x hx1 hx2
          exact write_outside _ _ _ _ (.inr hx1)
        · intro x _ hx2
          apply write_outside
          simp only [In] at hx2
          omega
  | some d =>
    obtain ⟨hd0, hd1⟩ := hf.slices d (.inr (.inl hd))
    have hdn := hne d hd
    simp only [hd, Option.map_some, Option.getD_some, u32_lt hd1] at h1 h2
    simp only [finish, h1, h2, hdn, ne_eq, not_false_eq_true, true_and, hd0, if_false] at hs
    by_cases hl : out.data.length > d.len
    · simp [hs, hl] at h
    · simp only [hl, if_false, ctxFinish] at hs
      cases hc : o.ctxOut with
      | none =>
        simp only [hc, Option.map_none, Option.getD_none] at h3 h4
        simp only [h3, if_true] at hs
        simp only [hs, Prod.mk.injEq, Except.ok.injEq] at h
        obtain ⟨rfl, rfl⟩ := h
        refine ⟨rfl, rfl, rfl, by simp [h4], ?_, by intro t ht; simp at ht, ?_⟩
        · intro t ht
          simp only [Option.some.injEq] at ht
          subst ht
          refine ⟨by omega, read_write _ _ _, ?_⟩
          intro x hx1 hx2
          exact write_outside _ _ _ _ (.inr hx1)
        · intro x hx1 _
          apply write_outside
          simp only [In] at hx1
          omega
      | some s =>
        obtain ⟨hs0, hs1⟩ := hf.slices s (.inr (.inr (.inr hc)))
        have hap := hf.apart
        simp only [hd, hc, In] at hap
        simp only [hc, Option.map_some, Option.getD_some, u32_lt hs1] at h3 h4
        simp only [h3, hs0, if_false, h4] at hs
        by_cases hx : out.ctx.length > s.len
        · simp [hs, hx] at h
        · simp only [hx, if_false] at hs
          simp only [hs, Prod.mk.injEq, Except.ok.injEq] at h
          obtain ⟨rfl, rfl⟩ := h
          refine ⟨rfl, rfl, rfl, by simp, ?_, ?_, ?_⟩
          · intro t ht
            simp only [Option.some.injEq] at ht
            subst ht
            refine ⟨by omega, ?_, ?_⟩
            · rw [read_congr (write m d.addr out.data) _ _ _ ?_, read_write]
              intro x hx1 hx2
              apply write_outside
              have := hap x
              omega
            · intro x hx1 hx2
              rw [write_outside, write_outside _ _ _ _ (.inr hx1)]
              have := hap x
              omega
          · intro t ht
            simp only [Option.some.injEq] at ht
            subst ht
            refine ⟨by omega, read_write _ _ _, ?_⟩
            intro x hx1 hx2
            rw [write_outside _ _ _ _ (.inr hx1), write_outside]
            have := hap x
            omega
          · intro x hx1 hx2
            simp only [In] at hx1 hx2
            rw [write_outside, write_outside]
            · omega
            · omega

/-- **C77, partial.** Whether or not it succeeds, a test run changes no memory but the output buffers. Missing: an empty
output buffer, for which this is false. -/
theorem C77_contained_partial (K : Kernel) (fd P : Nat) (o : Options) (m : Mem) (hP : K.prog fd = some P)
    (hk : K.kind P = .packet) (hf : Fits o) (hne : ∀ s, o.dataOut = some s → s.len ≠ 0) (x : Nat)
    (hx1 : ¬ In x o.dataOut) (hx2 : ¬ In x o.ctxOut) :
    (testRun (sys K) (some fd) o m).2 x = m x := by
  cases hr : testRun (sys K) (some fd) o m with
  | mk r m' =>
    cases r with
    | ok r => exact (C77_run_partial K fd P o m m' r hP hk hf hne hr).2.2.2.2.2.2 x hx1 hx2
    | error e =>
      simp only [testRun, invoke] at hr
      rcases sys_packet (m := m) hP hk hf with ⟨e', he⟩ | hs
      · simp only [he, Prod.mk.injEq] at hr
        rw [← hr.2]
      · obtain ⟨-, -, -, -, -, -, ⟨h1, h2⟩, -, ⟨h3, h4⟩⟩ := attr_fields fd o
        generalize hout : outcome K P o m = out at hs
        generalize hat : attr fd o = a at hs h1 h2 h3 h4 hr
        rw [hs] at hr
        have hw1 : (if a.dataOut = 0 then m else write m a.dataOut (out.data.take a.dataSizeOut)) x = m x := by
          cases hd : o.dataOut with
          | none => simp [hd] at h1; simp [h1]
          | some d =>
            obtain ⟨hd0, hd1⟩ := hf.slices d (.inr (.inl hd))
            simp only [hd, Option.map_some, Option.getD_some, u32_lt hd1] at h1 h2
            rw [h1, h2, if_neg hd0]
            apply write_outside
            simp only [hd, In] at hx1
            rw [List.length_take]
            omega
        have hw2 : ¬ (a.dataSizeOut ≠ 0 ∧ out.data.length > a.dataSizeOut) →
            (if a.dataOut = 0 then m else write m a.dataOut out.data) x = m x := by
          intro hl
          cases hd : o.dataOut with
          | none => simp [hd] at h1; simp [h1]
          | some d =>
            obtain ⟨hd0, hd1⟩ := hf.slices d (.inr (.inl hd))
            have := hne d hd
            simp only [hd, Option.map_some, Option.getD_some, u32_lt hd1] at h1 h2
            rw [h1, if_neg hd0]
            rw [h2] at hl
            apply write_outside
            simp only [hd, In] at hx1
            omega
        have hw3 : ∀ (m1 : Mem) (bs : List UInt8), bs.length ≤ a.ctxSizeOut → a.ctxOut ≠ 0 →
            write m1 a.ctxOut bs x = m1 x := by
          intro m1 bs hb h0
          cases hc : o.ctxOut with
          | none => simp [hc] at h3; exact absurd h3 h0
          | some s =>
            obtain ⟨hs0, hs1⟩ := hf.slices s (.inr (.inr (.inr hc)))
            simp only [hc, Option.map_some, Option.getD_some, u32_lt hs1] at h3 h4
            rw [h3]
            rw [h4] at hb
            apply write_outside
            simp only [hc, In] at hx2
            omega
        unfold finish at hr
        by_cases hl : a.dataSizeOut ≠ 0 ∧ out.data.length > a.dataSizeOut
        · rw [if_pos hl] at hr
          simp only [Prod.mk.injEq] at hr
          rw [← hr.2]
          exact hw1
        · rw [if_neg hl] at hr
          simp only [ctxFinish] at hr
          by_cases h0 : a.ctxOut = 0
          · simp [h0] at hr
          · simp only [h0, if_false] at hr
            by_cases hg : out.ctx.length > a.ctxSizeOut
            · simp only [hg, if_true, Prod.mk.injEq] at hr
              rw [← hr.2]
              show write _ a.ctxOut _ x = m x
              rw [hw3 _ _ (by rw [List.length_take]; omega) h0]
              exact hw2 hl
            · simp [hg] at hr

/-- **C77.** If the kernel has no other objection, a test run fails only if an output buffer is too small or a context
given is empty: with `ENOSPC` and `EINVAL`. -/
theorem C77_fails (K : Kernel) (fd P : Nat) (o : Options) (m : Mem) (hP : K.prog fd = some P)
    (hk : K.kind P = .packet) (hf : Fits o) (hr : K.refuse (attr fd o) m = none) (e : Err)
    (h : (testRun (sys K) (some fd) o m).1 = .error e) :
    (∃ s, (o.ctxIn = some s ∨ o.ctxOut = some s) ∧ s.len = 0) ∧ e = .syscall 22 ∨
    e = .syscall 28 ∧ ((∃ s, o.dataOut = some s ∧ s.len < (outcome K P o m).data.length) ∨
      ∃ s, o.ctxOut = some s ∧ s.len < (outcome K P o m).ctx.length) := by
  obtain ⟨-, -, -, -, -, -, ⟨h1, h2⟩, -, ⟨h3, h4⟩⟩ := attr_fields fd o
  simp only [testRun, invoke] at h
  rcases sys_packet_run (m := m) hP hk hf hr with ⟨hb, hs⟩ | ⟨-, hs⟩
  · simp only [hs, Except.error.injEq] at h
    exact .inl ⟨hb, h.symm⟩
  · refine .inr ?_
    rw [hs] at h
    unfold finish at h
    by_cases hl : (attr fd o).dataSizeOut ≠ 0 ∧ (outcome K P o m).data.length > (attr fd o).dataSizeOut
    · rw [if_pos hl] at h
      simp only [Except.error.injEq] at h
      refine ⟨h.symm, .inl ?_⟩
      rw [h2] at hl
      cases hd : o.dataOut with
      | none => simp [hd] at hl
      | some s =>
        simp only [hd, Option.map_some, Option.getD_some, u32_lt (hf.slices s (.inr (.inl hd))).2] at hl
        exact ⟨s, rfl, hl.2⟩
    · rw [if_neg hl] at h
      unfold ctxFinish at h
      by_cases h0 : (attr fd o).ctxOut = 0
      · simp [h0] at h
      · simp only [h0, if_false] at h
        by_cases hl : (outcome K P o m).ctx.length > (attr fd o).ctxSizeOut
        · rw [if_pos hl] at h
          simp only [Except.error.injEq] at h
          refine ⟨h.symm, .inr ?_⟩
          simp only [h4] at hl
          cases hd : o.ctxOut with
          | none => simp [hd, h3] at h0
          | some s =>
            simp only [hd, Option.map_some, Option.getD_some, u32_lt (hf.slices s (.inr (.inr (.inr hd)))).2] at hl
            exact ⟨s, rfl, hl⟩
        · simp [hl] at h

/-- **C77.** An output buffer too small for the packet is an error. -/
theorem C77_short (K : Kernel) (fd P : Nat) (o : Options) (m : Mem) (s : Slice) (hP : K.prog fd = some P)
    (hk : K.kind P = .packet) (hf : Fits o) (hd : o.dataOut = some s) (h0 : s.len ≠ 0)
    (hl : s.len < (outcome K P o m).data.length) :
    ∃ e, (testRun (sys K) (some fd) o m).1 = .error (.syscall e) := by
  cases hr : testRun (sys K) (some fd) o m with
  | mk r m' =>
    cases r with
    | ok r =>
      have := (C77_run_partial K fd P o m m' r hP hk hf (by intro t ht; rw [hd] at ht; cases ht; exact h0) hr).2.2.2.2.1 s hd
      omega
    | error e =>
      cases e with
      | notLoaded =>
        simp only [testRun, invoke] at hr
        split at hr
        · rename_i h
          split at h
          · simp only [Prod.mk.injEq, Except.error.injEq] at h hr
            rw [← h.1] at hr
            simp at hr
          · simp at h
        · simp at hr
      | syscall e => exact ⟨e, rfl⟩

/-- **C77, violated.** An empty output buffer has the kernel write the whole packet to where it begins: memory that is not
the caller's to change, from safe code. -/
theorem C77_empty_violated (K : Kernel) (fd P a : Nat) (o : Options) (m : Mem) (hP : K.prog fd = some P)
    (hk : K.kind P = .packet) (hf : Fits o) (hd : o.dataOut = some ⟨a, 0⟩) (hc1 : o.ctxIn = none) (hc2 : o.ctxOut = none)
    (hr : K.refuse (attr fd o) m = none) :
    (testRun (sys K) (some fd) o m).1 = .ok ⟨(outcome K P o m).retval, (outcome K P o m).duration,
      (outcome K P o m).data.length, 0⟩ ∧
    read (testRun (sys K) (some fd) o m).2 a (outcome K P o m).data.length = (outcome K P o m).data := by
  obtain ⟨-, -, -, -, -, -, ⟨h1, h2⟩, -, ⟨h3, h4⟩⟩ := attr_fields fd o
  have ha := (hf.slices _ (.inr (.inl hd))).1
  simp only [hd, hc2, Option.map_some, Option.getD_some, Option.map_none, Option.getD_none, u32] at h1 h2 h3 h4
  have hs : sys K (attr fd o) m = finish (attr fd o) (outcome K P o m) m := by
    rcases sys_packet_run (m := m) hP hk hf hr with ⟨⟨s, hs, -⟩, -⟩ | ⟨-, hs⟩
    · rw [hc1, hc2] at hs
      simp at hs
    · exact hs
  have hfin : finish (attr fd o) (outcome K P o m) m =
      (.ok { attr fd o with
        retval := (outcome K P o m).retval
        duration := (outcome K P o m).duration
        dataSizeOut := (outcome K P o m).data.length }, write m a (outcome K P o m).data) := by
    unfold finish
    have e : (if (attr fd o).dataOut = 0 then m else write m (attr fd o).dataOut (outcome K P o m).data) =
        write m a (outcome K P o m).data := by rw [h1, if_neg ha]
    rw [if_neg (by rw [h2]; simp), e]
    unfold ctxFinish
    rw [if_pos (by exact h3)]
  simp only [testRun, invoke, hs, hfin]
  exact ⟨by rw [h4], read_write _ _ _⟩

/-- **C77, violated.** Without an output buffer nothing is written, but the size reported as written is that of the
packet. -/
theorem C77_size_violated (K : Kernel) (fd P : Nat) (o : Options) (m : Mem) (hP : K.prog fd = some P)
    (hk : K.kind P = .packet) (hf : Fits o) (hd : o.dataOut = none) (hc1 : o.ctxIn = none) (hc2 : o.ctxOut = none)
    (hr : K.refuse (attr fd o) m = none) :
    ∃ r, testRun (sys K) (some fd) o m = (.ok r, m) ∧ r.dataSizeOut = (outcome K P o m).data.length := by
  obtain ⟨-, -, -, -, -, -, ⟨h1, h2⟩, -, ⟨h3, h4⟩⟩ := attr_fields fd o
  simp only [hd, hc2, Option.map_none, Option.getD_none] at h1 h2 h3 h4
  have hs : sys K (attr fd o) m = finish (attr fd o) (outcome K P o m) m := by
    rcases sys_packet_run (m := m) hP hk hf hr with ⟨⟨s, hs, -⟩, -⟩ | ⟨-, hs⟩
    · rw [hc1, hc2] at hs
      simp at hs
    · exact hs
  have hfin : finish (attr fd o) (outcome K P o m) m =
      (.ok { attr fd o with
        retval := (outcome K P o m).retval
        duration := (outcome K P o m).duration
        dataSizeOut := (outcome K P o m).data.length }, m) := by
    unfold finish
    have e : (if (attr fd o).dataOut = 0 then m else write m (attr fd o).dataOut (outcome K P o m).data) = m := by
      rw [h1, if_pos rfl]
    rw [if_neg (by rw [h2]; simp), e]
    unfold ctxFinish
    rw [if_pos (by exact h3)]
  refine ⟨⟨(outcome K P o m).retval, (outcome K P o m).duration, (outcome K P o m).data.length, (attr fd o).ctxSizeOut⟩,
    by simp only [testRun, invoke, hs, hfin], rfl⟩

/-- **C77.** Raw trace points are run with exactly the twelve arguments, in order, on the processor asked for; the return
value is the program's. -/
theorem C77_raw_trace_point (K : Kernel) (stack fd P : Nat) (args : List UInt64) (cpu : Option Nat) (m : Mem)
    (hP : K.prog fd = some P) (hk : K.kind P = .rawTp) (hl : args.length = 12) (hs : stack ≠ 0) :
    (∃ e, (testRunRawTp (sys K) stack (some fd) args cpu m).1 = .error (.syscall e) ∧
      ∃ a m1, a.progFd = fd ∧ K.refuse a m1 = some e) ∨
    (testRunRawTp (sys K) stack (some fd) args cpu m).1 =
      .ok (K.rawTp P (args.flatMap (fun x => Bytes.le 8 x.toNat)) cpu) := by
  have hlen : (args.flatMap (fun x => Bytes.le 8 x.toNat)).length = 96 := by
    rw [List.length_flatMap]
    have : args.map (fun x => (Bytes.le 8 x.toNat).length) = List.replicate args.length 8 := by
      rw [List.eq_replicate_iff]
      simp
    rw [this, hl]
    decide
  have hread : read (write m stack (args.flatMap (fun x => Bytes.le 8 x.toNat))) stack 96 =
      args.flatMap (fun x => Bytes.le 8 x.toNat) := by
    have := read_write m stack (args.flatMap (fun x => Bytes.le 8 x.toNat))
    rwa [hlen] at this
  simp only [testRunRawTp, invoke, hl]
  generalize write m stack (args.flatMap (fun x => Bytes.le 8 x.toNat)) = m1 at hread ⊢
  cases cpu with
  | none =>
    cases hr : K.refuse { progFd := fd, ctxIn := stack, ctxSizeIn := 12 * 8 } m1 with
    | some e => exact .inl ⟨e, by simp [sys, hr], _, _, rfl, hr⟩
    | none => exact .inr (by simp [sys, hr, hP, hk, hs, hread])
  | some c =>
    cases hr : K.refuse { progFd := fd, ctxIn := stack, ctxSizeIn := 12 * 8, cpu := c, flags := 0 ||| 1 } m1 with
    | some e =>
      refine .inl ⟨e, ?_, { progFd := fd, ctxIn := stack, ctxSizeIn := 12 * 8, cpu := c, flags := 0 ||| 1 }, m1, rfl, hr⟩
      simp only [sys, hr]
    | none =>
      refine .inr ?_
      simp only [sys, hr, hP, hk]
      simp [hs, hread]

/-- **C77.** The kernel accepts the request for tracing programs as it is; a program that is not loaded is not run. -/
theorem C77_tracing (K : Kernel) (fd P : Nat) (m : Mem) (hP : K.prog fd = some P) (hk : K.kind P = .tracing)
    (hr : K.refuse { progFd := fd } m = none) : testRunTracing (sys K) (some fd) m = (.ok (), m) := by
  simp [testRunTracing, invoke, sys, hr, hP, hk]

/-- **C77.** A program that is not loaded is not run. -/
theorem C77_not_loaded (sys : Sys) (stack : Nat) (o : Options) (args : List UInt64) (cpu : Option Nat) (m : Mem) :
    testRun sys none o m = (.error .notLoaded, m) ∧
    testRunRawTp sys stack none args cpu m = (.error .notLoaded, m) ∧
    testRunTracing sys none m = (.error .notLoaded, m) := ⟨rfl, rfl, rfl⟩

/-! ### Runs -/

/-- Program 70 (descriptor 3) drops the first byte of a packet and returns the number of runs, 71 (descriptor 4) is a raw
trace point that returns its second argument plus the processor, 72 (descriptor 5) a tracing program. -/
private def k0 : Kernel where
  prog := fun f => if f = 3 then some 70 else if f = 4 then some 71 else if f = 5 then some 72 else none
  kind := fun P => if P = 70 then .packet else if P = 71 then .rawTp else .tracing
  refuse := fun _ _ => none
  run := fun _ d c n _ _ => ⟨n, d.drop 1, c.getD [9, 9], 5⟩
  rawTp := fun _ c cpu => Bytes.ofLe ((c.drop 8).take 8) + cpu.getD 0

private def m0 : Mem := fun x => UInt8.ofNat (x % 256)
private def o0 : Options := { dataIn := some ⟨100, 4⟩, dataOut := some ⟨200, 5⟩, ctxOut := some ⟨300, 2⟩, repeats := 7 }

private theorem fits0 : Fits o0 := by
  refine ⟨?_, ?_⟩
  · intro s hs
    simp only [o0, Option.some.injEq, reduceCtorEq, false_or] at hs
    rcases hs with rfl | rfl | rfl <;> decide
  · intro x hx
    simp only [o0, In] at hx
    omega

example : Fits o0 ∧ k0.prog 3 = some 70 ∧ k0.kind 70 = .packet := ⟨fits0, rfl, rfl⟩

example : (testRun (sys k0) (some 3) o0 m0).1 = .ok ⟨7, 5, 3, 2⟩ ∧
    read (testRun (sys k0) (some 3) o0 m0).2 200 5 = [101, 102, 103, 203, 204] ∧
    read (testRun (sys k0) (some 3) o0 m0).2 300 2 = [9, 9] := by decide +kernel

/-- A buffer that is too small. -/
example : (testRun (sys k0) (some 3) { o0 with dataOut := some ⟨200, 2⟩ } m0).1 = .error (.syscall 28) := by decide +kernel

/-- An empty one. -/
example : (let r := testRun (sys k0) (some 3) { dataIn := some ⟨100, 4⟩, dataOut := some ⟨200, 0⟩ } m0
    (r.1, read r.2 200 4)) = (.ok ⟨1, 5, 3, 0⟩, [101, 102, 103, 203]) := by decide +kernel

/-- An empty context. -/
example : (testRun (sys k0) (some 3) { o0 with ctxIn := some ⟨400, 0⟩ } m0).1 = .error (.syscall 22) := by decide +kernel

example : (testRunRawTp (sys k0) 5000 (some 4) [1, 600, 3, 4, 5, 6, 7, 8, 9, 10, 11, 12] (some 2) m0).1 = .ok 602 := by
  decide +kernel

example : (testRunTracing (sys k0) (some 5) m0).1 = .ok () := by decide +kernel

/-- **C77 (live frames).** Asking for live frames sets the size of a batch and the flag, and leaves the other flags. -/
theorem C77_live_frames (a : Attrs) (n : Nat) :
    (a.xdpLiveFrames n).batchSize = n ∧
    ∀ i, (a.xdpLiveFrames n).flags.testBit i = (a.flags.testBit i || decide (i = 1)) := by
  refine ⟨rfl, fun i => ?_⟩
  simp only [Attrs.xdpLiveFrames, Nat.testBit_or]
  congr 1
  rw [show (2 : Nat) = 2 ^ 1 from rfl, Nat.testBit_two_pow]
  simp [eq_comm]

/-- Live frames. -/
example : ({} : Attrs).xdpLiveFrames 64 = ⟨64, 2⟩ := rfl

end Verif.Run
