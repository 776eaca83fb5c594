import Verif.UProbe.AttachSpec
import Verif.UProbe.SymProps
import Verif.UProbe.Library
/-!
# C47, C62: attaching user space probes
-/
set_option linter.unusedSimpArgs false
set_option linter.unusedVariables false
namespace Verif.UProbe
open Verif.UProbe.Spec

/-! ## Files -/

/-- No open file has this number. -/
def NotIn (fd : Fd) (F : List (Fd × Spec.Obj)) : Prop := ∀ e ∈ F, e.1 ≠ fd

theorem filter_fresh {fd : Fd} {F : List (Fd × Spec.Obj)} (h : NotIn fd F) : F.filter (fun e => decide (e.1 ≠ fd)) = F := by
  apply List.filter_eq_self.mpr
  intro e he
  simp [h e he]

theorem onFile_fresh {fd : Fd} {f : Spec.Obj → Spec.Obj} {F : List (Fd × Spec.Obj)} (h : NotIn fd F) : onFile fd f F = F := by
  unfold onFile
  rw [List.map_congr_left (g := id)]
  · simp
  · intro e he; simp [h e he]

theorem onFile_append (fd : Fd) (f : Spec.Obj → Spec.Obj) (A B : List (Fd × Spec.Obj)) :
    onFile fd f (A ++ B) = onFile fd f A ++ onFile fd f B := by
  simp [onFile]

theorem filter_onFile (fd : Fd) (f : Spec.Obj → Spec.Obj) (F : List (Fd × Spec.Obj)) :
    (onFile fd f F).filter (fun e => decide (e.1 ≠ fd)) = F.filter (fun e => decide (e.1 ≠ fd)) := by
  induction F with
  | nil => rfl
  | cons e F ih =>
    have : onFile fd f (e :: F) = (if e.1 = fd then (e.1, f e.2) else e) :: onFile fd f F := rfl
    rw [this, List.filter_cons, List.filter_cons, ih]
    by_cases h : e.1 = fd <;> simp [h]

theorem find_fresh {fd : Fd} {F : List (Fd × Spec.Obj)} {o : Spec.Obj} (h : NotIn fd F) :
    (F ++ [(fd, o)]).find? (fun e => decide (e.1 = fd)) = some (fd, o) := by
  rw [List.find?_append, List.find?_eq_none.mpr (by intro e he; simp [h e he])]
  simp

section
variable (k : Kernel) (w₀ : World)

/-- The world at a state. -/
abbrev W (s : St) : World := world k w₀ s.hist

/-- Event numbers in use are below the counter. -/
def FreshEvents (s : St) : Prop := ∀ e ∈ (W k w₀ s).events, e.1 < s.next

variable {k w₀}

theorem W_call (env : Env) (c : Call) (s : St) : W k w₀ (call env c s).2 = step k (W k w₀ s) (c, (call env c s).1) := by
  simp [W, world, call, List.foldl_append]

theorem W_exec (env : Env) (c : Call) (s : St) : W k w₀ (exec env c s) = step k (W k w₀ s) (c, (call env c s).1) := W_call env c s

theorem W_close (env : Env) (fd : Fd) (s : St) :
    (W k w₀ (exec env (.close fd) s)).files = (W k w₀ s).files.filter (fun e => decide (e.1 ≠ fd)) ∧
    (W k w₀ (exec env (.close fd) s)).events = (W k w₀ s).events := by
  rw [W_exec]
  exact ⟨rfl, rfl⟩

theorem next_exec (env : Env) (c : Call) (s : St) : (exec env c s).next = s.next := rfl

/-- Removing an event changes no file, adds no event. -/
theorem W_delete (env : Env) (ev : Nat) (s : St) :
    (W k w₀ (exec env (.deleteEvent ev) s)).files = (W k w₀ s).files ∧
    ∀ e ∈ (W k w₀ (exec env (.deleteEvent ev) s)).events, e ∈ (W k w₀ s).events := by
  rw [W_exec]
  cases (call env (.deleteEvent ev) s).1 with
  | error e => exact ⟨rfl, fun e he => he⟩
  | ok n =>
    refine ⟨rfl, ?_⟩
    intro e he
    exact (List.mem_filter.mp he).1

theorem W_drop (env : Env) (fd : Fd) (ev : Option Nat) (s : St) :
    (W k w₀ (dropParams env fd ev s)).files = (W k w₀ s).files.filter (fun e => decide (e.1 ≠ fd)) ∧
    (∀ e ∈ (W k w₀ (dropParams env fd ev s)).events, e ∈ (W k w₀ s).events) ∧
    (ev = none → (W k w₀ (dropParams env fd ev s)).events = (W k w₀ s).events) ∧ (dropParams env fd ev s).next = s.next := by
  unfold dropParams
  cases ev with
  | none =>
    simp only
    obtain ⟨h1, h2⟩ := W_close (k := k) (w₀ := w₀) env fd s
    exact ⟨h1, by rw [h2]; exact fun e he => he, fun _ => h2, rfl⟩
  | some ev =>
    simp only
    obtain ⟨h1, h2⟩ := W_close (k := k) (w₀ := w₀) env fd (exec env (.deleteEvent ev) s)
    obtain ⟨h3, h4⟩ := W_delete (k := k) (w₀ := w₀) env ev s
    refine ⟨by rw [h1, h3], by rw [h2]; exact h4, (fun h => by simp at h), rfl⟩

/-! ## Opening perf events -/

/-- The place an event is opened at. -/
def siteOf (t : Target) (sc : Scope) : Site := ⟨t.path, t.offset, t.ret, sc⟩

/-- The scope of a process id for perf events. -/
def PidScope (pid : Option Nat) (sc : Scope) : Prop := perfScope (pidCpu pid).1 (pidCpu pid).2 = some sc

instance (pid : Option Nat) (sc : Scope) : Decidable (PidScope pid sc) := inferInstanceAs (Decidable (_ = _))

theorem createAsProbe_spec {env : Env} (sane : Sane k w₀ env.ans) {t : Target} {sc : Scope} (hsc : PidScope t.pid sc) (s : St) :
    (createAsProbe env t s).2.next = s.next ∧
    (∀ fd, (createAsProbe env t s).1 = .ok fd → NotIn fd (W k w₀ s).files ∧
      W k w₀ (createAsProbe env t s).2 =
        { W k w₀ s with files := (W k w₀ s).files ++ [(fd, .perf (some (siteOf t sc)) false true)] }) ∧
    (∀ e, (createAsProbe env t s).1 = .error e → W k w₀ (createAsProbe env t s).2 = W k w₀ s) := by
  -- the last step
  have hopen : ∀ (ty : Nat) (b : Option Nat) (s' : St), ty = k.ty → (b = if t.ret then some k.retBit else none) →
      W k w₀ s' = W k w₀ s → s'.next = s.next →
      (perfEventOpenProbe env ty b t s').2.next = s.next ∧
      (∀ fd, (perfEventOpenProbe env ty b t s').1 = .ok fd → NotIn fd (W k w₀ s).files ∧
        W k w₀ (perfEventOpenProbe env ty b t s').2 =
          { W k w₀ s with files := (W k w₀ s).files ++ [(fd, .perf (some (siteOf t sc)) false true)] }) ∧
      (∀ e, (perfEventOpenProbe env ty b t s').1 = .error e → W k w₀ (perfEventOpenProbe env ty b t s').2 = W k w₀ s) := by
    intro ty b s' hty hb hw hnext
    unfold perfEventOpenProbe
    split
    · exact ⟨hnext, fun fd h => by simp at h, fun _ _ => hw⟩
    · simp only
      generalize hcfg : probeConfig b = cfg
      have hcfg' : (cfg = 0 ∨ cfg = 2 ^ k.retBit) ∧ (decide (cfg = 2 ^ k.retBit) = t.ret) := by
        have hp : (2 : Nat) ^ k.retBit ≠ 0 := by
          have := Nat.two_pow_pos k.retBit
          omega
        cases hr : t.ret with
        | true =>
          rw [hr] at hb
          simp only [if_true] at hb
          cases hb
          simp only [probeConfig] at hcfg
          rw [Nat.mod_eq_of_lt sane.bit64] at hcfg
          simp [← hcfg]
        | false =>
          rw [hr] at hb
          simp only [Bool.false_eq_true, if_false] at hb
          cases hb
          simp only [probeConfig] at hcfg
          simp [← hcfg]
          exact fun h => hp h.symm
      generalize hc : Call.perfOpenProbe ty cfg t.path t.offset (pidCpu t.pid).1 (pidCpu t.pid).2 = c
      have hW := W_call (k := k) (w₀ := w₀) env c s'
      cases hres : call env c s' with
      | mk r s'' =>
        rw [hres] at hW
        have hr : env.ans s'.hist c = r := by rw [show r = (call env c s').1 by rw [hres]]; rfl
        have hs'' : s''.next = s.next := by rw [show s'' = (call env c s').2 by rw [hres]]; exact hnext
        cases r with
        | error e =>
          refine ⟨hs'', fun fd h => by simp at h, fun _ _ => ?_⟩
          rw [hW, ← hw, ← hc]
          rfl
        | ok fd =>
          refine ⟨hs'', ?_, fun e h => by simp at h⟩
          intro fd' hfd'
          cases hfd'
          refine ⟨?_, ?_⟩
          · have := sane.fresh s'.hist c fd (by rw [← hc]; rfl) hr
            rw [show world k w₀ s'.hist = W k w₀ s from hw] at this
            exact this
          · rw [hW, ← hw, ← hc]
            simp only [step]
            rw [if_pos ⟨hty, hcfg'.1⟩, hcfg'.2]
            rw [show perfScope (pidCpu t.pid).1 (pidCpu t.pid).2 = some sc from hsc]
            rfl
  unfold createAsProbe
  have hW1 := W_call (k := k) (w₀ := w₀) env .perfType s
  cases h1 : call env .perfType s with
  | mk r s1 =>
    rw [h1] at hW1
    have hr1 : env.ans s.hist .perfType = r := by rw [show r = (call env .perfType s).1 by rw [h1]]; rfl
    have hn1 : s1.next = s.next := by rw [show s1 = (call env .perfType s).2 by rw [h1]]; rfl
    have hw1 : W k w₀ s1 = W k w₀ s := by rw [hW1]; cases r <;> rfl
    cases r with
    | error e => exact ⟨hn1, fun fd h => by simp at h, fun _ _ => hw1⟩
    | ok ty =>
      simp only
      have hty := sane.ty _ _ hr1
      by_cases hret : t.ret = true
      · rw [if_pos hret]
        have hW2 := W_call (k := k) (w₀ := w₀) env .retBit s1
        cases h2 : call env .retBit s1 with
        | mk r s2 =>
          rw [h2] at hW2
          have hr2 : env.ans s1.hist .retBit = r := by rw [show r = (call env .retBit s1).1 by rw [h2]]; rfl
          have hn2 : s2.next = s.next := by rw [show s2 = (call env .retBit s1).2 by rw [h2]]; exact hn1
          have hw2 : W k w₀ s2 = W k w₀ s := by rw [hW2, ← hw1]; cases r <;> rfl
          cases r with
          | error e => exact ⟨hn2, fun fd h => by simp at h, fun _ _ => hw2⟩
          | ok b =>
            simp only
            exact hopen ty (some b) s2 hty (by rw [hret, sane.bit _ _ hr2]; rfl) hw2 hn2
      · rw [if_neg hret]
        exact hopen ty none s1 hty (by simp [hret]) hw1 hn1

theorem createAsTracePoint_spec {env : Env} (sane : Sane k w₀ env.ans) {t : Target} {sc : Scope} (hsc : PidScope t.pid sc)
    (s : St) (hf : FreshEvents k w₀ s) :
    FreshEvents k w₀ (createAsTracePoint env t s).2 ∧
    (∀ fd ev, (createAsTracePoint env t s).1 = .ok (fd, ev) → NotIn fd (W k w₀ s).files ∧
      (W k w₀ (createAsTracePoint env t s).2).files =
        (W k w₀ s).files ++ [(fd, .perf (some (siteOf t sc)) false true)]) ∧
    (∀ e, (createAsTracePoint env t s).1 = .error e →
      (W k w₀ (createAsTracePoint env t s).2).files = (W k w₀ s).files) := by
  unfold createAsTracePoint
  simp only
  generalize hs0 : ({ s with next := s.next + 1 } : St) = s0
  have hw0 : W k w₀ s0 = W k w₀ s := by rw [← hs0]
  have hn0 : s0.next = s.next + 1 := by rw [← hs0]
  have hf0 : ∀ e ∈ (W k w₀ s0).events, e.1 < s.next := by rw [hw0]; exact hf
  generalize hc1 : Call.createEvent s.next t.path t.offset t.ret = c1
  have hW1 := W_call (k := k) (w₀ := w₀) env c1 s0
  cases h1 : call env c1 s0 with
  | mk r s1 =>
    rw [h1] at hW1
    have hn1 : s1.next = s.next + 1 := by rw [show s1 = (call env c1 s0).2 by rw [h1]]; exact hn0
    cases r with
    | error e =>
      have hw1 : W k w₀ s1 = W k w₀ s := by rw [hW1, ← hc1, ← hw0]; rfl
      refine ⟨?_, fun fd ev h => by simp at h, fun _ _ => by rw [hw1]⟩
      intro e' he'
      simp only at he'
      rw [hw1] at he'
      have := hf e' he'
      simp only
      omega
    | ok n =>
      have hw1 : W k w₀ s1 = { W k w₀ s with events := (W k w₀ s).events ++ [(s.next, t.path, t.offset, t.ret)] } := by
        rw [hW1, ← hc1, ← hw0]; rfl
      simp only
      have hW2 := W_call (k := k) (w₀ := w₀) env (.tpId s.next) s1
      -- event numbers stay below the counter whatever subset of the events is left
      have hfe : ∀ s', s'.next = s.next + 1 → (∀ e ∈ (W k w₀ s').events, e ∈ (W k w₀ s1).events) → FreshEvents k w₀ s' := by
        intro s' hn' hsub e he
        have := hsub e he
        rw [hw1] at this
        simp only at this
        rcases List.mem_append.mp this with h | h
        · have := hf e h; omega
        · simp at h; rw [h]; simp only; omega
      cases h2 : call env (.tpId s.next) s1 with
      | mk r s2 =>
        rw [h2] at hW2
        have hr2 : env.ans s1.hist (.tpId s.next) = r := by rw [show r = (call env (.tpId s.next) s1).1 by rw [h2]]; rfl
        have hn2 : s2.next = s.next + 1 := by rw [show s2 = (call env (.tpId s.next) s1).2 by rw [h2]]; exact hn1
        have hw2 : W k w₀ s2 = W k w₀ s1 := by rw [hW2]; cases r <;> rfl
        cases r with
        | error e =>
          simp only
          obtain ⟨hd1, hd2⟩ := W_delete (k := k) (w₀ := w₀) env s.next s2
          refine ⟨hfe _ hn2 (fun e he => by rw [← hw2]; exact hd2 e he), fun fd ev h => by simp at h, fun _ _ => ?_⟩
          rw [hd1, hw2, hw1]
        | ok id =>
          simp only
          generalize hc3 : Call.perfOpenTp id (pidCpu t.pid).1 (pidCpu t.pid).2 = c3
          have hW3 := W_call (k := k) (w₀ := w₀) env c3 s2
          cases h3 : call env c3 s2 with
          | mk r s3 =>
            rw [h3] at hW3
            have hr3 : env.ans s2.hist c3 = r := by rw [show r = (call env c3 s2).1 by rw [h3]]; rfl
            have hn3 : s3.next = s.next + 1 := by rw [show s3 = (call env c3 s2).2 by rw [h3]]; exact hn2
            cases r with
            | error e =>
              have hw3 : W k w₀ s3 = W k w₀ s1 := by rw [hW3, ← hc3, ← hw2]; rfl
              simp only
              obtain ⟨hd1, hd2⟩ := W_delete (k := k) (w₀ := w₀) env s.next s3
              refine ⟨hfe _ hn3 (fun e he => by rw [← hw3]; exact hd2 e he), fun fd ev h => by simp at h, fun _ _ => ?_⟩
              rw [hd1, hw3, hw1]
            | ok fd =>
              simp only
              have hev := sane.event _ _ _ hr2
              have hw3 : W k w₀ s3 = { W k w₀ s1 with files := (W k w₀ s).files ++ [(fd, .perf (some (siteOf t sc)) false true)] } := by
                rw [hW3, ← hc3, hw2]
                simp only [step]
                rw [hev, hw1]
                simp only
                rw [List.find?_append, List.find?_eq_none.mpr (by
                  intro e he
                  have := hf e he
                  simp
                  omega)]
                rw [show perfScope (pidCpu t.pid).1 (pidCpu t.pid).2 = some sc from hsc]
                simp [siteOf]
              refine ⟨hfe _ hn3 (fun e he => by rw [hw3] at he; exact he), ?_, fun e h => by simp at h⟩
              intro fd' ev' h
              cases h
              refine ⟨?_, by rw [hw3]⟩
              have := sane.fresh s2.hist c3 fd (by rw [← hc3]; rfl) hr3
              rw [show world k w₀ s2.hist = W k w₀ s1 from hw2, hw1] at this
              exact this

/-! ## Attaching one point -/

/-- The file a link holds. -/
def Inner.file : Inner → Fd
  | .fd f => f
  | .perf f _ => f

/-- What attaching one point does to the open files. -/
structure Did (s s' : St) (r : Except Err Inner) (p : Probe) : Prop where
  fresh : FreshEvents k w₀ s'
  ok : ∀ l, r = .ok l → NotIn l.file (W k w₀ s).files ∧
    ∃ o, (W k w₀ s').files = (W k w₀ s).files ++ [(l.file, o)] ∧ o.probes = [p]
  err : ∀ e, r = .error e → (W k w₀ s').files = (W k w₀ s).files

theorem attachBpfLink_spec {env : Env} (sane : Sane k w₀ env.ans) {F : List (Fd × Spec.Obj)} {fd : Fd} {x : Site}
    {cookie : Option Nat} (s : St) (hfd : NotIn fd F) (hF : (W k w₀ s).files = F ++ [(fd, .perf (some x) false true)]) :
    (attachBpfLink env fd cookie s).2.next = s.next ∧
    (W k w₀ (attachBpfLink env fd cookie s).2).events = (W k w₀ s).events ∧
    (∀ l, (attachBpfLink env fd cookie s).1 = .ok l → NotIn l.file F ∧
      (W k w₀ (attachBpfLink env fd cookie s).2).files = F ++ [(l.file, .link [⟨x, cookie.getD 0⟩])]) ∧
    (∀ e, (attachBpfLink env fd cookie s).1 = .error e → (W k w₀ (attachBpfLink env fd cookie s).2).files = F) := by
  unfold attachBpfLink
  have hcl : ∀ s' : St, (W k w₀ s').files = F ++ [(fd, .perf (some x) false true)] →
      (W k w₀ (exec env (.close fd) s')).files = F := by
    intro s' h
    rw [(W_close env fd s').1, h, List.filter_append, filter_fresh hfd]
    simp
  split
  · exact ⟨rfl, (W_close env fd s).2, fun l h => by simp at h, fun _ _ => hcl s hF⟩
  · have hW1 := W_call (k := k) (w₀ := w₀) env (.linkCreate fd cookie) s
    cases h1 : call env (.linkCreate fd cookie) s with
    | mk r s1 =>
      rw [h1] at hW1
      have hr1 : env.ans s.hist (.linkCreate fd cookie) = r := by
        rw [show r = (call env (.linkCreate fd cookie) s).1 by rw [h1]]; rfl
      have hn1 : s1.next = s.next := by rw [show s1 = (call env (.linkCreate fd cookie) s).2 by rw [h1]]; rfl
      cases r with
      | error e =>
        have hw1 : W k w₀ s1 = W k w₀ s := by rw [hW1]; rfl
        simp only
        exact ⟨hn1, by rw [(W_close env fd s1).2, hw1], fun l h => by simp at h, fun _ _ => hcl s1 (by rw [hw1, hF])⟩
      | ok l =>
        simp only
        have hw1 : W k w₀ s1 = { W k w₀ s with files := F ++ [(fd, .perf (some x) false true)] ++ [(l, .link [⟨x, cookie.getD 0⟩])] } := by
          rw [hW1]
          simp only [step]
          rw [hF, find_fresh hfd]
          rfl
        have hl := sane.fresh _ _ _ rfl hr1
        rw [show world k w₀ s.hist = W k w₀ s from rfl, hF] at hl
        refine ⟨hn1, by rw [(W_close env fd s1).2, hw1], ?_, fun e h => by simp at h⟩
        intro l' h
        cases h
        refine ⟨fun e he => hl e (by simp [he]), ?_⟩
        rw [(W_close env fd s1).1, hw1]
        simp only
        have hne : l ≠ fd := fun h => hl (fd, .perf (some x) false true) (by simp) h.symm
        rw [List.filter_append, List.filter_append, filter_fresh hfd]
        simp [hne, Inner.file]

theorem attachPerfEvent_spec {env : Env} {F : List (Fd × Spec.Obj)} {fd : Fd} {x : Site}
    {event : Option Nat} (s : St) (hfd : NotIn fd F) (hF : (W k w₀ s).files = F ++ [(fd, .perf (some x) false true)]) :
    (attachPerfEvent env fd event s).2.next = s.next ∧
    (∀ e ∈ (W k w₀ (attachPerfEvent env fd event s).2).events, e ∈ (W k w₀ s).events) ∧
    (event = none → (W k w₀ (attachPerfEvent env fd event s).2).events = (W k w₀ s).events) ∧
    (∀ l, (attachPerfEvent env fd event s).1 = .ok l → l = .perf fd event ∧
      (W k w₀ (attachPerfEvent env fd event s).2).files = F ++ [(fd, .perf (some x) true true)]) ∧
    (∀ e, (attachPerfEvent env fd event s).1 = .error e → (W k w₀ (attachPerfEvent env fd event s).2).files = F) := by
  have hdrop : ∀ (s' : St) (o : Spec.Obj), (W k w₀ s').files = F ++ [(fd, o)] →
      (W k w₀ (dropParams env fd event s')).files = F := by
    intro s' o h
    rw [(W_drop env fd event s').1, h, List.filter_append, filter_fresh hfd]
    simp
  unfold attachPerfEvent
  have hW1 := W_call (k := k) (w₀ := w₀) env (.setBpf fd) s
  cases h1 : call env (.setBpf fd) s with
  | mk r s1 =>
    rw [h1] at hW1
    have hn1 : s1.next = s.next := by rw [show s1 = (call env (.setBpf fd) s).2 by rw [h1]]; rfl
    cases r with
    | error e =>
      have hw1 : W k w₀ s1 = W k w₀ s := by rw [hW1]; rfl
      simp only
      obtain ⟨d1, d2, d3, d4⟩ := W_drop (k := k) (w₀ := w₀) env fd event s1
      refine ⟨by rw [d4, hn1], by rw [hw1] at d2; exact d2, by rw [hw1] at d3; exact d3, fun l h => by simp at h, fun _ _ => ?_⟩
      exact hdrop s1 _ (by rw [hw1, hF])
    | ok n =>
      have hw1 : W k w₀ s1 = { W k w₀ s with files := F ++ [(fd, .perf (some x) true true)] } := by
        rw [hW1]
        simp only [step]
        rw [hF, onFile_append, onFile_fresh hfd]
        simp [onFile, Spec.Obj.setProg]
      simp only
      have hW2 := W_call (k := k) (w₀ := w₀) env (.enable fd) s1
      cases h2 : call env (.enable fd) s1 with
      | mk r s2 =>
        rw [h2] at hW2
        have hn2 : s2.next = s.next := by rw [show s2 = (call env (.enable fd) s1).2 by rw [h2]]; exact hn1
        cases r with
        | error e =>
          have hw2 : W k w₀ s2 = W k w₀ s1 := by rw [hW2]; rfl
          simp only
          obtain ⟨d1, d2, d3, d4⟩ := W_drop (k := k) (w₀ := w₀) env fd event s2
          rw [hw2, hw1] at d2 d3
          refine ⟨by rw [d4, hn2], d2, d3, fun l h => by simp at h, fun _ _ => ?_⟩
          exact hdrop s2 _ (by rw [hw2, hw1])
        | ok n =>
          have hw2 : W k w₀ s2 = W k w₀ s1 := by
            rw [hW2, hw1]
            simp only [step]
            rw [onFile_append, onFile_fresh hfd]
            simp [onFile, Spec.Obj.setOn]
          simp only
          refine ⟨hn2, by rw [hw2, hw1]; exact fun e he => he, fun _ => by rw [hw2, hw1], ?_, fun e h => by simp at h⟩
          intro l h
          cases h
          exact ⟨rfl, by rw [hw2, hw1]⟩

theorem attachBpfProbe_spec {env : Env} (sane : Sane k w₀ env.ans) {t : Target} {sc : Scope} (hsc : PidScope t.pid sc)
    {cookie : Option Nat} (s : St) (hf : FreshEvents k w₀ s) :
    Did (k := k) (w₀ := w₀) s (attachBpfProbe env t cookie s).2 (attachBpfProbe env t cookie s).1 ⟨siteOf t sc, cookie.getD 0⟩ ∧
    (W k w₀ (attachBpfProbe env t cookie s).2).events = (W k w₀ s).events := by
  obtain ⟨hn, hok, herr⟩ := createAsProbe_spec sane hsc s
  unfold attachBpfProbe
  cases h1 : createAsProbe env t s with
  | mk r s1 =>
    rw [h1] at hn hok herr
    simp only at hn hok herr
    cases r with
    | error e =>
      have hw := herr e rfl
      simp only
      refine ⟨⟨?_, fun l h => by simp at h, fun _ _ => by rw [hw]⟩, by rw [hw]⟩
      intro e' he'
      rw [hw] at he'
      rw [hn]
      exact hf e' he'
    | ok fd =>
      obtain ⟨hfd, hw⟩ := hok fd rfl
      simp only
      obtain ⟨l1, l2, l3, l4⟩ := attachBpfLink_spec (cookie := cookie) sane s1 hfd (by rw [hw])
      refine ⟨⟨?_, ?_, l4⟩, by rw [l2, hw]⟩
      · intro e he
        rw [l2, hw] at he
        rw [l1, hn]
        exact hf e he
      · intro l hl
        exact ⟨(l3 l hl).1, _, (l3 l hl).2, rfl⟩

theorem attachPerfEventProbe_spec {env : Env} (sane : Sane k w₀ env.ans) {t : Target} {sc : Scope} (hsc : PidScope t.pid sc)
    {cookie : Option Nat} (s : St) (hf : FreshEvents k w₀ s) :
    Did (k := k) (w₀ := w₀) s (attachPerfEventProbe env t cookie s).2 (attachPerfEventProbe env t cookie s).1 ⟨siteOf t sc, cookie.getD 0⟩ ∧
    (env.pmu = true → (W k w₀ (attachPerfEventProbe env t cookie s).2).events = (W k w₀ s).events) := by
  unfold attachPerfEventProbe
  split
  · exact ⟨⟨hf, fun l h => by simp at h, fun _ _ => rfl⟩, fun _ => rfl⟩
  · rename_i hck
    have hck0 : cookie.getD 0 = 0 := by cases cookie <;> simp_all
    rw [hck0]
    split
    · obtain ⟨hn, hok, herr⟩ := createAsProbe_spec sane hsc s
      cases h1 : createAsProbe env t s with
      | mk r s1 =>
        rw [h1] at hn hok herr
        simp only at hn hok herr
        cases r with
        | error e =>
          have hw := herr e rfl
          simp only
          refine ⟨⟨?_, fun l h => by simp at h, fun _ _ => by rw [hw]⟩, fun _ => by rw [hw]⟩
          intro e' he'
          rw [hw] at he'
          rw [hn]
          exact hf e' he'
        | ok fd =>
          obtain ⟨hfd, hw⟩ := hok fd rfl
          simp only
          obtain ⟨l1, l2, l3, l4, l5⟩ := attachPerfEvent_spec (env := env) (event := none) s1 hfd (by rw [hw])
          refine ⟨⟨?_, ?_, l5⟩, fun _ => by rw [l3 rfl, hw]⟩
          · intro e he
            rw [l3 rfl, hw] at he
            rw [l1, hn]
            exact hf e he
          · intro l hl
            obtain ⟨rfl, hl2⟩ := l4 l hl
            exact ⟨hfd, _, hl2, rfl⟩
    · rename_i hpmu
      obtain ⟨hn, hok, herr⟩ := createAsTracePoint_spec sane hsc s hf
      cases h1 : createAsTracePoint env t s with
      | mk r s1 =>
        rw [h1] at hn hok herr
        simp only at hn hok herr
        cases r with
        | error e =>
          simp only
          exact ⟨⟨hn, fun l h => by simp at h, fun _ _ => herr e rfl⟩, fun h => absurd h hpmu⟩
        | ok p =>
          obtain ⟨fd, ev⟩ := p
          obtain ⟨hfd, hw⟩ := hok fd ev rfl
          simp only
          obtain ⟨l1, l2, l3, l4, l5⟩ := attachPerfEvent_spec (env := env) (event := some ev) s1 hfd hw
          refine ⟨⟨?_, ?_, l5⟩, fun h => absurd h hpmu⟩
          · intro e he
            rw [l1]
            exact hn e (l2 e he)
          · intro l hl
            obtain ⟨rfl, hl2⟩ := l4 l hl
            exact ⟨hfd, _, hl2, rfl⟩

theorem attachImpl_spec {env : Env} (sane : Sane k w₀ env.ans) {t : Target} {sc : Scope} (hsc : PidScope t.pid sc)
    {cookie : Option Nat} (s : St) (hf : FreshEvents k w₀ s) :
    Did (k := k) (w₀ := w₀) s (attachImpl env t cookie s).2 (attachImpl env t cookie s).1 ⟨siteOf t sc, cookie.getD 0⟩ ∧
    (env.pmu = true → (W k w₀ (attachImpl env t cookie s).2).events = (W k w₀ s).events) := by
  unfold attachImpl
  split
  · exact ⟨(attachBpfProbe_spec sane hsc s hf).1, fun _ => (attachBpfProbe_spec sane hsc s hf).2⟩
  · exact attachPerfEventProbe_spec sane hsc s hf

theorem attachPoint_spec {env : Env} (sane : Sane k w₀ env.ans) {t : Target} {sc : Scope} (hsc : PidScope t.pid sc)
    {cookie : Option Nat} (first : Inner) (s : St) (hf : FreshEvents k w₀ s) :
    Did (k := k) (w₀ := w₀) s (attachPoint env first t cookie s).2 (attachPoint env first t cookie s).1 ⟨siteOf t sc, cookie.getD 0⟩ ∧
    (env.pmu = true → (W k w₀ (attachPoint env first t cookie s).2).events = (W k w₀ s).events) := by
  unfold attachPoint
  split
  · exact ⟨(attachBpfProbe_spec sane hsc s hf).1, fun _ => (attachBpfProbe_spec sane hsc s hf).2⟩
  · exact attachPerfEventProbe_spec sane hsc s hf

/-! ## Detaching -/

/-- Detaching one link closes its file and nothing else. -/
theorem detachInner_spec (env : Env) (l : Inner) (s : St) :
    (W k w₀ (detachInner env l s)).files = (W k w₀ s).files.filter (fun e => decide (e.1 ≠ l.file)) ∧
    (∀ e ∈ (W k w₀ (detachInner env l s)).events, e ∈ (W k w₀ s).events) ∧
    ((∀ fd ev, l ≠ .perf fd (some ev)) → (W k w₀ (detachInner env l s)).events = (W k w₀ s).events) ∧
    (detachInner env l s).next = s.next := by
  cases l with
  | fd fd =>
    rw [detachInner]
    exact ⟨(W_close env fd s).1, by rw [(W_close env fd s).2]; exact fun e he => he, fun _ => (W_close env fd s).2, rfl⟩
  | perf fd ev =>
    rw [detachInner]
    obtain ⟨d1, d2, d3, d4⟩ := W_drop (k := k) (w₀ := w₀) env fd ev (exec env (.disable fd) s)
    have hW := W_exec (k := k) (w₀ := w₀) env (.disable fd) s
    have hev : (W k w₀ (exec env (.disable fd) s)).events = (W k w₀ s).events := by
      rw [hW]; cases (call env (.disable fd) s).1 <;> rfl
    refine ⟨?_, by rw [← hev]; exact d2, ?_, by rw [d4]; rfl⟩
    · rw [d1, hW]
      cases (call env (.disable fd) s).1 with
      | error e => rfl
      | ok n => exact filter_onFile fd _ _
    · intro h
      cases ev with
      | none => rw [d3 rfl, hev]
      | some ev => exact absurd rfl (h fd ev)

theorem detachMany_spec (env : Env) (ls : List Inner) (s : St) :
    (W k w₀ (detachMany env ls s)).files = (W k w₀ s).files.filter (fun e => decide (e.1 ∉ ls.map Inner.file)) ∧
    (∀ e ∈ (W k w₀ (detachMany env ls s)).events, e ∈ (W k w₀ s).events) ∧
    ((∀ l ∈ ls, ∀ fd ev, l ≠ .perf fd (some ev)) → (W k w₀ (detachMany env ls s)).events = (W k w₀ s).events) ∧
    (detachMany env ls s).next = s.next := by
  unfold detachMany
  induction ls generalizing s with
  | nil =>
    refine ⟨?_, fun e he => he, fun _ => rfl, rfl⟩
    exact (List.filter_eq_self.mpr (by simp)).symm
  | cons l ls ih =>
    rw [List.foldl_cons]
    obtain ⟨i1, i2, i3, i4⟩ := ih (detachInner env l s)
    obtain ⟨h1, h2, h3, h4⟩ := detachInner_spec (k := k) (w₀ := w₀) env l s
    refine ⟨?_, fun e he => h2 e (i2 e he), ?_, by rw [i4, h4]⟩
    · rw [i1, h1, List.filter_filter]
      congr 1
      funext e
      by_cases ha : e.1 = l.file <;> by_cases hb : e.1 ∈ ls.map Inner.file <;> simp_all
    · intro h
      rw [i3 (fun l' hl' => h l' (by simp [hl'])), h3 (fun fd ev => h l (by simp) fd ev)]

/-! ## Many points -/

/-- The probes of points with these offsets, cookies numbered from `index` on. -/
def probesFrom (path : Text) (ret : Bool) (sc : Scope) (cookies : Option (List Nat)) : Nat → List Nat → List Probe
  | _, [] => []
  | i, o :: os => ⟨⟨path, o, ret, sc⟩, (cookies.bind (·[i]?)).getD 0⟩ :: probesFrom path ret sc cookies (i + 1) os

theorem filter_new {F new : List (Fd × Spec.Obj)} {fds : List Fd} (hkeys : new.map (·.1) = fds)
    (hnot : ∀ fd ∈ fds, NotIn fd F) : (F ++ new).filter (fun e => decide (e.1 ∉ fds)) = F := by
  rw [List.filter_append, List.filter_eq_self.mpr, List.filter_eq_nil_iff.mpr]
  · simp
  · intro e he
    have : e.1 ∈ fds := by rw [← hkeys]; exact List.mem_map_of_mem he
    simp [this]
  · intro e he
    have : e.1 ∉ fds := fun h => hnot e.1 h e he rfl
    simp [this]

/-- The links of an attachment. -/
def Link.inners : Link → List Inner
  | .one l => [l]
  | .many ls => ls

/-- The files an attachment holds. -/
def Link.files (l : Link) : List Fd := l.inners.map Inner.file

/-- What an attempt to attach many points does to the open files. -/
structure DidAll (F : List (Fd × Spec.Obj)) (s' : St) (r : Except Err Link) (ps : List Probe) : Prop where
  fresh : FreshEvents k w₀ s'
  ok : ∀ l, r = .ok l → (∀ fd ∈ l.files, NotIn fd F) ∧
    ∃ new, (W k w₀ s').files = F ++ new ∧ new.map (·.1) = l.files ∧ (new.map (fun e => e.2.probes)).flatten = ps
  err : ∀ e, r = .error e → (W k w₀ s').files = F

/-- On kernels with the probe event source no link has an event definition in tracefs. -/
theorem attachPerfEvent_pmu {env : Env} {fd : Fd} {s : St} {l : Inner} (h : (attachPerfEvent env fd none s).1 = .ok l) :
    l = .perf fd none := by
  unfold attachPerfEvent at h
  cases h1 : call env (.setBpf fd) s with
  | mk r s1 =>
    rw [h1] at h
    cases r with
    | error e => simp at h
    | ok n =>
      simp only at h
      cases h2 : call env (.enable fd) s1 with
      | mk r s2 =>
        rw [h2] at h
        cases r with
        | error e => simp at h
        | ok n => simp at h; exact h.symm

theorem attachBpfProbe_fd {env : Env} {t : Target} {cookie : Option Nat} {s : St} {l : Inner}
    (h : (attachBpfProbe env t cookie s).1 = .ok l) : ∃ fd, l = .fd fd := by
  unfold attachBpfProbe at h
  cases h1 : createAsProbe env t s with
  | mk r s1 =>
    rw [h1] at h
    cases r with
    | error e => simp at h
    | ok fd =>
      simp only at h
      unfold attachBpfLink at h
      split at h
      · simp at h
      · cases h2 : call env (.linkCreate fd cookie) s1 with
        | mk r s2 =>
          rw [h2] at h
          cases r with
          | error e => simp at h
          | ok n => simp at h; exact ⟨n, h.symm⟩

theorem attachPerfEventProbe_pmu {env : Env} {t : Target} {cookie : Option Nat} {s : St} {l : Inner} (hp : env.pmu = true)
    (h : (attachPerfEventProbe env t cookie s).1 = .ok l) : ∃ fd, l = .perf fd none := by
  unfold attachPerfEventProbe at h
  split at h
  · simp at h
  · try simp only [hp, if_true] at h
    cases h1 : createAsProbe env t s with
    | mk r s1 =>
      rw [h1] at h
      cases r with
      | error e => simp at h
      | ok fd => exact ⟨fd, attachPerfEvent_pmu h⟩

theorem attachPoint_pmu {env : Env} {first : Inner} {t : Target} {cookie : Option Nat} {s : St} {l : Inner} (hp : env.pmu = true)
    (h : (attachPoint env first t cookie s).1 = .ok l) : ∀ fd ev, l ≠ .perf fd (some ev) := by
  unfold attachPoint at h
  intro fd ev
  split at h
  · obtain ⟨_, rfl⟩ := attachBpfProbe_fd h; simp
  · obtain ⟨_, rfl⟩ := attachPerfEventProbe_pmu hp h; simp

theorem attachImpl_pmu {env : Env} {t : Target} {cookie : Option Nat} {s : St} {l : Inner} (hp : env.pmu = true)
    (h : (attachImpl env t cookie s).1 = .ok l) : ∀ fd ev, l ≠ .perf fd (some ev) := by
  unfold attachImpl at h
  intro fd ev
  split at h
  · obtain ⟨_, rfl⟩ := attachBpfProbe_fd h; simp
  · obtain ⟨_, rfl⟩ := attachPerfEventProbe_pmu hp h; simp

theorem attachRest_spec {env : Env} (sane : Sane k w₀ env.ans) {path : Text} {pid : Option Nat} {ret : Bool} {sc : Scope}
    (hsc : PidScope pid sc) (cookies : Option (List Nat)) (first : Inner) (F : List (Fd × Spec.Obj)) :
    ∀ (offs : List Nat) (i : Nat) (links : List Inner) (s : St) (done : List Probe) (new : List (Fd × Spec.Obj)),
    FreshEvents k w₀ s → (W k w₀ s).files = F ++ new → new.map (·.1) = links.map Inner.file →
    (∀ l ∈ links, NotIn l.file F) → (new.map (fun e => e.2.probes)).flatten = done →
    DidAll (k := k) (w₀ := w₀) F (attachRest env path pid ret cookies first offs i links s).2
      (attachRest env path pid ret cookies first offs i links s).1 (done ++ probesFrom path ret sc cookies i offs) ∧
    (env.pmu = true → (∀ l ∈ links, ∀ fd ev, l ≠ .perf fd (some ev)) →
      (W k w₀ (attachRest env path pid ret cookies first offs i links s).2).events = (W k w₀ s).events) := by
  intro offs
  induction offs with
  | nil =>
    intro i links s done new hf hF hk hn hd
    rw [attachRest]
    refine ⟨⟨hf, ?_, fun e h => by simp at h⟩, fun _ _ => rfl⟩
    intro l h
    cases h
    refine ⟨?_, new, hF, hk, by rw [hd]; simp [probesFrom]⟩
    intro fd hfd
    obtain ⟨l, hl, rfl⟩ := List.mem_map.mp hfd
    exact hn l hl
  | cons off offs ih =>
    intro i links s done new hf hF hk hn hd
    rw [attachRest]
    obtain ⟨hdid, hev⟩ := attachPoint_spec (cookie := cookies.bind (·[i]?)) sane (t := ⟨path, off, pid, ret⟩) hsc first s hf
    have hpm := fun l => attachPoint_pmu (env := env) (first := first) (t := ⟨path, off, pid, ret⟩) (cookie := cookies.bind (·[i]?)) (s := s) (l := l)
    cases h1 : attachPoint env first ⟨path, off, pid, ret⟩ (cookies.bind (·[i]?)) s with
    | mk r s1 =>
      rw [h1] at hdid hev hpm
      simp only at hdid hev hpm
      cases r with
      | error e =>
        simp only
        obtain ⟨m1, m2, m3, m4⟩ := detachMany_spec (k := k) (w₀ := w₀) env links s1
        refine ⟨⟨?_, fun l h => by simp at h, fun _ _ => ?_⟩, fun hp hl => by rw [m3 hl, hev hp]⟩
        · intro e' he'
          rw [m4]
          exact hdid.fresh e' (m2 e' he')
        · rw [m1, hdid.err e rfl, hF]
          apply filter_new hk
          intro fd hfd
          obtain ⟨l, hl, rfl⟩ := List.mem_map.mp hfd
          exact hn l hl
      | ok l =>
        simp only
        obtain ⟨hlF, o, ho, hop⟩ := hdid.ok l rfl
        rw [hF] at hlF ho
        have := ih (i + 1) (links ++ [l]) s1 (done ++ [⟨⟨path, off, ret, sc⟩, (cookies.bind (·[i]?)).getD 0⟩]) (new ++ [(l.file, o)])
          hdid.fresh (by rw [ho]; simp) (by simp [hk]) ?_ (by simp [hd, hop, siteOf])
        · refine ⟨?_, ?_⟩
          · have h2 := this.1
            rw [List.append_assoc] at h2
            exact h2
          · intro hp hl
            rw [this.2 hp ?_, hev hp]
            intro l' hl'
            rcases List.mem_append.mp hl' with h | h
            · exact hl l' h
            · simp at h
              subst h
              exact hpm l' hp rfl
        · intro l' hl'
          rcases List.mem_append.mp hl' with h | h
          · exact hn l' h
          · simp at h
            subst h
            exact fun e he => hlF e (by simp [he])

theorem attachSingle_spec {env : Env} (sane : Sane k w₀ env.ans) {loaded : Bool} {path : Text} {pid : Option Nat} {ret : Bool}
    {sc : Scope} (hsc : PidScope pid sc) (r : Resolved) (s : St) (hf : FreshEvents k w₀ s) :
    DidAll (k := k) (w₀ := w₀) (W k w₀ s).files (attachSingle env loaded ret path r pid s).2
      (attachSingle env loaded ret path r pid s).1 (probesFrom path ret sc r.cookies 0 r.offsets) ∧
    (env.pmu = true → (W k w₀ (attachSingle env loaded ret path r pid s).2).events = (W k w₀ s).events) := by
  unfold attachSingle
  split
  · exact ⟨⟨hf, fun l h => by simp at h, fun _ _ => rfl⟩, fun _ => rfl⟩
  · cases r with
    | one off cookie =>
      simp only
      obtain ⟨hdid, hev⟩ := attachImpl_spec (cookie := cookie) sane (t := ⟨path, off, pid, ret⟩) hsc s hf
      cases h1 : attachImpl env ⟨path, off, pid, ret⟩ cookie s with
      | mk r s1 =>
        rw [h1] at hdid hev
        simp only at hdid hev
        cases r with
        | error e => exact ⟨⟨hdid.fresh, fun l h => by simp at h, fun _ _ => hdid.err e rfl⟩, hev⟩
        | ok l =>
          simp only
          obtain ⟨hl, o, ho, hop⟩ := hdid.ok l rfl
          refine ⟨⟨hdid.fresh, ?_, fun e h => by simp at h⟩, hev⟩
          intro l' h
          cases h
          refine ⟨by simpa [Link.files, Link.inners] using hl, [(l.file, o)], ho, rfl, ?_⟩
          simp [hop, Resolved.cookies, Resolved.offsets, probesFrom, siteOf]
          cases cookie <;> rfl
    | many offs cookies =>
      cases offs with
      | nil => exact ⟨⟨hf, fun l h => by simp at h, fun _ _ => rfl⟩, fun _ => rfl⟩
      | cons off offs =>
        simp only
        obtain ⟨hdid, hev⟩ := attachImpl_spec (cookie := cookies.bind (·.head?)) sane (t := ⟨path, off, pid, ret⟩) hsc s hf
        have hpm := fun l => attachImpl_pmu (env := env) (t := ⟨path, off, pid, ret⟩) (cookie := cookies.bind (·.head?)) (s := s) (l := l)
        cases h1 : attachImpl env ⟨path, off, pid, ret⟩ (cookies.bind (·.head?)) s with
        | mk r s1 =>
          rw [h1] at hdid hev hpm
          simp only at hdid hev hpm
          cases r with
          | error e => exact ⟨⟨hdid.fresh, fun l h => by simp at h, fun _ _ => hdid.err e rfl⟩, hev⟩
          | ok l =>
            simp only
            obtain ⟨hl, o, ho, hop⟩ := hdid.ok l rfl
            obtain ⟨r1, r2⟩ := attachRest_spec sane (path := path) (ret := ret) hsc cookies l (W k w₀ s).files offs 1 [l] s1
              [⟨⟨path, off, ret, sc⟩, (cookies.bind (·.head?)).getD 0⟩] [(l.file, o)] hdid.fresh ho rfl
              (by simpa using hl) (by simp [hop, siteOf])
            refine ⟨?_, fun hp => by rw [r2 hp (by simpa using hpm l hp rfl), hev hp]⟩
            have e : probesFrom path ret sc (Resolved.many (off :: offs) cookies).cookies 0 (Resolved.many (off :: offs) cookies).offsets =
                [⟨⟨path, off, ret, sc⟩, (cookies.bind (·.head?)).getD 0⟩] ++ probesFrom path ret sc cookies 1 offs := by
              simp only [Resolved.cookies, Resolved.offsets, probesFrom, List.singleton_append]
              congr 3
              cases cookies with
              | none => rfl
              | some cs => cases cs <;> rfl
            rw [e]
            exact r1

theorem multiProbes_eq (path : Text) (offs : List Nat) (cookies : Option (List Nat)) (pid : Nat) (ret : Bool) (hlen : offs.length < 2 ^ 32) :
    multiProbes path offs (offs.length % 2 ^ 32) cookies pid (if ret then 1 else 0) =
      probesFrom path ret (if pid = 0 then .all else .process pid) cookies 0 offs := by
  rw [Nat.mod_eq_of_lt hlen]
  unfold multiProbes
  have hr : decide ((if ret then 1 else 0 : Nat) = 1) = ret := by cases ret <;> rfl
  simp only [hr]
  generalize (if pid = 0 then Scope.all else Scope.process pid) = sc
  have key : ∀ (g : Nat → Nat) (hg : ∀ i, g i = (cookies.bind (·[i]?)).getD 0) (os : List Nat) (i : Nat),
      (List.range os.length).filterMap (fun j => (os[j]?).map (fun o => (⟨⟨path, o, ret, sc⟩, g (i + j)⟩ : Probe))) =
        probesFrom path ret sc cookies i os := by
    intro g hg os
    induction os with
    | nil => intro i; rfl
    | cons o os ih =>
      intro i
      rw [List.length_cons, List.range_succ_eq_map, List.filterMap_cons]
      simp only [List.getElem?_cons_zero, Option.map_some, Nat.add_zero]
      rw [probesFrom, hg]
      congr 1
      rw [List.filterMap_map, ← ih (i + 1)]
      congr 1
      funext j
      simp [Nat.add_assoc, Nat.add_comm 1]
  cases cookies with
  | none => exact (by simpa using key (fun _ => 0) (fun _ => rfl) offs 0)
  | some cs => exact (by simpa using key (fun i => cs[i]?.getD 0) (fun _ => rfl) offs 0)

theorem attachMulti_spec {env : Env} (sane : Sane k w₀ env.ans) {loaded : Bool} {path : Text} {pid : Nat} {ret : Bool}
    (r : Resolved) (hlen : r.offsets.length < 2 ^ 32) (s : St) (hf : FreshEvents k w₀ s) :
    DidAll (k := k) (w₀ := w₀) (W k w₀ s).files (attachMulti env loaded ret path r pid s).2
      (attachMulti env loaded ret path r pid s).1
      (probesFrom path ret (if pid = 0 then .all else .process pid) r.cookies 0 r.offsets) ∧
    (W k w₀ (attachMulti env loaded ret path r pid s).2).events = (W k w₀ s).events := by
  unfold attachMulti
  split
  · exact ⟨⟨hf, fun l h => by simp at h, fun _ _ => rfl⟩, rfl⟩
  · split
    · exact ⟨⟨hf, fun l h => by simp at h, fun _ _ => rfl⟩, rfl⟩
    · generalize hc : Call.multiCreate path r.offsets (r.offsets.length % 2 ^ 32) r.cookies pid (if ret = true then 1 else 0) = c
      have hW1 := W_call (k := k) (w₀ := w₀) env c s
      cases h1 : call env c s with
      | mk res s1 =>
        rw [h1] at hW1
        have hr1 : env.ans s.hist c = res := by rw [show res = (call env c s).1 by rw [h1]]; rfl
        have hn1 : s1.next = s.next := by rw [show s1 = (call env c s).2 by rw [h1]]; rfl
        cases res with
        | error e =>
          have hw1 : W k w₀ s1 = W k w₀ s := by rw [hW1, ← hc]; rfl
          simp only
          have hfe : FreshEvents k w₀ s1 := by
            intro e he
            rw [hw1] at he
            rw [hn1]
            exact hf e he
          split
          · exact ⟨⟨hfe, fun l h => by simp at h, fun _ _ => by simp only; rw [hw1]⟩, by simp only; rw [hw1]⟩
          · exact ⟨⟨hfe, fun l h => by simp at h, fun _ _ => by simp only; rw [hw1]⟩, by simp only; rw [hw1]⟩
        | ok fd =>
          have hw1 : W k w₀ s1 = { W k w₀ s with files := (W k w₀ s).files ++ [(fd, .link
              (multiProbes path r.offsets (r.offsets.length % 2 ^ 32) r.cookies pid (if ret = true then 1 else 0)))] } := by
            rw [hW1, ← hc]; rfl
          simp only
          refine ⟨⟨?_, ?_, fun e h => by simp at h⟩, by rw [hw1]⟩
          · intro e he
            rw [hw1] at he
            rw [hn1]
            exact hf e he
          · intro l h
            cases h
            refine ⟨?_, [(fd, .link (multiProbes path r.offsets (r.offsets.length % 2 ^ 32) r.cookies pid (if ret = true then 1 else 0)))],
              by rw [hw1], rfl, ?_⟩
            · intro fd' hfd'
              simp [Link.files, Link.inners, Inner.file] at hfd'
              subst hfd'
              exact sane.fresh s.hist c fd' (by rw [← hc]; rfl) hr1
            · simp only [List.map_cons, List.map_nil, List.flatten_cons, List.flatten_nil, List.append_nil, Spec.Obj.probes]
              exact multiProbes_eq path r.offsets r.cookies pid ret hlen

/-- Names of event definitions are not reused, and numbers of files are as the system says: what holds of every state
that attaching and detaching lead to. -/
theorem pidScope_of {self : Nat} {req : ScopeReq} (hreq : ∀ pid, req = .one pid → 0 < pid ∧ pid < 2 ^ 31) (hself : 0 < self) :
    (∃ sc, PidScope (scopePids self req).2.1 sc ∧ Within self req sc) ∧
    Within self req (if (scopePids self req).2.2 = 0 then .all else .process (scopePids self req).2.2) := by
  cases req with
  | all => exact ⟨⟨.all, (by decide +kernel : PidScope none .all), rfl⟩, rfl⟩
  | caller =>
    refine ⟨⟨.thread, (by decide +kernel : PidScope (some 0) .thread), Or.inl rfl⟩, ?_⟩
    rw [if_neg (show ¬ (scopePids self .caller).2.2 = 0 by show ¬ self = 0; omega)]
    exact Or.inr rfl
  | one pid =>
    obtain ⟨h0, h31⟩ := hreq pid rfl
    rw [if_neg (show ¬ (scopePids self (.one pid)).2.2 = 0 by show ¬ pid = 0; omega)]
    refine ⟨⟨.process pid, ?_, rfl⟩, rfl⟩
    show PidScope (some pid) (.process pid)
    unfold PidScope pidCpu asI32 perfScope
    have h32 : pid % 2 ^ 32 = pid := Nat.mod_eq_of_lt (by omega)
    simp only [h32, if_pos h31]
    rw [if_neg (by omega), if_neg (by omega), if_neg (by omega)]
    rfl

theorem attachResolved_spec {env : Env} (sane : Sane k w₀ env.ans) {loaded ret : Bool} {mode : Mode} {path : Text}
    (r : Resolved) (hlen : r.offsets.length < 2 ^ 32) {self : Nat} {req : ScopeReq} (hself : 0 < self)
    (hreq : ∀ pid, req = .one pid → 0 < pid ∧ pid < 2 ^ 31) (s : St) (hf : FreshEvents k w₀ s) :
    ∃ sc, Within self req sc ∧
    DidAll (k := k) (w₀ := w₀) (W k w₀ s).files
      (attachResolved env loaded ret mode path r (scopePids self req).2.1 (scopePids self req).2.2 s).2.2
      (attachResolved env loaded ret mode path r (scopePids self req).2.1 (scopePids self req).2.2 s).1
      (probesFrom path ret sc r.cookies 0 r.offsets) ∧
    (env.pmu = true → (W k w₀ (attachResolved env loaded ret mode path r (scopePids self req).2.1 (scopePids self req).2.2 s).2.2).events =
      (W k w₀ s).events) := by
  obtain ⟨⟨sc, hsc, hw⟩, hwm⟩ := pidScope_of (self := self) hreq hself
  unfold attachResolved
  cases mode with
  | single =>
    exact ⟨sc, hw, attachSingle_spec sane hsc r s hf⟩
  | multi =>
    obtain ⟨h1, h2⟩ := attachMulti_spec (loaded := loaded) (path := path) (pid := (scopePids self req).2.2) (ret := ret) sane r hlen s hf
    exact ⟨_, hwm, h1, fun _ => h2⟩
  | unknown =>
    obtain ⟨h1, h2⟩ := attachMulti_spec (loaded := loaded) (path := path) (pid := (scopePids self req).2.2) (ret := ret) sane r hlen s hf
    simp only
    cases hm : attachMulti env loaded ret path r (scopePids self req).2.2 s with
    | mk res s1 =>
      rw [hm] at h1 h2
      simp only at h1 h2
      cases res with
      | ok l => exact ⟨_, hwm, h1, fun _ => h2⟩
      | error e =>
        simp only
        have hF := h1.err e rfl
        split
        · obtain ⟨g1, g2⟩ := attachSingle_spec (loaded := loaded) (path := path) (ret := ret) sane hsc r s1 h1.fresh
          rw [hF] at g1
          rw [h2] at g2
          cases hs : attachSingle env loaded ret path r (scopePids self req).2.1 s1 with
          | mk res s2 =>
            rw [hs] at g1 g2
            simp only at g1 g2
            cases res with
            | ok l => exact ⟨sc, hw, g1, g2⟩
            | error e' => exact ⟨sc, hw, ⟨g1.fresh, fun l h => by simp at h, fun _ _ => g1.err e' rfl⟩, g2⟩
        · exact ⟨sc, hw, ⟨h1.fresh, fun l h => by simp at h, fun _ _ => hF⟩, fun _ => h2⟩

theorem probes_zip (path : Text) (ret : Bool) (sc : Scope) (cookies : Option (List Nat)) :
    ∀ (ps : List Point) (offs : List Nat) (i : Nat), ps.length = offs.length →
    (∀ j p, ps[j]? = some p → (cookies.bind (·[i + j]?)).getD 0 = p.cookie.getD 0) →
    probesFrom path ret sc cookies i offs = List.zipWith (fun p o => ⟨⟨path, o, ret, sc⟩, p.cookie.getD 0⟩) ps offs
  | [], [], _, _, _ => rfl
  | [], _ :: _, _, h, _ => by simp at h
  | _ :: _, [], _, h, _ => by simp at h
  | p :: ps, o :: os, i, h, hc => by
    rw [probesFrom, List.zipWith_cons_cons, probes_zip path ret sc cookies ps os (i + 1) (by simpa using h) ?_]
    · congr 2
      exact hc 0 p rfl
    · intro j q hq
      rw [show i + 1 + j = i + (j + 1) by omega]
      exact hc (j + 1) q hq

theorem probes_points (path : Text) (ret : Bool) (sc : Scope) (ps : List Point) (offs : List Nat) (h : ps.length = offs.length) :
    probesFrom path ret sc (cookiesOf ps) 0 offs =
      List.zipWith (fun p o => ⟨⟨path, o, ret, sc⟩, p.cookie.getD 0⟩) ps offs := by
  apply probes_zip _ _ _ _ _ _ _ h
  intro j p hp
  unfold cookiesOf
  rw [Nat.zero_add]
  by_cases ha : ps.any (fun p => p.cookie.isSome) = true
  · rw [if_pos ha]
    simp [hp]
  · rw [if_neg ha]
    have hm : p ∈ ps := List.mem_of_getElem? hp
    have : p.cookie.isSome ≠ true := fun hs => ha (List.any_eq_true.mpr ⟨p, hm, hs⟩)
    cases hc : p.cookie with
    | none => rfl
    | some c => rw [hc] at this; simp at this

theorem each_length {α β : Type} {R : α → β → Prop} {as : List α} {bs : List β} (h : Each R as bs) : as.length = bs.length := by
  induction h with
  | nil => rfl
  | cons _ _ ih => simp [ih]

theorem attach_spec {env : Env} (sane : Sane k w₀ env.ans) (out : Outside) (hfit : AllFit out.fs) {loaded ret : Bool}
    {mode : Mode} {points : List Point} {target : Text} {req : ScopeReq} (hself : 0 < env.self)
    (hreq : ∀ pid, req = .one pid → 0 < pid ∧ pid < 2 ^ 31) (hlen : points.length < 2 ^ 32) (s : St) (hf : FreshEvents k w₀ s) :
    (FreshEvents k w₀ (attach env out loaded ret mode points target req s).2.2) ∧
    (∀ l, (attach env out loaded ret mode points target req s).1 = .ok l →
      ∃ path offs sc new, resolveTarget out target (scopePids env.self req).1 = .ok path ∧
        Each (fun p o => OffsetOf out.fs path p.loc o) points offs ∧ Within env.self req sc ∧
        (∀ fd ∈ l.files, NotIn fd (W k w₀ s).files) ∧
        (W k w₀ (attach env out loaded ret mode points target req s).2.2).files = (W k w₀ s).files ++ new ∧
        new.map (·.1) = l.files ∧
        (new.map (fun e => e.2.probes)).flatten =
          List.zipWith (fun p o => ⟨⟨path, o, ret, sc⟩, p.cookie.getD 0⟩) points offs) ∧
    (∀ e, (attach env out loaded ret mode points target req s).1 = .error e →
      (W k w₀ (attach env out loaded ret mode points target req s).2.2).files = (W k w₀ s).files) ∧
    (env.pmu = true →
      (W k w₀ (attach env out loaded ret mode points target req s).2.2).events = (W k w₀ s).events) := by
  cases points with
  | nil => exact ⟨hf, fun l h => by simp [attach] at h, fun _ _ => rfl, fun _ => rfl⟩
  | cons p ps =>
    rw [attach]
    cases ht : resolveTarget out target (scopePids env.self req).1 with
    | error e =>
      simp only [ht]
      exact ⟨hf, fun l h => by simp at h, fun _ _ => trivial, fun _ => trivial⟩
    | ok path =>
      simp only [ht]
      cases hr : resolvePoints out.fs path p ps with
      | error e =>
        simp only [hr]
        exact ⟨hf, fun l h => by simp at h, fun _ _ => trivial, fun _ => trivial⟩
      | ok r =>
        simp only [hr]
        obtain ⟨heach, hck⟩ := (C47_resolved out.fs path p ps r.offsets r.cookies hfit).mp ⟨r, hr, rfl, rfl⟩
        have hl := each_length heach
        obtain ⟨sc, hw, hd, hev⟩ := attachResolved_spec (loaded := loaded) (ret := ret) (mode := mode) (path := path) sane r
          (by rw [← hl]; exact hlen) hself hreq s hf
        refine ⟨hd.fresh, ?_, hd.err, hev⟩
        intro l hl'
        obtain ⟨h1, new, h2, h3, h4⟩ := hd.ok l hl'
        refine ⟨path, r.offsets, sc, new, rfl, heach, hw, h1, h2, h3, ?_⟩
        rw [h4, hck, probes_points path ret sc _ _ hl]

end

/-! ## C47: one probe for each point -/

/-- **C47.** Attaching at points makes the program run at exactly one more probe for each point, in the same file, at that
point's offset, with that point's cookie (zero if it has none), of the kind of the program and for the processes
asked for. -/
theorem C47_attached {k : Kernel} {w₀ : World} {env : Env} (sane : Sane k w₀ env.ans) (out : Outside) (hfit : AllFit out.fs)
    {loaded ret : Bool} {mode mode' : Mode} {points : List Point} {target : Text} {req : ScopeReq} (hself : 0 < env.self)
    (hreq : ∀ pid, req = .one pid → 0 < pid ∧ pid < 2 ^ 31) (hlen : points.length < 2 ^ 32) {s s' : St}
    (hnames : ∀ e ∈ (world k w₀ s.hist).events, e.1 < s.next) {l : Link}
    (h : attach env out loaded ret mode points target req s = (.ok l, mode', s')) :
    ∃ path offs sc, resolveTarget out target (scopePids env.self req).1 = .ok path ∧
      Each (fun p o => OffsetOf out.fs path p.loc o) points offs ∧ Within env.self req sc ∧
      (world k w₀ s'.hist).running = (world k w₀ s.hist).running ++
        List.zipWith (fun p o => ⟨⟨path, o, ret, sc⟩, p.cookie.getD 0⟩) points offs := by
  obtain ⟨_, hok, _⟩ := attach_spec (loaded := loaded) (ret := ret) (mode := mode) (points := points) (target := target)
    sane out hfit hself hreq hlen s hnames
  rw [h] at hok
  obtain ⟨path, offs, sc, new, h1, h2, h3, h4, h5, h6, h7⟩ := hok l rfl
  refine ⟨path, offs, sc, h1, h2, h3, ?_⟩
  rw [World.running, show world k w₀ s'.hist = W k w₀ s' from rfl, h5, List.map_append, List.flatten_append, h7]
  rfl

/-! ## C62: all or nothing, and detaching -/

/-- **C62.** If attaching fails then no file is left open, nothing more runs, and the program has not settled on a way to
attach. On kernels with the probe event source (4.17) nothing is left in tracefs either. -/
theorem C62_failed {k : Kernel} {w₀ : World} {env : Env} (sane : Sane k w₀ env.ans) (out : Outside) (hfit : AllFit out.fs)
    {loaded ret : Bool} {mode mode' : Mode} {points : List Point} {target : Text} {req : ScopeReq} (hself : 0 < env.self)
    (hreq : ∀ pid, req = .one pid → 0 < pid ∧ pid < 2 ^ 31) (hlen : points.length < 2 ^ 32) {s s' : St}
    (hnames : ∀ e ∈ (world k w₀ s.hist).events, e.1 < s.next) {e : Err}
    (h : attach env out loaded ret mode points target req s = (.error e, mode', s')) :
    (world k w₀ s'.hist).files = (world k w₀ s.hist).files ∧ (world k w₀ s'.hist).running = (world k w₀ s.hist).running ∧
    mode' = mode ∧ (env.pmu = true → world k w₀ s'.hist = world k w₀ s.hist) := by
  obtain ⟨_, _, herr, hev⟩ := attach_spec (loaded := loaded) (ret := ret) (mode := mode) (points := points) (target := target)
    sane out hfit hself hreq hlen s hnames
  rw [h] at herr hev
  have hfiles : (world k w₀ s'.hist).files = (world k w₀ s.hist).files := herr e rfl
  refine ⟨hfiles, by rw [World.running, hfiles]; rfl, ?_, ?_⟩
  · cases points with
    | nil => simp [attach] at h; exact h.2.1.symm
    | cons p ps =>
      rw [attach] at h
      simp only at h
      split at h
      · simp at h; exact h.2.1.symm
      · split at h
        · simp at h; exact h.2.1.symm
        · unfold attachResolved at h
          cases mode with
          | single => simp at h; exact h.2.1.symm
          | multi => simp at h; exact h.2.1.symm
          | unknown =>
            simp only at h
            split at h
            · simp at h
            · split at h
              · split at h
                · simp at h
                · simp at h; exact h.2.1.symm
              · simp at h; exact h.2.1.symm
  · intro hp
    have := hev hp
    cases h1 : world k w₀ s'.hist with
    | mk f1 e1 =>
      cases h2 : world k w₀ s.hist with
      | mk f2 e2 =>
        simp only [W, h1, h2] at this hfiles
        rw [this, hfiles]

/-- **C62.** An attachment holds files that were not open before; detaching it, at any later time and whatever happened
in between, closes exactly those files. -/
theorem C62_detached {k : Kernel} {w₀ : World} {env : Env} (sane : Sane k w₀ env.ans) (out : Outside) (hfit : AllFit out.fs)
    {loaded ret : Bool} {mode mode' : Mode} {points : List Point} {target : Text} {req : ScopeReq} (hself : 0 < env.self)
    (hreq : ∀ pid, req = .one pid → 0 < pid ∧ pid < 2 ^ 31) (hlen : points.length < 2 ^ 32) {s s' : St}
    (hnames : ∀ e ∈ (world k w₀ s.hist).events, e.1 < s.next) {l : Link}
    (h : attach env out loaded ret mode points target req s = (.ok l, mode', s')) :
    ∃ new, (world k w₀ s'.hist).files = (world k w₀ s.hist).files ++ new ∧
      (∀ n ∈ new, ∀ e ∈ (world k w₀ s.hist).files, e.1 ≠ n.1) ∧
      (∀ t : St, (world k w₀ (detachLink env l t).hist).files =
        (world k w₀ t.hist).files.filter (fun e => decide (e.1 ∉ new.map (·.1)))) ∧
      (∀ (t : St) (later : List (Fd × Spec.Obj)), (world k w₀ t.hist).files = (world k w₀ s.hist).files ++ new ++ later →
        (∀ x ∈ later, ∀ n ∈ new, x.1 ≠ n.1) →
        (world k w₀ (detachLink env l t).hist).files = (world k w₀ s.hist).files ++ later) := by
  obtain ⟨_, hok, _⟩ := attach_spec (loaded := loaded) (ret := ret) (mode := mode) (points := points) (target := target)
    sane out hfit hself hreq hlen s hnames
  rw [h] at hok
  obtain ⟨path, offs, sc, new, h1, h2, h3, h4, h5, h6, h7⟩ := hok l rfl
  have hdet : ∀ t : St, (world k w₀ (detachLink env l t).hist).files =
      (world k w₀ t.hist).files.filter (fun e => decide (e.1 ∉ new.map (·.1))) := by
    intro t
    rw [h6]
    cases l with
    | one i =>
      have := (detachInner_spec (k := k) (w₀ := w₀) env i t).1
      rw [detachLink]
      rw [show world k w₀ (detachInner env i t).hist = W k w₀ (detachInner env i t) from rfl, this]
      congr 1
      funext e
      simp [Link.files, Link.inners]
    | many is =>
      rw [detachLink]
      exact (detachMany_spec (k := k) (w₀ := w₀) env is t).1
  refine ⟨new, h5, ?_, hdet, ?_⟩
  · intro n hn e he
    exact h4 n.1 (by rw [← h6]; exact List.mem_map_of_mem hn) e he
  · intro t later hl hne
    rw [hdet, hl, List.filter_append, filter_new rfl]
    · congr 1
      apply List.filter_eq_self.mpr
      intro x hx
      simp only [decide_eq_true_eq]
      intro hm
      obtain ⟨n, hn, he⟩ := List.mem_map.mp hm
      exact hne x hx n hn he.symm
    · intro fd hfd
      rw [h6] at hfd
      exact h4 fd hfd

/-- **C62.** Probes are attached one by one instead of by one link only if the kernel says it does not support the link
(errno 95 or 22). Any other error is reported, and nothing else is tried. -/
theorem C62_refused (env : Env) (out : Outside) (loaded ret : Bool) (points : List Point) (target : Text) (req : ScopeReq)
    (s : St) (errno : Nat) (h22 : errno ≠ 22) (h95 : errno ≠ 95)
    (hans : ∀ path offs n cs pid flags, env.ans s.hist (.multiCreate path offs n cs pid flags) = .error errno) :
    ∃ e s', attach env out loaded ret .unknown points target req s = (.error e, .unknown, s') ∧
      (s'.hist = s.hist ∨ ∃ c, s'.hist = s.hist ++ [(c, .error errno)] ∧ e = .linkCreate errno) := by
  unfold attach
  cases points with
  | nil => exact ⟨_, _, rfl, .inl rfl⟩
  | cons p ps =>
    simp only
    cases resolveTarget out target (scopePids env.self req).1 with
    | error e => exact ⟨_, _, rfl, .inl rfl⟩
    | ok path =>
      simp only
      cases resolvePoints out.fs path p ps with
      | error e => exact ⟨_, _, rfl, .inl rfl⟩
      | ok r =>
        simp only [attachResolved, attachMulti]
        by_cases hl : loaded = true
        · rw [if_neg (by simpa using hl)]
          by_cases hz : '\x00' ∈ path
          · rw [if_pos hz]
            exact ⟨_, _, rfl, .inl rfl⟩
          · rw [if_neg hz]
            simp only [call, hans]
            rw [if_neg (by omega)]
            simp only [shouldFallback, decide_eq_true_eq]
            rw [if_neg h22]
            exact ⟨_, _, rfl, .inr ⟨_, rfl, rfl⟩⟩
        · rw [if_pos (by simpa using hl)]
          exact ⟨_, _, rfl, .inl rfl⟩

/-- A system that answers every request with "permission denied" is one, and the request is made. -/
example (env : Env) (out : Outside) (s : St) (p : Point) (off : Nat) (h : env.ans = fun _ _ => .error 1)
    (hp : resolvePoints out.fs ['/', 'a'] p [] = .ok (.one off none)) :
    (∀ path offs n cs pid flags, env.ans s.hist (.multiCreate path offs n cs pid flags) = .error 1) ∧
    (attach env out true false .unknown [p] ['/', 'a'] .all s).1 = .error (.linkCreate 1) := by
  refine ⟨fun _ _ _ _ _ _ => by rw [h], ?_⟩
  have : resolveTarget out ['/', 'a'] (scopePids env.self .all).1 = .ok ['/', 'a'] := by
    unfold resolveTarget
    rw [if_neg (by decide)]
  simp [attach, this, hp, attachResolved, attachMulti, call, h, shouldFallback]

/-- The assumption on names of event definitions in the theorems above holds again after attaching and detaching. -/
theorem C62_names {k : Kernel} {w₀ : World} {env : Env} (sane : Sane k w₀ env.ans) (out : Outside) (hfit : AllFit out.fs)
    {loaded ret : Bool} {mode : Mode} {points : List Point} {target : Text} {req : ScopeReq} (hself : 0 < env.self)
    (hreq : ∀ pid, req = .one pid → 0 < pid ∧ pid < 2 ^ 31) (hlen : points.length < 2 ^ 32) {s : St}
    (hnames : ∀ e ∈ (world k w₀ s.hist).events, e.1 < s.next) (l : Link) :
    (∀ e ∈ (world k w₀ (attach env out loaded ret mode points target req s).2.2.hist).events,
      e.1 < (attach env out loaded ret mode points target req s).2.2.next) ∧
    (∀ e ∈ (world k w₀ (detachLink env l s).hist).events, e.1 < (detachLink env l s).next) := by
  refine ⟨(attach_spec sane out hfit hself hreq hlen s hnames).1, ?_⟩
  cases l with
  | one i =>
    rw [detachLink]
    obtain ⟨_, h2, _, h4⟩ := detachInner_spec (k := k) (w₀ := w₀) env i s
    intro e he
    rw [h4]
    exact hnames e (h2 e he)
  | many is =>
    rw [detachLink]
    obtain ⟨_, h2, _, h4⟩ := detachMany_spec (k := k) (w₀ := w₀) env is s
    intro e he
    rw [h4]
    exact hnames e (h2 e he)

end Verif.UProbe
