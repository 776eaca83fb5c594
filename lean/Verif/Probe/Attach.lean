import Verif.Probe.Lemmas
import Verif.Common.Except
/-!
# What `attach` leaves behind

The lemmas of `Verif.Probe.Lemmas` put together for whole calls of `attach` and `detach`.
-/
set_option linter.unusedSimpArgs false
set_option linter.unusedVariables false
namespace Verif.Probe
open Verif.Str
open Verif.Probe.Spec (MadeBy Plain Symbol Kernel World Sane Obj Ev Whom Source Place Def Runs Meets Sensible world step event source whom eventsPath find fdOf)

variable {k : Kernel} {w₀ : World} {env : Env}

/-- What a successful attachment leaves behind: one new descriptor that makes the program run. -/
structure Attached (k : Kernel) (w₀ : World) (s s' : St) (prog : Fd) (l : Link) (what : Runs) : Prop where
  files : ∃ o : Obj, (W k w₀ s').files = (W k w₀ s).files ++ [(fdOf l, o)] ∧ o.runs = [(prog, what)]
  fresh : ∀ e ∈ (W k w₀ s).files, e.1 ≠ fdOf l

theorem Attached.running {s s' : St} {prog : Fd} {l : Link} {what : Runs} (h : Attached k w₀ s s' prog l what) :
    (W k w₀ s').running = (W k w₀ s).running ++ [(prog, what)] := by
  obtain ⟨o, ho, hr⟩ := h.files
  unfold Spec.World.running
  rw [ho]
  simp [hr]

/-- What the specification of a probe asks of its target on kernels without probe event sources. -/
def Fine (kernel ret : Bool) (t : Text) (off : Nat) : Prop :=
  if kernel then Symbol t ∧ (ret = true → off = 0) else (t ≠ [] ∧ ∀ c ∈ t, Spec.blank c = false)

theorem attachProbe_spec (sane : Sane k w₀ env.read env.ans) (hroot : ∀ r, env.tracefs = some r → r = k.root) (prog : Fd)
    (kernel ret : Bool) (t : Text) (off : Nat) (pid cookie : Option Nat) (hpid : ∀ p, pid = some p → p < 2 ^ 31)
    (ht : kernel = true → t ≠ []) (s : St) {r : Except Err Link} {s' : St}
    (h : attachProbe env prog (fam kernel) ret t off pid cookie s = (r, s')) :
    s.next ≤ s'.next ∧ (env.pmu = true → s'.next = s.next ∧ (W k w₀ s').events = (W k w₀ s).events) ∧
    (∀ d ∈ (W k w₀ s').events, d ∈ (W k w₀ s).events ∨ (s'.next = s.next + 1 ∧ ∃ x, Spec.command kernel (eventLine (fam kernel) ret (eventName env.self ret t off s.next) t off) = some x ∧ d ∈ Spec.apply kernel [] x)) ∧
    (∀ e, r = .error e → (W k w₀ s').files = (W k w₀ s).files) ∧
    ∀ l, r = .ok l → (env.pmu = false → Fine kernel ret t off ∧ ∀ d ∈ (W k w₀ s).events, ¬ MadeBy env.self s.next d.name) →
      ∃ wake, Attached k w₀ s s' prog l (.event ⟨.probe ⟨place kernel t off, ret⟩, who pid, .period 0, false, wake⟩ (cookie.getD 0)) ∧
        (env.pmu = false → l = .perf (fdOf l) (some ⟨(fam kernel).pmu, eventName env.self ret t off s.next⟩) ∧
          (W k w₀ s').events = (W k w₀ s).events ++ [⟨Spec.group kernel, eventName env.self ret t off s.next, ⟨place kernel t off, ret⟩⟩]) := by
  unfold attachProbe at h
  split at h
  · rename_i hc
    unfold attachBpfProbe at h
    cases h1 : createAsProbe env (fam kernel) ret t off pid s with
    | mk r1 s1 =>
      obtain ⟨a1, a2, a3, a4⟩ := createAsProbe_spec (w₀ := w₀) sane kernel ret t off pid hpid ht s h1
      rw [h1] at h
      cases r1 with
      | error e =>
        simp only at h
        injection h with h2 h3
        subst h2; subst h3
        exact ⟨Nat.le_of_eq a1.symm, fun _ => ⟨a1, a2⟩, fun d hd => .inl (by rw [a2] at hd; exact hd), fun _ _ => a3 e rfl, by intro l hl; cases hl⟩
      | ok fd =>
        simp only at h
        obtain ⟨o1, o2⟩ := a4 fd rfl
        obtain ⟨b1, b2, b3, b4⟩ := attachBpfLink_spec (w₀ := w₀) sane prog fd cookie s1 ⟨o1, o2⟩ h
        refine ⟨Nat.le_of_eq (b1.trans a1).symm, fun _ => ⟨b1.trans a1, b2.trans a2⟩, fun d hd => .inl (by rw [b2, a2] at hd; exact hd), fun e he => b3 e he, ?_⟩
        intro l hl _
        obtain ⟨fd', hl', c1, c2⟩ := b4 l hl
        subst hl'
        exact ⟨0, ⟨⟨_, c1, rfl⟩, c2⟩, fun hp => absurd hc.1 (by rw [hp]; decide)⟩
  · unfold attachPerfEventProbe at h
    by_cases hcookie : cookie.isSome = true
    · rw [if_pos hcookie] at h
      injection h with h2 h3
      subst h2; subst h3
      exact ⟨Nat.le_refl _, fun _ => ⟨rfl, rfl⟩, fun d hd => .inl hd, fun _ _ => rfl, by intro l hl; cases hl⟩
    · rw [if_neg hcookie] at h
      have hck : cookie.getD 0 = 0 := by cases cookie <;> simp_all
      rw [hck]
      by_cases hpmu : env.pmu = true
      · rw [if_pos hpmu] at h
        cases h1 : createAsProbe env (fam kernel) ret t off pid s with
        | mk r1 s1 =>
          obtain ⟨a1, a2, a3, a4⟩ := createAsProbe_spec (w₀ := w₀) sane kernel ret t off pid hpid ht s h1
          rw [h1] at h
          cases r1 with
          | error e =>
            simp only at h
            injection h with h2 h3
            subst h2; subst h3
            exact ⟨Nat.le_of_eq a1.symm, fun _ => ⟨a1, a2⟩, fun d hd => .inl (by rw [a2] at hd; exact hd), fun _ _ => a3 e rfl, by intro l hl; cases hl⟩
          | ok fd =>
            simp only at h
            obtain ⟨o1, o2⟩ := a4 fd rfl
            obtain ⟨b1, b2, b3, b4, b5⟩ := attachPerfEvent_spec (w₀ := w₀) sane hroot prog fd none (by intro e he; cases he) s1 ⟨o1, o2⟩ h
            refine ⟨Nat.le_of_eq (b1.trans a1).symm, fun _ => ⟨b1.trans a1, (b2 rfl).trans a2⟩, fun d hd => .inl (by rw [b2 rfl, a2] at hd; exact hd), fun e he => b4 e he, ?_⟩
            intro l hl _
            obtain ⟨hl', _, c1, c2⟩ := b5 l hl
            subst hl'
            exact ⟨0, ⟨⟨_, c1, rfl⟩, c2⟩, fun hp => absurd hpmu (by rw [hp]; decide)⟩
      · rw [if_neg hpmu] at h
        cases h1 : createAsTracePoint env (fam kernel) ret t off pid s with
        | mk r1 s1 =>
          obtain ⟨a1, a1', a2, a3, a4⟩ := createAsTracePoint_spec (w₀ := w₀) sane hroot kernel ret t off pid hpid s h1
          rw [h1] at h
          cases r1 with
          | error e =>
            simp only at h
            injection h with h2 h3
            subst h2; subst h3
            exact ⟨a1, fun hp => absurd hp hpmu, a2, fun _ _ => a3 e rfl, by intro l hl; cases hl⟩
          | ok p =>
            obtain ⟨fd, ev⟩ := p
            simp only at h
            obtain ⟨hev, ⟨e0, o1, o2⟩, hgood⟩ := a4 fd ev rfl
            obtain ⟨b1, b2, b3, b4, b5⟩ := attachPerfEvent_spec (w₀ := w₀) sane hroot prog fd (some ev)
              (by intro e he; injection he with he; subst he; exact ⟨kernel, by rw [hev]⟩) s1 ⟨o1, o2⟩ h
            refine ⟨by rw [b1]; exact a1, fun hp => absurd hp hpmu, fun d hd => by rw [b1]; exact a2 d (b3 d hd), fun e he => b4 e he, ?_⟩
            intro l hl hf
            obtain ⟨⟨o3, o4⟩, hevs⟩ := hgood (hf (by simpa using hpmu)).1 (hf (by simpa using hpmu)).2
            obtain ⟨_, _, _, _, b6⟩ := attachPerfEvent_spec (w₀ := w₀) sane hroot prog fd (some ev)
              (by intro e he; injection he with he; subst he; exact ⟨kernel, by rw [hev]⟩) s1 ⟨o3, o4⟩ h
            obtain ⟨hl', hsame, c1, c2⟩ := b6 l hl
            subst hl'
            exact ⟨1, ⟨⟨_, c1, rfl⟩, c2⟩, fun _ => ⟨by rw [hev]; rfl, hsame.trans hevs⟩⟩


theorem source_config (events : List Def) (c : Config) (p : Policy) (inh : Bool) :
    source k events { withPolicy (configAttr c) p with sampleType := 1024, inherit := inh, wakeup := 1 } = Spec.configured k events c := by
  have key : ∀ a : Attr, source k events { withPolicy a p with sampleType := 1024, inherit := inh, wakeup := 1 } = source k events a := by
    intro a
    cases p <;> rfl
  rw [key]
  cases c with
  | hardware e => cases e <;> rfl
  | software e => cases e <;> rfl
  | tracePoint id => rfl
  | hwCache e op r => cases e <;> cases op <;> cases r <;> rfl
  | raw id => rfl
  | data t a l => cases t <;> cases l <;> rfl
  | instruction a => rfl
  | pmu t c => rfl

theorem whom_scope (sc : Scope) (c : Config) (p : Policy) (inh pmu : Bool) (events : List Def) (h : Sensible pmu events (.perfEvent c sc p inh)) :
    whom (pidCpu sc).1 (pidCpu sc).2 = Spec.scope sc := by
  have any : ∀ p : Nat, whom p (-1) = if p = 0 then .caller none else .process p none := by
    intro p
    unfold whom
    rw [if_neg (by omega), if_neg (by omega)]
    by_cases h : p = 0
    · rw [if_pos (by omega), if_pos h]; rfl
    · rw [if_neg (by omega), if_neg h]; rfl
  have one : ∀ p c : Nat, whom p c = if p = 0 then .caller (some c) else .process p (some c) := by
    intro p c
    unfold whom
    rw [if_neg (by omega), if_neg (by omega)]
    simp only
    rw [if_neg (by omega : ¬ (c : Int) = -1)]
    by_cases h : p = 0
    · rw [if_pos (by omega), if_pos h]; simp
    · rw [if_neg (by omega), if_neg h]; simp
  cases sc with
  | callingProcess o =>
    cases o with
    | none => exact any 0
    | some n =>
      show whom 0 (asI32 n) = _
      rw [asI32_small n (h n rfl)]
      exact one 0 n
  | oneProcess pid o =>
    obtain ⟨h0, hp, h⟩ := h
    cases o with
    | none =>
      show whom (asI32 pid) (-1) = _
      rw [asI32_small pid hp, any pid, if_neg (by omega)]
      rfl
    | some n =>
      show whom (asI32 pid) (asI32 n) = _
      rw [asI32_small pid hp, asI32_small n (h n rfl), one pid n, if_neg (by omega)]
      rfl
  | allProcessesOneCpu n =>
    show whom (-1) (asI32 n) = _
    rw [asI32_small n h]
    unfold whom
    rw [if_pos rfl, if_pos (by omega)]
    rfl

theorem event_config (events : List Def) (c : Config) (sc : Scope) (p : Policy) (inh pmu : Bool) (h : Sensible pmu events (.perfEvent c sc p inh)) :
    event k events { withPolicy (configAttr c) p with sampleType := 1024, inherit := inh, wakeup := 1 } (pidCpu sc).1 (pidCpu sc).2 =
      ⟨Spec.configured k events c, Spec.scope sc, p, inh, 1⟩ := by
  unfold event
  rw [source_config, whom_scope sc c p inh pmu events h]
  cases p <;> cases c <;> rfl

theorem perfAttach_spec (sane : Sane k w₀ env.read env.ans) (hroot : ∀ r, env.tracefs = some r → r = k.root) (prog perf : Fd) (s : St)
    {fs : List (Fd × Obj)} {ev : Ev} {c : Bool} (hs : Holds k w₀ s fs perf (.perf ev none true c)) {r : Except Err Link} {s' : St}
    (h : perfAttach env prog perf s = (r, s')) :
    s'.next = s.next ∧ (W k w₀ s').events = (W k w₀ s).events ∧ (∀ e, r = .error e → (W k w₀ s').files = fs) ∧
    ∀ l, r = .ok l → (∃ o : Obj, (W k w₀ s').files = fs ++ [(fdOf l, o)] ∧ o.runs = [(prog, .event ev 0)]) ∧ ∀ e ∈ fs, e.1 ≠ fdOf l := by
  unfold perfAttach at h
  split at h
  · obtain ⟨b1, b2, b3, b4⟩ := attachBpfLink_spec (w₀ := w₀) sane prog perf none s hs h
    refine ⟨b1, b2, b3, fun l hl => ?_⟩
    obtain ⟨fd, rfl, c1, c2⟩ := b4 l hl
    exact ⟨⟨_, c1, rfl⟩, c2⟩
  · obtain ⟨b1, b2, b3, b4, b5⟩ := attachPerfEvent_spec (w₀ := w₀) sane hroot prog perf none (by intro e he; cases he) s hs h
    refine ⟨b1, b2 rfl, b4, fun l hl => ?_⟩
    obtain ⟨rfl, _, c1, c2⟩ := b5 l hl
    exact ⟨⟨_, c1, rfl⟩, c2⟩

theorem raw_spec (sane : Sane k w₀ env.read env.ans) (prog : Fd) (name : Option Text) (s : St) {r : Except Err Link} {s' : St}
    (h : attachRaw env (some prog) name s = (r, s')) :
    s'.next = s.next ∧ (W k w₀ s').events = (W k w₀ s).events ∧ (∀ e, r = .error e → (W k w₀ s').files = (W k w₀ s).files) ∧
    ∀ l, r = .ok l → Attached k w₀ s s' prog l (.raw name) := by
  unfold attachRaw at h
  simp only at h
  rw [call_eq] at h
  have hw := W_call (k := k) (w₀ := w₀) (env := env) (.rawOpen name prog) s
  cases ha : env.ans s.hist (.rawOpen name prog) with
  | error e =>
    rw [ha] at h hw
    simp only at h
    injection h with h1 h2
    subst h1; subst h2
    simp only [step] at hw
    exact ⟨rfl, by rw [hw], fun _ _ => by rw [hw], by intro l hl; cases hl⟩
  | ok fd =>
    have hfresh := sane.fresh s.hist _ _ rfl ha
    rw [ha] at h hw
    simp only at h
    injection h with h1 h2
    subst h1; subst h2
    simp only [step] at hw
    refine ⟨rfl, by rw [hw], (by intro e he; cases he), fun l hl => ?_⟩
    injection hl with hl
    subst hl
    exact ⟨⟨_, by rw [hw]; rfl, rfl⟩, hfresh⟩

/-- Everything that is known after `attach`. -/
theorem attach_spec (sane : Sane k w₀ env.read env.ans) (hroot : ∀ r, env.tracefs = some r → r = k.root) (prog : Fd) (q : Req) (s : St)
    (hq : Sensible env.pmu (W k w₀ s).events q) (hn : ∀ d ∈ (W k w₀ s).events, ∀ i, MadeBy env.self i d.name → i < s.next)
    {r : Except Err Link} {s' : St} (h : attach env (some prog) q s = (r, s')) :
    (∀ d ∈ (W k w₀ s').events, ∀ i, MadeBy env.self i d.name → i < s'.next) ∧
    (env.pmu = true → (W k w₀ s').events = (W k w₀ s).events) ∧
    (∀ e, r = .error e → (W k w₀ s').files = (W k w₀ s).files) ∧
    ∀ l, r = .ok l → ∃ what, Attached k w₀ s s' prog l what ∧ Meets k (W k w₀ s).events q what := by
  have hfree : ∀ d ∈ (W k w₀ s).events, ¬ MadeBy env.self s.next d.name := fun d hd hm => Nat.lt_irrefl _ (hn d hd _ hm)
  have keep : ∀ {s' : St}, s'.next = s.next → (W k w₀ s').events = (W k w₀ s).events →
      (∀ d ∈ (W k w₀ s').events, ∀ i, MadeBy env.self i d.name → i < s'.next) := by
    intro s' h1 h2
    rw [h1, h2]; exact hn
  have inv : ∀ (kernel ret : Bool) (t : Text) (off : Nat) (s' : St), Fine kernel ret t off ∨ env.pmu = true → s.next ≤ s'.next →
      (env.pmu = true → s'.next = s.next ∧ (W k w₀ s').events = (W k w₀ s).events) →
      (∀ d ∈ (W k w₀ s').events, d ∈ (W k w₀ s).events ∨ (s'.next = s.next + 1 ∧ ∃ x, Spec.command kernel (eventLine (fam kernel) ret (eventName env.self ret t off s.next) t off) = some x ∧ d ∈ Spec.apply kernel [] x)) →
      (∀ d ∈ (W k w₀ s').events, ∀ i, MadeBy env.self i d.name → i < s'.next) := by
    intro kernel ret t off s' hf h1 h2 h3 d hd i hi
    rcases hf with hf | hp
    · rcases h3 d hd with hd | ⟨hnx, x, hx, hd⟩
      · exact Nat.lt_of_lt_of_le (hn d hd i hi) h1
      · have := line_define sane kernel ret env.self s.next t off hf (by rw [hx]; rfl)
        rw [hx] at this
        injection this with this
        subst this
        simp only [Spec.apply, List.nil_append, List.mem_singleton] at hd
        subst hd
        have := (madeBy_inj _ _ _ _ _ hi (madeBy_eventName env.self ret t off s.next)).2
        omega
    · obtain ⟨a, b⟩ := h2 hp
      rw [b] at hd
      rw [a]
      exact hn d hd i hi
  cases q with
  | kprobe ret f off =>
    simp only [attach] at h
    obtain ⟨a1, a2, a3, a4, a5⟩ := attachProbe_spec (w₀ := w₀) sane hroot prog true ret f off none none (by intro p hp; cases hp)
      (fun _ => hq.1) s h
    refine ⟨inv true ret f off s' ?_ a1 a2 a3, fun hp => (a2 hp).2, a4, fun l hl => ?_⟩
    · cases hp : env.pmu with
      | true => exact .inr rfl
      | false => exact .inl (hq.2 hp)
    · obtain ⟨wake, ha, _⟩ := a5 l hl (fun hp => ⟨hq.2 hp, hfree⟩)
      exact ⟨_, ha, _, 0, rfl, rfl, rfl⟩
  | userProbe ret f off pid cookie =>
    simp only [attach] at h
    obtain ⟨a1, a2, a3, a4, a5⟩ := attachProbe_spec (w₀ := w₀) sane hroot prog false ret f off pid cookie hq.1
      (by intro hc; cases hc) s h
    refine ⟨inv false ret f off s' ?_ a1 a2 a3, fun hp => (a2 hp).2, a4, fun l hl => ?_⟩
    · cases hp : env.pmu with
      | true => exact .inr rfl
      | false => exact .inl (hq.2 hp)
    · obtain ⟨wake, ha, _⟩ := a5 l hl (fun hp => ⟨hq.2 hp, hfree⟩)
      refine ⟨_, ha, _, 0, rfl, rfl, ?_⟩
      cases pid with
      | none => rfl
      | some p => cases p <;> rfl
  | tracePoint c n =>
    obtain ⟨hc, hnm, hnone⟩ := hq
    simp only [attach] at h
    cases hr : env.tracefs with
    | none =>
      rw [hr] at h
      injection h with h1 h2
      subst h1; subst h2
      exact ⟨hn, fun _ => rfl, fun _ _ => rfl, by intro l hl; cases hl⟩
    | some root =>
      have := hroot root hr
      subst this
      rw [hr] at h
      simp only at h
      cases h1 : readTpId env k.root c n s with
      | mk r1 s1 =>
        obtain ⟨w1, n1, t1⟩ := readTpId_spec (w₀ := w₀) sane c n hc hnm s h1
        rw [h1] at h
        cases r1 with
        | error e =>
          simp only at h
          injection h with h2 h3
          subst h2; subst h3
          exact ⟨keep n1 (by rw [w1]), fun _ => by rw [w1], fun _ _ => by rw [w1], by intro l hl; cases hl⟩
        | ok id =>
          have hid := t1 id rfl
          simp only at h
          unfold perfEventOpenTracePoint at h
          cases h4 : perfEventOpen env (.tracePoint id) (tpScope none) (.period 0) false 8 s1 with
          | mk r4 s4 =>
            obtain ⟨p1, p2, p3, p4⟩ := perfEventOpen_spec (w₀ := w₀) sane _ _ _ _ _ s1 h4
            rw [w1] at p2 p3 p4
            rw [h4] at h
            cases r4 with
            | error e =>
              simp only at h
              injection h with h2 h3
              subst h2; subst h3
              exact ⟨keep (p1.trans n1) p2, fun _ => p2, fun _ _ => p3 e rfl, by intro l hl; cases hl⟩
            | ok fd =>
              simp only at h
              obtain ⟨o1, o2⟩ := p4 fd rfl
              rw [w1] at o1 o2
              rw [event_tp _ id none (by intro p hp; cases hp), hid, hnone] at o1
              obtain ⟨b1, b2, b3, b4⟩ := perfAttach_spec (w₀ := w₀) sane hroot prog fd s4 ⟨o1, o2⟩ h
              refine ⟨keep (b1.trans (p1.trans n1)) (b2.trans p2), fun _ => b2.trans p2, b3, fun l hl => ?_⟩
              obtain ⟨c1, c2⟩ := b4 l hl
              exact ⟨_, ⟨c1, c2⟩, _, 0, rfl, rfl, rfl⟩
  | perfEvent c sc p inh =>
    simp only [attach] at h
    cases h4 : perfEventOpen env c sc p inh 0 s with
    | mk r4 s4 =>
      obtain ⟨p1, p2, p3, p4⟩ := perfEventOpen_spec (w₀ := w₀) sane _ _ _ _ _ s h4
      rw [h4] at h
      cases r4 with
      | error e =>
        simp only at h
        injection h with h2 h3
        subst h2; subst h3
        exact ⟨keep p1 p2, fun _ => p2, fun _ _ => p3 e rfl, by intro l hl; cases hl⟩
      | ok fd =>
        simp only at h
        obtain ⟨o1, o2⟩ := p4 fd rfl
        rw [event_config _ c sc p inh env.pmu hq] at o1
        obtain ⟨b1, b2, b3, b4⟩ := perfAttach_spec (w₀ := w₀) sane hroot prog fd s4 ⟨o1, o2⟩ h
        refine ⟨keep (b1.trans p1) (b2.trans p2), fun _ => b2.trans p2, b3, fun l hl => ?_⟩
        obtain ⟨c1, c2⟩ := b4 l hl
        exact ⟨_, ⟨c1, c2⟩, rfl⟩
  | rawTracePoint n =>
    simp only [attach] at h
    split at h
    · injection h with h2 h3
      subst h2; subst h3
      exact ⟨hn, fun _ => rfl, fun _ _ => rfl, by intro l hl; cases hl⟩
    · obtain ⟨a1, a2, a3, a4⟩ := raw_spec sane prog (some n) s h
      exact ⟨keep a1 a2, fun _ => a2, a3, fun l hl => ⟨_, a4 l hl, rfl⟩⟩
  | tracing =>
    simp only [attach] at h
    obtain ⟨a1, a2, a3, a4⟩ := raw_spec sane prog none s h
    exact ⟨keep a1 a2, fun _ => a2, a3, fun l hl => ⟨_, a4 l hl, rfl⟩⟩


/-! ## Detaching -/

theorem step_append_files (k : Kernel) (w : World) (path bytes : Text) (a : Except Nat Nat) :
    (step k w (.call (.append path bytes) a)).files = w.files := by
  cases a with
  | error e => rfl
  | ok n =>
    simp only [step]
    split
    · split <;> rfl
    · split
      · split <;> rfl
      · rfl

theorem step_append_minus (k : Kernel) (w : World) (path t : Text) (a : Except Nat Nat) :
    ∀ d ∈ (step k w (.call (.append path ('-' :: t)) a)).events, d ∈ w.events := by
  cases a with
  | error e => exact fun d hd => hd
  | ok n =>
    intro d hd
    simp only [step] at hd
    split at hd
    · split at hd
      · rename_i c hc
        obtain ⟨m, rfl⟩ := command_minus true t c hc
        exact (List.mem_filter.mp hd).1
      · exact hd
    · split at hd
      · split at hd
        · rename_i c hc
          obtain ⟨m, rfl⟩ := command_minus false t c hc
          exact (List.mem_filter.mp hd).1
        · exact hd
      · exact hd

theorem deleteEvent_any (e : Event) (s : St) :
    (W k w₀ (deleteEvent env e s)).files = (W k w₀ s).files ∧ (deleteEvent env e s).next = s.next ∧
    ∀ d ∈ (W k w₀ (deleteEvent env e s)).events, d ∈ (W k w₀ s).events := by
  unfold deleteEvent
  cases hr : env.tracefs with
  | none => exact ⟨rfl, rfl, fun d hd => hd⟩
  | some root =>
    simp only
    rw [readFile_eq]
    have hw := W_read (k := k) (w₀ := w₀) (env := env) (eventsFile root e.pmu) s
    cases hread : env.read s.hist (eventsFile root e.pmu) with
    | error e =>
      simp only
      rw [hw]
      exact ⟨rfl, rfl, fun d hd => hd⟩
    | ok text =>
      simp only
      split
      · rw [W_exec, hw]
        exact ⟨step_append_files _ _ _ _ _, rfl, step_append_minus _ _ _ _ _⟩
      · rw [hw]
        exact ⟨rfl, rfl, fun d hd => hd⟩

theorem close_files (fd : Fd) (s : St) :
    (W k w₀ (exec env (.close fd) s)).files = (W k w₀ s).files.filter (fun e => e.1 ≠ fd) ∧
    (W k w₀ (exec env (.close fd) s)).events = (W k w₀ s).events := by
  rw [W_exec]
  cases env.ans s.hist (.close fd) <;> exact ⟨rfl, rfl⟩

theorem filter_onFile (fd : Fd) (f : Obj → Obj) (fs : List (Fd × Obj)) :
    (Spec.onFile fd f fs).filter (fun e => e.1 ≠ fd) = fs.filter (fun e => e.1 ≠ fd) := by
  induction fs with
  | nil => rfl
  | cons x xs ih =>
    unfold Spec.onFile at ih ⊢
    rw [List.map_cons]
    by_cases h : x.1 = fd
    · rw [if_pos h, List.filter_cons_of_neg (by simpa using h), List.filter_cons_of_neg (by simpa using h), ih]
    · rw [if_neg h, List.filter_cons_of_pos (by simpa using h), List.filter_cons_of_pos (by simpa using h), ih]

theorem detach_spec (l : Link) (s : St) :
    (W k w₀ (detach env l s)).files = (W k w₀ s).files.filter (fun e => e.1 ≠ fdOf l) ∧ (detach env l s).next = s.next ∧
    ((∀ fd e, l ≠ .perf fd (some e)) → (W k w₀ (detach env l s)).events = (W k w₀ s).events) ∧
    ∀ d ∈ (W k w₀ (detach env l s)).events, d ∈ (W k w₀ s).events := by
  cases l with
  | fd fd =>
    obtain ⟨a, b⟩ := close_files (k := k) (w₀ := w₀) (env := env) fd s
    exact ⟨a, rfl, fun _ => b, fun d (hd : d ∈ (W k w₀ (exec env (.close fd) s)).events) => by rw [b] at hd; exact hd⟩
  | perf fd event =>
    have hd : (W k w₀ (exec env (.disable fd) s)).files.filter (fun e => e.1 ≠ fd) = (W k w₀ s).files.filter (fun e => e.1 ≠ fd) ∧
        (W k w₀ (exec env (.disable fd) s)).events = (W k w₀ s).events := by
      rw [W_exec]
      cases env.ans s.hist (.disable fd) with
      | error e => exact ⟨rfl, rfl⟩
      | ok n => exact ⟨by simp only [step]; exact filter_onFile fd _ _, rfl⟩
    cases event with
    | none =>
      obtain ⟨a, b⟩ := close_files (k := k) (w₀ := w₀) (env := env) fd (exec env (.disable fd) s)
      refine ⟨a.trans hd.1, rfl, fun _ => b.trans hd.2, fun d (h : d ∈ (W k w₀ (exec env (.close fd) (exec env (.disable fd) s))).events) => ?_⟩
      rw [b, hd.2] at h
      exact h
    | some e =>
      obtain ⟨d1, d2, d3⟩ := deleteEvent_any (k := k) (w₀ := w₀) (env := env) e (exec env (.disable fd) s)
      obtain ⟨a, b⟩ := close_files (k := k) (w₀ := w₀) (env := env) fd (deleteEvent env e (exec env (.disable fd) s))
      refine ⟨?_, d2, fun h => absurd rfl (h fd e), fun d (h : d ∈ (W k w₀ (exec env (.close fd) (deleteEvent env e (exec env (.disable fd) s)))).events) => ?_⟩
      · show (W k w₀ (exec env (.close fd) (deleteEvent env e (exec env (.disable fd) s)))).files = _
        rw [a, d1, hd.1]
        rfl
      · rw [b] at h
        have := d3 d h
        rw [hd.2] at this
        exact this

/-! ## Removing a definition -/

theorem dropWhile_append_stop {α : Type} (p : α → Bool) (a b : List α) (h : ∀ x, b.head? = some x → p x = false) (hb : b ≠ []) :
    (a ++ b).dropWhile p = a.dropWhile p ++ b := by
  induction a with
  | nil => exact dropWhile_none p b h
  | cons x xs ih =>
    rw [List.cons_append]
    by_cases hx : p x = true
    · rw [List.dropWhile_cons_of_pos hx, List.dropWhile_cons_of_pos hx, ih]
    · rw [List.dropWhile_cons_of_neg hx, List.dropWhile_cons_of_neg hx, List.cons_append]

theorem asciiWs_blank (c : Char) (h : Spec.blank c = false) : asciiWs c = false := by
  simp only [Spec.blank, Bool.or_eq_false_iff, decide_eq_false_iff_not] at h
  simp only [asciiWs, Bool.or_eq_false_iff, decide_eq_false_iff_not]
  obtain ⟨⟨⟨⟨⟨a, b⟩, c⟩, d⟩, e⟩, f⟩ := h
  exact ⟨⟨⟨⟨a, b⟩, c⟩, e⟩, f⟩

theorem lineHas_listed (name before after : Text) (hb : '/' ∉ before) : lineHas name (before ++ '/' :: name ++ after) = true := by
  induction before with
  | nil =>
    show (if '/' = '/' then name.isPrefixOf (name ++ after) else _) = true
    rw [if_pos rfl]
    exact List.isPrefixOf_iff_prefix.mpr (List.prefix_append _ _)
  | cons c cs ih =>
    have hc : c ≠ '/' := fun h => hb (h ▸ List.mem_cons_self)
    show (if c = '/' then _ else lineHas name (cs ++ '/' :: name ++ after)) = true
    rw [if_neg hc]
    exact ih (fun h => hb (List.mem_cons_of_mem _ h))

theorem lines_listed (name text : Text) (hname : name ≠ [] ∧ ∀ c ∈ name, Spec.blank c = false)
    (h : ∃ line ∈ splitBy (· = '\n') text, ∃ before after, '/' ∉ before ∧ line = before ++ '/' :: name ++ after) :
    (lines text).any (lineHas name) = true := by
  obtain ⟨line, hl, before, after, hb, rfl⟩ := h
  rw [List.any_eq_true]
  refine ⟨_, List.mem_map.mpr ⟨_, hl, rfl⟩, ?_⟩
  rw [List.reverse_append, dropWhile_append_stop asciiWs, List.reverse_append, List.reverse_reverse]
  · exact lineHas_listed name before _ hb
  · intro x hx
    apply asciiWs_blank
    apply hname.2
    rw [List.reverse_append, List.reverse_cons] at hx
    cases hr : name.reverse with
    | nil => exact absurd (List.reverse_eq_nil_iff.mp hr) hname.1
    | cons y ys =>
      rw [hr] at hx
      simp only [List.cons_append, List.head?_cons, Option.some.injEq] at hx
      subst hx
      have : y ∈ name.reverse := by rw [hr]; exact List.mem_cons_self
      exact List.mem_reverse.mp this
  · simp

theorem command_remove (kernel : Bool) (name : Text) (hname : ∀ c ∈ name, Spec.blank c = false) :
    Spec.command kernel ('-' :: ':' :: name ++ ['\n']) = some (.remove name) := by
  have : Spec.words ('-' :: ':' :: name ++ ['\n']) = ['-' :: ':' :: name] :=
    words_one ('-' :: ':' :: name) (by simp) (List.forall_mem_cons.mpr ⟨by decide, List.forall_mem_cons.mpr ⟨by decide, hname⟩⟩)
  unfold Spec.command
  rw [this]
  rfl

theorem filter_absent (events : List Def) (g name : Text) (h : ¬ ∃ d ∈ events, d.group = g ∧ d.name = name) :
    events.filter (fun d => ¬ (d.group = g ∧ d.name = name)) = events := by
  rw [List.filter_eq_self]
  intro d hd
  simp only [decide_not, Bool.not_eq_true', decide_eq_false_iff_not]
  exact fun hc => h ⟨d, hd, hc⟩

theorem deleteEvent_removes (sane : Sane k w₀ env.read env.ans) (htr : env.tracefs = some k.root) (kernel : Bool) (name text : Text)
    (hname : name ≠ [] ∧ ∀ c ∈ name, Spec.blank c = false) (n : Nat) (s : St)
    (hread : env.read s.hist (eventsPath k kernel) = .ok text) (hlist : Spec.Lists text kernel (W k w₀ s).events)
    (hans : env.ans (s.hist ++ [.read (eventsPath k kernel) (.ok text)]) (.append (eventsPath k kernel) ('-' :: ':' :: name ++ ['\n'])) = .ok n) :
    (W k w₀ (deleteEvent env ⟨(fam kernel).pmu, name⟩ s)).events =
      (W k w₀ s).events.filter (fun d => ¬ (d.group = Spec.group kernel ∧ d.name = name)) := by
  unfold deleteEvent
  rw [htr]
  simp only
  rw [eventsFile_eq sane kernel, readFile_eq]
  have hw := W_read (k := k) (w₀ := w₀) (env := env) (eventsPath k kernel) s
  have hh : (readFile env (eventsPath k kernel) s).2.hist = s.hist ++ [.read (eventsPath k kernel) (.ok text)] := by
    rw [← hread]; rfl
  rw [hread]
  simp only
  by_cases hd : ∃ d ∈ (W k w₀ s).events, d.group = Spec.group kernel ∧ d.name = name
  · obtain ⟨d, hd, hg, hn⟩ := hd
    have hl := hlist d hd hg
    rw [hn] at hl
    rw [if_pos (lines_listed name text hname hl), W_exec, hw, hh, hans, step_append, command_remove kernel name hname.2]
    rfl
  · rw [filter_absent _ _ _ hd]
    split
    · rw [W_exec, hw, hh, hans, step_append, command_remove kernel name hname.2]
      exact filter_absent _ _ _ hd
    · rw [hw]

end Verif.Probe
