import Verif.Probe.Text
/-!
# What each step does to the kernel's state
-/
set_option linter.unusedSimpArgs false
set_option linter.unusedVariables false
namespace Verif.Probe
open Verif.Str
open Verif.Probe.Spec (MadeBy Plain Symbol Kernel World Sane Obj Ev Whom Source Place Def world step event source whom eventsPath find)

variable {k : Kernel} {w₀ : World} {env : Env}

/-- The kernel's state. -/
abbrev W (k : Kernel) (w₀ : World) (s : St) : World := world k w₀ s.hist

theorem W_call (c : Call) (s : St) : W k w₀ (call env c s).2 = step k (W k w₀ s) (.call c (env.ans s.hist c)) := by
  simp [W, call, world, List.foldl_append]

theorem W_exec (c : Call) (s : St) : W k w₀ (exec env c s) = step k (W k w₀ s) (.call c (env.ans s.hist c)) := W_call c s

theorem W_read (p : Text) (s : St) : W k w₀ (readFile env p s).2 = W k w₀ s := by
  simp [W, readFile, world, List.foldl_append, step]

theorem next_exec (c : Call) (s : St) : (exec env c s).next = s.next := rfl

theorem call_eq (c : Call) (s : St) : call env c s = (env.ans s.hist c, (call env c s).2) := rfl
theorem readFile_eq (p : Text) (s : St) : readFile env p s = (env.read s.hist p, (readFile env p s).2) := rfl

/-- The event sources. -/
def fam (kernel : Bool) : Family := if kernel then kprobe else uprobe
def typeOf (k : Kernel) (kernel : Bool) : Nat := if kernel then k.kprobeType else k.uprobeType
def bitOf (k : Kernel) (kernel : Bool) : Nat := if kernel then k.kprobeBit else k.uprobeBit

/-- The place of a probe. -/
def place (kernel : Bool) (t : Text) (off : Nat) : Place := if kernel then .function t off else .file t off

/-- The processes of a probe. -/
def who : Option Nat → Whom
  | none => .everyoneOn 0
  | some 0 => .caller none
  | some (p + 1) => .process (p + 1) none

/-! ## Files -/

theorem readPerfType_spec (sane : Sane k w₀ env.read env.ans) (kernel : Bool) (s : St) {r : Except Err Nat} {s' : St}
    (h : readPerfType env (fam kernel).pmu s = (r, s')) :
    W k w₀ s' = W k w₀ s ∧ s'.next = s.next ∧ ∀ n, r = .ok n → n = typeOf k kernel := by
  unfold readPerfType at h
  simp only at h
  rw [readFile_eq] at h
  have hw := W_read (k := k) (w₀ := w₀) (env := env) (join (join devices (fam kernel).pmu) "type".toList) s
  cases hr : env.read s.hist (join (join devices (fam kernel).pmu) "type".toList) with
  | error e =>
    rw [hr] at h
    simp only at h
    injection h with h1 h2
    subst h1; subst h2
    exact ⟨hw, rfl, by intro n hn; cases hn⟩
  | ok t =>
    rw [hr] at h
    simp only at h
    have ht : t = render 10 (typeOf k kernel) ++ ['\n'] := by
      cases kernel with
      | true => exact sane.kprobe s.hist t hr
      | false => exact sane.uprobe s.hist t hr
    cases hp : parseUInt 10 32 (trim t) with
    | none =>
      rw [hp] at h
      injection h with h1 h2
      subst h1; subst h2
      exact ⟨hw, rfl, by intro n hn; cases hn⟩
    | some m =>
      rw [hp] at h
      injection h with h1 h2
      subst h1; subst h2
      refine ⟨hw, rfl, ?_⟩
      intro n hn
      injection hn with hn
      subst hn
      rw [ht] at hp
      exact parse_line 32 _ _ hp

theorem readRetBit_spec (sane : Sane k w₀ env.read env.ans) (kernel : Bool) (s : St) {r : Except Err Nat} {s' : St}
    (h : readRetBit env (fam kernel).pmu s = (r, s')) :
    W k w₀ s' = W k w₀ s ∧ s'.next = s.next ∧ ∀ n, r = .ok n → n = bitOf k kernel := by
  unfold readRetBit at h
  simp only at h
  rw [readFile_eq] at h
  have hw := W_read (k := k) (w₀ := w₀) (env := env) (join (join devices (fam kernel).pmu) "format/retprobe".toList) s
  cases hr : env.read s.hist (join (join devices (fam kernel).pmu) "format/retprobe".toList) with
  | error e =>
    rw [hr] at h
    simp only at h
    injection h with h1 h2
    subst h1; subst h2
    exact ⟨hw, rfl, by intro n hn; cases hn⟩
  | ok t =>
    rw [hr] at h
    simp only at h
    have ht : t = "config:".toList ++ render 10 (bitOf k kernel) ++ ['\n'] := by
      cases kernel with
      | true => exact sane.kprobeRet s.hist t hr
      | false => exact sane.uprobeRet s.hist t hr
    cases hp : (afterColon (trim t)).bind (parseUInt 10 32) with
    | none =>
      rw [hp] at h
      injection h with h1 h2
      subst h1; subst h2
      exact ⟨hw, rfl, by intro n hn; cases hn⟩
    | some m =>
      rw [hp] at h
      injection h with h1 h2
      subst h1; subst h2
      refine ⟨hw, rfl, ?_⟩
      intro n hn
      injection hn with hn
      subst hn
      rw [ht] at hp
      exact parse_config _ _ hp

theorem readTpId_spec (sane : Sane k w₀ env.read env.ans) (c n : Text) (hc : Plain c) (hn : Plain n) (s : St) {r : Except Err Nat} {s' : St}
    (h : readTpId env k.root c n s = (r, s')) :
    W k w₀ s' = W k w₀ s ∧ s'.next = s.next ∧ ∀ id, r = .ok id → k.named id = (c, n) := by
  unfold readTpId at h
  simp only at h
  rw [readFile_eq] at h
  have hw := W_read (k := k) (w₀ := w₀) (env := env) (tpFile k.root c n) s
  obtain ⟨root, _, hroot⟩ := sane.root
  cases hr : env.read s.hist (tpFile k.root c n) with
  | error e =>
    rw [hr] at h
    simp only at h
    injection h with h1 h2
    subst h1; subst h2
    exact ⟨hw, rfl, by intro n hn; cases hn⟩
  | ok t =>
    rw [hr] at h
    simp only at h
    rw [tpFile_eq k.root c n hroot hc hn] at hr
    obtain ⟨id, ht, hid⟩ := sane.tp s.hist t c n hc hn hr
    cases hp : parseUInt 10 64 (trim t) with
    | none =>
      rw [hp] at h
      injection h with h1 h2
      subst h1; subst h2
      exact ⟨hw, rfl, by intro n hn; cases hn⟩
    | some m =>
      rw [hp] at h
      injection h with h1 h2
      subst h1; subst h2
      refine ⟨hw, rfl, ?_⟩
      intro n hn
      injection hn with hn
      subst hn
      rw [ht] at hp
      rw [parse_line 64 _ _ hp]
      exact hid

/-! ## Opening perf events -/

/-- A perf event has been opened: `fd` is new and stands for an event with no program. -/
structure Opened (k : Kernel) (w₀ : World) (s s' : St) (fd : Fd) (ev : Ev) (cloexec : Bool) : Prop where
  files : (W k w₀ s').files = (W k w₀ s).files ++ [(fd, .perf ev none true cloexec)]
  fresh : ∀ e ∈ (W k w₀ s).files, e.1 ≠ fd

theorem asI32_small (n : Nat) (h : n < 2 ^ 31) : asI32 n = n := by
  unfold asI32
  rw [Nat.mod_eq_of_lt (by omega), if_pos h]

theorem perfEventOpen_spec (sane : Sane k w₀ env.read env.ans) (c : Config) (sc : Scope) (p : Policy) (inh : Bool) (flags : Nat) (s : St)
    {r : Except Err Fd} {s' : St} (h : perfEventOpen env c sc p inh flags s = (r, s')) :
    s'.next = s.next ∧ (W k w₀ s').events = (W k w₀ s).events ∧ (∀ e, r = .error e → (W k w₀ s').files = (W k w₀ s).files) ∧
    ∀ fd, r = .ok fd → Opened k w₀ s s' fd
      (event k (W k w₀ s).events { withPolicy (configAttr c) p with sampleType := 1024, inherit := inh, wakeup := 1 } (pidCpu sc).1 (pidCpu sc).2)
      (flags / 8 % 2 = 1) := by
  unfold perfEventOpen at h
  simp only at h
  have hw := W_call (k := k) (w₀ := w₀) (env := env) (.perfOpen { withPolicy (configAttr c) p with sampleType := 1024, inherit := inh, wakeup := 1 } (pidCpu sc).1 (pidCpu sc).2 flags) s
  rw [call_eq] at h
  cases hr : env.ans s.hist (.perfOpen { withPolicy (configAttr c) p with sampleType := 1024, inherit := inh, wakeup := 1 } (pidCpu sc).1 (pidCpu sc).2 flags) with
  | error e =>
    rw [hr] at h hw
    simp only at h
    injection h with h1 h2
    subst h1; subst h2
    simp only [step] at hw
    exact ⟨rfl, by rw [hw], fun _ _ => by rw [hw], by intro fd hfd; cases hfd⟩
  | ok fd =>
    rw [hr] at h hw
    simp only at h
    injection h with h1 h2
    subst h1; subst h2
    simp only [step] at hw
    refine ⟨rfl, by rw [hw], (by intro e he; cases he), ?_⟩
    intro fd' hfd
    injection hfd with hfd
    subst hfd
    exact ⟨by rw [hw], sane.fresh s.hist _ _ rfl hr⟩

theorem event_tp (ev : List Def) (id : Nat) (pid : Option Nat) (hpid : ∀ p, pid = some p → p < 2 ^ 31) :
    event k ev { withPolicy (configAttr (.tracePoint id)) (.period 0) with sampleType := 1024, inherit := false, wakeup := 1 }
      (pidCpu (tpScope pid)).1
      (pidCpu (tpScope pid)).2 =
    ⟨match find ev (k.named id).1 (k.named id).2 with
      | some d => .probe d.probe
      | none => .tracePoint (k.named id).1 (k.named id).2, who pid, .period 0, false, 1⟩ := by
  have hw : whom (pidCpu (tpScope pid)).1
      (pidCpu (tpScope pid)).2 = who pid := by
    cases pid with
    | none => decide
    | some p =>
      have := asI32_small p (hpid p rfl)
      simp only [tpScope, pidCpu, this, Option.elim]
      cases p with
      | zero => decide
      | succ p =>
        unfold whom
        rw [if_neg (by omega), if_neg (by omega), if_neg (by omega)]
        simp [who]
  unfold event
  rw [hw]
  simp only [withPolicy, configAttr, source]
  cases find ev (k.named id).1 (k.named id).2 <;> simp

/-- The event of a probe opened through its event source. -/
theorem event_probe (sane : Sane k w₀ env.read env.ans) (kernel ret : Bool) (t : Text) (off : Nat) (pid : Option Nat)
    (hpid : ∀ p, pid = some p → p < 2 ^ 31) (ht : kernel = true → t ≠ []) (ev : List Def) :
    event k ev { type := typeOf k kernel, config := (if ret then some (bitOf k kernel) else none).elim 0 (fun b => 2 ^ (b % 64)), config1 := .str t, config2 := off } (probePidCpu pid).1 (probePidCpu pid).2 =
      ⟨.probe ⟨place kernel t off, ret⟩, who pid, .period 0, false, 0⟩ := by
  obtain ⟨h1, h2, h3, h4, h5⟩ := sane.types
  have hw : whom (probePidCpu pid).1 (probePidCpu pid).2 = who pid := by
    cases pid with
    | none => decide
    | some p =>
      have := asI32_small p (hpid p rfl)
      simp only [probePidCpu, this]
      cases p with
      | zero => decide
      | succ p =>
        unfold whom
        rw [if_neg (by omega), if_neg (by omega), if_neg (by omega)]
        simp [who]
  unfold event
  rw [hw]
  have hpos : ∀ b : Nat, (0 : Nat) ≠ 2 ^ b := fun b h => absurd h.symm (by simp)
  have hs : source k ev { type := typeOf k kernel, config := (if ret then some (bitOf k kernel) else none).elim 0 (fun b => 2 ^ (b % 64)), config1 := .str t, config2 := off } =
      .probe ⟨place kernel t off, ret⟩ := by
    cases kernel with
    | true =>
      have hne := ht rfl
      simp only [typeOf, bitOf, if_true, source]
      rw [if_neg (by omega), if_neg (by omega), if_neg (by omega), if_neg (by omega), if_neg (by omega), if_neg (by omega)]
      cases ret with
      | true => simp [Spec.inAttr, Nat.mod_eq_of_lt h4, hne, place]
      | false => simp [Spec.inAttr, hne, place, hpos]
    | false =>
      simp only [typeOf, bitOf, if_false, source, Bool.false_eq_true]
      rw [if_neg (by omega), if_neg (by omega), if_neg (by omega), if_neg (by omega), if_neg (by omega), if_neg (by omega), if_neg (fun h => h3 h.symm), if_pos trivial]
      cases ret with
      | true => simp [Spec.inAttr, Nat.mod_eq_of_lt h5, place]
      | false => simp [Spec.inAttr, place, hpos]
  rw [hs]
  simp

theorem perfEventOpenProbe_spec (sane : Sane k w₀ env.read env.ans) (kernel ret : Bool) (t : Text) (off : Nat) (pid : Option Nat)
    (hpid : ∀ p, pid = some p → p < 2 ^ 31) (ht : kernel = true → t ≠ []) (s : St) {r : Except Err Fd} {s' : St}
    (h : perfEventOpenProbe env (typeOf k kernel) (if ret then some (bitOf k kernel) else none) t off pid s = (r, s')) :
    s'.next = s.next ∧ (W k w₀ s').events = (W k w₀ s).events ∧ (∀ e, r = .error e → (W k w₀ s').files = (W k w₀ s).files) ∧
    ∀ fd, r = .ok fd → Opened k w₀ s s' fd ⟨.probe ⟨place kernel t off, ret⟩, who pid, .period 0, false, 0⟩ true := by
  unfold perfEventOpenProbe at h
  by_cases hnul : '\x00' ∈ t
  · rw [if_pos hnul] at h
    injection h with h1 h2
    subst h1; subst h2
    exact ⟨rfl, rfl, fun _ _ => rfl, by intro fd hfd; cases hfd⟩
  · rw [if_neg hnul] at h
    simp only at h
    have hev := event_probe sane kernel ret t off pid hpid ht (W k w₀ s).events
    generalize (probePidCpu pid).1 = p at h hev
    generalize (probePidCpu pid).2 = c at h hev
    rw [call_eq] at h
    generalize hattr : ({ type := typeOf k kernel, config := (if ret then some (bitOf k kernel) else none).elim 0 (fun b => 2 ^ (b % 64)), config1 := .str t, config2 := off } : Attr) = attr at h hev
    have hw := W_call (k := k) (w₀ := w₀) (env := env) (.perfOpen attr p c 8) s
    cases hr : env.ans s.hist (.perfOpen attr p c 8) with
    | error e =>
      rw [hr] at h hw
      simp only at h
      injection h with h1 h2
      subst h1; subst h2
      simp only [step] at hw
      exact ⟨rfl, by rw [hw], fun _ _ => by rw [hw], by intro fd hfd; cases hfd⟩
    | ok fd =>
      rw [hr] at h hw
      simp only at h
      injection h with h1 h2
      subst h1; subst h2
      simp only [step] at hw
      refine ⟨rfl, by rw [hw], (by intro e he; cases he), ?_⟩
      intro fd' hfd
      injection hfd with hfd
      subst hfd
      exact ⟨by rw [hw, hev]; rfl, sane.fresh s.hist _ _ rfl hr⟩

theorem createAsProbe_spec (sane : Sane k w₀ env.read env.ans) (kernel ret : Bool) (t : Text) (off : Nat) (pid : Option Nat)
    (hpid : ∀ p, pid = some p → p < 2 ^ 31) (ht : kernel = true → t ≠ []) (s : St) {r : Except Err Fd} {s' : St}
    (h : createAsProbe env (fam kernel) ret t off pid s = (r, s')) :
    s'.next = s.next ∧ (W k w₀ s').events = (W k w₀ s).events ∧ (∀ e, r = .error e → (W k w₀ s').files = (W k w₀ s).files) ∧
    ∀ fd, r = .ok fd → Opened k w₀ s s' fd ⟨.probe ⟨place kernel t off, ret⟩, who pid, .period 0, false, 0⟩ true := by
  unfold createAsProbe at h
  cases h1 : readPerfType env (fam kernel).pmu s with
  | mk r1 s1 =>
    obtain ⟨hw1, hn1, ht1⟩ := readPerfType_spec sane kernel s h1
    rw [h1] at h
    cases r1 with
    | error e =>
      simp only at h
      injection h with h2 h3
      subst h2; subst h3
      exact ⟨hn1, by rw [hw1], fun _ _ => by rw [hw1], by intro fd hfd; cases hfd⟩
    | ok type =>
      have hty := ht1 type rfl
      subst hty
      simp only at h
      cases ret with
      | false =>
        rw [if_neg (by decide)] at h
        obtain ⟨a, b, c, d⟩ := perfEventOpenProbe_spec sane kernel false t off pid hpid ht s1 h
        refine ⟨a.trans hn1, by rw [b, hw1], fun e he => by rw [c e he, hw1], fun fd hfd => ?_⟩
        obtain ⟨x, y⟩ := d fd hfd
        exact ⟨by rw [x, hw1], by rw [hw1] at y; exact y⟩
      | true =>
        rw [if_pos rfl] at h
        cases h2 : readRetBit env (fam kernel).pmu s1 with
        | mk r2 s2 =>
          obtain ⟨hw2, hn2, ht2⟩ := readRetBit_spec sane kernel s1 h2
          rw [h2] at h
          cases r2 with
          | error e =>
            simp only at h
            injection h with h2 h3
            subst h2; subst h3
            exact ⟨hn2.trans hn1, by rw [hw2, hw1], fun _ _ => by rw [hw2, hw1], by intro fd hfd; cases hfd⟩
          | ok b =>
            have hb := ht2 b rfl
            subst hb
            simp only at h
            obtain ⟨a, b, c, d⟩ := perfEventOpenProbe_spec sane kernel true t off pid hpid ht s2 h
            refine ⟨a.trans (hn2.trans hn1), by rw [b, hw2, hw1], fun e he => by rw [c e he, hw2, hw1], fun fd hfd => ?_⟩
            obtain ⟨x, y⟩ := d fd hfd
            exact ⟨by rw [x, hw2, hw1], by rw [hw2, hw1] at y; exact y⟩

/-! ## Definitions -/

theorem eventsPath_ne (k : Kernel) : eventsPath k false ≠ eventsPath k true := by
  intro h
  exact absurd (List.append_cancel_left h) (by decide)

theorem step_append (k : Kernel) (w : World) (kernel : Bool) (bytes : Text) (n : Nat) :
    step k w (.call (.append (eventsPath k kernel) bytes) (.ok n)) =
      match Spec.command kernel bytes with
      | some c => { w with events := Spec.apply kernel w.events c }
      | none => w := by
  cases kernel with
  | true => rw [step, if_pos rfl]; rfl
  | false => rw [step, if_neg (eventsPath_ne k), if_pos rfl]; rfl

theorem command_minus (kernel : Bool) (t : Text) (c : Spec.Cmd) (h : Spec.command kernel ('-' :: t) = some c) : ∃ n, c = .remove n := by
  have hw : ∃ w rest, Spec.words ('-' :: t) = ('-' :: w) :: rest := by
    unfold Spec.words
    rw [splitBy, if_neg (by decide)]
    cases hs : splitBy Spec.blank t with
    | nil => exact absurd hs (splitBy_ne_nil _ _)
    | cons a as => exact ⟨a, as.filter (· ≠ []), by simp⟩
  obtain ⟨w, rest, hw⟩ := hw
  unfold Spec.command at h
  rw [hw] at h
  split at h
  · injection h with h; exact ⟨_, h.symm⟩
  · rename_i hd target heq
    injection heq with h1 h2
    subst h1
    have : Spec.head ('-' :: w) = none := by
      cases w with
      | nil => rfl
      | cons a as =>
        unfold Spec.head
        split
        · rename_i c rest hc
          injection hc with h1 _
          subst h1
          rw [if_neg (by decide)]
        · rfl
    rw [this] at h
    cases h
  · cases h

/-- The file of definitions, as the code names it. -/
theorem eventsFile_eq (sane : Sane k w₀ env.read env.ans) (kernel : Bool) : eventsFile k.root (fam kernel).pmu = eventsPath k kernel := by
  obtain ⟨_, _, hroot⟩ := sane.root
  cases kernel with
  | true => exact eventsFile_k k hroot
  | false => exact eventsFile_u k hroot

theorem deleteEvent_spec (sane : Sane k w₀ env.read env.ans) (hroot : ∀ r, env.tracefs = some r → r = k.root) (kernel : Bool)
    (name : Text) (s : St) :
    (W k w₀ (deleteEvent env ⟨(fam kernel).pmu, name⟩ s)).files = (W k w₀ s).files ∧ (deleteEvent env ⟨(fam kernel).pmu, name⟩ s).next = s.next ∧
    ∀ d ∈ (W k w₀ (deleteEvent env ⟨(fam kernel).pmu, name⟩ s)).events, d ∈ (W k w₀ s).events := by
  unfold deleteEvent
  cases hr : env.tracefs with
  | none => exact ⟨rfl, rfl, fun d hd => hd⟩
  | some root =>
    have := hroot root hr
    subst this
    simp only
    rw [eventsFile_eq sane kernel, readFile_eq]
    have hw := W_read (k := k) (w₀ := w₀) (env := env) (eventsPath k kernel) s
    cases hread : env.read s.hist (eventsPath k kernel) with
    | error e =>
      simp only
      rw [hw]
      exact ⟨rfl, rfl, fun d hd => hd⟩
    | ok text =>
      simp only
      split
      · rw [W_exec]
        simp only [next_exec]
        rw [hw]
        generalize env.ans (readFile env (eventsPath k kernel) s).2.hist _ = answer
        cases answer with
        | error e => exact ⟨rfl, rfl, fun d hd => hd⟩
        | ok n =>
          rw [step_append]
          cases hc : Spec.command kernel ('-' :: ':' :: name ++ ['\n']) with
          | none => exact ⟨rfl, rfl, fun d hd => hd⟩
          | some c =>
            obtain ⟨m, rfl⟩ := command_minus kernel (':' :: name ++ ['\n']) c hc
            exact ⟨rfl, rfl, fun d hd => (List.mem_filter.mp hd).1⟩
      · rw [hw]
        exact ⟨rfl, rfl, fun d hd => hd⟩

/-- The line for a definition, if the kernel takes it. -/
theorem line_define (sane : Sane k w₀ env.read env.ans) (kernel ret : Bool) (self i : Nat) (t : Text) (off : Nat)
    (ht : if kernel then Symbol t ∧ (ret = true → off = 0) else (t ≠ [] ∧ ∀ c ∈ t, Spec.blank c = false))
    (hs : (Spec.command kernel (eventLine (fam kernel) ret (eventName self ret t off i) t off)).isSome = true) :
    Spec.command kernel (eventLine (fam kernel) ret (eventName self ret t off i) t off) =
      some (.define ⟨Spec.group kernel, eventName self ret t off i, ⟨place kernel t off, ret⟩⟩) := by
  cases kernel with
  | true =>
    rw [if_pos rfl] at ht
    have := line_kernel ret (eventName self ret t off i) t off ht.1 ht.2 (eventName_noBlank self ret t off i ht.1.2.2)
    simp only [fam, if_true] at hs ⊢
    rw [this] at hs ⊢
    split at hs
    · rename_i hg; rw [if_pos hg]; rfl
    · cases hs
  | false =>
    rw [if_neg (by decide)] at ht
    have := line_user ret (eventName self ret t off i) t off ht.1 ht.2 (eventName_noBlank self ret t off i ht.2)
    simp only [fam, Bool.false_eq_true, if_false] at hs ⊢
    rw [this] at hs ⊢
    split at hs
    · rename_i hg; rw [if_pos hg]; rfl
    · cases hs

theorem line_newline (kernel ret : Bool) (self i : Nat) (t : Text) (off : Nat)
    (ht : if kernel then Symbol t ∧ (ret = true → off = 0) else (t ≠ [] ∧ ∀ c ∈ t, Spec.blank c = false)) :
    ∃ l, eventLine (fam kernel) ret (eventName self ret t off i) t off = l ++ ['\n'] ∧ '\n' ∉ l := by
  have hb : ∀ c ∈ t, Spec.blank c = false := by
    cases kernel with
    | true => rw [if_pos rfl] at ht; exact ht.1.2.2
    | false => rw [if_neg (by decide)] at ht; exact ht.2
  refine ⟨_, rfl, fun hc => ?_⟩
  have hd10 := fun n => render_no 10 n (by omega) (by omega) (· ≠ '\n') (fun d hd he => by
    have := (digit_facts d hd).2.2.2.2.2.2.2.1
    rw [he] at this; exact absurd this (by decide))
  have hd16 := fun n => render_no 16 n (by omega) (by omega) (· ≠ '\n') (fun d hd he => by
    have := (digit_facts d hd).2.2.2.2.2.2.2.1
    rw [he] at this; exact absurd this (by decide))
  have hname : '\n' ∉ eventName self ret t off i := fun h => by
    have := eventName_noBlank self ret t off i hb _ h
    exact absurd this (by decide)
  have ht' : '\n' ∉ t := fun h => absurd (hb _ h) (by decide)
  have h1 : ∀ c ∈ (fam kernel).pmu, c ≠ '\n' := by cases kernel <;> decide
  have h2 : ∀ c ∈ (fam kernel).writeOffset ret off, c ≠ '\n' := by
    cases kernel with
    | true =>
      cases ret with
      | true => intro c hc; cases hc
      | false => exact List.forall_mem_cons.mpr ⟨by decide, hd10 off⟩
    | false => exact List.forall_mem_cons.mpr ⟨by decide, List.forall_mem_cons.mpr ⟨by decide, List.forall_mem_cons.mpr ⟨by decide, hd16 off⟩⟩⟩
  have hall : ∀ c ∈ (if ret then 'r' else 'p') :: ':' :: (fam kernel).pmu ++ ['s', '/'] ++ eventName self ret t off i ++ [' '] ++ t ++ (fam kernel).writeOffset ret off, c ≠ '\n' := by
    simp only [List.forall_mem_append, List.cons_append, List.forall_mem_cons]
    refine ⟨?_, by decide, ⟨⟨⟨⟨h1, ?_⟩, fun c hc he => hname (he ▸ hc)⟩, ?_⟩, fun c hc he => ht' (he ▸ hc)⟩, h2⟩
    · cases ret <;> decide
    · decide
    · decide
  exact hall _ hc rfl

theorem find_new (events : List Def) (d : Def) (h : ∀ e ∈ events, e.name ≠ d.name) : find (events ++ [d]) d.group d.name = some d := by
  unfold find
  rw [List.find?_append, List.find?_eq_none.mpr]
  · simp
  · intro e he
    simp only [decide_eq_true_eq, not_and]
    intro _ hn
    exact h e he hn

theorem fam_group (kernel : Bool) : (fam kernel).pmu ++ ['s'] = Spec.group kernel := by cases kernel <;> rfl

theorem group_plain (kernel : Bool) : Plain (Spec.group kernel) := by
  cases kernel <;> exact ⟨by decide, by decide⟩

theorem createAsTracePoint_spec (sane : Sane k w₀ env.read env.ans) (hroot : ∀ r, env.tracefs = some r → r = k.root) (kernel ret : Bool)
    (t : Text) (off : Nat) (pid : Option Nat) (hpid : ∀ p, pid = some p → p < 2 ^ 31)
    (s : St) {r : Except Err (Fd × Event)} {s' : St} (h : createAsTracePoint env (fam kernel) ret t off pid s = (r, s')) :
    s.next ≤ s'.next ∧ s'.next ≤ s.next + 1 ∧
    (∀ d ∈ (W k w₀ s').events, d ∈ (W k w₀ s).events ∨ (s'.next = s.next + 1 ∧ ∃ x, Spec.command kernel (eventLine (fam kernel) ret (eventName env.self ret t off s.next) t off) = some x ∧ d ∈ Spec.apply kernel [] x)) ∧
    (∀ e, r = .error e → (W k w₀ s').files = (W k w₀ s).files) ∧
    ∀ fd ev, r = .ok (fd, ev) → ev = ⟨(fam kernel).pmu, eventName env.self ret t off s.next⟩ ∧ (∃ e, Opened k w₀ s s' fd e true) ∧
      ((if kernel then Symbol t ∧ (ret = true → off = 0) else (t ≠ [] ∧ ∀ c ∈ t, Spec.blank c = false)) →
        (∀ d ∈ (W k w₀ s).events, ¬ MadeBy env.self s.next d.name) →
        Opened k w₀ s s' fd ⟨.probe ⟨place kernel t off, ret⟩, who pid, .period 0, false, 1⟩ true ∧
        (W k w₀ s').events = (W k w₀ s).events ++ [⟨Spec.group kernel, eventName env.self ret t off s.next, ⟨place kernel t off, ret⟩⟩]) := by
  unfold createAsTracePoint at h
  cases hr : env.tracefs with
  | none =>
    rw [hr] at h
    injection h with h1 h2
    subst h1; subst h2
    exact ⟨Nat.le_refl _, Nat.le_succ _, fun d hd => .inl hd, fun _ _ => rfl, by intro fd ev hfd; cases hfd⟩
  | some root =>
    have := hroot root hr
    subst this
    rw [hr] at h
    simp only at h
    rw [eventsFile_eq sane kernel, call_eq] at h
    generalize hs1 : ({ s with next := s.next + 1 } : St) = s1 at h
    have hh1 : s1.hist = s.hist := by rw [← hs1]
    have hn1 : s1.next = s.next + 1 := by rw [← hs1]
    have hW1 : W k w₀ s1 = W k w₀ s := by simp only [W, hh1]
    generalize hname : eventName env.self ret t off s.next = name at h ⊢
    have hmade : MadeBy env.self s.next name := by rw [← hname]; exact madeBy_eventName _ _ _ _ _
    generalize hline : eventLine (fam kernel) ret name t off = line at h ⊢
    have hw := W_call (k := k) (w₀ := w₀) (env := env) (.append (eventsPath k kernel) line) s1
    have hn2 : (call env (.append (eventsPath k kernel) line) s1).2.next = s.next + 1 := hn1
    cases ha : env.ans s1.hist (.append (eventsPath k kernel) line) with
    | error e =>
      rw [ha] at h hw
      simp only at h
      injection h with h1 h2
      subst h1; subst h2
      simp only [step] at hw
      rw [hn2]
      exact ⟨Nat.le_succ _, Nat.le_refl _, fun d hd => .inl (by rw [hw, hW1] at hd; exact hd), fun _ _ => by rw [hw, hW1],
        by intro fd ev hfd; cases hfd⟩
    | ok n =>
      rw [ha, step_append, hW1] at hw
      rw [ha] at h
      generalize (call env (.append (eventsPath k kernel) line) s1).2 = s2 at h hw hn2
      simp only at h
      have hfiles2 : (W k w₀ s2).files = (W k w₀ s).files := by rw [hw]; cases Spec.command kernel line <;> rfl
      have hev2 : ∀ d ∈ (W k w₀ s2).events, d ∈ (W k w₀ s).events ∨ (s.next + 1 = s.next + 1 ∧ ∃ x, Spec.command kernel line = some x ∧ d ∈ Spec.apply kernel [] x) := by
        intro d hd
        rw [hw] at hd
        cases hx : Spec.command kernel line with
        | none => rw [hx] at hd; exact .inl hd
        | some x =>
        rw [hx] at hd
        simp only at hd
        cases x with
        | define d' =>
          rcases List.mem_append.mp hd with hd | hd
          · exact .inl hd
          · exact .inr ⟨rfl, _, rfl, by simpa [Spec.apply] using hd⟩
        | remove m => exact .inl ((List.mem_filter.mp hd).1)
      rw [fam_group] at h
      cases h3 : readTpId env k.root (Spec.group kernel) name s2 with
      | mk r3 s3 =>
        obtain ⟨hw3, hn3, ht3⟩ := readTpId_spec sane (Spec.group kernel) name (group_plain kernel) (hname ▸ eventName_plain _ _ _ _ _) s2 h3
        rw [h3] at h
        cases r3 with
        | error e =>
          simp only at h
          injection h with h1 h2
          subst h1; subst h2
          obtain ⟨d1, d2, d3⟩ := deleteEvent_spec sane hroot kernel name s3
          rw [d2, hn3, hn2, d1, hw3, hfiles2]
          exact ⟨Nat.le_succ _, Nat.le_refl _, fun d hd => hev2 d (by rw [← hw3]; exact d3 d hd), fun _ _ => rfl, by intro fd ev hfd; cases hfd⟩
        | ok id =>
          have hid := ht3 id rfl
          simp only at h
          unfold perfEventOpenTracePoint at h
          cases h4 : perfEventOpen env (.tracePoint id) (tpScope pid) (.period 0) false 8 s3 with
          | mk r4 s4 =>
            obtain ⟨p1, p2, p3, p4⟩ := perfEventOpen_spec sane _ _ _ _ _ s3 h4
            rw [h4] at h
            cases r4 with
            | error e =>
              simp only at h
              injection h with h1 h2
              subst h1; subst h2
              obtain ⟨d1, d2, d3⟩ := deleteEvent_spec sane hroot kernel name s4
              rw [d2, p1, hn3, hn2, d1, p3 e rfl, hw3, hfiles2]
              exact ⟨Nat.le_succ _, Nat.le_refl _, fun d hd => hev2 d (by rw [← hw3, ← p2]; exact d3 d hd), fun _ _ => rfl, by intro fd ev hfd; cases hfd⟩
            | ok fd =>
              simp only at h
              injection h with h1 h2
              subst h1; subst h2
              rw [p1, hn3, hn2]
              refine ⟨Nat.le_succ _, Nat.le_refl _, fun d hd => hev2 d (by rw [← hw3, ← p2]; exact hd), (by intro e he; cases he), ?_⟩
              intro fd' ev hfd
              injection hfd with hfd
              injection hfd with hfd hevt
              subst hfd; subst hevt
              refine ⟨rfl, ⟨_, by rw [← hfiles2, ← hw3]; exact (p4 fd rfl).1, by rw [← hfiles2, ← hw3]; exact (p4 fd rfl).2⟩, fun ht hfree => ?_⟩
              have hdef := line_define sane kernel ret env.self s.next t off ht (by
                obtain ⟨l, hl, hnl⟩ := line_newline kernel ret env.self s.next t off ht
                rw [hname, hline] at hl ⊢
                rw [hl] at ha ⊢
                exact sane.wellFormed _ _ _ _ hnl ha)
              rw [hname, hline] at hdef
              rw [hdef] at hw
              simp only at hw
              have hfind : find (W k w₀ s3).events (k.named id).1 (k.named id).2 = some ⟨Spec.group kernel, name, ⟨place kernel t off, ret⟩⟩ := by
                rw [hid, hw3, hw]
                exact find_new (W k w₀ s).events ⟨Spec.group kernel, name, ⟨place kernel t off, ret⟩⟩
                  (fun e he heq => hfree e he (heq ▸ hmade))
              obtain ⟨o1, o2⟩ := p4 fd rfl
              rw [event_tp _ id pid hpid, hfind] at o1
              rw [hw3, hfiles2] at o1 o2
              refine ⟨⟨o1, o2⟩, ?_⟩
              rw [p2, hw3, hw]
              rfl

/-! ## Links -/

/-- The state after opening a perf event; `fs` is what was open before. -/
structure Holds (k : Kernel) (w₀ : World) (s : St) (fs : List (Fd × Obj)) (fd : Fd) (o : Obj) : Prop where
  files : (W k w₀ s).files = fs ++ [(fd, o)]
  fresh : ∀ e ∈ fs, e.1 ≠ fd

theorem filter_ne {fs : List (Fd × Obj)} {fd : Fd} (h : ∀ e ∈ fs, e.1 ≠ fd) : fs.filter (fun e => e.1 ≠ fd) = fs := by
  rw [List.filter_eq_self]
  intro e he
  simpa using h e he

theorem close_last (k : Kernel) (w : World) {fs : List (Fd × Obj)} {fd : Fd} {o : Obj} (hw : w.files = fs ++ [(fd, o)])
    (hf : ∀ e ∈ fs, e.1 ≠ fd) (a : Except Nat Nat) :
    (step k w (.call (.close fd) a)).files = fs ∧ (step k w (.call (.close fd) a)).events = w.events := by
  have h1 : (fs ++ [(fd, o)]).filter (fun e => e.1 ≠ fd) = fs := by
    rw [List.filter_append, filter_ne hf]
    simp
  cases a <;> exact ⟨by rw [step, hw]; exact h1, rfl⟩

theorem onFile_last {fs : List (Fd × Obj)} {fd : Fd} {o : Obj} (hf : ∀ e ∈ fs, e.1 ≠ fd) (f : Obj → Obj) :
    Spec.onFile fd f (fs ++ [(fd, o)]) = fs ++ [(fd, f o)] := by
  unfold Spec.onFile
  rw [List.map_append]
  congr 1
  · have : fs.map (fun e => if e.1 = fd then (e.1, f e.2) else e) = fs.map id :=
      List.map_congr_left (fun e he => by rw [if_neg (hf e he)]; rfl)
    rw [this, List.map_id]
  · simp

theorem attachBpfLink_spec (sane : Sane k w₀ env.read env.ans) (prog perf : Fd) (cookie : Option Nat) (s : St) {fs : List (Fd × Obj)} {ev : Ev} {c : Bool}
    (hs : Holds k w₀ s fs perf (.perf ev none true c)) {r : Except Err Link} {s' : St} (h : attachBpfLink env prog perf cookie s = (r, s')) :
    s'.next = s.next ∧ (W k w₀ s').events = (W k w₀ s).events ∧ (∀ e, r = .error e → (W k w₀ s').files = fs) ∧
    ∀ l, r = .ok l → ∃ fd, l = .fd fd ∧ Holds k w₀ s' fs fd (.link prog ev (cookie.getD 0)) := by
  obtain ⟨hfiles, hfresh⟩ := hs
  unfold attachBpfLink at h
  split at h
  · injection h with h1 h2
    subst h1; subst h2
    have := close_last k (W k w₀ s) hfiles hfresh (env.ans s.hist (.close perf))
    rw [W_exec]
    exact ⟨rfl, this.2, fun _ _ => this.1, by intro l hl; cases hl⟩
  · rw [call_eq] at h
    have hw := W_call (k := k) (w₀ := w₀) (env := env) (.linkCreate prog perf 41 0 cookie) s
    have hn : (call env (.linkCreate prog perf 41 0 cookie) s).2.next = s.next := rfl
    cases ha : env.ans s.hist (.linkCreate prog perf 41 0 cookie) with
    | error e =>
      rw [ha] at h hw
      simp only [step] at hw
      generalize (call env (.linkCreate prog perf 41 0 cookie) s).2 = s2 at hw h hn
      simp only at h
      injection h with h1 h2
      subst h1; subst h2
      have := close_last k (W k w₀ s2) (by rw [hw]; exact hfiles) hfresh (env.ans s2.hist (.close perf))
      rw [W_exec]
      exact ⟨hn, by rw [this.2, hw], fun _ _ => this.1, by intro l hl; cases hl⟩
    | ok fd =>
      have hfd := sane.fresh s.hist _ _ rfl ha
      rw [ha] at h hw
      simp only [step] at hw
      generalize (call env (.linkCreate prog perf 41 0 cookie) s).2 = s2 at hw h hn
      simp only at h
      injection h with h1 h2
      subst h1; subst h2
      have hnew : ∀ e ∈ fs, e.1 ≠ fd := fun e he => hfd e (by rw [hfiles]; exact List.mem_append_left _ he)
      have hpf : perf ≠ fd := hfd (perf, .perf ev none true c) (by rw [hfiles]; simp)
      have hfind : (W k w₀ s).files.find? (fun e => e.1 = perf) = some (perf, .perf ev none true c) := by
        rw [hfiles, List.find?_append, List.find?_eq_none.mpr (fun e he => by simpa using hfresh e he)]
        simp
      rw [hfind] at hw
      simp only [Spec.linkOn] at hw
      rw [if_pos ⟨trivial, trivial⟩] at hw
      rw [W_exec]
      generalize env.ans s2.hist (.close perf) = a
      have hstep : step k (W k w₀ s2) (.call (.close perf) a) = { (W k w₀ s2) with files := (W k w₀ s2).files.filter (fun e => e.1 ≠ perf) } := by
        cases a <;> rfl
      have hfil : (W k w₀ s2).files.filter (fun e => e.1 ≠ perf) = fs ++ [(fd, .link prog ev (cookie.getD 0))] := by
        rw [hw]
        simp only
        rw [hfiles, List.filter_append, List.filter_append, filter_ne hfresh]
        simp [hpf.symm]
      rw [hstep]
      refine ⟨hn, by rw [hw], (by intro e he; cases he), ?_⟩
      intro l hl
      injection hl with hl
      subst hl
      refine ⟨fd, rfl, ?_, hnew⟩
      rw [W_exec]
      have hstep' : step k (W k w₀ s2) (.call (.close perf) (env.ans s2.hist (.close perf))) = { (W k w₀ s2) with files := (W k w₀ s2).files.filter (fun e => e.1 ≠ perf) } := by
        cases env.ans s2.hist (.close perf) <;> rfl
      rw [hstep']
      exact hfil

theorem dropParams_spec (sane : Sane k w₀ env.read env.ans) (hroot : ∀ r, env.tracefs = some r → r = k.root) (fd : Fd)
    (event : Option Event) (hev : ∀ e, event = some e → ∃ kernel, e.pmu = (fam kernel).pmu) (s : St) :
    (W k w₀ (dropParams env fd event s)).files = (W k w₀ s).files.filter (fun e => e.1 ≠ fd) ∧ (dropParams env fd event s).next = s.next ∧
    (event = none → (W k w₀ (dropParams env fd event s)).events = (W k w₀ s).events) ∧
    ∀ d ∈ (W k w₀ (dropParams env fd event s)).events, d ∈ (W k w₀ s).events := by
  have hclose : ∀ (t : St), (W k w₀ (exec env (.close fd) t)).files = (W k w₀ t).files.filter (fun e => e.1 ≠ fd) ∧
      (W k w₀ (exec env (.close fd) t)).events = (W k w₀ t).events := by
    intro t
    rw [W_exec]
    cases env.ans t.hist (.close fd) <;> exact ⟨rfl, rfl⟩
  unfold dropParams
  cases event with
  | none =>
    obtain ⟨a, b⟩ := hclose s
    exact ⟨a, rfl, fun _ => b, fun d (hd : d ∈ (W k w₀ (exec env (.close fd) s)).events) => by rw [b] at hd; exact hd⟩
  | some e =>
    obtain ⟨kernel, hk⟩ := hev e rfl
    obtain ⟨pmu, name⟩ := e
    simp only at hk
    subst hk
    obtain ⟨d1, d2, d3⟩ := deleteEvent_spec sane hroot kernel name s
    obtain ⟨a, b⟩ := hclose (deleteEvent env ⟨(fam kernel).pmu, name⟩ s)
    simp only [Option.elim]
    exact ⟨by rw [a, d1], d2, (by intro h; cases h), fun d hd => d3 d (by rw [b] at hd; exact hd)⟩

theorem attachPerfEvent_spec (sane : Sane k w₀ env.read env.ans) (hroot : ∀ r, env.tracefs = some r → r = k.root) (prog perf : Fd)
    (event : Option Event) (hev : ∀ e, event = some e → ∃ kernel, e.pmu = (fam kernel).pmu) (s : St) {fs : List (Fd × Obj)} {ev : Ev} {c : Bool}
    (hs : Holds k w₀ s fs perf (.perf ev none true c)) {r : Except Err Link} {s' : St} (h : attachPerfEvent env prog perf event s = (r, s')) :
    s'.next = s.next ∧ (event = none → (W k w₀ s').events = (W k w₀ s).events) ∧ (∀ d ∈ (W k w₀ s').events, d ∈ (W k w₀ s).events) ∧
    (∀ e, r = .error e → (W k w₀ s').files = fs) ∧
    ∀ l, r = .ok l → l = .perf perf event ∧ (W k w₀ s').events = (W k w₀ s).events ∧ Holds k w₀ s' fs perf (.perf ev (some prog) true c) := by
  obtain ⟨hfiles, hfresh⟩ := hs
  have hcut : ∀ o, (fs ++ [(perf, o)]).filter (fun e => e.1 ≠ perf) = fs := by
    intro o
    rw [List.filter_append, filter_ne hfresh]
    simp
  unfold attachPerfEvent at h
  rw [call_eq] at h
  have hw := W_call (k := k) (w₀ := w₀) (env := env) (.setBpf perf prog) s
  have hn : (call env (.setBpf perf prog) s).2.next = s.next := rfl
  cases ha : env.ans s.hist (.setBpf perf prog) with
  | error e =>
    rw [ha] at h hw
    simp only [step] at hw
    generalize (call env (.setBpf perf prog) s).2 = s2 at hw h hn
    simp only at h
    injection h with h1 h2
    subst h1; subst h2
    obtain ⟨a, b, c, d⟩ := dropParams_spec (k := k) (w₀ := w₀) sane hroot perf event hev s2
    rw [hw] at a c d
    exact ⟨b.trans hn, c, d, fun _ _ => by rw [a, hfiles]; exact hcut _, by intro l hl; cases hl⟩
  | ok n =>
    rw [ha] at h hw
    simp only [step] at hw
    rw [hfiles, onFile_last hfresh] at hw
    simp only at hw
    generalize (call env (.setBpf perf prog) s).2 = s2 at hw h hn
    simp only at h
    rw [call_eq] at h
    have hw2 := W_call (k := k) (w₀ := w₀) (env := env) (.enable perf) s2
    have hn2 : (call env (.enable perf) s2).2.next = s.next := hn
    cases ha2 : env.ans s2.hist (.enable perf) with
    | error e =>
      rw [ha2] at h hw2
      simp only [step] at hw2
      generalize (call env (.enable perf) s2).2 = s3 at hw2 h hn2
      simp only at h
      injection h with h1 h2
      subst h1; subst h2
      obtain ⟨a, b, c, d⟩ := dropParams_spec (k := k) (w₀ := w₀) sane hroot perf event hev s3
      rw [hw2, hw] at a c d
      exact ⟨b.trans hn2, c, d, fun _ _ => by rw [a]; exact hcut _, by intro l hl; cases hl⟩
    | ok m =>
      rw [ha2, hw] at hw2
      rw [ha2] at h
      simp only [step] at hw2
      rw [onFile_last hfresh] at hw2
      simp only at hw2
      generalize (call env (.enable perf) s2).2 = s3 at hw2 h hn2
      simp only at h
      injection h with h1 h2
      subst h1; subst h2
      refine ⟨hn2, fun _ => by rw [hw2], fun d hd => by rw [hw2] at hd; exact hd, (by intro e he; cases he), ?_⟩
      intro l hl
      injection hl with hl
      subst hl
      exact ⟨rfl, by rw [hw2], by rw [hw2], hfresh⟩

end Verif.Probe
