import Verif.UProbe.AttachProps
/-!
# C62: when attaching succeeds, what goes wrong, and runs
-/
set_option linter.unusedSimpArgs false
set_option linter.unusedVariables false
namespace Verif.UProbe
open Verif.UProbe.Spec

/-! ## Success -/

/-- The system grants every call but links on many offsets. -/
def Grants (env : Env) : Prop :=
  ∀ h c, (∀ a b n d e f, c ≠ .multiCreate a b n d e f) → ∃ n, env.ans h c = .ok n

theorem call_ok {env : Env} {c : Call} {s : St} (h : ∃ n, env.ans s.hist c = .ok n) : ∃ n s', call env c s = (.ok n, s') := by
  obtain ⟨n, h⟩ := h
  exact ⟨n, _, by rw [call, h]⟩

theorem createAsProbe_ok {env : Env} (hg : Grants env) {t : Target} (hp : '\x00' ∉ t.path) (s : St) :
    ∃ fd s', createAsProbe env t s = (.ok fd, s') := by
  have hopen : ∀ ty b s, ∃ fd s', perfEventOpenProbe env ty b t s = (.ok fd, s') := by
    intro ty b s
    unfold perfEventOpenProbe
    rw [if_neg hp]
    obtain ⟨n, s', h⟩ := call_ok (env := env) (c := .perfOpenProbe ty (probeConfig b) t.path t.offset (pidCpu t.pid).1 (pidCpu t.pid).2)
      (s := s) (hg _ _ (by simp))
    exact ⟨n, s', by simp [h]⟩
  unfold createAsProbe
  obtain ⟨ty, s1, h1⟩ := call_ok (env := env) (c := .perfType) (s := s) (hg _ _ (by simp))
  rw [h1]
  simp only
  split
  · obtain ⟨b, s2, h2⟩ := call_ok (env := env) (c := .retBit) (s := s1) (hg _ _ (by simp))
    rw [h2]
    exact hopen _ _ _
  · exact hopen _ _ _

/-- The system can give the program cookies. -/
def CanCookie (env : Env) : Prop := env.pmu = true ∧ env.perfLink = true ∧ env.cookies = true

theorem attachBpfProbe_ok {env : Env} (hg : Grants env) {t : Target} (hp : '\x00' ∉ t.path) {cookie : Option Nat}
    (hc : cookie.isSome = true → CanCookie env) (s : St) : ∃ fd s', attachBpfProbe env t cookie s = (.ok (.fd fd), s') := by
  unfold attachBpfProbe
  obtain ⟨fd, s1, h1⟩ := createAsProbe_ok hg hp s
  rw [h1]
  simp only
  unfold attachBpfLink
  rw [if_neg (fun h => h.2 (hc h.1).2.2)]
  obtain ⟨l, s2, h2⟩ := call_ok (env := env) (c := .linkCreate fd cookie) (s := s1) (hg _ _ (by simp))
  rw [h2]
  exact ⟨l, _, rfl⟩

theorem attachPerfEventProbe_ok {env : Env} (hg : Grants env) {t : Target} (hp : '\x00' ∉ t.path) (s : St) :
    ∃ fd ev s', attachPerfEventProbe env t none s = (.ok (.perf fd ev), s') := by
  have hpe : ∀ fd ev s, ∃ s', attachPerfEvent env fd ev s = (.ok (.perf fd ev), s') := by
    intro fd ev s
    unfold attachPerfEvent
    obtain ⟨_, s1, h1⟩ := call_ok (env := env) (c := .setBpf fd) (s := s) (hg _ _ (by simp))
    rw [h1]
    simp only
    obtain ⟨_, s2, h2⟩ := call_ok (env := env) (c := .enable fd) (s := s1) (hg _ _ (by simp))
    rw [h2]
    exact ⟨s2, rfl⟩
  unfold attachPerfEventProbe
  rw [if_neg (by simp)]
  split
  · obtain ⟨fd, s1, h1⟩ := createAsProbe_ok hg hp s
    rw [h1]
    obtain ⟨s2, h2⟩ := hpe fd none s1
    exact ⟨_, _, _, h2⟩
  · unfold createAsTracePoint
    simp only
    obtain ⟨_, s1, h1⟩ := call_ok (env := env) (c := .createEvent s.next t.path t.offset t.ret)
      (s := { s with next := s.next + 1 }) (hg _ _ (by simp))
    rw [h1]
    simp only
    obtain ⟨id, s2, h2⟩ := call_ok (env := env) (c := .tpId s.next) (s := s1) (hg _ _ (by simp))
    rw [h2]
    simp only
    obtain ⟨fd, s3, h3⟩ := call_ok (env := env) (c := .perfOpenTp id (pidCpu t.pid).1 (pidCpu t.pid).2) (s := s2) (hg _ _ (by simp))
    rw [h3]
    simp only
    obtain ⟨s4, h4⟩ := hpe fd (some s.next) s3
    exact ⟨_, _, _, h4⟩

/-- The kind of links the system gives. -/
def KindOk (env : Env) : Inner → Prop
  | .fd _ => env.pmu = true ∧ env.perfLink = true
  | .perf _ _ => ¬ (env.pmu = true ∧ env.perfLink = true)

theorem attachImpl_ok {env : Env} (hg : Grants env) {t : Target} (hp : '\x00' ∉ t.path) {cookie : Option Nat}
    (hc : cookie.isSome = true → CanCookie env) (s : St) : ∃ l s', attachImpl env t cookie s = (.ok l, s') ∧ KindOk env l := by
  unfold attachImpl
  split
  · rename_i h
    obtain ⟨fd, s', h1⟩ := attachBpfProbe_ok hg hp hc s
    exact ⟨_, _, h1, h⟩
  · rename_i h
    have : cookie = none := by
      cases hk : cookie with
      | none => rfl
      | some c =>
        have := hc (by rw [hk]; rfl)
        exact absurd ⟨this.1, this.2.1⟩ h
    subst this
    obtain ⟨fd, ev, s', h1⟩ := attachPerfEventProbe_ok hg hp s
    exact ⟨_, _, h1, h⟩

theorem attachPoint_ok {env : Env} (hg : Grants env) {t : Target} (hp : '\x00' ∉ t.path) {cookie : Option Nat} {first : Inner}
    (hk : KindOk env first) (hc : cookie.isSome = true → CanCookie env) (s : St) :
    ∃ l s', attachPoint env first t cookie s = (.ok l, s') := by
  have := attachImpl_ok hg hp hc s
  unfold attachPoint
  unfold attachImpl at this
  cases first with
  | fd f => rw [if_pos (show env.pmu = true ∧ env.perfLink = true from hk)] at this; obtain ⟨l, s', h, _⟩ := this; exact ⟨l, s', h⟩
  | perf f e => rw [if_neg (show ¬ (env.pmu = true ∧ env.perfLink = true) from hk)] at this; obtain ⟨l, s', h, _⟩ := this; exact ⟨l, s', h⟩

theorem attachRest_ok {env : Env} (hg : Grants env) {path : Text} (hp : '\x00' ∉ path) {pid : Option Nat} {ret : Bool}
    {cookies : Option (List Nat)} (hc : cookies.isSome = true → CanCookie env) {first : Inner} (hk : KindOk env first) :
    ∀ (offs : List Nat) (i : Nat) (links : List Inner) (s : St),
    ∃ l s', attachRest env path pid ret cookies first offs i links s = (.ok l, s')
  | [], i, links, s => ⟨_, _, rfl⟩
  | off :: offs, i, links, s => by
    rw [attachRest]
    obtain ⟨l, s1, h1⟩ := attachPoint_ok (t := ⟨path, off, pid, ret⟩) (cookie := cookies.bind (·[i]?)) hg hp hk
      (fun h => hc (by cases cookies <;> simp_all)) s
    rw [h1]
    exact attachRest_ok hg hp hc hk offs (i + 1) _ _

theorem attachSingle_ok {env : Env} (hg : Grants env) {path : Text} (hp : '\x00' ∉ path) {pid : Option Nat} {ret : Bool}
    {r : Resolved} (hr : r.offsets ≠ []) (hc : r.cookies.isSome = true → CanCookie env) (s : St) :
    ∃ l s', attachSingle env true ret path r pid s = (.ok l, s') := by
  unfold attachSingle
  rw [if_neg (by simp)]
  cases r with
  | one off cookie =>
    obtain ⟨l, s1, h1, _⟩ := attachImpl_ok (t := ⟨path, off, pid, ret⟩) (cookie := cookie) hg hp
      (fun h => hc (by cases cookie <;> simp_all [Resolved.cookies])) s
    simp only [h1]
    exact ⟨_, _, rfl⟩
  | many offs cookies =>
    cases offs with
    | nil => exact absurd rfl hr
    | cons off offs =>
      obtain ⟨l, s1, h1, hk⟩ := attachImpl_ok (t := ⟨path, off, pid, ret⟩) (cookie := cookies.bind (·.head?)) hg hp
        (fun h => hc (by cases cookies <;> simp_all [Resolved.cookies])) s
      simp only [h1]
      exact attachRest_ok hg hp hc hk offs 1 _ _

/-- The points can be resolved. -/
theorem resolved_of {out : Outside} (hfit : AllFit out.fs) {path : Text} {p : Point} {ps : List Point} {offs : List Nat}
    (h : Each (fun p o => OffsetOf out.fs path p.loc o) (p :: ps) offs) :
    ∃ r, resolvePoints out.fs path p ps = .ok r ∧ r.offsets = offs ∧ r.cookies = cookiesOf (p :: ps) :=
  (C47_resolved out.fs path p ps offs (cookiesOf (p :: ps)) hfit).mpr ⟨h, rfl⟩

/-- **C62.** If the target and every point can be resolved and the system makes a link on many offsets, then attaching
succeeds with that one link, unless the program has been attached one probe at a time before. -/
theorem C62_multi {env : Env} (out : Outside) (hfit : AllFit out.fs) {ret : Bool} {mode : Mode} {points : List Point}
    {target path : Text} {req : ScopeReq} {s : St} {offs : List Nat} (hne : points ≠ [])
    (ht : resolveTarget out target (scopePids env.self req).1 = .ok path) (hp : '\x00' ∉ path)
    (hres : Each (fun p o => OffsetOf out.fs path p.loc o) points offs)
    (hm : mode = .multi ∨ mode = .unknown)
    (hg : ∀ a b n d e f, ∃ fd, env.ans s.hist (.multiCreate a b n d e f) = .ok fd) :
    ∃ fd s', attach env out true ret mode points target req s = (.ok (.one (.fd fd)), .multi, s') := by
  cases points with
  | nil => exact absurd rfl hne
  | cons p ps =>
    obtain ⟨r, hr, _, _⟩ := resolved_of hfit hres
    have hmulti : ∃ fd s', attachMulti env true ret path r (scopePids env.self req).2.2 s = (.ok (.one (.fd fd)), s') := by
      unfold attachMulti
      rw [if_neg (by simp), if_neg hp]
      obtain ⟨fd, s1, h1⟩ := call_ok (env := env) (s := s) (hg path r.offsets (r.offsets.length % 2 ^ 32) r.cookies
        (scopePids env.self req).2.2 (if ret = true then 1 else 0))
      rw [h1]
      exact ⟨_, _, rfl⟩
    obtain ⟨fd, s', h⟩ := hmulti
    refine ⟨fd, s', ?_⟩
    rw [attach]
    simp only [ht, hr]
    unfold attachResolved
    rcases hm with rfl | rfl <;> simp [h]

/-- **C62.** If the system has no links on many offsets, every other call is granted and cookies, if any, can be given, then
attaching succeeds, one probe at a time, unless an earlier attachment of the program was a link on many offsets. -/
theorem C62_fallback {env : Env} (out : Outside) (hfit : AllFit out.fs) {ret : Bool} {mode : Mode} {points : List Point}
    {target path : Text} {req : ScopeReq} {s : St} {offs : List Nat} (hne : points ≠ [])
    (ht : resolveTarget out target (scopePids env.self req).1 = .ok path) (hp : '\x00' ∉ path)
    (hres : Each (fun p o => OffsetOf out.fs path p.loc o) points offs)
    (hm : mode = .single ∨ mode = .unknown)
    (hno : ∀ a b n d e f, env.ans s.hist (.multiCreate a b n d e f) = .error 22 ∨
      env.ans s.hist (.multiCreate a b n d e f) = .error 95)
    (hg : Grants env) (hc : (∃ p ∈ points, p.cookie ≠ none) → CanCookie env) :
    ∃ l s', attach env out true ret mode points target req s = (.ok l, .single, s') := by
  cases points with
  | nil => exact absurd rfl hne
  | cons p ps =>
    obtain ⟨r, hr, ho, hck⟩ := resolved_of hfit hres
    have hro : r.offsets ≠ [] := by
      rw [ho]
      intro h
      have := each_length hres
      rw [h] at this
      simp at this
    have hcs : r.cookies.isSome = true → CanCookie env := by
      intro h
      apply hc
      rw [hck] at h
      unfold cookiesOf at h
      split at h
      · rename_i ha
        obtain ⟨q, hq, hs⟩ := List.any_eq_true.mp ha
        exact ⟨q, hq, by intro hn; rw [hn] at hs; simp at hs⟩
      · simp at h
    have hsingle := attachSingle_ok (pid := (scopePids env.self req).2.1) (ret := ret) hg hp hro hcs
    rw [attach]
    simp only [ht, hr]
    unfold attachResolved
    rcases hm with rfl | rfl
    · obtain ⟨l, s', h⟩ := hsingle s
      simp only [h]
      exact ⟨_, _, rfl⟩
    · have hfail : ∃ e s', attachMulti env true ret path r (scopePids env.self req).2.2 s = (.error e, s') ∧ shouldFallback e = true := by
        unfold attachMulti
        rw [if_neg (by simp), if_neg hp]
        rcases hno path r.offsets (r.offsets.length % 2 ^ 32) r.cookies (scopePids env.self req).2.2
          (if ret = true then 1 else 0) with h | h
        · rw [call, h]
          simp only
          by_cases hb : env.before66 = true
          · exact ⟨_, _, by rw [if_pos (by simp [hb])], rfl⟩
          · exact ⟨_, _, by rw [if_neg (by simp [hb])], rfl⟩
        · rw [call, h]
          exact ⟨_, _, rfl, rfl⟩
      obtain ⟨e, s1, h1, h2⟩ := hfail
      obtain ⟨l, s', h⟩ := hsingle s1
      simp only [h1, h2, h, if_true]
      exact ⟨_, _, rfl⟩

/-! ## Panics -/

/-- The error is, or contains, a panic. -/
def Err.panics : Err → Bool
  | .panicked => true
  | .point _ _ e => e.panics
  | .modeSelection a b => a.panics || b.panics
  | _ => false

/-- A result that is not a panic. -/
def Calm {α : Type} : Except Err α → Prop
  | .ok _ => True
  | .error e => e.panics = false

theorem createAsProbe_calm {env : Env} {t : Target} (hp : '\x00' ∉ t.path) (s : St) : Calm (createAsProbe env t s).1 := by
  have hopen : ∀ ty b s, Calm (perfEventOpenProbe env ty b t s).1 := by
    intro ty b s
    unfold perfEventOpenProbe
    rw [if_neg hp]
    simp only
    generalize Call.perfOpenProbe ty (probeConfig b) t.path t.offset (pidCpu t.pid).1 (pidCpu t.pid).2 = c
    cases h1 : call env c s with
    | mk r s1 => cases r with
      | ok n => trivial
      | error e => rfl
  unfold createAsProbe
  cases h1 : call env .perfType s with
  | mk r s1 =>
    cases r with
    | error e => rfl
    | ok ty =>
      simp only
      split
      · cases h2 : call env .retBit s1 with
        | mk r s2 =>
          cases r with
          | error e => rfl
          | ok b => exact hopen _ _ _
      · exact hopen _ _ _

theorem attachPerfEvent_calm {env : Env} {fd : Fd} {ev : Option Nat} (s : St) : Calm (attachPerfEvent env fd ev s).1 := by
  unfold attachPerfEvent
  cases h1 : call env (.setBpf fd) s with
  | mk r s1 =>
    cases r with
    | error e => rfl
    | ok n =>
      simp only
      cases h2 : call env (.enable fd) s1 with
      | mk r s2 => cases r with
        | error e => rfl
        | ok n => trivial

theorem attachBpfProbe_calm {env : Env} {t : Target} (hp : '\x00' ∉ t.path) {cookie : Option Nat} (s : St) :
    Calm (attachBpfProbe env t cookie s).1 := by
  unfold attachBpfProbe
  have := createAsProbe_calm (env := env) hp s
  cases h1 : createAsProbe env t s with
  | mk r s1 =>
    rw [h1] at this
    cases r with
    | error e => exact this
    | ok fd =>
      simp only
      unfold attachBpfLink
      split
      · rfl
      · cases h2 : call env (.linkCreate fd cookie) s1 with
        | mk r s2 => cases r with
          | error e => rfl
          | ok n => trivial

theorem attachPerfEventProbe_calm {env : Env} {t : Target} (hp : '\x00' ∉ t.path) {cookie : Option Nat} (s : St) :
    Calm (attachPerfEventProbe env t cookie s).1 := by
  unfold attachPerfEventProbe
  split
  · rfl
  · split
    · have := createAsProbe_calm (env := env) hp s
      cases h1 : createAsProbe env t s with
      | mk r s1 =>
        rw [h1] at this
        cases r with
        | error e => exact this
        | ok fd => exact attachPerfEvent_calm s1
    · unfold createAsTracePoint
      simp only
      cases h1 : call env (.createEvent s.next t.path t.offset t.ret) { s with next := s.next + 1 } with
      | mk r s1 =>
        cases r with
        | error e => rfl
        | ok n =>
          simp only
          cases h2 : call env (.tpId s.next) s1 with
          | mk r s2 =>
            cases r with
            | error e => rfl
            | ok id =>
              simp only
              cases h3 : call env (.perfOpenTp id (pidCpu t.pid).1 (pidCpu t.pid).2) s2 with
              | mk r s3 =>
                cases r with
                | error e => rfl
                | ok fd => exact attachPerfEvent_calm s3

theorem attachImpl_calm {env : Env} {t : Target} (hp : '\x00' ∉ t.path) {cookie : Option Nat} (s : St) :
    Calm (attachImpl env t cookie s).1 := by
  unfold attachImpl
  split
  · exact attachBpfProbe_calm hp s
  · exact attachPerfEventProbe_calm hp s

theorem attachRest_calm {env : Env} {path : Text} (hp : '\x00' ∉ path) {pid : Option Nat} {ret : Bool}
    {cookies : Option (List Nat)} {first : Inner} :
    ∀ (offs : List Nat) (i : Nat) (links : List Inner) (s : St),
    Calm (attachRest env path pid ret cookies first offs i links s).1
  | [], i, links, s => trivial
  | off :: offs, i, links, s => by
    rw [attachRest]
    have : Calm (attachPoint env first ⟨path, off, pid, ret⟩ (cookies.bind (·[i]?)) s).1 := by
      unfold attachPoint
      split
      · exact attachBpfProbe_calm (t := ⟨path, off, pid, ret⟩) hp s
      · exact attachPerfEventProbe_calm (t := ⟨path, off, pid, ret⟩) hp s
    cases h1 : attachPoint env first ⟨path, off, pid, ret⟩ (cookies.bind (·[i]?)) s with
    | mk r s1 =>
      rw [h1] at this
      cases r with
      | error e => exact this
      | ok l => exact attachRest_calm hp offs (i + 1) _ _

theorem attachSingle_calm {env : Env} {loaded : Bool} {path : Text} (hp : '\x00' ∉ path) {pid : Option Nat} {ret : Bool}
    {r : Resolved} (s : St) : Calm (attachSingle env loaded ret path r pid s).1 := by
  unfold attachSingle
  split
  · rfl
  · cases r with
    | one off cookie =>
      simp only
      have := attachImpl_calm (env := env) (t := ⟨path, off, pid, ret⟩) (cookie := cookie) hp s
      cases h1 : attachImpl env ⟨path, off, pid, ret⟩ cookie s with
      | mk r s1 =>
        rw [h1] at this
        cases r with
        | error e => exact this
        | ok l => trivial
    | many offs cookies =>
      cases offs with
      | nil => rfl
      | cons off offs =>
        simp only
        have := attachImpl_calm (env := env) (t := ⟨path, off, pid, ret⟩) (cookie := cookies.bind (·.head?)) hp s
        cases h1 : attachImpl env ⟨path, off, pid, ret⟩ (cookies.bind (·.head?)) s with
        | mk r s1 =>
          rw [h1] at this
          cases r with
          | error e => exact this
          | ok l => exact attachRest_calm hp offs 1 _ _

theorem attachMulti_calm {env : Env} {loaded : Bool} {path : Text} {pid : Nat} {ret : Bool}
    {r : Resolved} (s : St) : Calm (attachMulti env loaded ret path r pid s).1 := by
  unfold attachMulti
  split
  · rfl
  · split
    · rfl
    · generalize Call.multiCreate path r.offsets (r.offsets.length % 2 ^ 32) r.cookies pid (if ret = true then 1 else 0) = c
      cases h1 : call env c s with
      | mk r s1 => cases r with
        | ok n => trivial
        | error e =>
          simp only
          split <;> rfl

theorem resolveTarget_calm (out : Outside) (target : Text) (pid : Option Nat) : Calm (resolveTarget out target pid) := by
  have hb : ∀ m, Calm (resolveBasename out target m) := by
    intro m
    unfold resolveBasename
    simp only
    split
    · trivial
    · rfl
    · unfold fromCache
      split
      · rfl
      · split
        · trivial
        · rfl
  unfold resolveTarget
  split
  · split
    · exact hb _
    · split
      · rfl
      · exact hb _
  · trivial

/-- **C62 (partial).** Attaching does not panic, if the path that is attached to has no NUL character. -/
theorem C62_no_panic_partial {env : Env} (out : Outside) {loaded ret : Bool} {mode mode' : Mode} {points : List Point}
    {target : Text} {req : ScopeReq} {s s' : St} {e : Err}
    (hp : ∀ path, resolveTarget out target (scopePids env.self req).1 = .ok path → '\x00' ∉ path)
    (h : attach env out loaded ret mode points target req s = (.error e, mode', s')) : e.panics = false := by
  cases points with
  | nil => simp [attach] at h; rw [← h.1]; rfl
  | cons p ps =>
    rw [attach] at h
    simp only at h
    have hcalm := resolveTarget_calm out target (scopePids env.self req).1
    cases ht : resolveTarget out target (scopePids env.self req).1 with
    | error e' =>
      rw [ht] at h hcalm
      simp at h
      rw [← h.1]
      exact hcalm
    | ok path =>
      rw [ht] at h
      simp only at h
      cases hr : resolvePoints out.fs path p ps with
      | error e' => rw [hr] at h; simp at h; rw [← h.1]; rfl
      | ok r =>
        rw [hr] at h
        simp only at h
        have hpath := hp path ht
        unfold attachResolved at h
        cases mode with
        | single =>
          have := attachSingle_calm (env := env) (loaded := loaded) (pid := (scopePids env.self req).2.1) (ret := ret) (r := r) hpath s
          simp only [Prod.mk.injEq] at h
          rw [h.1] at this
          exact this
        | multi =>
          have := attachMulti_calm (env := env) (loaded := loaded) (pid := (scopePids env.self req).2.2) (ret := ret) (r := r) (path := path) s
          simp only [Prod.mk.injEq] at h
          rw [h.1] at this
          exact this
        | unknown =>
          have hm := attachMulti_calm (env := env) (loaded := loaded) (pid := (scopePids env.self req).2.2) (ret := ret) (r := r) (path := path) s
          simp only at h
          cases h1 : attachMulti env loaded ret path r (scopePids env.self req).2.2 s with
          | mk res s1 =>
            rw [h1] at h hm
            cases res with
            | ok l => simp at h
            | error e1 =>
              simp only at h
              split at h
              · have hs := attachSingle_calm (env := env) (loaded := loaded) (pid := (scopePids env.self req).2.1) (ret := ret) (r := r) hpath s1
                cases h2 : attachSingle env loaded ret path r (scopePids env.self req).2.1 s1 with
                | mk res s2 =>
                  rw [h2] at h hs
                  cases res with
                  | ok l => simp at h
                  | error e2 =>
                    simp at h
                    rw [← h.1]
                    simp only [Calm] at hm hs
                    simp [Err.panics, hm, hs]
              · simp at h
                rw [← h.1]
                exact hm

/-! ## Runs -/

/-- The highest number of a file, plus one. -/
def top (files : List (Fd × Spec.Obj)) : Nat := files.foldr (fun e n => max (e.1 + 1) n) 0

theorem lt_top {files : List (Fd × Spec.Obj)} {e : Fd × Spec.Obj} (h : e ∈ files) : e.1 < top files := by
  induction files with
  | nil => simp at h
  | cons f fs ih =>
    rw [top, List.foldr_cons]
    rcases List.mem_cons.mp h with rfl | h
    · exact Nat.lt_of_lt_of_le (Nat.lt_succ_self _) (Nat.le_max_left _ _)
    · exact Nat.lt_of_lt_of_le (ih h) (Nat.le_max_right _ _)

def exKernel : Kernel := ⟨8, 0, fun id => id⟩
def exWorld : World := ⟨[], []⟩

/-- A system that grants everything; with `busy`, an event definition cannot be removed while a file is open; without
`multi` it has no links on many offsets. -/
def exAns (busy multi : Bool) (h : Hist) (c : Call) : Except Nat Nat :=
  match c with
  | .multiCreate .. => if multi then .ok (top (world exKernel exWorld h).files) else .error 22
  | .perfOpenProbe .. | .perfOpenTp .. | .linkCreate .. => .ok (top (world exKernel exWorld h).files)
  | .perfType => .ok 8
  | .retBit => .ok 0
  | .tpId ev => .ok ev
  | .deleteEvent _ => if busy ∧ (world exKernel exWorld h).files ≠ [] then .error 16 else .ok 0
  | _ => .ok 0

theorem exSane (busy multi : Bool) : Sane exKernel exWorld (exAns busy multi) where
  fresh := by
    intro h c fd ho ha e he
    have := lt_top he
    have hfd : fd = top (world exKernel exWorld h).files := by
      cases c <;> simp only [opens, Bool.false_eq_true] at ho <;> simp only [exAns] at ha <;>
        first
        | (cases ha; rfl)
        | (split at ha <;> cases ha; rfl)
    exact fun h => Nat.ne_of_lt this (h.trans hfd)
  ty := by intro h n ha; simp [exAns] at ha; rw [← ha]; rfl
  bit := by intro h n ha; simp [exAns] at ha; rw [← ha]; rfl
  bit64 := by decide
  event := by intro h ev id ha; simp [exAns] at ha; rw [← ha]; rfl

def exOut : Outside := ⟨exFs exDebug, fun _ => none, none⟩
def exEnv (pmu busy multi : Bool) : Env := ⟨pmu, pmu, pmu, false, 4321, exAns busy multi⟩
def exNone : St := ⟨[], 0⟩
def exTwo : List Point := [⟨.symbol "open".toList, some 7⟩, ⟨.absolute 0x10, none⟩]
def exPlain : List Point := [⟨.symbol "open".toList, none⟩, ⟨.absolute 0x10, none⟩]

/-- One link on both offsets. -/
example :
    let (r, m, s) := attach (exEnv true false true) exOut true false .unknown exTwo "/lib/lib.so".toList .all exNone
    r = .ok (.one (.fd 0)) ∧ m = .multi ∧ (world exKernel exWorld s.hist).running =
      [⟨⟨"/lib/lib.so".toList, 0x1040, false, .all⟩, 7⟩, ⟨⟨"/lib/lib.so".toList, 0x10, false, .all⟩, 0⟩] ∧
    (world exKernel exWorld (detachLink (exEnv true false true) (.one (.fd 0)) s).hist).files = [] := by
  decide +kernel

/-- One link for each, on a kernel without links on many offsets. -/
example :
    let (r, m, s) := attach (exEnv true false false) exOut true true .unknown exTwo "/lib/lib.so".toList (.one 99) exNone
    r = .ok (.many [.fd 1, .fd 3]) ∧ m = .single ∧ (world exKernel exWorld s.hist).running =
      [⟨⟨"/lib/lib.so".toList, 0x1040, true, .process 99⟩, 7⟩, ⟨⟨"/lib/lib.so".toList, 0x10, true, .process 99⟩, 0⟩] ∧
    (world exKernel exWorld (detachLink (exEnv true false false) (.many [.fd 1, .fd 3]) s).hist).files = [] := by
  decide +kernel

/-- A perf event for each, on an old kernel. -/
example :
    let (r, m, s) := attach (exEnv false false false) exOut true false .unknown exPlain "/lib/lib.so".toList .caller exNone
    r = .ok (.many [.perf 0 (some 0), .perf 1 (some 1)]) ∧ m = .single ∧ (world exKernel exWorld s.hist).running =
      [⟨⟨"/lib/lib.so".toList, 0x1040, false, .thread⟩, 0⟩, ⟨⟨"/lib/lib.so".toList, 0x10, false, .thread⟩, 0⟩] := by
  decide +kernel

/-- Cookies cannot be given there: the first point fails, nothing is left. -/
example :
    let (r, m, s) := attach (exEnv false false false) exOut true false .unknown exTwo "/lib/lib.so".toList .caller exNone
    r = .error (.modeSelection (.linkCreate 22) (.point 0 0x1040 .cookieNotSupported)) ∧ m = .unknown ∧
      (world exKernel exWorld s.hist).files = [] := by
  decide +kernel

/-- The conditions of the theorems on success can be met. -/
example : Grants (exEnv true false false) ∧ CanCookie (exEnv true false false) := by
  refine ⟨?_, rfl, rfl, rfl⟩
  intro h c hc
  cases c <;> first
    | exact ⟨_, rfl⟩
    | exact absurd rfl (hc _ _ _ _ _ _)
    | (simp only [exEnv, exAns]; split <;> first | exact ⟨_, rfl⟩ | simp_all)

/-- **C62 (refuted in general).** On kernels before 4.17 a probe is a definition in tracefs with a perf event on it. When
detaching, the definition is removed while the perf event is still open. The kernel refuses to remove a definition in
use, so it stays for good. -/
theorem C62_event_leak_violated :
    ∃ (env : Env) (s : St) (l : Link), Sane exKernel exWorld env.ans ∧
      attach env exOut true false .unknown exPlain "/lib/lib.so".toList .all exNone = (.ok l, .single, s) ∧
      (world exKernel exWorld (detachLink env l s).hist).files = [] ∧
      (world exKernel exWorld (detachLink env l s).hist).events ≠ [] :=
  ⟨exEnv false true false, (attach (exEnv false true false) exOut true false .unknown exPlain "/lib/lib.so".toList .all exNone).2.2,
   .many [.perf 0 (some 0), .perf 1 (some 1)], exSane true false, by decide +kernel, by decide +kernel, by decide +kernel⟩

/-- **C62 (refuted in general).** A path with a NUL character is refused with an error when the system has links on many
offsets, and makes attaching panic once probes are attached one at a time. -/
theorem C62_nul_path_violated :
    (attach (exEnv true false true) exOut true false .unknown [⟨.absolute 0x10, none⟩] "/lib/a\x00b".toList .all exNone).1 =
      .error .invalidInput ∧
    (attach (exEnv true false false) exOut true false .single [⟨.absolute 0x10, none⟩] "/lib/a\x00b".toList .all exNone).1 =
      .error .panicked := by
  decide +kernel

/-! ## Choosing the path -/

/-- A name without directories. -/
def Bare (t : Text) : Prop := t ≠ [] ∧ '/' ∉ t ∧ t ≠ ['.'] ∧ t ≠ ['.', '.']

theorem isBasenameOnly_iff (t : Text) : isBasenameOnly t = true ↔ Bare t := by
  unfold isBasenameOnly
  rw [decide_eq_true_iff, fileName_iff]
  constructor
  · rintro ⟨h1, h2, h3, h4, _⟩
    exact ⟨h1, h2, h3, h4⟩
  · rintro ⟨h1, h2, h3, h4⟩
    exact ⟨h1, h2, h3, h4, [], [], by simp, Or.inl rfl, [], by simp, rfl⟩

/-- The first entry of the cache whose name is the library's without `.so`, then `.so` and anything. -/
def CacheHit (entries : List (Text × Text)) (lib path : Text) : Prop :=
  ∃ before key after base, entries = before ++ (key, path) :: after ∧ Base lib base ∧ (∃ r, key = base ++ '.' :: 's' :: 'o' :: r) ∧
    ∀ e ∈ before, ¬ ∃ r, e.1 = base ++ '.' :: 's' :: 'o' :: r

theorem cacheResolve_iff (entries : List (Text × Text)) (lib path : Text) :
    cacheResolve entries lib = some path ↔ CacheHit entries lib path := by
  have htest : ∀ e : Text × Text, cacheTest (libBase lib) e.1 = true ↔ ∃ r, e.1 = libBase lib ++ '.' :: 's' :: 'o' :: r := by
    intro e
    unfold cacheTest
    cases h : stripPrefix (libBase lib) e.1 with
    | none =>
      simp only [Bool.false_eq_true, false_iff]
      rintro ⟨r, hr⟩
      rw [(stripPrefix_iff _ _ _).mpr hr] at h
      cases h
    | some t =>
      have ht := (stripPrefix_iff _ _ _).mp h
      simp only [List.isPrefixOf_iff_prefix]
      constructor
      · rintro ⟨r, rfl⟩; exact ⟨r, ht⟩
      · rintro ⟨r, hr⟩
        rw [ht] at hr
        exact ⟨r, (List.append_cancel_left hr).symm⟩
  unfold cacheResolve CacheHit
  rw [Option.map_eq_some_iff]
  constructor
  · rintro ⟨⟨key, p⟩, hf, rfl⟩
    obtain ⟨hp, before, after, e, hb⟩ := List.find?_eq_some_iff_append.mp hf
    refine ⟨before, key, after, libBase lib, e, libBase_base lib, (htest _).mp hp, ?_⟩
    intro x hx
    have := hb x hx
    rw [← htest x]
    simpa using this
  · rintro ⟨before, key, after, base, e, hbase, hk, hb⟩
    have := base_unique hbase
    subst this
    refine ⟨(key, path), List.find?_eq_some_iff_append.mpr ⟨(htest (key, path)).mpr hk, before, after, e, ?_⟩, rfl⟩
    intro x hx
    have := hb x hx
    rw [← htest x] at this
    simpa using this

/-- The path a target stands for: a path stands for itself; a bare name stands for a library that the process has mapped
(`C49`), or else for the one the linker's cache has for it. -/
def Stands (out : Outside) (pid : Option Nat) (target path : Text) : Prop :=
  (¬ Bare target ∧ path = target) ∨
  (Bare target ∧
    ((∃ p data, pid = some p ∧ out.maps p = some data ∧ findLibrary data target = .path path) ∨
     ((pid = none ∨ ∃ p data, pid = some p ∧ out.maps p = some data ∧ findLibrary data target = .none) ∧
      ∃ entries, out.cache = some entries ∧ CacheHit entries target path)))

/-- **C63.** The path attached to is the one the target stands for, and attaching to a target that stands for none fails
before any call to the kernel. -/
theorem C63_target (out : Outside) (target path : Text) (pid : Option Nat) :
    resolveTarget out target pid = .ok path ↔ Stands out pid target path := by
  have hbase : ∀ m, resolveBasename out target m = .ok path ↔
      ((∃ data, m = some data ∧ findLibrary data target = .path path) ∨
       ((m = none ∨ ∃ data, m = some data ∧ findLibrary data target = .none) ∧
        ∃ entries, out.cache = some entries ∧ CacheHit entries target path)) := by
    intro m
    have hc : fromCache out target = .ok path ↔ ∃ entries, out.cache = some entries ∧ CacheHit entries target path := by
      unfold fromCache
      cases hca : out.cache with
      | none => simp
      | some entries =>
        simp only [Option.some.injEq, exists_eq_left']
        rw [← cacheResolve_iff]
        cases cacheResolve entries target <;> simp
    unfold resolveBasename
    cases m with
    | none =>
      simp only
      rw [hc]
      simp
    | some data =>
      simp only
      cases hf : findLibrary data target with
      | path p => simp [hf]
      | badLine l => simp [hf]
      | none =>
        simp only
        rw [hc]
        simp [hf]
  unfold resolveTarget Stands
  by_cases hb : isBasenameOnly target = true
  · rw [if_pos hb]
    have hbare := (isBasenameOnly_iff target).mp hb
    simp only [hbare, not_true_eq_false, false_and, true_and, false_or]
    cases pid with
    | none =>
      simp only
      rw [hbase]
      simp
    | some p =>
      simp only
      cases hm : out.maps p with
      | none => simp [hm]
      | some data =>
        simp only
        rw [hbase]
        simp [hm]
  · rw [if_neg hb]
    have hbare : ¬ Bare target := fun h => hb ((isBasenameOnly_iff target).mpr h)
    simp only [hbare, not_false_eq_true, true_and, false_and, or_false]
    constructor
    · intro h; cases h; rfl
    · rintro rfl; rfl

/-- **C63.** A target that stands for no path is refused before any call to the kernel. -/
theorem C63_unknown_target {env : Env} (out : Outside) {loaded ret : Bool} {mode : Mode} {points : List Point}
    {target : Text} {req : ScopeReq} {s : St} (h : ∀ path, ¬ Stands out (scopePids env.self req).1 target path) :
    ∃ e, attach env out loaded ret mode points target req s = (.error e, mode, s) := by
  cases points with
  | nil => exact ⟨_, rfl⟩
  | cons p ps =>
    rw [attach]
    cases ht : resolveTarget out target (scopePids env.self req).1 with
    | error e => exact ⟨e, by simp [ht]⟩
    | ok path => exact absurd ((C63_target _ _ _ _).mp ht) (h path)

example : Stands ⟨exFs exDebug, fun _ => none, some [("libm.so.6".toList, "/m".toList), ("libc-2.so".toList, "/o".toList), ("libc.so.6".toList, "/c".toList)]⟩
    none "libc".toList "/c".toList := by
  apply (C63_target _ _ _ _).mp
  decide +kernel

end Verif.UProbe
