import Verif.UProbe.SymModel
/-!
# Attaching user space probes

Model of `UProbe::attach` (`/repo/aya/src/programs/uprobe.rs:423-639`), of the probe code it shares with kernel probes
(`/repo/aya/src/programs/probe.rs`) and of perf links (`/repo/aya/src/programs/perf_attach.rs`). Every system call and
every file operation is recorded together with its answer; the answers are chosen by the environment and may depend on
everything done before. Closing a file descriptor when its owner goes out of scope is a call as well.
-/
namespace Verif.UProbe

abbrev Fd := Nat

/-- What is asked of the system. -/
inductive Call where
  /-- reading `/sys/bus/event_source/devices/uprobe/type` -/
  | perfType
  /-- reading `/sys/bus/event_source/devices/uprobe/format/retprobe` -/
  | retBit
  /-- `perf_event_open` for a probe -/
  | perfOpenProbe (ty config : Nat) (path : Text) (offset : Nat) (pid cpu : Int)
  /-- adding a line to `uprobe_events` in tracefs -/
  | createEvent (event : Nat) (path : Text) (offset : Nat) (ret : Bool)
  /-- reading the id of that event -/
  | tpId (event : Nat)
  /-- `perf_event_open` for a trace point -/
  | perfOpenTp (id : Nat) (pid cpu : Int)
  /-- `BPF_LINK_CREATE` on a perf event -/
  | linkCreate (perf : Fd) (cookie : Option Nat)
  /-- `BPF_LINK_CREATE` with `BPF_TRACE_UPROBE_MULTI` -/
  | multiCreate (path : Text) (offsets : List Nat) (count : Nat) (cookies : Option (List Nat)) (pid flags : Nat)
  | setBpf (perf : Fd)
  | enable (perf : Fd)
  | disable (perf : Fd)
  /-- removing a line from `uprobe_events` -/
  | deleteEvent (event : Nat)
  | close (fd : Fd)
deriving DecidableEq, Repr

abbrev Hist := List (Call × Except Nat Nat)

/-- The environment: kernel features (`probe_pmu_supported`, `FEATURES`), whether the kernel is older than 6.6, the id of
the calling process, and the answers. -/
structure Env where
  pmu : Bool
  perfLink : Bool
  cookies : Bool
  before66 : Bool
  self : Nat
  ans : Hist → Call → Except Nat Nat

/-- What has been done, and `PROBE_NAME_INDEX` (`probe.rs:24`). Event names are modelled by this number: the names contain
it and the process id, and differ if it does. -/
structure St where
  hist : Hist
  next : Nat
deriving DecidableEq

/-- One call. -/
def call (env : Env) (c : Call) (s : St) : Except Nat Nat × St :=
  (env.ans s.hist c, { s with hist := s.hist ++ [(c, env.ans s.hist c)] })

/-- A call whose result is ignored. -/
def exec (env : Env) (c : Call) (s : St) : St := (call env c s).2

/-- `ProgramError` and `UProbeError`, as far as they arise here. `panicked` is a panic. -/
inductive Err where
  | notLoaded
  | cookieNotSupported
  | file
  | perfEventOpen (errno : Nat)
  | linkCreate (errno : Nat)
  | setBpf (errno : Nat)
  | enable (errno : Nat)
  | multiNotSupported
  | invalidInput
  | point (index offset : Nat) (e : Err)
  | modeSelection (multi single : Err)
  | emptyPoints
  | procMap
  | ldSoCache
  | invalidTarget
  | symbol (e : PointErr)
  | panicked
deriving DecidableEq, Repr

/-- `UProbeAttachTarget` with the kind of the probe (`uprobe.rs:64-68`, `probe.rs:183-186`). -/
structure Target where
  path : Text
  offset : Nat
  pid : Option Nat
  ret : Bool
deriving DecidableEq, Repr

/-- `pid as i32`. -/
def asI32 (n : Nat) : Int := if n % 2 ^ 32 < 2 ^ 31 then (n % 2 ^ 32 : Nat) else (n % 2 ^ 32 : Nat) - 2 ^ 32

/-- Process and processor (`/repo/aya/src/sys/perf_event.rs:157-160`, `126-130`, `169-172`). -/
def pidCpu : Option Nat → Int × Int
  | some p => (asI32 p, -1)
  | none => (-1, 0)

/-- The configuration word of a probe event: the bit that makes it a return probe (`/repo/aya/src/sys/perf_event.rs:143-145`). -/
def probeConfig : Option Nat → Nat
  | some b => 2 ^ (b % 64)
  | none => 0

/-- `perf_event_open_probe` (`/repo/aya/src/sys/perf_event.rs:135-163`). A path with a NUL byte panics (`150`). -/
def perfEventOpenProbe (env : Env) (ty : Nat) (retBit : Option Nat) (t : Target) (s : St) : Except Err Fd × St :=
  if '\x00' ∈ t.path then (.error .panicked, s)
  else
    let (pid, cpu) := pidCpu t.pid
    match call env (.perfOpenProbe ty (probeConfig retBit) t.path t.offset pid cpu) s with
    | (.ok fd, s) => (.ok fd, s)
    | (.error e, s) => (.error (.perfEventOpen e), s)

/-- `create_as_probe` (`probe.rs:360-381`). -/
def createAsProbe (env : Env) (t : Target) (s : St) : Except Err Fd × St :=
  match call env .perfType s with
  | (.error _, s) => (.error .file, s)
  | (.ok ty, s) =>
    if t.ret then
      match call env .retBit s with
      | (.error _, s) => (.error .file, s)
      | (.ok b, s) => perfEventOpenProbe env ty (some b) t s
    else perfEventOpenProbe env ty none t s

/-- `create_as_trace_point` (`probe.rs:383-404`) with `create_probe_event` (`406-459`). If a later step fails the event
is removed again when it goes out of scope (`283-294`). -/
def createAsTracePoint (env : Env) (t : Target) (s : St) : Except Err (Fd × Nat) × St :=
  let ev := s.next
  let s := { s with next := s.next + 1 }
  match call env (.createEvent ev t.path t.offset t.ret) s with
  | (.error _, s) => (.error .file, s)
  | (.ok _, s) =>
    match call env (.tpId ev) s with
    | (.error _, s) => (.error .file, exec env (.deleteEvent ev) s)
    | (.ok id, s) =>
      let (pid, cpu) := pidCpu t.pid
      match call env (.perfOpenTp id pid cpu) s with
      | (.error e, s) => (.error (.perfEventOpen e), exec env (.deleteEvent ev) s)
      | (.ok fd, s) => (.ok (fd, ev), s)

/-- `PerfLinkInner` (`perf_attach.rs:26-29`): a link, or a perf event with the trace event it was opened on. -/
inductive Inner where
  | fd (fd : Fd)
  | perf (fd : Fd) (event : Option Nat)
deriving DecidableEq, Repr

/-- `attach_bpf_link` (`perf_attach.rs:102-122`). The perf event is closed at the end. -/
def attachBpfLink (env : Env) (perf : Fd) (cookie : Option Nat) (s : St) : Except Err Inner × St :=
  if cookie.isSome ∧ ¬ env.cookies then (.error .cookieNotSupported, exec env (.close perf) s)
  else
    match call env (.linkCreate perf cookie) s with
    | (.error e, s) => (.error (.linkCreate e), exec env (.close perf) s)
    | (.ok fd, s) => (.ok (.fd fd), exec env (.close perf) s)

/-- Dropping the parameters of `attach_perf_event` when it fails: the event first, then the perf event. -/
def dropParams (env : Env) (perf : Fd) (event : Option Nat) (s : St) : St :=
  let s := match event with
    | some ev => exec env (.deleteEvent ev) s
    | none => s
  exec env (.close perf) s

/-- `attach_perf_event` (`perf_attach.rs:124-147`). -/
def attachPerfEvent (env : Env) (perf : Fd) (event : Option Nat) (s : St) : Except Err Inner × St :=
  match call env (.setBpf perf) s with
  | (.error e, s) => (.error (.setBpf e), dropParams env perf event s)
  | (.ok _, s) =>
    match call env (.enable perf) s with
    | (.error e, s) => (.error (.enable e), dropParams env perf event s)
    | (.ok _, s) => (.ok (.perf perf event), s)

/-- `attach_bpf_probe` (`probe.rs:322-329`). -/
def attachBpfProbe (env : Env) (t : Target) (cookie : Option Nat) (s : St) : Except Err Inner × St :=
  match createAsProbe env t s with
  | (.error e, s) => (.error e, s)
  | (.ok fd, s) => attachBpfLink env fd cookie s

/-- `attach_perf_event_probe` (`probe.rs:331-347`). -/
def attachPerfEventProbe (env : Env) (t : Target) (cookie : Option Nat) (s : St) : Except Err Inner × St :=
  if cookie.isSome then (.error .cookieNotSupported, s)
  else if env.pmu then
    match createAsProbe env t s with
    | (.error e, s) => (.error e, s)
    | (.ok fd, s) => attachPerfEvent env fd none s
  else
    match createAsTracePoint env t s with
    | (.error e, s) => (.error e, s)
    | (.ok (fd, ev), s) => attachPerfEvent env fd (some ev) s

/-- `attach_impl` (`probe.rs:310-320`). -/
def attachImpl (env : Env) (t : Target) (cookie : Option Nat) (s : St) : Except Err Inner × St :=
  if env.pmu ∧ env.perfLink then attachBpfProbe env t cookie s else attachPerfEventProbe env t cookie s

/-- Detaching one link: `FdLink::detach` closes it; `PerfLink::detach` (`perf_attach.rs:73-83`) disables the perf event,
removes the trace event and closes the perf event last, when `perf_fd` goes out of scope. -/
def detachInner (env : Env) (l : Inner) (s : St) : St :=
  match l with
  | .fd fd => exec env (.close fd) s
  | .perf fd event => dropParams env fd event (exec env (.disable fd) s)

/-- `ManyProbeLinks::detach` (`probe.rs:106-119`). -/
def detachMany (env : Env) (ls : List Inner) (s : St) : St := ls.foldl (fun s l => detachInner env l s) s

/-- `ManyProbeLinks::attach_point` (`probe.rs:72-92`): the first link decides how the others are attached. -/
def attachPoint (env : Env) (first : Inner) (t : Target) (cookie : Option Nat) (s : St) : Except Err Inner × St :=
  match first with
  | .fd _ => attachBpfProbe env t cookie s
  | .perf _ _ => attachPerfEventProbe env t cookie s

/-- The links of one attachment: `ProbeLinkInner` (`probe.rs:125-131`). -/
inductive Link where
  | one (l : Inner)
  | many (ls : List Inner)
deriving DecidableEq, Repr

/-- The loop of `attach_single_impl` (`uprobe.rs:585-605`) over the points from `index` on. -/
def attachRest (env : Env) (path : Text) (pid : Option Nat) (ret : Bool) (cookies : Option (List Nat)) (first : Inner) :
    List Nat → Nat → List Inner → St → Except Err Link × St
  | [], _, links, s => (.ok (.many links), s)
  | off :: offs, index, links, s =>
    match attachPoint env first ⟨path, off, pid, ret⟩ (cookies.bind (·[index]?)) s with
    | (.ok l, s) => attachRest env path pid ret cookies first offs (index + 1) (links ++ [l]) s
    | (.error e, s) => (.error (.point index off e), detachMany env links s)

/-- `attach_single_impl` (`uprobe.rs:524-610`). The program is loaded if `loaded`. Inserting the new link into the
program's links is modelled with the links (`Verif.Links`); here it always succeeds. -/
def attachSingle (env : Env) (loaded ret : Bool) (path : Text) (r : Resolved) (pid : Option Nat) (s : St) :
    Except Err Link × St :=
  if ¬ loaded then (.error .notLoaded, s)
  else
    match r with
    | .one off cookie =>
      match attachImpl env ⟨path, off, pid, ret⟩ cookie s with
      | (.ok l, s) => (.ok (.one l), s)
      | (.error e, s) => (.error e, s)
    | .many [] _ => (.error .emptyPoints, s)
    | .many (off :: offs) cookies =>
      match attachImpl env ⟨path, off, pid, ret⟩ (cookies.bind (·.head?)) s with
      | (.error e, s) => (.error (.point 0 off e), s)
      | (.ok l, s) => attachRest env path pid ret cookies l offs 1 [l] s

/-- `attach_multi_impl` and `try_attach_uprobe_multi_link` (`uprobe.rs:612-639`, `914-954`), with
`bpf_link_create_uprobe_multi` (`/repo/aya/src/sys/bpf.rs:536-564`, `499-518`). -/
def attachMulti (env : Env) (loaded ret : Bool) (path : Text) (r : Resolved) (pid : Nat) (s : St) : Except Err Link × St :=
  if ¬ loaded then (.error .notLoaded, s)
  else if '\x00' ∈ path then (.error .invalidInput, s)
  else
    match call env (.multiCreate path r.offsets (r.offsets.length % 2 ^ 32) r.cookies pid (if ret then 1 else 0)) s with
    | (.ok fd, s) => (.ok (.one (.fd fd)), s)
    | (.error e, s) =>
      if e = 95 ∨ (e = 22 ∧ env.before66) then (.error .multiNotSupported, s) else (.error (.linkCreate e), s)

/-- `should_fallback_to_single` (`uprobe.rs:970-978`). -/
def shouldFallback : Err → Bool
  | .multiNotSupported => true
  | .linkCreate e => e = 22
  | _ => false

/-- `AttachMode` (`uprobe.rs:71-75`). -/
inductive Mode where
  | single | multi | unknown
deriving DecidableEq, Repr

/-- `UProbeScope` (`uprobe.rs:225-232`). -/
inductive ScopeReq where
  | all | caller | one (pid : Nat)
deriving DecidableEq, Repr

/-- The process ids for the maps, for perf events and for links (`uprobe.rs:443-463`). -/
def scopePids (self : Nat) : ScopeReq → Option Nat × Option Nat × Nat
  | .all => (none, none, 0)
  | .caller => (some self, some 0, self)
  | .one pid => (some pid, some pid, pid)

/-- The choice of the way to attach (`uprobe.rs:475-502`). -/
def attachResolved (env : Env) (loaded ret : Bool) (mode : Mode) (path : Text) (r : Resolved) (perfPid : Option Nat)
    (multiPid : Nat) (s : St) : Except Err Link × Mode × St :=
  match mode with
  | .single => let (res, s) := attachSingle env loaded ret path r perfPid s; (res, .single, s)
  | .multi => let (res, s) := attachMulti env loaded ret path r multiPid s; (res, .multi, s)
  | .unknown =>
    match attachMulti env loaded ret path r multiPid s with
    | (.ok l, s) => (.ok l, .multi, s)
    | (.error e, s) =>
      if shouldFallback e then
        match attachSingle env loaded ret path r perfPid s with
        | (.ok l, s) => (.ok l, .single, s)
        | (.error e', s) => (.error (.modeSelection e e'), .unknown, s)
      else (.error e, .unknown, s)

/-- Detaching what was attached: `ProbeLinkInner::detach` (`probe.rs:169-177`). -/
def detachLink (env : Env) (l : Link) (s : St) : St :=
  match l with
  | .one l => detachInner env l s
  | .many ls => detachMany env ls s

/-- The outside world of path lookups: files, the maps of a process (`none`: unreadable) and the parsed linker cache
(`none`: unreadable). -/
structure Outside where
  fs : Fs
  maps : Nat → Option Text
  cache : Option (List (Text × Text))

/-- Whether an entry of the cache is for the library (`uprobe.rs:1388-1391`). -/
def cacheTest (base key : Text) : Bool :=
  match stripPrefix base key with
  | none => false
  | some t => ['.', 's', 'o'].isPrefixOf t

/-- `LdSoCache::resolve` (`uprobe.rs:1379-1393`). -/
def cacheResolve (entries : List (Text × Text)) (lib : Text) : Option Text :=
  (entries.find? (fun e => cacheTest (libBase lib) e.1)).map (·.2)

/-- The lookup in the cache (`uprobe.rs:689-700`). -/
def fromCache (out : Outside) (target : Text) : Except Err Text :=
  match out.cache with
  | none => .error .ldSoCache
  | some entries =>
    match cacheResolve entries target with
    | some p => .ok p
    | none => .error .invalidTarget

/-- `resolve_attach_target_basename` (`uprobe.rs:669-701`). -/
def resolveBasename (out : Outside) (target : Text) (maps : Option Text) : Except Err Text :=
  let fromMaps := match maps with
    | none => Found.none
    | some data => findLibrary data target
  match fromMaps with
  | .path p => .ok p
  | .badLine _ => .error .procMap
  | .none => fromCache out target

/-- The path that is attached to (`uprobe.rs:467-473`). -/
def resolveTarget (out : Outside) (target : Text) (mapPid : Option Nat) : Except Err Text :=
  if isBasenameOnly target then
    match mapPid with
    | none => resolveBasename out target none
    | some pid =>
      match out.maps pid with
      | none => .error .procMap
      | some data => resolveBasename out target (some data)
  else .ok target

/-- `UProbe::attach` (`uprobe.rs:423-503`). -/
def attach (env : Env) (out : Outside) (loaded ret : Bool) (mode : Mode) (points : List Point) (target : Text)
    (scope : ScopeReq) (s : St) : Except Err Link × Mode × St :=
  match points with
  | [] => (.error .emptyPoints, mode, s)
  | first :: rest =>
    let (mapPid, perfPid, multiPid) := scopePids env.self scope
    match resolveTarget out target mapPid with
    | .error e => (.error e, mode, s)
    | .ok path =>
      match resolvePoints out.fs path first rest with
      | .error e => (.error (.symbol e), mode, s)
      | .ok r => attachResolved env loaded ret mode path r perfPid multiPid s

end Verif.UProbe
