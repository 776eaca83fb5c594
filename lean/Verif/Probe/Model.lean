import Verif.Common.Str
/-!
# Attaching to kernel functions, trace points and perf events

Model of `KProbe::attach` (`/repo/aya/src/programs/kprobe.rs`), `TracePoint::attach` (`trace_point.rs`), `PerfEvent::attach`
(`perf_event.rs`), `RawTracePoint::attach` and the attaching of tracing programs (`utils.rs`), with the probe code they share
with user space probes (`probe.rs`), perf links (`perf_attach.rs`) and `/repo/aya/src/sys/perf_event.rs`. Unlike
`UProbe/AttachModel.lean`, which models the order of the calls, this is down to the text written to tracefs and the fields of
`perf_event_attr`. Text is a list of characters, one for each byte.

Every system call and every file access is recorded together with its answer. The answers are chosen by the environment and
may depend on everything done before.
-/
namespace Verif.Probe
open Verif.Str (render parseUInt splitBy)

abbrev Text := List Char
abbrev Fd := Nat

/-- `config1` of an event is a number or the address of a string. -/
inductive Arg where
  | num (n : Nat)
  | str (s : Text)
deriving DecidableEq, Repr

/-- `perf_event_attr`, the fields that are set (`/repo/aya/src/sys/perf_event.rs:24-127`, `135-163`); `size` is constant. -/
structure Attr where
  type : Nat := 0
  config : Nat := 0
  sample : Nat := 0
  freq : Bool := false
  sampleType : Nat := 0
  wakeup : Nat := 0
  inherit : Bool := false
  preciseIp : Nat := 0
  bpType : Nat := 0
  config1 : Arg := .num 0
  config2 : Nat := 0
deriving DecidableEq, Repr

/-- What is asked of the system. `append` is opening a file for appending and writing to it. -/
inductive Call where
  | perfOpen (attr : Attr) (pid cpu : Int) (flags : Nat)
  | append (path bytes : Text)
  | linkCreate (prog perf type flags : Nat) (cookie : Option Nat)
  | setBpf (perf prog : Nat)
  | enable (perf : Fd)
  | disable (perf : Fd)
  | rawOpen (name : Option Text) (prog : Nat)
  | close (fd : Fd)
deriving DecidableEq, Repr

/-- Something that was done: a file was read, or a call made. -/
inductive Done where
  | read (path : Text) (answer : Except Nat Text)
  | call (c : Call) (answer : Except Nat Nat)

abbrev Hist := List Done

/-- The environment: whether the kernel has the probe event sources (`probe_pmu_supported`, `probe.rs:349-351`), links on perf
events and cookies (`FEATURES`), where tracefs is (`find_tracefs_path`, `utils.rs:33-59`, found once per process), the process
id, and the answers. -/
structure Env where
  pmu : Bool
  perfLink : Bool
  cookies : Bool
  tracefs : Option Text
  self : Nat
  read : Hist → Text → Except Nat Text
  ans : Hist → Call → Except Nat Nat

/-- What has been done, and `PROBE_NAME_INDEX` (`probe.rs:24`). -/
structure St where
  hist : Hist
  next : Nat

/-- The errors; `panicked` is a panic. -/
inductive Err where
  | notLoaded
  | cookieNotSupported
  | noTracefs
  | file (path : Text)
  | perfEventOpen (errno : Nat)
  | linkCreate (errno : Nat)
  | setBpf (errno : Nat)
  | enable (errno : Nat)
  | rawOpen (errno : Nat)
  | panicked
deriving DecidableEq, Repr

def call (env : Env) (c : Call) (s : St) : Except Nat Nat × St :=
  (env.ans s.hist c, { s with hist := s.hist ++ [.call c (env.ans s.hist c)] })

/-- A call whose result is ignored. -/
def exec (env : Env) (c : Call) (s : St) : St := (call env c s).2

def readFile (env : Env) (path : Text) (s : St) : Except Nat Text × St :=
  (env.read s.hist path, { s with hist := s.hist ++ [.read path (env.read s.hist path)] })

/-! ## Perf events -/

/-- `HardwareEvent` (programs/perf_event.rs:105-137). -/
inductive Hardware where
  | cpuCycles | instructions | cacheReferences | cacheMisses | branchInstructions | branchMisses | busCycles
  | stalledCyclesFrontend | stalledCyclesBackend | refCpuCycles
deriving DecidableEq, Repr

/-- `into_primitive`, with `perf_hw_id` of /repo/aya-obj/src/generated/linux_bindings_x86_64.rs:2190-2199. -/
def Hardware.code : Hardware → Nat
  | .cpuCycles => 0 | .instructions => 1 | .cacheReferences => 2 | .cacheMisses => 3 | .branchInstructions => 4
  | .branchMisses => 5 | .busCycles => 6 | .stalledCyclesFrontend => 7 | .stalledCyclesBackend => 8 | .refCpuCycles => 9

/-- `SoftwareEvent` (programs/perf_event.rs:149-187). -/
inductive Software where
  | cpuClock | taskClock | pageFaults | contextSwitches | cpuMigrations | pageFaultsMin | pageFaultsMaj | alignmentFaults
  | emulationFaults | dummy | bpfOutput | cgroupSwitches
deriving DecidableEq, Repr

/-- `perf_sw_ids`, linux_bindings_x86_64.rs:2232-2243. -/
def Software.code : Software → Nat
  | .cpuClock => 0 | .taskClock => 1 | .pageFaults => 2 | .contextSwitches => 3 | .cpuMigrations => 4 | .pageFaultsMin => 5
  | .pageFaultsMaj => 6 | .alignmentFaults => 7 | .emulationFaults => 8 | .dummy => 9 | .bpfOutput => 10 | .cgroupSwitches => 11

/-- `HwCacheEvent`, `HwCacheOp` and `HwCacheResult` (programs/perf_event.rs:199-275). -/
inductive Cache where
  | l1d | l1i | ll | dtlb | itlb | bpu | node
deriving DecidableEq, Repr

inductive CacheOp where
  | read | write | prefetch
deriving DecidableEq, Repr

inductive CacheResult where
  | access | miss
deriving DecidableEq, Repr

/-- linux_bindings_x86_64.rs:2205-2226. -/
def Cache.code : Cache → Nat
  | .l1d => 0 | .l1i => 1 | .ll => 2 | .dtlb => 3 | .itlb => 4 | .bpu => 5 | .node => 6

def CacheOp.code : CacheOp → Nat
  | .read => 0 | .write => 1 | .prefetch => 2

def CacheResult.code : CacheResult → Nat
  | .access => 0 | .miss => 1

/-- `PerfBreakpointType` and `PerfBreakpointLength` (programs/perf_event.rs:280-322). -/
inductive BpType where
  | read | write | readWrite
deriving DecidableEq, Repr

inductive BpLen where
  | len1 | len2 | len4 | len8
deriving DecidableEq, Repr

/-- linux_bindings_x86_64.rs:2114-2126. -/
def BpType.code : BpType → Nat
  | .read => 1 | .write => 2 | .readWrite => 3

def BpLen.code : BpLen → Nat
  | .len1 => 1 | .len2 => 2 | .len4 => 4 | .len8 => 8

/-- `PerfEventConfig` with `BreakpointConfig` (programs/perf_event.rs:25-100, 327-343). -/
inductive Config where
  | hardware (e : Hardware)
  | software (e : Software)
  | tracePoint (id : Nat)
  | hwCache (e : Cache) (op : CacheOp) (r : CacheResult)
  | raw (id : Nat)
  | data (t : BpType) (address : Nat) (len : BpLen)
  | instruction (address : Nat)
  | pmu (type config : Nat)
deriving DecidableEq, Repr

/-- `SamplePolicy` (programs/perf_event.rs:347-363). -/
inductive Policy where
  | period (n : Nat)
  | frequency (n : Nat)
deriving DecidableEq, Repr

/-- `PerfEventScope` (programs/perf_event.rs:366-395). -/
inductive Scope where
  | callingProcess (cpu : Option Nat)
  | oneProcess (pid : Nat) (cpu : Option Nat)
  | allProcessesOneCpu (cpu : Nat)
deriving DecidableEq, Repr

/-- The match on `config` (sys/perf_event.rs:34-95). `size_of::<c_long>()` is 8. -/
def configAttr : Config → Attr
  | .pmu t c => { type := t, config := c }
  | .hardware e => { type := 0, config := e.code }
  | .software e => { type := 1, config := e.code }
  | .tracePoint id => { type := 2, config := id }
  | .hwCache e op r => { type := 3, config := e.code ||| (op.code <<< 8) ||| (r.code <<< 16) }
  | .raw id => { type := 4, config := id }
  | .data t a l => { type := 5, config := 0, bpType := t.code, config1 := .num a, config2 := l.code, preciseIp := 2 }
  | .instruction a => { type := 5, config := 0, bpType := 4, config1 := .num a, config2 := 8, preciseIp := 2 }

/-- The match on `sample_policy` (sys/perf_event.rs:103-111). -/
def withPolicy (a : Attr) : Policy → Attr
  | .period n => { a with sample := n }
  | .frequency n => { a with freq := true, sample := n }

/-- `as i32` of a `u32`. -/
def asI32 (n : Nat) : Int := if n % 2 ^ 32 < 2 ^ 31 then (n % 2 ^ 32 : Nat) else (n % 2 ^ 32 : Nat) - 2 ^ 32

/-- sys/perf_event.rs:122-126. -/
def pidCpu : Scope → Int × Int
  | .callingProcess cpu => (0, cpu.elim (-1) asI32)
  | .oneProcess pid cpu => (asI32 pid, cpu.elim (-1) asI32)
  | .allProcessesOneCpu cpu => (-1, asI32 cpu)

/-- `perf_event_open` (sys/perf_event.rs:24-129); the wakeup policy is always `Events(1)`. -/
def perfEventOpen (env : Env) (config : Config) (scope : Scope) (policy : Policy) (inherit : Bool) (flags : Nat) (s : St) :
    Except Err Fd × St :=
  let attr := { withPolicy (configAttr config) policy with sampleType := 1024, inherit := inherit, wakeup := 1 }
  let (pid, cpu) := pidCpu scope
  match call env (.perfOpen attr pid cpu flags) s with
  | (.ok fd, s) => (.ok fd, s)
  | (.error e, s) => (.error (.perfEventOpen e), s)

/-- The scope of a trace point (sys/perf_event.rs:169-172). -/
def tpScope : Option Nat → Scope
  | some pid => .oneProcess pid none
  | none => .allProcessesOneCpu 0

/-- `perf_event_open_trace_point` (sys/perf_event.rs:165-181). -/
def perfEventOpenTracePoint (env : Env) (id : Nat) (pid : Option Nat) (s : St) : Except Err Fd × St :=
  perfEventOpen env (.tracePoint id) (tpScope pid) (.period 0) false 8 s

/-- Process and processor of a probe (sys/perf_event.rs:157-160). -/
def probePidCpu : Option Nat → Int × Int
  | some pid => (asI32 pid, -1)
  | none => (-1, 0)

/-- `perf_event_open_probe` (sys/perf_event.rs:135-163). A name with a NUL byte panics (149). -/
def perfEventOpenProbe (env : Env) (type : Nat) (retBit : Option Nat) (name : Text) (offset : Nat) (pid : Option Nat) (s : St) :
    Except Err Fd × St :=
  if '\x00' ∈ name then (.error .panicked, s)
  else
    let attr : Attr := { type := type, config := retBit.elim 0 (fun b => 2 ^ (b % 64)), config1 := .str name, config2 := offset }
    match call env (.perfOpen attr (probePidCpu pid).1 (probePidCpu pid).2 8) s with
    | (.ok fd, s) => (.ok fd, s)
    | (.error e, s) => (.error (.perfEventOpen e), s)

/-! ## Links -/

/-- A trace event definition that was made for an attachment (`ProbeEvent`, probe.rs:252-256): which file it is in and its
name. -/
structure Event where
  pmu : Text
  alias_ : Text
deriving DecidableEq, Repr

/-- `PerfLinkInner` (perf_attach.rs:25-29) and `PerfLink` (58-62). -/
inductive Link where
  | fd (fd : Fd)
  | perf (fd : Fd) (event : Option Event)
deriving DecidableEq, Repr

/-- `Path::join` for text that is not absolute and does not end in a slash; an absolute second path replaces the first. -/
def join (a b : Text) : Text :=
  match b with
  | '/' :: _ => b
  | _ => if a.getLast? = some '/' then a ++ b else a ++ '/' :: b

/-- `u8::is_ascii_whitespace`. -/
def asciiWs (c : Char) : Bool := c = ' ' || c = '\t' || c = '\n' || c = '\x0c' || c = '\r'

/-- `lines` (probe.rs:202-215): split at newlines, white space at the end of a line removed. -/
def lines (t : Text) : List Text :=
  (splitBy (· = '\n') t).map fun l => (l.reverse.dropWhile asciiWs).reverse

/-- The loop of `delete_probe_event` over one line (probe.rs:480-490): does what follows the first slash begin with the
name? -/
def lineHas (alias_ : Text) : Text → Bool
  | [] => false
  | c :: rest => if c = '/' then alias_.isPrefixOf rest else lineHas alias_ rest

/-- The path of the file of definitions. -/
def eventsFile (root pmu : Text) : Text := join root (pmu ++ ['_', 'e', 'v', 'e', 'n', 't', 's'])

/-- `delete_probe_event` (probe.rs:463-507) through `detach_debug_fs` (353-358). The result is ignored by every caller. -/
def deleteEvent (env : Env) (e : Event) (s : St) : St :=
  match env.tracefs with
  | none => s
  | some root =>
    match readFile env (eventsFile root e.pmu) s with
    | (.error _, s) => s
    | (.ok text, s) =>
      if (lines text).any (lineHas e.alias_) then
        exec env (.append (eventsFile root e.pmu) ('-' :: ':' :: e.alias_ ++ ['\n'])) s
      else s

/-- `attach_bpf_link` (perf_attach.rs:102-122). The perf event is closed at the end. -/
def attachBpfLink (env : Env) (prog perf : Fd) (cookie : Option Nat) (s : St) : Except Err Link × St :=
  if cookie.isSome ∧ ¬ env.cookies then (.error .cookieNotSupported, exec env (.close perf) s)
  else
    match call env (.linkCreate prog perf 41 0 cookie) s with
    | (.error e, s) => (.error (.linkCreate e), exec env (.close perf) s)
    | (.ok fd, s) => (.ok (.fd fd), exec env (.close perf) s)

/-- Dropping the parameters of `attach_perf_event` when it fails: the event first, then the perf event. -/
def dropParams (env : Env) (perf : Fd) (event : Option Event) (s : St) : St :=
  exec env (.close perf) (event.elim s (fun e => deleteEvent env e s))

/-- `attach_perf_event` (perf_attach.rs:124-147). -/
def attachPerfEvent (env : Env) (prog perf : Fd) (event : Option Event) (s : St) : Except Err Link × St :=
  match call env (.setBpf perf prog) s with
  | (.error e, s) => (.error (.setBpf e), dropParams env perf event s)
  | (.ok _, s) =>
    match call env (.enable perf) s with
    | (.error e, s) => (.error (.enable e), dropParams env perf event s)
    | (.ok _, s) => (.ok (.perf perf event), s)

/-- `perf_attach` (perf_attach.rs:87-100), called without a cookie. -/
def perfAttach (env : Env) (prog perf : Fd) (s : St) : Except Err Link × St :=
  if env.perfLink then attachBpfLink env prog perf none s else attachPerfEvent env prog perf none s

/-- `detach` of `FdLink` and of `PerfLink` (perf_attach.rs:73-83), with the closing of the descriptor. -/
def detach (env : Env) (l : Link) (s : St) : St :=
  match l with
  | .fd fd => exec env (.close fd) s
  | .perf fd event => dropParams env fd event (exec env (.disable fd) s)

/-! ## Files -/

/-- `str::trim`, for ASCII white space. -/
def trim (t : Text) : Text :=
  let ws := fun c => asciiWs c || c = '\x0b'
  (((t.dropWhile ws).reverse).dropWhile ws).reverse

/-- `splitn(2, ':').skip(1).next()`: what follows the first colon. -/
def afterColon : Text → Option Text
  | [] => none
  | c :: cs => if c = ':' then some cs else afterColon cs

def devices : Text := "/sys/bus/event_source/devices".toList

/-- `read_sys_fs_perf_type` (probe.rs:509-517). -/
def readPerfType (env : Env) (pmu : Text) (s : St) : Except Err Nat × St :=
  let path := join (join devices pmu) "type".toList
  match readFile env path s with
  | (.error _, s) => (.error (.file path), s)
  | (.ok t, s) =>
    match parseUInt 10 32 (trim t) with
    | some n => (.ok n, s)
    | none => (.error (.file path), s)

/-- `read_sys_fs_perf_ret_probe` (probe.rs:519-535). -/
def readRetBit (env : Env) (pmu : Text) (s : St) : Except Err Nat × St :=
  let path := join (join devices pmu) "format/retprobe".toList
  match readFile env path s with
  | (.error _, s) => (.error (.file path), s)
  | (.ok t, s) =>
    match (afterColon (trim t)).bind (parseUInt 10 32) with
    | some n => (.ok n, s)
    | none => (.error (.file path), s)

def tpFile (root category name : Text) : Text := join (join (join (join root "events".toList) category) name) ['i', 'd']

/-- `read_sys_fs_trace_point_id` (trace_point.rs:108-131). -/
def readTpId (env : Env) (root category name : Text) (s : St) : Except Err Nat × St :=
  let path := tpFile root category name
  match readFile env path s with
  | (.error _, s) => (.error (.file path), s)
  | (.ok t, s) =>
    match parseUInt 10 64 (trim t) with
    | some n => (.ok n, s)
    | none => (.error (.file path), s)

/-! ## Probes -/

/-- What `Probe` says of a family of probes: the name of its event source and how an offset is written. -/
structure Family where
  pmu : Text
  writeOffset : Bool → Nat → Text

/-- kprobe.rs:115-138. The offset of a return probe is not written. -/
def kprobe : Family := ⟨"kprobe".toList, fun ret offset => if ret then [] else '+' :: render 10 offset⟩

/-- uprobe.rs:641-661. -/
def uprobe : Family := ⟨"uprobe".toList, fun _ offset => ':' :: '0' :: 'x' :: render 16 offset⟩

/-- The name of an event definition (probe.rs:414-441). -/
def eventName (self : Nat) (ret : Bool) (target : Text) (offset index : Nat) : Text :=
  "aya_".toList ++ render 10 self ++ ['_', if ret then 'r' else 'p', '_'] ++
    target.map (fun c => if c = '.' ∨ c = '/' ∨ c = '-' then '_' else c) ++ ['_', '0', 'x'] ++ render 16 offset ++
    ['_'] ++ render 10 index

/-- The line that is written (probe.rs:443-448). -/
def eventLine (f : Family) (ret : Bool) (name target : Text) (offset : Nat) : Text :=
  (if ret then 'r' else 'p') :: ':' :: f.pmu ++ ['s', '/'] ++ name ++ [' '] ++ target ++ f.writeOffset ret offset ++ ['\n']

/-- `create_as_trace_point` (probe.rs:383-404) with `create_probe_event` (406-460). If a later step fails the event is deleted
when it goes out of scope (283-294). -/
def createAsTracePoint (env : Env) (f : Family) (ret : Bool) (target : Text) (offset : Nat) (pid : Option Nat) (s : St) :
    Except Err (Fd × Event) × St :=
  match env.tracefs with
  | none => (.error .noTracefs, s)
  | some root =>
    let name := eventName env.self ret target offset s.next
    let s := { s with next := s.next + 1 }
    match call env (.append (eventsFile root f.pmu) (eventLine f ret name target offset)) s with
    | (.error _, s) => (.error (.file (eventsFile root f.pmu)), s)
    | (.ok _, s) =>
      match readTpId env root (f.pmu ++ ['s']) name s with
      | (.error e, s) => (.error e, deleteEvent env ⟨f.pmu, name⟩ s)
      | (.ok id, s) =>
        match perfEventOpenTracePoint env id pid s with
        | (.error e, s) => (.error e, deleteEvent env ⟨f.pmu, name⟩ s)
        | (.ok fd, s) => (.ok (fd, ⟨f.pmu, name⟩), s)

/-- `create_as_probe` (probe.rs:360-381). -/
def createAsProbe (env : Env) (f : Family) (ret : Bool) (target : Text) (offset : Nat) (pid : Option Nat) (s : St) :
    Except Err Fd × St :=
  match readPerfType env f.pmu s with
  | (.error e, s) => (.error e, s)
  | (.ok type, s) =>
    if ret then
      match readRetBit env f.pmu s with
      | (.error e, s) => (.error e, s)
      | (.ok b, s) => perfEventOpenProbe env type (some b) target offset pid s
    else perfEventOpenProbe env type none target offset pid s

/-- `attach_bpf_probe` (probe.rs:322-329). -/
def attachBpfProbe (env : Env) (prog : Fd) (f : Family) (ret : Bool) (target : Text) (offset : Nat) (pid cookie : Option Nat)
    (s : St) : Except Err Link × St :=
  match createAsProbe env f ret target offset pid s with
  | (.error e, s) => (.error e, s)
  | (.ok fd, s) => attachBpfLink env prog fd cookie s

/-- `attach_perf_event_probe` (probe.rs:331-347). -/
def attachPerfEventProbe (env : Env) (prog : Fd) (f : Family) (ret : Bool) (target : Text) (offset : Nat)
    (pid cookie : Option Nat) (s : St) : Except Err Link × St :=
  if cookie.isSome then (.error .cookieNotSupported, s)
  else if env.pmu then
    match createAsProbe env f ret target offset pid s with
    | (.error e, s) => (.error e, s)
    | (.ok fd, s) => attachPerfEvent env prog fd none s
  else
    match createAsTracePoint env f ret target offset pid s with
    | (.error e, s) => (.error e, s)
    | (.ok (fd, ev), s) => attachPerfEvent env prog fd (some ev) s

/-- `attach_impl` (probe.rs:310-320): `prog` is the descriptor of the program. -/
def attachProbe (env : Env) (prog : Fd) (f : Family) (ret : Bool) (target : Text) (offset : Nat) (pid cookie : Option Nat)
    (s : St) : Except Err Link × St :=
  if env.pmu ∧ env.perfLink then attachBpfProbe env prog f ret target offset pid cookie s
  else attachPerfEventProbe env prog f ret target offset pid cookie s

/-! ## The public functions -/

/-- What a program is asked to attach to. -/
inductive Req where
  /-- `KProbe::attach`, with the kind of the program -/
  | kprobe (ret : Bool) (function : Text) (offset : Nat)
  /-- `UProbe::attach` in single mode, when the file, the offset and the process have been found out (`UProbe/AttachModel.lean`) -/
  | userProbe (ret : Bool) (path : Text) (offset : Nat) (pid cookie : Option Nat)
  /-- `TracePoint::attach` -/
  | tracePoint (category name : Text)
  /-- `PerfEvent::attach` -/
  | perfEvent (config : Config) (scope : Scope) (policy : Policy) (inherit : Bool)
  /-- `RawTracePoint::attach` -/
  | rawTracePoint (name : Text)
  /-- `attach` of `BtfTracePoint`, `FEntry`, `FExit` and `Lsm` -/
  | tracing
deriving DecidableEq, Repr

/-- `attach_raw_tracepoint` (utils.rs:18-30). -/
def attachRaw (env : Env) (prog : Option Fd) (name : Option Text) (s : St) : Except Err Link × St :=
  match prog with
  | none => (.error .notLoaded, s)
  | some prog =>
    match call env (.rawOpen name prog) s with
    | (.error e, s) => (.error (.rawOpen e), s)
    | (.ok fd, s) => (.ok (.fd fd), s)

/-- The functions `attach`: kprobe.rs:84-100 with probe.rs:297-308, uprobe.rs:520-550 (one point), trace_point.rs:78-90,
perf_event.rs:450-476, raw_trace_point.rs:54-57 and `attach` of tracing programs. `prog` is the program's descriptor, `none` if it is not loaded. The new link is stored with
the program, which is modelled in `Verif.Links`. -/
def attach (env : Env) (prog : Option Fd) (r : Req) (s : St) : Except Err Link × St :=
  match r with
  | .kprobe ret function offset =>
    match prog with
    | none => (.error .notLoaded, s)
    | some prog => attachProbe env prog kprobe ret function offset none none s
  | .userProbe ret path offset pid cookie =>
    match prog with
    | none => (.error .notLoaded, s)
    | some prog => attachProbe env prog uprobe ret path offset pid cookie s
  | .tracePoint category name =>
    match prog with
    | none => (.error .notLoaded, s)
    | some prog =>
      match env.tracefs with
      | none => (.error .noTracefs, s)
      | some root =>
        match readTpId env root category name s with
        | (.error e, s) => (.error e, s)
        | (.ok id, s) =>
          match perfEventOpenTracePoint env id none s with
          | (.error e, s) => (.error e, s)
          | (.ok fd, s) => perfAttach env prog fd s
  | .perfEvent config scope policy inherit =>
    match prog with
    | none => (.error .notLoaded, s)
    | some prog =>
      match perfEventOpen env config scope policy inherit 0 s with
      | (.error e, s) => (.error e, s)
      | (.ok fd, s) => perfAttach env prog fd s
  | .rawTracePoint name =>
    if '\x00' ∈ name then (.error .panicked, s) else attachRaw env prog (some name) s
  | .tracing => attachRaw env prog none s

end Verif.Probe
