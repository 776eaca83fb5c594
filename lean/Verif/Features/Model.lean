/-!
# Asking what the kernel supports

Model of the probes of `/repo/aya/src/sys/feature_probe.rs` and `/repo/aya/src/sys/bpf.rs:1020-1443`, of the features the library
itself asks for (`/repo/aya/src/kernel_features.rs`), and of raising the limit of locked memory (`/repo/aya/src/sys/bpf.rs:935-1005`).

The kernel is a record of functions from what the calls are given to their answers. Errors are error numbers. A probe makes at
most two calls, so the functions are not given the history.
-/
namespace Verif.Features

def EPERM : Nat := 1
def E2BIG : Nat := 7
def EBADF : Nat := 9
def EINVAL : Nat := 22
def ENOTSUPP : Nat := 524

/-- `bpf_attr` of `BPF_MAP_CREATE`, the fields that are set by the probes. -/
structure MapAttr where
  type : Nat := 0
  key : Nat := 0
  value : Nat := 0
  max : Nat := 0
  flags : Nat := 0
  inner : Option Nat := none
  btfFd : Nat := 0
  btfKey : Nat := 0
  btfValue : Nat := 0
  vmlinuxValue : Nat := 0
deriving DecidableEq, Repr

/-- The two programs that are loaded: `r0 = 0; exit`, and a call of a helper followed by `exit`. -/
inductive Code where
  | trivial
  | call (helper : Nat)
deriving DecidableEq, Repr

/-- `bpf_attr` of `BPF_PROG_LOAD`, the fields that are set by the probes. `log` is the room for the verifier's log. -/
structure ProgAttr where
  type : Nat
  code : Code
  attachType : Nat := 0
  attachBtfId : Nat := 0
  kernVersion : Nat := 0
  sleepable : Bool := false
  named : Bool := false
  log : Nat := 0
deriving DecidableEq, Repr

/-- Types of a probe's BTF, as far as kernels differ in accepting them. -/
inductive BtfItem where
  | int | ptr | proto | func (global : Bool) | var | datasec (entries : Nat) | float | declTag | typeTag | enum64
deriving DecidableEq, Repr

/-- The calls, each together with its second try after raising the limit of locked memory (below). `load` also gives the bytes of the log, as many as there is room for. -/
structure Kernel where
  create : MapAttr → Except Nat Nat
  load : ProgAttr → Except Nat Nat × List UInt8
  /-- `BPF_RAW_TRACEPOINT_OPEN` without a name. -/
  tracing : Nat → Except Nat Unit
  /-- `BPF_LINK_CREATE` for a perf event with descriptor -1. -/
  perfLink : Nat → Except Nat Unit
  btf : List BtfItem → Except Nat Unit
  /-- Loading a program that writes to the value of the map with the given descriptor. -/
  globalData : Nat → Except Nat Unit
  pageSize : Nat
  /-- `KernelVersion::current().code()`, or 0 if it is not known. -/
  version : Nat
  /-- Id of a function in the kernel's BTF; 0 if it is not found. -/
  btfId : String → Nat

/-! ## Maps -/

/-- `BPF_F_NO_PREALLOC`, `BPF_F_MMAPABLE`. -/
def NO_PREALLOC : Nat := 1
def MMAPABLE : Nat := 1024

/-- The sizes given (`/repo/aya/src/sys/feature_probe.rs:435-484`): key, value, entries. Types by number
    (`/repo/aya/src/maps/info.rs:168-350`). -/
def sizes (pageSize : Nat) (type : Nat) : Nat × Nat × Nat :=
  if type ∈ [1, 5, 9, 10] then (1, 1, 1)
  else if type ∈ [2, 6] then (4, 1, 1)
  else if type ∈ [3, 4, 8, 12, 14, 15, 16, 17, 20, 25] then (4, 4, 1)
  else if type = 7 then (4, 8, 1)
  else if type = 11 then (8, 1, 1)
  else if type ∈ [13, 18] then (1, 4, 1)
  else if type ∈ [19, 21] then (16, 1, 0)
  else if type ∈ [22, 23, 30] then (0, 1, 1)
  else if type ∈ [24, 28, 29, 32] then (4, 1, 0)
  else if type = 26 then (4, 0, 1)
  else if type ∈ [27, 31] then (0, 0, pageSize)
  else (0, 0, 1)

/-- The inner map of maps of maps (`/repo/aya/src/sys/feature_probe.rs:522-537`). -/
def innerAttr : MapAttr := { type := 1, key := 1, value := 1, max := 1 }

/-- The rest of what is given (`/repo/aya/src/sys/feature_probe.rs:486-546`). -/
def mapAttr (pageSize type : Nat) (inner : Option Nat) : MapAttr :=
  let (key, value, max) := sizes pageSize type
  let a : MapAttr := { type := type, key := key, value := value, max := max }
  if type = 11 then { a with flags := NO_PREALLOC }
  else if type ∈ [24, 28, 29, 32] then { a with flags := NO_PREALLOC, btfFd := 4294967295, btfKey := 1, btfValue := 1 }
  else if type ∈ [12, 13] then { a with inner := inner }
  else if type = 26 then { a with vmlinuxValue := 1 }
  else if type = 33 then { a with flags := MMAPABLE }
  else a

/-- What the error of the creation means (`/repo/aya/src/sys/feature_probe.rs:556-602`). -/
def mapVerdict (type e : Nat) : Except Nat Bool :=
  if e = EINVAL then .ok false
  else if e = E2BIG ∧ type ∈ [24, 26, 28, 29, 32] then .ok false
  else if e = EBADF ∧ type ∈ [24, 28, 29, 32] then .ok true
  else if e = ENOTSUPP ∧ type = 26 then .ok true
  else .error e

/-- `is_map_supported` (`/repo/aya/src/sys/feature_probe.rs:432-603`). -/
def isMapSupported (k : Kernel) (type : Nat) : Except Nat Bool :=
  if type = 0 then .ok false
  else
    let inner := if type ∈ [12, 13] then (k.create innerAttr).map some else .ok none
    match inner with
    | .error e => .error e
    | .ok fd =>
      match k.create (mapAttr k.pageSize type fd) with
      | .ok _ => .ok true
      | .error e => mapVerdict type e

/-! ## Programs -/

/-- `ProgramType` (`/repo/aya/src/programs/info.rs:313-498`): the number of the type; LSM programs have two variants. -/
inductive ProgType where
  | plain (n : Nat)
  | lsmMac
  | lsmCgroup
deriving DecidableEq, Repr

/-- `From<ProgramType> for bpf_prog_type` (`/repo/aya/src/programs/info.rs:500-538`). -/
def ProgType.num : ProgType → Nat
  | .plain n => n
  | .lsmMac => 29
  | .lsmCgroup => 29

/-- The expected attach type (`/repo/aya/src/sys/bpf.rs:1078-1123`), 0 if it is not set. Numbers of
    `/repo/aya-obj/src/generated/linux_bindings_x86_64.rs` (`bpf_attach_type`). -/
def attachType : ProgType → Nat
  | .plain 16 => 7
  | .plain 18 => 10
  | .plain 20 => 16
  | .plain 21 => 39
  | .plain 22 => 17
  | .plain 23 => 18
  | .plain 25 => 21
  | .plain 26 => 24
  | .plain 30 => 36
  | .plain 32 => 45
  | .lsmMac => 27
  | .lsmCgroup => 43
  | _ => 0

/-- `with_prog_insns` (`/repo/aya/src/sys/bpf.rs:1064-1143`). -/
def progAttr (k : Kernel) (p : ProgType) (code : Code) : ProgAttr :=
  { type := p.num
    code := code
    attachType := attachType p
    kernVersion := if p = .plain 2 then k.version else 0
    sleepable := decide (p = .plain 31) }

/-- `b"Tracing programs must provide btf_id"`. -/
def wantsBtfId : List UInt8 := "Tracing programs must provide btf_id".toUTF8.toList

/-- The name of the function asked for in the kernel's BTF (`/repo/aya/src/sys/feature_probe.rs:299-313`). -/
def probeFunction : ProgType → Option String
  | .plain 26 => some "bpf_fentry_test1"
  | .lsmMac => some "bpf_lsm_bpf"
  | .lsmCgroup => some "bpf_lsm_bpf"
  | _ => none

/-- Whether the log is examined (`/repo/aya/src/sys/feature_probe.rs:285-289`). -/
def looksAtLog : ProgType → Bool
  | .plain 26 => true
  | .plain 28 => true
  | .lsmMac => true
  | .lsmCgroup => true
  | _ => false

/-- What is loaded (`/repo/aya/src/sys/feature_probe.rs:315-329`). -/
def programProbe (k : Kernel) (p : ProgType) : ProgAttr :=
  { progAttr k p .trivial with
    attachBtfId := (probeFunction p).elim 0 k.btfId
    log := if looksAtLog p then 256 else 0 }

/-- What the answer means (`/repo/aya/src/sys/feature_probe.rs:331-408`). -/
def programVerdict (k : Kernel) (p : ProgType) : Except Nat Nat × List UInt8 → Except Nat Bool
  | (.error e, log) =>
    if e = EINVAL then .ok (looksAtLog p && wantsBtfId.isPrefixOf log)
    else if e = E2BIG then .ok false
    else if e = ENOTSUPP ∧ p = .plain 27 then .ok true
    else .error e
  | (.ok fd, _) =>
    if p = .plain 26 ∨ p = .lsmMac then
      match k.tracing fd with
      | .ok () => .ok true
      | .error e => if e = ENOTSUPP then .ok false else .error e
    else .ok true

/-- `is_program_supported` (`/repo/aya/src/sys/feature_probe.rs:269-410`). -/
def isProgramSupported (k : Kernel) (p : ProgType) : Except Nat Bool :=
  if p = .plain 0 then .ok false else programVerdict k p (k.load (programProbe k p))

/-- Errors of `is_helper_supported`. -/
inductive HelperError where
  | unexpectedProgramType
  | syscall (e : Nat)
deriving DecidableEq, Repr

/-- `slice::windows(..).any(|w| w == needle)`. -/
def occurs (needle : List UInt8) : List UInt8 → Bool
  | [] => needle.isPrefixOf []
  | b :: bs => needle.isPrefixOf (b :: bs) || occurs needle bs

/-- The diagnostics (`/repo/aya/src/sys/feature_probe.rs:209-213`). -/
def diagnostics : List (List UInt8) :=
  ["invalid func ".toUTF8.toList, "unknown func ".toUTF8.toList, "program of this type cannot use helper ".toUTF8.toList]

/-- What the answer means (`/repo/aya/src/sys/feature_probe.rs:205-243`). -/
def helperVerdict : Except Nat Nat × List UInt8 → Except HelperError Bool
  | (.ok _, _) => .ok true
  | (.error e, log) =>
    let text := log.takeWhile (· ≠ 0)
    if text.isEmpty then
      if e = EINVAL ∨ e = E2BIG then .ok false else .error (.syscall e)
    else if diagnostics.any (fun d => occurs d text) then .ok false
    else .ok true

/-- `is_helper_supported` (`/repo/aya/src/sys/feature_probe.rs:168-246`). -/
def isHelperSupported (k : Kernel) (p : ProgType) (helper : Nat) : Except HelperError Bool :=
  if p = .plain 0 then .ok false
  else if p = .plain 26 ∨ p = .plain 28 ∨ p = .lsmMac ∨ p = .lsmCgroup ∨ p = .plain 27 then .error .unexpectedProgramType
  else
    helperVerdict (k.load { progAttr k p (.call helper) with log := 4096 })

/-! ## Other features -/

/-- `feature_probe_result` (`/repo/aya/src/sys/bpf.rs:1020-1037`). -/
def probeResult (r : Except Nat α) (unsupported : List Nat) : Except Nat Bool :=
  match r with
  | .ok _ => .ok true
  | .error e => if e ∈ unsupported then .ok false else .error e

/-- `probe_bpf_name` (`/repo/aya/src/sys/bpf.rs:1039-1052`). -/
def probeName (k : Kernel) : Except Nat Bool :=
  probeResult (k.load { progAttr k (.plain 1) .trivial with named := true }).1 [EINVAL, E2BIG]

/-- `probe_perf_link` (`/repo/aya/src/sys/bpf.rs:1156-1184`). -/
def probePerfLink (k : Kernel) : Except Nat Bool :=
  match (k.load (progAttr k (.plain 5) .trivial)).1 with
  | .error e => if e = EINVAL ∨ e = E2BIG then .ok false else .error e
  | .ok fd =>
    match k.perfLink fd with
    | .ok () => .ok true
    | .error e => if e = EBADF then .ok true else if e = EINVAL then .ok false else .error e

/-- `probe_bpf_global_data` (`/repo/aya/src/sys/bpf.rs:1186-1231`). An error of the creation of the map is not one of the kernel's
    numbers any more (`io::Error::other`); here it keeps its number. -/
def probeGlobalData (k : Kernel) : Except Nat Bool :=
  match k.create { type := 2, key := 4, value := 32, max := 1 } with
  | .error e => .error e
  | .ok fd => probeResult (k.globalData fd) [EINVAL, E2BIG]

/-- `probe_prog_id` (`/repo/aya/src/sys/bpf.rs:1234-1252`), for CPU maps (16) and device maps (14). -/
def probeProgId (k : Kernel) (type : Nat) : Except Nat Bool :=
  probeResult (k.create { type := type, key := 4, value := 8, max := 1 }) [EINVAL]

/-- `probe_btf` (`/repo/aya/src/sys/bpf.rs:1254-1264`). -/
def probeBtf (k : Kernel) : Except Nat Bool := probeResult (k.btf [.int]) [EINVAL]

/-- `BtfFeature`. -/
inductive BtfFeature where
  | func | funcGlobal | dataSec | dataSecZero | float | declTag | typeTag | enum64
deriving DecidableEq, Repr

/-- The BTF of each probe (`/repo/aya/src/sys/bpf.rs:1266-1446`). -/
def btfSample : BtfFeature → List BtfItem
  | .func => [.int, .proto, .func false]
  | .funcGlobal => [.int, .proto, .func true]
  | .dataSec => [.int, .var, .datasec 1]
  | .dataSecZero => [.datasec 0]
  | .float => [.float]
  | .declTag => [.int, .var, .declTag]
  | .typeTag => [.int, .typeTag, .ptr]
  | .enum64 => [.enum64]

/-- `is_btf_feature_supported` (`/repo/aya/src/sys/feature_probe.rs:125-136`). -/
def isBtfFeatureSupported (k : Kernel) (f : BtfFeature) : Except Nat Bool := probeResult (k.btf (btfSample f)) [EINVAL]

/-- The features the library asks for (`/repo/aya/src/kernel_features.rs:65-74`, `139-149`). -/
inductive Feature where
  | name | probeReadKernel | perfLink | globalData | cookie | cpuMapProgId | devMapProgId | btf
  | btfFeature (f : BtfFeature)
deriving DecidableEq, Repr

/-- An error of any kind, as `io::Error`. -/
def ioError : Except HelperError Bool → Except Nat Bool
  | .ok b => .ok b
  | .error (.syscall e) => .error e
  | .error .unexpectedProgramType => .error 0

/-- The probe of each feature (`/repo/aya/src/kernel_features.rs:94-106`, `152-163`, `192-203`). -/
def runProbe (k : Kernel) : Feature → Except Nat Bool
  | .name => probeName k
  | .probeReadKernel => ioError (isHelperSupported k (.plain 5) 113)
  | .perfLink => probePerfLink k
  | .globalData => probeGlobalData k
  | .cookie => ioError (isHelperSupported k (.plain 2) 174)
  | .cpuMapProgId => probeProgId k 16
  | .devMapProgId => probeProgId k 14
  | .btf => probeBtf k
  | .btfFeature f => isBtfFeatureSupported k f

/-- What has been probed so far (`OnceLock` of each `FeatureProbe`). -/
abbrev Cache := List (Feature × Bool)

/-- `FeatureProbe::get` (`/repo/aya/src/kernel_features.rs:27-40`): errors are remembered and count as unsupported. The third result
    says whether the kernel was asked. -/
def getFeature (k : Kernel) (c : Cache) (f : Feature) : Bool × Cache × Bool :=
  match c.lookup f with
  | some b => (b, c, false)
  | none =>
    let b := match runProbe k f with
      | .ok b => b
      | .error _ => false
    (b, c ++ [(f, b)], true)

/-- `Features::btf` followed by `BtfFeatures::is_supported` (`/repo/aya/src/kernel_features.rs:133-136`, `165-187`). -/
def getBtfFeature (k : Kernel) (c : Cache) (f : BtfFeature) : Bool × Cache × Bool :=
  let (b, c, asked) := getFeature k c .btf
  if b then
    let (b, c, asked') := getFeature k c (.btfFeature f)
    (b, c, asked || asked')
  else (false, c, asked)

/-- A sequence of questions, at each of which the kernel may be another (for instance more or less willing). -/
def askAll : Cache → List (Kernel × Feature) → List (Bool × Bool)
  | _, [] => []
  | c, (k, f) :: qs =>
    let (b, c, asked) := getFeature k c f
    (b, asked) :: askAll c qs

/-! ## The limit of locked memory -/

/-- The limits of a process, `none` being no limit: the one in force, the one up to which it may be raised. `privileged` is the
    right to raise the second one; `raised` says whether `RAISE_MEMLIMIT` has run; `locked` is what is locked at present. -/
structure Proc where
  soft : Option Nat
  hard : Option Nat
  locked : Nat := 0
  privileged : Bool
  raised : Bool := false
deriving DecidableEq, Repr

/-- `RAISE_MEMLIMIT.call_once` (`/repo/aya/src/sys/bpf.rs:952-992`), with `setrlimit` for no limit at all. Warnings and a failure of
    `getrlimit` are left out. -/
def raiseOnce (p : Proc) : Proc :=
  if p.raised then p
  else
    match p.soft with
    | none => { p with raised := true }
    | some _ =>
      if p.privileged || p.hard.isNone then { p with raised := true, soft := none, hard := none }
      else { p with raised := true }

/-- `with_raised_rlimit_retry` (`/repo/aya/src/sys/bpf.rs:937-997`). `op` is one try; `accounted` says that the kernel is older than
    5.11. -/
def withRetry (accounted : Bool) (errnos : List Nat) (op : Proc → Except Nat Unit × Proc) (p : Proc) : Except Nat Unit × Proc :=
  match op p with
  | (.ok (), p) => (.ok (), p)
  | (.error e, p) => if accounted && errnos.contains e then op (raiseOnce p) else (.error e, p)

/-- Calls one after the other: map creations, program loads, attachments (`/repo/aya/src/sys/bpf.rs:530`, `602`, `1001`, `1450`), each
    with its size and the numbers it takes for a lack of memory. -/
def runCalls (accounted : Bool) (op : Nat → Proc → Except Nat Unit × Proc) : Proc → List (Nat × List Nat) → List (Except Nat Unit) × Proc
  | p, [] => ([], p)
  | p, (n, errnos) :: ns =>
    let (r, p) := withRetry accounted errnos (op n) p
    let (rs, p) := runCalls accounted op p ns
    (r :: rs, p)

end Verif.Features
