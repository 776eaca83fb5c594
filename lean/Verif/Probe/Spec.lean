import Verif.Probe.Model
/-!
# What the kernel makes of the calls

The kernel's side of perf events, of links on them and of the event definitions in tracefs, written from the kernel's
documentation (`perf_event_open(2)`, `Documentation/trace/kprobetrace.rst`, `uprobetracer.rst`): which event a
`perf_event_attr` stands for, what a line written to `kprobe_events` or `uprobe_events` defines, and which programs run after
a sequence of calls. Nothing here uses the code that makes the calls; only the types of its parameters are shared.
-/
namespace Verif.Probe.Spec
open Verif.Str (render parseDigits splitBy)
open Verif.Probe (Text Fd Arg Attr Call Done Hist Hardware Software Cache CacheOp CacheResult BpType BpLen Config Policy Scope Req Link)

/-! ## Events -/

/-- Where a probe sits. -/
inductive Place where
  | function (name : Text) (offset : Nat)
  | address (a : Nat)
  | file (path : Text) (offset : Nat)
deriving DecidableEq, Repr

structure Probe where
  place : Place
  ret : Bool
deriving DecidableEq, Repr

/-- What an event counts. -/
inductive Source where
  | probe (p : Probe)
  | tracePoint (category name : Text)
  | hardware (e : Hardware)
  | software (e : Software)
  | cache (e : Cache) (op : CacheOp) (r : CacheResult)
  | raw (n : Nat)
  | data (t : BpType) (address : Nat) (len : BpLen)
  | instruction (address : Nat)
  | other (type config : Nat)
deriving DecidableEq, Repr

/-- For whom it counts. -/
inductive Whom where
  | everyoneOn (cpu : Nat)
  | caller (cpu : Option Nat)
  | process (pid : Nat) (cpu : Option Nat)
  | nobody
deriving DecidableEq, Repr

structure Ev where
  source : Source
  whom : Whom
  policy : Policy
  inherit : Bool
  wakeup : Nat
deriving DecidableEq, Repr

/-- A definition in tracefs: group, name and probe. -/
structure Def where
  group : Text
  name : Text
  probe : Probe
deriving DecidableEq, Repr

/-- Constants of the running kernel: the types of the probe event sources, the bits that make return probes, where tracefs is,
and the trace point (or definition) a trace point id belongs to. -/
structure Kernel where
  kprobeType : Nat
  uprobeType : Nat
  kprobeBit : Nat
  uprobeBit : Nat
  root : Text
  named : Nat → Text × Text

/-- `enum perf_hw_id`. -/
def hardware (n : Nat) : Option Hardware :=
  [.cpuCycles, .instructions, .cacheReferences, .cacheMisses, .branchInstructions, .branchMisses, .busCycles,
    .stalledCyclesFrontend, .stalledCyclesBackend, .refCpuCycles][n]?

/-- `enum perf_sw_ids`. -/
def software (n : Nat) : Option Software :=
  [.cpuClock, .taskClock, .pageFaults, .contextSwitches, .cpuMigrations, .pageFaultsMin, .pageFaultsMaj, .alignmentFaults,
    .emulationFaults, .dummy, .bpfOutput, .cgroupSwitches][n]?

/-- `PERF_TYPE_HW_CACHE`: `id | op << 8 | result << 16`. -/
def cache (n : Nat) : Option (Cache × CacheOp × CacheResult) := do
  let e ← [Cache.l1d, .l1i, .ll, .dtlb, .itlb, .bpu, .node][n % 256]?
  let op ← [CacheOp.read, .write, .prefetch][n / 256 % 256]?
  let r ← [CacheResult.access, .miss][n / 65536]?
  return (e, op, r)

def breakpoint (type : Nat) (arg : Arg) (len : Nat) : Option Source :=
  match arg with
  | .str _ => none
  | .num a =>
    if type = 4 ∧ len = 8 then some (.instruction a)
    else do
      let t ← if type = 1 then some BpType.read else if type = 2 then some .write else if type = 3 then some .readWrite else none
      let l ← if len = 1 then some BpLen.len1 else if len = 2 then some .len2 else if len = 4 then some .len4
        else if len = 8 then some .len8 else none
      return .data t a l

/-- A probe given in the attributes: `config1` is the name, `config2` the offset; an empty function name makes `config2` an
address. -/
def inAttr (a : Attr) (bit : Nat) (kernel : Bool) : Option Probe :=
  match a.config1 with
  | .num _ => none
  | .str name =>
    if a.config = 0 ∨ a.config = 2 ^ bit then
      some ⟨if kernel then (if name = [] then .address a.config2 else .function name a.config2) else .file name a.config2,
        a.config = 2 ^ bit⟩
    else none

/-- The definition with a group and name. -/
def find (events : List Def) (group name : Text) : Option Def := events.find? (fun d => d.group = group ∧ d.name = name)

/-- What the attributes stand for. -/
def source (k : Kernel) (events : List Def) (a : Attr) : Source :=
  let result :=
    if a.type = 0 then (hardware a.config).map Source.hardware
    else if a.type = 1 then (software a.config).map Source.software
    else if a.type = 2 then
      match find events (k.named a.config).1 (k.named a.config).2 with
      | some d => some (.probe d.probe)
      | none => some (.tracePoint (k.named a.config).1 (k.named a.config).2)
    else if a.type = 3 then (cache a.config).map (fun c => Source.cache c.1 c.2.1 c.2.2)
    else if a.type = 4 then some (.raw a.config)
    else if a.type = 5 then breakpoint a.bpType a.config1 a.config2
    else if a.type = k.kprobeType then (inAttr a k.kprobeBit true).map Source.probe
    else if a.type = k.uprobeType then (inAttr a k.uprobeBit false).map Source.probe
    else none
  result.getD (.other a.type a.config)

/-- `perf_event_open(2)`: pid -1 is everyone, and then a processor must be named; pid 0 is the caller; processor -1 is any. -/
def whom (pid cpu : Int) : Whom :=
  if pid = -1 then (if 0 ≤ cpu then .everyoneOn cpu.toNat else .nobody)
  else if pid < 0 ∨ cpu < -1 then .nobody
  else
    let c := if cpu = -1 then none else some cpu.toNat
    if pid = 0 then .caller c else .process pid.toNat c

def event (k : Kernel) (events : List Def) (a : Attr) (pid cpu : Int) : Ev :=
  ⟨source k events a, whom pid cpu, if a.freq then .frequency a.sample else .period a.sample, a.inherit, a.wakeup⟩

/-! ## Definitions in tracefs -/

def letter (c : Char) : Bool := c.isAlpha || c = '_'

/-- `is_good_name`. -/
def goodName : Text → Bool
  | [] => false
  | c :: cs => letter c && cs.all (fun c => letter c || c.isDigit)

/-- `kstrtoul` with base 0. -/
def number (t : Text) : Option Nat :=
  match t with
  | [] => none
  | '0' :: 'x' :: [] => none
  | '0' :: 'x' :: ds => parseDigits 16 0 ds
  | '0' :: d :: ds => parseDigits 8 0 (d :: ds)
  | ds => parseDigits 10 0 ds

/-- What is before and after the first character of a kind. -/
def cut (c : Char) : Text → Option (Text × Text)
  | [] => none
  | x :: xs => if x = c then some ([], xs) else (cut c xs).map (fun p => (x :: p.1, p.2))

/-- What is before and after the last one. -/
def cutLast (c : Char) (t : Text) : Option (Text × Text) :=
  (cut c t.reverse).map (fun p => (p.2.reverse, p.1.reverse))

/-- `SYMBOL[+OFFSET]` or an address; a return probe has no offset. -/
def kernelPlace (ret : Bool) (t : Text) : Option Place :=
  match t with
  | [] => none
  | c :: _ =>
    if c.isDigit then (number t).map .address
    else match cut '+' t with
      | none => some (.function t 0)
      | some (sym, off) =>
        (number off).bind (fun n => if sym = [] ∨ (ret ∧ n ≠ 0) then none else some (.function sym n))

/-- `PATH:OFFSET`. -/
def userPlace (t : Text) : Option Place :=
  (cutLast ':' t).bind (fun p => if p.1 = [] then none else (number p.2).map (.file p.1))

def blank (c : Char) : Bool := c = ' ' || c = '\t' || c = '\n' || c = '\x0b' || c = '\x0c' || c = '\r'

/-- The words of a line. -/
def words (t : Text) : List Text := (splitBy blank t).filter (· ≠ [])

/-- `p:GROUP/EVENT` or `r:GROUP/EVENT`. -/
def head (t : Text) : Option (Bool × Text × Text) :=
  match t with
  | c :: ':' :: rest =>
    if c = 'p' ∨ c = 'r' then
      (cut '/' rest).bind (fun p => if goodName p.1 ∧ goodName p.2 then some (c = 'r', p.1, p.2) else none)
    else none
  | _ => none

inductive Cmd where
  | define (d : Def)
  | remove (name : Text)
deriving DecidableEq, Repr

/-- What a line written to `kprobe_events` (`kernel`) or `uprobe_events` asks for. -/
def command (kernel : Bool) (line : Text) : Option Cmd :=
  match words line with
  | [('-' :: ':' :: name)] => some (.remove name)
  | [h, target] =>
    (head h).bind (fun p => ((if kernel then kernelPlace p.1 target else userPlace target)).map (fun place =>
      .define ⟨p.2.1, p.2.2, ⟨place, p.1⟩⟩))
  | _ => none

/-- The name of the group that a removal without group means. -/
def group (kernel : Bool) : Text := if kernel then "kprobes".toList else "uprobes".toList

def eventsPath (k : Kernel) (kernel : Bool) : Text :=
  k.root ++ (if kernel then "/kprobe_events".toList else "/uprobe_events".toList)

def apply (kernel : Bool) (events : List Def) : Cmd → List Def
  | .define d => events ++ [d]
  | .remove name => events.filter (fun d => ¬ (d.group = group kernel ∧ d.name = name))

/-! ## The state of the kernel -/

/-- What a descriptor stands for. -/
inductive Obj where
  /-- a perf event, the program set on it, whether it is on, and whether it is closed on `exec` -/
  | perf (ev : Ev) (prog : Option Fd) (on cloexec : Bool)
  /-- a link of a program to a perf event -/
  | link (prog : Fd) (ev : Ev) (cookie : Nat)
  /-- a program on a raw trace point, or on what it was loaded for -/
  | raw (prog : Fd) (name : Option Text)
  | other
deriving DecidableEq, Repr

structure World where
  files : List (Fd × Obj)
  events : List Def
deriving DecidableEq

def onFile (fd : Fd) (f : Obj → Obj) (files : List (Fd × Obj)) : List (Fd × Obj) :=
  files.map (fun e => if e.1 = fd then (e.1, f e.2) else e)

/-- What a link on a descriptor is; `BPF_PERF_EVENT` is 41. -/
def linkOn (prog type flags : Nat) (cookie : Option Nat) : Option (Fd × Obj) → Obj
  | some (_, .perf ev _ _ _) => if type = 41 ∧ flags = 0 then .link prog ev (cookie.getD 0) else .other
  | _ => .other

/-- The effect of an answered call. A call that fails has none, except that closing always closes. Several lines written at
once are not modelled (they have no effect here). -/
def step (k : Kernel) (w : World) : Done → World
  | .read _ _ => w
  | .call (.perfOpen a pid cpu flags) (.ok fd) =>
    { w with files := w.files ++ [(fd, .perf (event k w.events a pid cpu) none true (flags / 8 % 2 = 1))] }
  | .call (.append path bytes) (.ok _) =>
    if path = eventsPath k true then
      match command true bytes with
      | some c => { w with events := apply true w.events c }
      | none => w
    else if path = eventsPath k false then
      match command false bytes with
      | some c => { w with events := apply false w.events c }
      | none => w
    else w
  | .call (.linkCreate prog perf type flags cookie) (.ok fd) =>
    { w with files := w.files ++ [(fd, linkOn prog type flags cookie (w.files.find? (fun e => e.1 = perf)))] }
  | .call (.setBpf perf prog) (.ok _) =>
    { w with files := onFile perf (fun o => match o with
      | .perf ev _ on c => .perf ev (some prog) on c
      | o => o) w.files }
  | .call (.enable perf) (.ok _) =>
    { w with files := onFile perf (fun o => match o with
      | .perf ev p _ c => .perf ev p true c
      | o => o) w.files }
  | .call (.disable perf) (.ok _) =>
    { w with files := onFile perf (fun o => match o with
      | .perf ev p _ c => .perf ev p false c
      | o => o) w.files }
  | .call (.rawOpen name prog) (.ok fd) => { w with files := w.files ++ [(fd, .raw prog name)] }
  | .call (.close fd) _ => { w with files := w.files.filter (fun e => e.1 ≠ fd) }
  | .call _ (.error _) => w

/-- The world after what was done. -/
def world (k : Kernel) (w₀ : World) (h : Hist) : World := h.foldl (step k) w₀

/-- What a program runs on. -/
inductive Runs where
  | event (ev : Ev) (cookie : Nat)
  | raw (name : Option Text)
deriving DecidableEq, Repr

def Obj.runs : Obj → List (Fd × Runs)
  | .perf ev (some p) true _ => [(p, .event ev 0)]
  | .link p ev c => [(p, .event ev c)]
  | .raw p n => [(p, .raw n)]
  | _ => []

/-- The programs that run. -/
def World.running (w : World) : List (Fd × Runs) := (w.files.map (fun e => e.2.runs)).flatten

/-! ## Assumptions -/

/-- A plain name of a directory. -/
def Plain (t : Text) : Prop := t ≠ [] ∧ '/' ∉ t

def opens : Call → Bool
  | .perfOpen .. | .linkCreate .. | .rawOpen .. => true
  | _ => false

/-- The kernel tells the truth about itself: a new descriptor is not in use; the files of sysfs and tracefs have the contents
they are documented to have; and a line written to a file of definitions is refused unless it is well formed. -/
structure Sane (k : Kernel) (w₀ : World) (read : Hist → Text → Except Nat Text) (ans : Hist → Call → Except Nat Nat) : Prop where
  fresh : ∀ h c fd, opens c = true → ans h c = .ok fd → ∀ e ∈ (world k w₀ h).files, e.1 ≠ fd
  types : 6 ≤ k.kprobeType ∧ 6 ≤ k.uprobeType ∧ k.kprobeType ≠ k.uprobeType ∧ k.kprobeBit < 64 ∧ k.uprobeBit < 64
  root : ∃ r : Text, k.root = '/' :: r ∧ k.root.getLast? ≠ some '/'
  kprobe : ∀ h t, read h "/sys/bus/event_source/devices/kprobe/type".toList = .ok t → t = render 10 k.kprobeType ++ ['\n']
  uprobe : ∀ h t, read h "/sys/bus/event_source/devices/uprobe/type".toList = .ok t → t = render 10 k.uprobeType ++ ['\n']
  kprobeRet : ∀ h t, read h "/sys/bus/event_source/devices/kprobe/format/retprobe".toList = .ok t →
    t = "config:".toList ++ render 10 k.kprobeBit ++ ['\n']
  uprobeRet : ∀ h t, read h "/sys/bus/event_source/devices/uprobe/format/retprobe".toList = .ok t →
    t = "config:".toList ++ render 10 k.uprobeBit ++ ['\n']
  tp : ∀ h t c n, Plain c → Plain n → read h (k.root ++ "/events/".toList ++ c ++ ['/'] ++ n ++ "/id".toList) = .ok t →
    ∃ id, t = render 10 id ++ ['\n'] ∧ k.named id = (c, n)
  wellFormed : ∀ h kernel line n, '\n' ∉ line → ans h (.append (eventsPath k kernel) (line ++ ['\n'])) = .ok n →
    (command kernel (line ++ ['\n'])).isSome = true

/-- A listing of definitions: one to a line, with the group before the first slash and the name after it. -/
def Lists (text : Text) (kernel : Bool) (events : List Def) : Prop :=
  ∀ d ∈ events, d.group = group kernel →
    ∃ line ∈ splitBy (· = '\n') text, ∃ before after, '/' ∉ before ∧ line = before ++ '/' :: d.name ++ after

/-! ## What was asked for -/

/-- The processes of a scope. -/
def scope : Scope → Whom
  | .callingProcess cpu => .caller cpu
  | .oneProcess pid cpu => .process pid cpu
  | .allProcessesOneCpu cpu => .everyoneOn cpu

/-- The event of a configuration. -/
def configured (k : Kernel) (events : List Def) : Config → Source
  | .hardware e => .hardware e
  | .software e => .software e
  | .tracePoint id => source k events { type := 2, config := id }
  | .hwCache e op r => .cache e op r
  | .raw id => .raw id
  | .data t a l => .data t a l
  | .instruction a => .instruction a
  | .pmu t c => source k events { type := t, config := c }

/-- What it means for a program to run as asked for. Programs on probes and trace points run on every processor, whichever
is named when the event is opened. -/
def Meets (k : Kernel) (events : List Def) (r : Req) (what : Runs) : Prop :=
  match r with
  | .kprobe ret f off => ∃ ev cpu, what = .event ev 0 ∧ ev.source = .probe ⟨.function f off, ret⟩ ∧ ev.whom = .everyoneOn cpu
  | .tracePoint c n => ∃ ev cpu, what = .event ev 0 ∧ ev.source = .tracePoint c n ∧ ev.whom = .everyoneOn cpu
  | .perfEvent c s p i => what = .event ⟨configured k events c, scope s, p, i, 1⟩ 0
  | .userProbe ret path off pid cookie => ∃ ev cpu, what = .event ev (cookie.getD 0) ∧ ev.source = .probe ⟨.file path off, ret⟩ ∧
      ev.whom = (match pid with
        | none => .everyoneOn cpu
        | some 0 => .caller none
        | some (p + 1) => .process (p + 1) none)
  | .rawTracePoint n => what = .raw (some n)
  | .tracing => what = .raw none

/-- Names of kernel functions. -/
def Symbol (f : Text) : Prop := (∃ c cs, f = c :: cs ∧ c.isDigit = false) ∧ '+' ∉ f ∧ ∀ c ∈ f, blank c = false

/-- Requests that make sense: processors and processes have numbers below 2³¹, and trace points are named by plain names that
are not those of definitions. On kernels without probe event sources also: functions have proper names, return probes of the
kernel have no offset, and files have no blanks in their names. -/
def Sensible (pmu : Bool) (events : List Def) : Req → Prop
  | .kprobe ret f off => f ≠ [] ∧ (pmu = false → Symbol f ∧ (ret = true → off = 0))
  | .userProbe _ path _ pid _ => (∀ p, pid = some p → p < 2 ^ 31) ∧ (pmu = false → path ≠ [] ∧ ∀ c ∈ path, blank c = false)
  | .tracePoint c n => Plain c ∧ Plain n ∧ find events c n = none
  | .perfEvent _ (.callingProcess cpu) _ _ => ∀ c, cpu = some c → c < 2 ^ 31
  | .perfEvent _ (.oneProcess pid cpu) _ _ => 0 < pid ∧ pid < 2 ^ 31 ∧ ∀ c, cpu = some c → c < 2 ^ 31
  | .perfEvent _ (.allProcessesOneCpu cpu) _ _ => cpu < 2 ^ 31
  | _ => True

/-- A name of a definition made by process `self` as its definition number `i`. -/
def MadeBy (self i : Nat) (name : Text) : Prop :=
  ∃ mid, name = "aya_".toList ++ render 10 self ++ ['_'] ++ mid ++ ['_'] ++ render 10 i

/-- The descriptor of a link. -/
def fdOf : Link → Fd
  | .fd fd => fd
  | .perf fd _ => fd

end Verif.Probe.Spec
