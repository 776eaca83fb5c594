import Verif.UProbe.AttachModel
/-!
# What the calls mean to the kernel

The kernel's side of attaching user space probes: which files are open after a sequence of calls, and which probes run
the program. Written from the kernel's interface, without the code that makes the calls.
-/
namespace Verif.UProbe.Spec
open Verif.UProbe (Call Hist Fd ScopeReq)

/-- Which processes a probe fires for. -/
inductive Scope where
  | all
  | thread
  | process (pid : Nat)
deriving DecidableEq, Repr

/-- A place a probe sits at. -/
structure Site where
  path : List Char
  offset : Nat
  ret : Bool
  scope : Scope
deriving DecidableEq, Repr

/-- A probe that runs the program, with the value the program sees as cookie. -/
structure Probe where
  site : Site
  cookie : Nat
deriving DecidableEq, Repr

/-- What a file descriptor stands for: a perf event (`none`: not one on a user space probe), with whether the program is
set on it and whether it is on; or a link that runs the program at some probes. -/
inductive Obj where
  | perf (site : Option Site) (prog on : Bool)
  | link (probes : List Probe)
deriving DecidableEq, Repr

/-- Constants of the kernel: the type of user space probe events, the bit for return probes, and which event
definition a trace point id belongs to. -/
structure Kernel where
  ty : Nat
  retBit : Nat
  eventOf : Nat → Nat

/-- Open files in the order of opening, and event definitions in tracefs. -/
structure World where
  files : List (Fd × Obj)
  events : List (Nat × List Char × Nat × Bool)

/-- The scope that `perf_event_open` takes from a process id and a processor. For all processes a processor must be given,
which the kernel ignores for programs on probes (`trace_call_bpf`); for one process -1 stands for any processor. -/
def perfScope (pid cpu : Int) : Option Scope :=
  if pid = -1 then (if cpu = -1 then none else some .all)
  else if cpu ≠ -1 then none
  else if pid = 0 then some .thread
  else if pid < 0 then none
  else some (.process pid.toNat)

/-- The probes of a link on many offsets; cookies are zero unless given. -/
def multiProbes (path : List Char) (offsets : List Nat) (count : Nat) (cookies : Option (List Nat)) (pid flags : Nat) :
    List Probe :=
  (List.range count).filterMap (fun i =>
    (offsets[i]?).map (fun o =>
      ⟨⟨path, o, flags = 1, if pid = 0 then .all else .process pid⟩, match cookies with
        | none => 0
        | some cs => cs[i]?.getD 0⟩))

/-- The program set on a perf event. -/
def Obj.setProg : Obj → Obj
  | .perf x _ on => .perf x true on
  | o => o

/-- A perf event switched on or off. -/
def Obj.setOn (b : Bool) : Obj → Obj
  | .perf x p _ => .perf x p b
  | o => o

/-- The probes of a link on a perf event. -/
def Obj.linked (cookie : Option Nat) : Obj → List Probe
  | .perf (some x) _ _ => [⟨x, cookie.getD 0⟩]
  | _ => []

def onFile (fd : Fd) (f : Obj → Obj) (files : List (Fd × Obj)) : List (Fd × Obj) :=
  files.map (fun e => if e.1 = fd then (e.1, f e.2) else e)

/-- The effect of one call. A failing call has none, except that closing always closes. -/
def step (k : Kernel) (w : World) (c : Call × Except Nat Nat) : World :=
  match c with
  | (.perfOpenProbe ty config path offset pid cpu, .ok fd) =>
    { w with files := w.files ++ [(fd, .perf
        (if ty = k.ty ∧ (config = 0 ∨ config = 2 ^ k.retBit) then
          (perfScope pid cpu).map (fun sc => ⟨path, offset, config = 2 ^ k.retBit, sc⟩) else none) false true)] }
  | (.createEvent ev path offset ret, .ok _) => { w with events := w.events ++ [(ev, path, offset, ret)] }
  | (.perfOpenTp id pid cpu, .ok fd) =>
    { w with files := w.files ++ [(fd, .perf
        ((w.events.find? (fun e => e.1 = k.eventOf id)).bind (fun e =>
          (perfScope pid cpu).map (fun sc => ⟨e.2.1, e.2.2.1, e.2.2.2, sc⟩))) false true)] }
  | (.linkCreate perf cookie, .ok fd) =>
    { w with files := w.files ++ [(fd, .link ((w.files.find? (fun e => e.1 = perf)).elim [] (fun e => e.2.linked cookie)))] }
  | (.multiCreate path offsets count cookies pid flags, .ok fd) =>
    { w with files := w.files ++ [(fd, .link (multiProbes path offsets count cookies pid flags))] }
  | (.setBpf fd, .ok _) => { w with files := onFile fd Obj.setProg w.files }
  | (.enable fd, .ok _) => { w with files := onFile fd (Obj.setOn true) w.files }
  | (.disable fd, .ok _) => { w with files := onFile fd (Obj.setOn false) w.files }
  | (.deleteEvent ev, .ok _) => { w with events := w.events.filter (fun e => e.1 ≠ ev) }
  | (.close fd, _) => { w with files := w.files.filter (fun e => e.1 ≠ fd) }
  | _ => w

/-- The world after a sequence of calls. -/
def world (k : Kernel) (w₀ : World) (h : Hist) : World := h.foldl (step k) w₀

/-- The probes that run because of an open file. -/
def Obj.probes : Obj → List Probe
  | .perf (some x) true true => [⟨x, 0⟩]
  | .link ps => ps
  | _ => []

/-- The probes that run. -/
def World.running (w : World) : List Probe := (w.files.map (fun e => e.2.probes)).flatten

/-- Whether a call opens a file. -/
def opens : Call → Bool
  | .perfOpenProbe .. | .perfOpenTp .. | .linkCreate .. | .multiCreate .. => true
  | _ => false

/-- What is assumed of the system: a new file gets a number that is not in use, and what it says about itself is
true. -/
structure Sane (k : Kernel) (w₀ : World) (ans : Hist → Call → Except Nat Nat) : Prop where
  fresh : ∀ h c fd, opens c = true → ans h c = .ok fd → ∀ e ∈ (world k w₀ h).files, e.1 ≠ fd
  ty : ∀ h n, ans h .perfType = .ok n → n = k.ty
  bit : ∀ h n, ans h .retBit = .ok n → n = k.retBit
  bit64 : k.retBit < 64
  event : ∀ h ev id, ans h (.tpId ev) = .ok id → k.eventOf id = ev

/-- The scope asked for. The calling process can be meant by its id or, for perf events, as the calling thread. -/
def Within (self : Nat) (req : ScopeReq) (sc : Scope) : Prop :=
  match req with
  | .all => sc = .all
  | .caller => sc = .thread ∨ sc = .process self
  | .one pid => sc = .process pid

end Verif.UProbe.Spec
