import Verif.Listing.Model
/-!
# Links in the kernel

A link lives as long as somebody refers to it: a descriptor of any process, or a pin. Between any two system calls of this process,
others may attach programs, open links by id, give references up and replace the programs of links.
-/
namespace Verif.Listing

/-- What can be seen of all links at one moment. -/
structure Snap where
  live : List Nat
  type : Nat → Nat
  prog : Nat → Nat

/-- References of others (one entry for each), descriptors of this process, and what is known of links by id. `past` is what there
    was to be seen at every system call of this process, the last one first. -/
structure State where
  held : List Nat
  fds : List (Fd × Nat)
  type : Nat → Nat
  prog : Nat → Nat
  calls : Nat
  past : List Snap

/-- A link lives if it is referred to. -/
def State.live (s : State) : List Nat := s.held ++ s.fds.map (·.2)

/-- What others do. A new link gets an id that is not in use and not 0; only a link that lives can be opened. -/
inductive Event where
  | attach (id type prog : Nat)
  | openLink (id : Nat)
  | release (id : Nat)
  | replace (id prog : Nat)

def State.event (s : State) : Event → State
  | .attach id ty p =>
    if id = 0 ∨ id ∈ s.live then s
    else { s with held := id :: s.held, type := fun i => if i = id then ty else s.type i, prog := fun i => if i = id then p else s.prog i }
  | .openLink id => if id ∈ s.live then { s with held := id :: s.held } else s
  | .release id => { s with held := s.held.erase id }
  | .replace id p => { s with prog := fun i => if i = id then p else s.prog i }

/-- What others do before each call of this process, and which calls fail for a reason of their own (no privileges, no free
    descriptor). -/
structure World where
  others : Nat → List Event
  fault : Nat → Option Nat

/-- What happens until this process makes its next call. -/
def World.tick (w : World) (s : State) : State :=
  let s' := (w.others s.calls).foldl State.event s
  { s' with calls := s.calls + 1, past := ⟨s'.live, s'.type, s'.prog⟩ :: s.past }

/-- The least id above one. -/
def least (cur : Nat) (ids : List Nat) : Option Nat := (ids.filter (fun i => decide (cur < i))).min?

/-- A descriptor that is not in use. -/
def freshFd (fds : List (Fd × Nat)) : Fd := (fds.map (·.1)).foldr max 2 + 1

/-- The system calls. -/
def World.sys (w : World) : Sys State where
  nextId cur s :=
    let s' := w.tick s
    match w.fault s.calls with
    | some e => (.error e, s')
    | none =>
      match least cur s'.live with
      | some id => (.ok id, s')
      | none => (.error 2, s')
  openId id s :=
    let s' := w.tick s
    match w.fault s.calls with
    | some e => (.error e, s')
    | none =>
      if id ∈ s'.live then (.ok (freshFd s'.fds), { s' with fds := (freshFd s'.fds, id) :: s'.fds }) else (.error 2, s')
  info fd s :=
    let s' := w.tick s
    match w.fault s.calls with
    | some e => (.error e, s')
    | none =>
      match s'.fds.find? (fun d => d.1 == fd) with
      | some d => (.ok ⟨s'.type d.2, d.2, s'.prog d.2⟩, s')
      | none => (.error 9, s')
  close fd s :=
    let s' := w.tick s
    { s' with fds := s'.fds.filter (fun d => d.1 != fd) }

/-- The items that tell of a link. -/
def told : List (Except SyscallError LinkRec) → List LinkRec
  | [] => []
  | .ok r :: l => r :: told l
  | .error _ :: l => told l

/-- What was to be seen during something that led from `s` to `s'`. -/
def Saw (s s' : State) (seen : List Snap) : Prop := s'.past = seen ++ s.past

/-- `enum bpf_link_type`, from `BPF_LINK_TYPE_UNSPEC = 0` on. -/
def kernelTypes : List LinkType :=
  [.unspecified, .rawTracePoint, .tracing, .cgroup, .iter, .netns, .xdp, .perfEvent, .kProbeMulti, .structOps, .netfilter, .tcx,
   .uProbeMulti, .netkit]

/-- What others did before the calls of numbers `a` to `b - 1`. -/
def World.between (w : World) (a b : Nat) : List Event := ((List.range b).drop a).flatMap w.others

end Verif.Listing
