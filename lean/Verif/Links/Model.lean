import Verif.Common.Except

/-!
# Model of programs and their links (`/repo/aya/src/programs/links.rs`, `/repo/aya/src/programs/mod.rs`)

The state holds any number of programs, the links their users have taken out of them, and the trace of
what the kernel was asked to do.  Every attachment gets a number (`uid`) when the kernel makes it; the
number stays with the attachment when its link changes hands.  A link is identified for the user by its
`id` (descriptor numbers, interface, ...), which the kernel and the user choose freely.

Simplifications: what a base link does to detach (closing a descriptor, a netlink request, `BPF_PROG_DETACH`,
disabling a perf event) is one request `detach uid`; program descriptors are numbered in the order they are
opened and never reused.  Links made by hand from an interface name (`SchedClassifierLink::attached`) and
attachments without links (socket filters) are left out.
-/
namespace Verif.Links

/-- A link (`/repo/aya/src/programs/links.rs:21-43`, `Link`). -/
structure Lk where
  uid : Nat
  id : Nat
  /-- Backed by a link descriptor (`FdLink`), which detaches when it is closed. -/
  isFd : Bool
  /-- The program descriptor a netlink XDP link names when it detaches
      (`/repo/aya/src/programs/xdp.rs:243-289`). -/
  needs : Option Nat
  /-- Detaching reports errors; `FdLink`, `PerfLink` and the XDP `NlLink` never do. -/
  reports : Bool
deriving DecidableEq, Repr

/-- What the kernel is asked to do. -/
inductive Ev where
  | load (fd : Option Nat)
  | attach (uid : Nat)
  /-- A request to detach; `done` tells whether the attachment is gone. -/
  | detach (uid : Nat) (done : Bool)
  | replace (uid : Nat) (ok : Bool)
  | close (fd : Nat)
deriving DecidableEq, Repr

/-- A program (`/repo/aya/src/programs/mod.rs:550-562`, `ProgramData`). -/
structure Prog where
  /-- There is an object to load from; not so for programs opened from a pin. -/
  hasObj : Bool
  fd : Option Nat
  links : List Lk
  /-- Its link type comes from `define_link_wrapper!` and detaches when dropped; only `LircLink`
      (`/repo/aya/src/programs/lirc_mode2.rs:129-171`) does not. -/
  wrapper : Bool
  dropped : Bool
deriving DecidableEq, Repr

/-- The whole state. -/
structure St where
  progs : List Prog
  /-- Links taken with `take_link`, with whether their type detaches when dropped. -/
  owned : List (Lk × Bool)
  pinned : List Lk
  /-- Attachments nobody holds a link for any more, although they were never asked to detach. -/
  leaked : List Lk
  trace : List Ev
  nextUid : Nat
  nextFd : Nat
deriving DecidableEq, Repr

/-- What the environment decides: whether the kernel carries out the detaching of an attachment, and the
    order in which a `HashSet` gives its elements. -/
structure Env where
  works : Nat → Bool
  order : List Lk → List Lk

/-- Results seen by the user. -/
inductive Res where
  | ok
  | linkId (id : Nat)
  | alreadyLoaded
  | notLoaded
  | loadError
  | alreadyAttached
  | notAttached
  | syscallError
  | detachError
  | noSuchThing
deriving DecidableEq, Repr

/-- Operations of the user. Programs and owned links are named by their position. -/
inductive Op where
  | load (p : Nat) (ok : Bool)
  | attach (p : Nat) (ok : Bool) (id : Nat) (isFd : Bool) (usesFd : Bool) (reports : Bool)
  | detach (p : Nat) (id : Nat)
  | take (p : Nat) (id : Nat)
  | unload (p : Nat)
  | dropProgram (p : Nat)
  | dropLink (i : Nat)
  | detachLink (i : Nat)
  | forgetLink (i : Nat)
  | pinLink (i : Nat) (ok : Bool)
  | unpinLink (i : Nat) (ok : Bool)
  | attachTo (p : Nat) (i : Nat) (ok : Bool) (id : Nat)
deriving DecidableEq, Repr

/-- Whether a detach request for `l` takes effect: the kernel must carry it out, and a netlink XDP link's
    program descriptor must still be open. -/
def takesEffect (env : Env) (trace : List Ev) (l : Lk) : Bool :=
  env.works l.uid && (match l.needs with
    | none => true
    | some fd => !trace.contains (.close fd))

/-- `Link::detach` of the base link: one request; the result is an error if it had no effect and the link type
    reports that. -/
def detachBase (env : Env) (l : Lk) (t : List Ev) : Bool × List Ev :=
  let done := takesEffect env t l
  (done || !l.reports, t ++ [.detach l.uid done])

/-- Dropping a link: wrappers detach and ignore the result (`/repo/aya/src/programs/links.rs:514-522`);
    a `LircLink` is just forgotten. -/
def dropLk (env : Env) (wrapper : Bool) (l : Lk) (s : St) : St :=
  if wrapper then { s with trace := (detachBase env l s.trace).2 }
  else { s with leaked := l :: s.leaked }

/-- Drop several links. -/
def dropAll (env : Env) (wrapper : Bool) : List Lk → St → St
  | [], s => s
  | l :: ls, s => dropAll env wrapper ls (dropLk env wrapper l s)

/-- `Links::remove_all` (`/repo/aya/src/programs/links.rs:104-111`) over the drained links: at the first
    error the remaining ones are dropped. -/
def removeAll (env : Env) (wrapper : Bool) : List Lk → St → Bool × St
  | [], s => (true, s)
  | l :: ls, s =>
      if (detachBase env l s.trace).1 then
        removeAll env wrapper ls { s with trace := (detachBase env l s.trace).2 }
      else (false, dropAll env wrapper ls { s with trace := (detachBase env l s.trace).2 })

/-- Replace program `p`. -/
def setProg (s : St) (p : Nat) (q : Prog) : St := { s with progs := s.progs.set p q }

/-- `unload_program` (`/repo/aya/src/programs/mod.rs:659-665`). -/
def unload (env : Env) (p : Nat) (q : Prog) (s : St) : Res × St :=
  let (ok, s) := removeAll env q.wrapper (env.order q.links) (setProg s p { q with links := [] })
  if !ok then (.detachError, s)
  else
    match q.fd with
    | none => (.notLoaded, s)
    | some fd =>
        (.ok, { setProg s p { q with links := [], fd := none } with trace := s.trace ++ [.close fd] })

/-- `Links::insert` (`/repo/aya/src/programs/links.rs:84-89`): a link whose id is taken is dropped. -/
def insertLk (env : Env) (p : Nat) (q : Prog) (l : Lk) (s : St) : Res × St :=
  if q.links.any (·.id = l.id) then (.alreadyAttached, dropLk env q.wrapper l s)
  else (.linkId l.id, setProg s p { q with links := l :: q.links })

/-- The owned link at position `i` and the state without it. -/
def takeOwned (s : St) (i : Nat) : Option (Lk × Bool × St) :=
  match s.owned[i]? with
  | none => none
  | some (l, w) => some (l, w, { s with owned := s.owned.eraseIdx i })

/-- One operation. Operations on dropped programs do nothing: there is no such value in Rust. -/
def step (env : Env) (s : St) (op : Op) : Res × St :=
  match op with
  /- `load_program` (`/repo/aya/src/programs/mod.rs:705-793`). -/
  | .load p ok =>
      match s.progs[p]? with
      | none => (.noSuchThing, s)
      | some q =>
          if q.dropped then (.noSuchThing, s)
          else if q.fd.isSome then (.alreadyLoaded, s)
          else if !q.hasObj then (.alreadyLoaded, s)
          else if ok then
            (.ok, { setProg s p { q with fd := some s.nextFd } with
              trace := s.trace ++ [.load (some s.nextFd)], nextFd := s.nextFd + 1 })
          else (.loadError, { s with trace := s.trace ++ [.load none] })
  /- The attach functions: `self.fd()?`, the system call, `links.insert` (for instance
     `/repo/aya/src/programs/xdp.rs:135-175`, `/repo/aya/src/programs/sk_msg.rs:87-99`). -/
  | .attach p ok id isFd usesFd reports =>
      match s.progs[p]? with
      | none => (.noSuchThing, s)
      | some q =>
          if q.dropped then (.noSuchThing, s)
          else
            match q.fd with
            | none => (.notLoaded, s)
            | some fd =>
                if !ok then (.syscallError, s)
                else
                  let l : Lk := ⟨s.nextUid, id, isFd, if usesFd then some fd else none, reports⟩
                  insertLk env p q l
                    { s with trace := s.trace ++ [.attach s.nextUid], nextUid := s.nextUid + 1 }
  /- `Links::remove` (`/repo/aya/src/programs/links.rs:91-97`). -/
  | .detach p id =>
      match s.progs[p]? with
      | none => (.noSuchThing, s)
      | some q =>
          if q.dropped then (.noSuchThing, s)
          else
            match q.links.find? (·.id = id) with
            | none => (.notAttached, s)
            | some l =>
                let s := setProg s p { q with links := q.links.erase l }
                let (ok, t) := detachBase env l s.trace
                (if ok then .ok else .detachError, { s with trace := t })
  /- `Links::forget` (`/repo/aya/src/programs/links.rs:99-101`). -/
  | .take p id =>
      match s.progs[p]? with
      | none => (.noSuchThing, s)
      | some q =>
          if q.dropped then (.noSuchThing, s)
          else
            match q.links.find? (·.id = id) with
            | none => (.notAttached, s)
            | some l =>
                let s := setProg s p { q with links := q.links.erase l }
                (.ok, { s with owned := s.owned ++ [(l, q.wrapper)] })
  | .unload p =>
      match s.progs[p]? with
      | none => (.noSuchThing, s)
      | some q => if q.dropped then (.noSuchThing, s) else unload env p q s
  /- `Drop` of a program (`/repo/aya/src/programs/mod.rs:852-856`), then of its fields. -/
  | .dropProgram p =>
      match s.progs[p]? with
      | none => (.noSuchThing, s)
      | some q =>
          if q.dropped then (.noSuchThing, s)
          else
            let s := (unload env p q s).2
            match s.progs[p]? with
            | none => (.ok, s)
            | some q =>
                let t := match q.fd with
                  | some fd => s.trace ++ [.close fd]
                  | none => s.trace
                (.ok, { setProg s p { q with fd := none, dropped := true } with trace := t })
  | .dropLink i =>
      match takeOwned s i with
      | none => (.noSuchThing, s)
      | some (l, w, s) => (.ok, dropLk env w l s)
  /- `Link::detach` of a taken link (`/repo/aya/src/programs/links.rs:534-536`). -/
  | .detachLink i =>
      match takeOwned s i with
      | none => (.noSuchThing, s)
      | some (l, _, s) =>
          let (ok, t) := detachBase env l s.trace
          (if ok then .ok else .detachError, { s with trace := t })
  /- `std::mem::forget` of a taken link. -/
  | .forgetLink i =>
      match takeOwned s i with
      | none => (.noSuchThing, s)
      | some (l, _, s) => (.ok, { s with leaked := l :: s.leaked })
  /- Conversion to an `FdLink` and `FdLink::pin` (`/repo/aya/src/programs/links.rs:289-304`): on failure the
     consumed link is closed. -/
  | .pinLink i ok =>
      match takeOwned s i with
      | none => (.noSuchThing, s)
      | some (l, _, s') =>
          if !l.isFd then (.noSuchThing, s)
          else if ok then (.ok, { s' with pinned := s'.pinned ++ [l] })
          else (.syscallError, { s' with trace := (detachBase env l s'.trace).2 })
  /- `PinnedLink::unpin` (`/repo/aya/src/programs/links.rs:368-371`); if the file cannot be removed the
     attachment stays pinned. -/
  | .unpinLink i ok =>
      match s.pinned[i]? with
      | none => (.noSuchThing, s)
      | some l =>
          if ok then (.ok, { s with pinned := s.pinned.eraseIdx i, owned := s.owned ++ [(l, true)] })
          else (.syscallError, s)
  /- `Xdp::attach_to_link`, `SchedClassifier::attach_to_link` (`/repo/aya/src/programs/xdp.rs:194-241`,
     `/repo/aya/src/programs/tc.rs:321-360`): the link is consumed; if the replacement fails, a link
     descriptor is closed, but the parts of a netlink link are just dropped. -/
  | .attachTo p i ok id =>
      match s.progs[p]?, takeOwned s i with
      | some q, some (l, w, s') =>
          if q.dropped then (.noSuchThing, s)
          else
            match q.fd with
            | none => (.notLoaded, dropLk env w l s')
            | some fd =>
                let s' := { s' with trace := s'.trace ++ [.replace l.uid ok] }
                if ok then
                  let l := if l.isFd then l
                    else { l with id := id, needs := l.needs.map (fun _ => fd) }
                  insertLk env p q l s'
                else if l.isFd then (.syscallError, dropLk env true l s')
                else (.syscallError, { s' with leaked := l :: s'.leaked })
      | _, _ => (.noSuchThing, s)

/-- A history. -/
def run (env : Env) : List Op → St → List Res × St
  | [], s => ([], s)
  | op :: ops, s =>
      let (r, s) := step env s op
      let (rs, s) := run env ops s
      (r :: rs, s)

/-- Programs fresh from an object or a pin, none of them attached. Programs from a pin come with an open
    descriptor. -/
def initSt (kinds : List (Bool × Bool)) : St :=
  { progs := kinds.zipIdx.map fun ((obj, wrapper), i) =>
      { hasObj := obj, fd := if obj then none else some i, links := [], wrapper := wrapper, dropped := false }
    owned := [], pinned := [], leaked := [], trace := [], nextUid := 0, nextFd := kinds.length }

end Verif.Links
