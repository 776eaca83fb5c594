import Verif.Exit.Model
/-!
# The kernel, and the end of the process

Links live while a descriptor or a pin refers to them, perf events while a descriptor does. Programs attached without a link, and
entries of probes, stay until they are removed. When a process ends, its descriptors are closed; those of the programs that it started
are not. These got the descriptors that are not to be closed on `exec`.
-/
namespace Verif.Exit

inductive Obj where
  | link (id : Nat)
  | perf (id : Nat)
deriving DecidableEq, Repr

structure File where
  fd : Fd
  obj : Obj
  cloexec : Bool
deriving DecidableEq, Repr

/-- Links have a place and a program, perf events a place, possibly a program, and are counting or not. -/
structure World where
  files : List File
  /-- Open in programs that were started. -/
  children : List Obj
  pins : List (Path × Nat)
  link : Nat → Hook × Prog
  perf : Nat → Hook × Option Prog × Bool
  /-- Programs attached without a link. -/
  hooks : List (Hook × Prog)
  /-- Entries in `kprobe_events` and `uprobe_events`. -/
  probes : List Hook
  next : Nat

/-- An object that somebody refers to. -/
def World.open (w : World) (o : Obj) : Prop := (∃ f ∈ w.files, f.obj = o) ∨ o ∈ w.children

/-- Program `p` runs at place `h`. -/
def World.runs (w : World) (h : Hook) (p : Prog) : Prop :=
  (h, p) ∈ w.hooks ∨
  (∃ id, (w.open (.link id) ∨ ∃ path, (path, id) ∈ w.pins) ∧ w.link id = (h, p)) ∨
  (∃ id, w.open (.perf id) ∧ w.perf id = (h, some p, true))

/-- Program `p` runs at place `h` by a link that is pinned. -/
def World.runsPinned (w : World) (h : Hook) (p : Prog) : Prop := ∃ path id, (path, id) ∈ w.pins ∧ w.link id = (h, p)

/-- The process is no more. -/
def World.ended (w : World) : World := { w with files := [] }

/-- Which calls fail, and before which call the process ends. -/
structure Fate where
  fail : Nat → Option Nat
  ends : Nat

/-- A descriptor, if it is open. -/
def World.file (w : World) (fd : Fd) : Option File := w.files.find? (fun f => f.fd == fd)

/-- A new object with a new descriptor; numbers are not used again. -/
def World.opened (w : World) (o : Obj) (cloexec : Bool) : World :=
  { w with files := ⟨w.next, o, cloexec⟩ :: w.files, next := w.next + 1 }

def setAt {β : Type} (g : Nat → β) (i : Nat) (b : β) : Nat → β := fun j => if j = i then b else g j

/-- What a call does that does not fail. `EBADF` is 9, `ENOENT` 2, `EEXIST` 17. Descriptors of links are closed on `exec`. -/
def World.act (w : World) : Call → Except Nat Nat × World
  | .linkCreate (.hook h) p => (.ok w.next, { w with link := setAt w.link w.next (h, p) }.opened (.link w.next) true)
  | .linkCreate (.perf fd) p =>
    match w.file fd with
    | some ⟨_, .perf i, _⟩ => (.ok w.next, { w with link := setAt w.link w.next ((w.perf i).1, p) }.opened (.link w.next) true)
    | _ => (.error 9, w)
  | .rawOpen h p => (.ok w.next, { w with link := setAt w.link w.next (h, p) }.opened (.link w.next) true)
  | .linkUpdate fd p =>
    match w.file fd with
    | some ⟨_, .link i, _⟩ => (.ok 0, { w with link := setAt w.link i ((w.link i).1, p) })
    | _ => (.error 9, w)
  | .progAttach h p => (.ok 0, { w with hooks := (h, p) :: w.hooks })
  | .progDetach h p => (.ok 0, { w with hooks := w.hooks.erase (h, p) })
  | .netlinkSet h p => (.ok 0, { w with hooks := (h, p) :: w.hooks.filter (fun x => x.1 != h) })
  | .netlinkClear h => (.ok 0, { w with hooks := w.hooks.filter (fun x => x.1 != h) })
  | .perfOpen h cl => (.ok w.next, { w with perf := setAt w.perf w.next (h, none, true) }.opened (.perf w.next) cl)
  | .setBpf fd p =>
    match w.file fd with
    | some ⟨_, .perf i, _⟩ => (.ok 0, { w with perf := setAt w.perf i ((w.perf i).1, some p, (w.perf i).2.2) })
    | _ => (.error 9, w)
  | .enable fd =>
    match w.file fd with
    | some ⟨_, .perf i, _⟩ => (.ok 0, { w with perf := setAt w.perf i ((w.perf i).1, (w.perf i).2.1, true) })
    | _ => (.error 9, w)
  | .disable fd =>
    match w.file fd with
    | some ⟨_, .perf i, _⟩ => (.ok 0, { w with perf := setAt w.perf i ((w.perf i).1, (w.perf i).2.1, false) })
    | _ => (.error 9, w)
  | .writeProbe h => (.ok 0, { w with probes := h :: w.probes })
  | .deleteProbe h => (.ok 0, { w with probes := w.probes.erase h })
  | .close fd => (.ok 0, { w with files := w.files.filter (fun f => f.fd != fd) })
  | .pin fd path =>
    if w.pins.any (fun x => x.1 == path) then (.error 17, w)
    else
      match w.file fd with
      | some ⟨_, .link i, _⟩ => (.ok 0, { w with pins := (path, i) :: w.pins })
      | _ => (.error 9, w)
  | .objGet path =>
    match w.pins.find? (fun x => x.1 == path) with
    | some (_, i) => (.ok w.next, w.opened (.link i) true)
    | none => (.error 2, w)
  | .unlink path => (.ok 0, { w with pins := w.pins.filter (fun x => x.1 != path) })
  | .spawn => (.ok 0, { w with children := (w.files.filter (fun f => !f.cloexec)).map (·.obj) ++ w.children })

/-- Closing a descriptor works also when it fails. -/
def Call.sure : Call → Bool
  | .close _ => true
  | _ => false

/-- The world, and how many calls the process has made. -/
structure Run where
  w : World
  calls : Nat

/-- The system, of a process with a fate. -/
def Fate.sys (φ : Fate) : Sys Run where
  call c r :=
    if φ.ends ≤ r.calls then (none, r)
    else
      match φ.fail r.calls with
      | some e => (some (.error e), ⟨if c.sure then (r.w.act c).2 else r.w, r.calls + 1⟩)
      | none => (some (r.w.act c).1, ⟨(r.w.act c).2, r.calls + 1⟩)

/-- Before the process has done anything: it has no descriptors of links or perf events, and started nothing. -/
structure World.Fresh (w : World) : Prop where
  files : w.files = []
  children : w.children = []
  pins : ∀ x ∈ w.pins, x.2 < w.next

/-- The families whose programs are attached without links on such a kernel, or may be. -/
def Kind.noLink (f : Features) : Kind → Bool
  | .cgroup => !f.v57
  | .sockMap | .lirc | .tcNetlink | .xdp => true
  | .tc custom => custom || !f.v66
  | _ => false

/-- The families whose programs are attached without links on all kernels. -/
def Kind.neverLink : Kind → Bool
  | .sockMap | .lirc | .tcNetlink | .tc true => true
  | _ => false

/-- Kernels from 6.6 on. -/
def Features.modern : Features := ⟨true, true, true, true⟩

end Verif.Exit
