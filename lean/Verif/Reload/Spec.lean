import Verif.Reload.Model
/-!
# The kernel, and many processes

Maps are numbered in the order in which they are created, and descriptors are the numbers of their maps. Maps that nobody refers to are not removed,
which nobody can see. New maps have zeros in them. A frozen map cannot be written by system calls.
-/
namespace Verif.Reload

structure KMap where
  size : Nat
  content : List UInt8
  frozen : Bool
  /-- The process that has created it. -/
  owner : Nat
deriving DecidableEq, Repr

structure Kernel where
  maps : List KMap
  pins : List (Path × Nat)
deriving DecidableEq, Repr

/-- `ENOENT` is 2, `EEXIST` 17, `EBADF` 9, `EPERM` 1, `EBUSY` 16. -/
def Kernel.act (p : Nat) (k : Kernel) : Call → Except Nat Nat × Kernel
  | .get path =>
    match k.pins.find? (fun x => x.1 == path) with
    | some x => (.ok x.2, k)
    | none => (.error 2, k)
  | .create size _ => (.ok k.maps.length, { k with maps := k.maps ++ [⟨size, List.replicate size 0, false, p⟩] })
  | .pin fd path =>
    if k.pins.any (fun x => x.1 == path) then (.error 17, k)
    else if fd < k.maps.length then (.ok 0, { k with pins := (path, fd) :: k.pins })
    else (.error 9, k)
  | .update fd v =>
    match k.maps[fd]? with
    | some m => if m.frozen then (.error 1, k) else (.ok 0, { k with maps := k.maps.set fd { m with content := v } })
    | none => (.error 9, k)
  | .freeze fd =>
    match k.maps[fd]? with
    | some m => if m.frozen then (.error 16, k) else (.ok 0, { k with maps := k.maps.set fd { m with frozen := true } })
    | none => (.error 9, k)

/-- What happens: a process is started to load an object, makes its next call, makes it in vain with an error number, is ended, or somebody who has the map
    (a process, or a program in the kernel) writes to it. -/
inductive Ev where
  | start (p : Nat) (ms : List MapDef)
  | step (p : Nat)
  | fail (p : Nat) (errno : Nat)
  | kill (p : Nat)
  | write (id : Nat) (v : List UInt8)

/-- Processes: how far they are. -/
inductive Proc where
  | new
  | runs (ms : List MapDef) (x : P (Except Err (List Fd)))
  | dead

structure World where
  k : Kernel
  procs : Nat → Proc

def World.set (w : World) (p : Nat) (x : Proc) (k : Kernel) : World := ⟨k, fun q => if q = p then x else w.procs q⟩

def Kernel.write (k : Kernel) (id : Nat) (v : List UInt8) : Kernel :=
  match k.maps[id]? with
  | some m => if m.frozen then k else { k with maps := k.maps.set id { m with content := v } }
  | none => k

def World.ev (w : World) : Ev → World
  | .start p ms => match w.procs p with | .new => w.set p (.runs ms (loadAll ms)) w.k | _ => w
  | .step p => match w.procs p with | .runs ms (.call c f) => w.set p (.runs ms (f (w.k.act p c).1)) (w.k.act p c).2 | _ => w
  | .fail p e => match w.procs p with | .runs ms (.call _ f) => w.set p (.runs ms (f (.error e))) w.k | _ => w
  | .kill p => w.set p .dead w.k
  | .write id v => { w with k := w.k.write id v }

def World.evs (w : World) (es : List Ev) : World := es.foldl World.ev w

/-- Before anything has been loaded. -/
def World.empty : World := ⟨⟨[], []⟩, fun _ => .new⟩

/-- Maps that loading fills or freezes: data sections. -/
def MapDef.section (m : MapDef) : Bool := !m.data.isEmpty || m.rodata

/-- A process that runs alone. -/
def P.run {α : Type} (p : Nat) : P α → Kernel → α × Kernel
  | .ret a, k => (a, k)
  | .call c f, k => (f (k.act p c).1).run p (k.act p c).2

/-- The last of the writes to a map. -/
def lastWrite (id : Nat) (v : List UInt8) : List Ev → List UInt8
  | [] => v
  | .write i x :: es => if i = id then lastWrite id x es else lastWrite id v es
  | _ :: es => lastWrite id v es

end Verif.Reload
