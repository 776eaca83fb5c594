import Verif.Build.Model
/-!
# The streams of cargo

The processes and threads of `/repo/aya-build/src/lib.rs:213-267`: cargo writes lines to two pipes of bounded size and exits, the main
thread reads the first until its end, then waits for cargo and for the other thread, which reads the second pipe until its end.
A pipe holds a number of lines; a thread that fails drops its end, and what is written to it after that is lost.
-/
namespace Verif.Build

/-- A line written by cargo. -/
inductive Write where
  | out (m : Msg)
  | err (l : Option Str)
deriving DecidableEq, Repr

inductive MainPc where
  | reading
  | waiting
  | joining
  | failed
  | panicked
  | done
deriving DecidableEq, Repr

inductive ThreadPc where
  | reading
  | ended
  | panicked
deriving DecidableEq, Repr

structure Sys where
  /-- What cargo will still write, and whether it has exited. -/
  script : List Write
  exited : Bool := false
  outPipe : List Msg := []
  errPipe : List (Option Str) := []
  main : MainPc := .reading
  thread : ThreadPc := .reading
  /-- What the main thread has read, and the lines printed by the other. -/
  msgs : List Msg := []
  lines : List Str := []
deriving DecidableEq, Repr

inductive Step where
  | cargo | main | thread
deriving DecidableEq, Repr

/-- cargo writes its next line, if there is room, or exits. -/
def cargoStep (cap : Nat) (s : Sys) : Option Sys :=
  match s.script with
  | [] => if s.exited then none else some { s with exited := true }
  | .out m :: rest =>
    if s.main = .failed then some { s with script := rest }
    else if s.outPipe.length < cap then some { s with script := rest, outPipe := s.outPipe ++ [m] }
    else none
  | .err l :: rest =>
    if s.thread = .panicked then some { s with script := rest }
    else if s.errPipe.length < cap then some { s with script := rest, errPipe := s.errPipe ++ [l] }
    else none

/-- The main thread (`/repo/aya-build/src/lib.rs:233-267`): at the end of the stream, which is when cargo has exited and `kept` is false,
    it goes on to `wait`, and then to `join`. -/
def mainStep (kept : Bool) (s : Sys) : Option Sys :=
  match s.main with
  | .reading =>
    match s.outPipe with
    | .invalid :: rest => some { s with outPipe := rest, main := .failed }
    | m :: rest => some { s with outPipe := rest, msgs := s.msgs ++ [m] }
    | [] => if s.exited && !kept then some { s with main := .waiting } else none
  | .waiting => if s.exited then some { s with main := .joining } else none
  | .joining =>
    match s.thread with
    | .reading => none
    | .ended => some { s with main := .done }
    | .panicked => some { s with main := .panicked }
  | .failed => none
  | .panicked => none
  | .done => none

/-- The other thread (`/repo/aya-build/src/lib.rs:223-228`). -/
def threadStep (kept : Bool) (s : Sys) : Option Sys :=
  match s.thread with
  | .reading =>
    match s.errPipe with
    | some l :: rest => some { s with errPipe := rest, lines := s.lines ++ [l] }
    | none :: rest => some { s with errPipe := rest, thread := .panicked }
    | [] => if s.exited && !kept then some { s with thread := .ended } else none
  | _ => none

/-- A step of the system. `cap` is the size of the pipes; `kept` says that a process started by cargo lives on and keeps the pipes open. -/
def sysStep (cap : Nat) (kept : Bool) (s : Sys) : Step → Option Sys
  | .cargo => cargoStep cap s
  | .main => mainStep kept s
  | .thread => threadStep kept s

end Verif.Build
