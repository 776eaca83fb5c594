import Verif.Stats.Model
/-!
# The kernel that counts runs

Statistics are enabled while somebody holds a descriptor of them. When a run of a program begins, the kernel looks whether they are; if so, the
run is counted when it ends, on the processor it ran on, with the time it took. The numbers of all processors are added up when a
program is asked for its information, one after the other, while programs go on running.

The kernel of the specification also writes down all runs that ended, and when the process made its calls. Moments are numbered; more than one
moment may have the same time. Counters do not overflow.
-/
namespace Verif.Stats

/-- A run that has ended: moments and times of its beginning and end, and whether statistics were enabled when it began. -/
structure Done where
  prog : Prog
  cpu : Nat
  began : Nat
  ended : Nat
  since : Nat
  till : Nat
  counted : Bool
deriving DecidableEq, Repr

structure Busy where
  prog : Prog
  cpu : Nat
  began : Nat
  since : Nat
  counted : Bool
deriving DecidableEq, Repr

/-- The calls of the process: enabling and releasing at a moment, asking between two moments. -/
inductive Did where
  | enabled (at_ : Nat)
  | asked (p : Prog) (a b : Nat)
  | released (at_ : Nat)
deriving DecidableEq, Repr

structure Kernel where
  cpus : Nat
  moment : Nat
  now : Nat
  /-- Descriptors of statistics that the process has. -/
  mine : List Fd
  /-- How many others have. -/
  others : Nat
  busy : List Busy
  done : List Done
  cnt : Prog → Nat → Nat
  ns : Prog → Nat → Nat
  did : List Did
  next : Fd

def Kernel.enabled (k : Kernel) : Bool := !k.mine.isEmpty || k.others != 0

/-- What others do, and that time goes by. Runs are named by their place among those that have not ended. -/
inductive Act where
  | pass (d : Nat)
  | start (p : Prog) (cpu : Nat)
  | stop (i : Nat)
  | enable
  | disable
deriving DecidableEq, Repr

def bump (g : Prog → Nat → Nat) (p : Prog) (c : Nat) (x : Nat) : Prog → Nat → Nat :=
  fun p' c' => if p' = p ∧ c' = c then g p' c' + x else g p' c'

/-- The end of a run. -/
def Kernel.finish (k : Kernel) (i : Nat) (b : Busy) : Kernel :=
  { k with
    busy := k.busy.eraseIdx i
    done := ⟨b.prog, b.cpu, b.began, k.moment, b.since, k.now, b.counted⟩ :: k.done
    cnt := if b.counted then bump k.cnt b.prog b.cpu 1 else k.cnt
    ns := if b.counted then bump k.ns b.prog b.cpu (k.now - b.since) else k.ns
    moment := k.moment + 1 }

def Kernel.act (k : Kernel) : Act → Kernel
  | .pass d => { k with now := k.now + d, moment := k.moment + 1 }
  | .start p c => if c < k.cpus then { k with busy := ⟨p, c, k.moment, k.now, k.enabled⟩ :: k.busy, moment := k.moment + 1 } else k
  | .stop i =>
    match k.busy[i]? with
    | some b => k.finish i b
    | none => k
  | .enable => { k with others := k.others + 1, moment := k.moment + 1 }
  | .disable => { k with others := k.others - 1, moment := k.moment + 1 }

/-- The kernel, what others will do before each of the next steps of the process and of the kernel for it, and which of the next calls fail. -/
structure World where
  k : Kernel
  script : List (List Act)
  fails : List (Option Nat)

/-- Others are at work. -/
def World.pause (w : World) : World :=
  match w.script with
  | [] => w
  | as :: rest => { w with k := as.foldl Kernel.act w.k, script := rest }

/-- Whether the next call fails. -/
def World.failing (w : World) : Option Nat × World :=
  match w.fails with
  | [] => (none, w)
  | f :: rest => (f, { w with fails := rest })

/-- The numbers of one processor after the other. -/
def readCpus (p : Prog) : List Nat → World → (Nat × Nat) × World
  | [], w => ((0, 0), w)
  | c :: cs, w =>
    let w := w.pause
    let x := (w.k.cnt p c, w.k.ns p c)
    let (y, w) := readCpus p cs w
    ((x.1 + y.1, x.2 + y.2), w)

def World.sys : Sys World where
  enable type w :=
    match w.pause.failing with
    | (some e, w) => (.error e, w)
    | (none, w) =>
      if type = 0 then
        (.ok w.k.next, { w with k := { w.k with mine := w.k.next :: w.k.mine, next := w.k.next + 1, moment := w.k.moment + 1,
                                                did := w.k.did ++ [.enabled w.k.moment] } })
      else (.error 22, w)
  info p w :=
    match w.pause.failing with
    | (some e, w) => (.error e, w)
    | (none, w) =>
      let a := w.k.moment
      let (x, w) := readCpus p (List.range w.k.cpus) w
      (.ok ⟨x.2, x.1⟩, { w with k := { w.k with did := w.k.did ++ [.asked p a w.k.moment] } })
  close fd w :=
    let w := w.pause
    { w with k := { w.k with mine := w.k.mine.erase fd, moment := w.k.moment + 1, did := w.k.did ++ [.released w.k.moment] } }

/-- The runs that a condition picks, added up. -/
def tally (weight : Done → Nat) (q : Done → Bool) (l : List Done) : Nat := ((l.filter q).map weight).sum

/-- Count of runs, and time they took. -/
def one : Done → Nat := fun _ => 1
def took : Done → Nat := fun d => d.till - d.since

/-- Nothing was counted yet, and nobody holds anything for the process. -/
structure Kernel.Fresh (k : Kernel) : Prop where
  mine : k.mine = []
  busy : k.busy = []
  done : k.done = []
  cnt : ∀ p c, k.cnt p c = 0
  ns : ∀ p c, k.ns p c = 0
  did : k.did = []

end Verif.Stats
