import Verif.Jump.Spec

/-!
# Jump tables: histories of the code on Linux
-/
namespace Verif.Jump
open Spec

/-- What a name stands for in the process. -/
inductive H where
  | prog (fd : Nat)
  | table (d : Data)
deriving DecidableEq, Repr

def H.fd : H → Nat
  | .prog fd => fd
  | .table d => d.fd

structure W where
  k : K := {}
  hs : List (Option H) := []

def W.tableOf (w : W) (h : Nat) : Option Data :=
  match w.hs[h]?.join with
  | some (.table d) => some d
  | _ => none

def W.progOf (w : W) (h : Nat) : Option Nat :=
  match w.hs[h]?.join with
  | some (.prog fd) => some fd
  | _ => none

/-- The descriptors of the tables a program uses, as the relocated code has them. -/
def W.fdsOf (w : W) : List Nat → Option (List Nat)
  | [] => some []
  | h :: rest =>
      match w.tableOf h, w.fdsOf rest with
      | some d, some fds => some (d.fd :: fds)
      | _, _ => none

/-- The outcome of something that makes a new name. -/
def W.fresh (w : W) : Except Error H × K → W × Res
  | (.ok x, k) => ({ k := k, hs := w.hs ++ [some x] }, .done)
  | (.error e, k) => ({ w with k := k }, .failed e)

def W.told (w : W) : Except Error Unit × K → W × Res
  | (.ok (), k) => ({ w with k := k }, .done)
  | (.error e, k) => ({ w with k := k }, .failed e)

/-- A program at work on Linux does the next thing; a tail call is that of the library. -/
def advance (eager : Bool) (m : M) (w : Work) : Option Work :=
  match w.rest with
  | [] => none
  | .emit n :: rest => some { w with rest := rest, seen := w.seen ++ [(w.prog, w.ctx, n)] }
  | .jump k index :: rest =>
      match (m.progs[w.prog]?).bind fun P => P.uses[k]? with
      | none => some { w with rest := rest }
      | some t =>
          let go := tailCall (fun ctx t i => (ctx, helper eager m w.jumps t i)) t w.ctx index
          match go with
          | (ctx, some p, jumps) => (m.progs[p]?).map fun P => { w with prog := p, ctx := ctx, rest := P.body ctx, jumps := jumps }
          | (_, none, jumps) => some { w with rest := rest, jumps := jumps }

/-- One step: the code on Linux. -/
def wstep (eager : Bool) (fresh : (Nat → Option Obj) → Option Nat) (w : W) (op : Op) (fault : Option Nat) : W × Res :=
  let S := sys fresh fault
  match op with
  | .create max =>
      match create S max.toNat w.k with
      | (r, k) => w.fresh (r.map .table, k)
  | .load kind uses body =>
      match w.fdsOf uses with
      | none => (w, .nothing)
      | some fds =>
          match load S kind fds body w.k with
          | (r, k) => w.fresh (r.map .prog, k)
  | .clone h =>
      match w.progOf h with
      | none => (w, .nothing)
      | some fd =>
          match tryClone S fd w.k with
          | (r, k) => w.fresh (r.map .prog, k)
  | .set h index p flags =>
      match w.tableOf h, w.progOf p with
      | some d, some fd => w.told (set S d index fd flags w.k)
      | _, _ => (w, .nothing)
  | .clear h index =>
      match w.tableOf h with
      | some d => w.told (clearIndex S d index w.k)
      | none => (w, .nothing)
  | .indices h n =>
      match w.tableOf h with
      | some d => (w, .list (indices S d n none w.k))
      | none => (w, .nothing)
  | .pin h =>
      match w.tableOf h with
      | some d => w.told (pin S d w.k)
      | none => (w, .nothing)
  | .fromPin path =>
      match fromPin S path w.k with
      | (r, k) => w.fresh (r.map .table, k)
  | .unlink path =>
      match w.k.m.pins[path]?.join with
      | none => (w, .nothing)
      | some t => ({ w with k := ({ w.k with m := { w.k.m with pins := w.k.m.pins.set path none } } : K).putUser t }, .done)
  | .drop h =>
      match w.hs[h]?.join with
      | none => (w, .nothing)
      | some x => ({ k := S.close x.fd w.k, hs := w.hs.set h none }, .done)
  | .attach h =>
      match w.progOf h with
      | none => (w, .nothing)
      | some fd =>
          match w.k.fds fd with
          | some (.prog p) => ({ w with k := { w.k with m := { w.k.m with attached := w.k.m.attached ++ [p] } } }, .done)
          | _ => (w, .nothing)
  | .fire n ctx =>
      match (w.k.m.attached[n]?).bind fun p => (w.k.m.progs[p]?).map fun P => (p, P) with
      | none => (w, .nothing)
      | some (p, P) =>
          ({ w with k := { w.k with m := { w.k.m with works := w.k.m.works ++ [{ prog := p, ctx := ctx, rest := P.body ctx }] } } }, .done)
  | .advance n =>
      match (w.k.m.works[n]?).bind (advance eager w.k.m) with
      | none => (w, .nothing)
      | some x => ({ w with k := { w.k with m := { w.k.m with works := w.k.m.works.set n x } } }, .done)

/-- All steps, and what the caller sees. -/
def wrun (eager : Bool) (fresh : (Nat → Option Obj) → Option Nat) : W → List (Op × Option Nat) → W × List Res
  | w, [] => (w, [])
  | w, (op, f) :: ops =>
      ((wrun eager fresh (wstep eager fresh w op f).1 ops).1,
        (wstep eager fresh w op f).2 :: (wrun eager fresh (wstep eager fresh w op f).1 ops).2)

/-- Whether there was a free descriptor, at each step. -/
def rooms (eager : Bool) (fresh : (Nat → Option Obj) → Option Nat) : W → List (Op × Option Nat) → List Bool
  | _, [] => []
  | w, (op, f) :: ops => (fresh w.k.fds).isSome :: rooms eager fresh (wstep eager fresh w op f).1 ops

/-- What is promised, over a history. -/
def Spec.run (eager : Bool) : A → List (Op × Option Nat) → List Bool → A × List Res
  | a, (op, f) :: ops, r :: rs =>
      ((Spec.run eager (Spec.step eager a op f r).1 ops rs).1,
        (Spec.step eager a op f r).2 :: (Spec.run eager (Spec.step eager a op f r).1 ops rs).2)
  | a, _, _ => (a, [])

end Verif.Jump
