import Verif.SockFilter.Spec

/-!
# Programs attached by socket options: histories of the code on Linux
-/
namespace Verif.SockFilter
open Spec

/-- What a name stands for in the process: a program, or the descriptor of a socket or file owned by the caller. -/
inductive H where
  | prog (p : Prog)
  | own (fd : Nat)
deriving DecidableEq, Repr

structure W where
  k : K := {}
  hs : Nat → Option H := fun _ => none

def W.set (w : W) (h : Nat) (x : Option H) : W := { w with hs := fun n => if n = h then x else w.hs n }

/-- The socket a name stands for. -/
def W.sockOf (w : W) (h : Nat) : Option Nat :=
  match w.hs h with
  | some (.own fd) =>
      match w.k.fds fd with
      | some (.sock n) => some n
      | _ => none
  | _ => none

/-- The kernel program the program of a name is loaded as. -/
def W.progOf (w : W) (h : Nat) : Option Nat :=
  match w.hs h with
  | some (.prog ⟨_, some fd⟩) =>
      match w.k.fds fd with
      | some (.prog o) => some o
      | _ => none
  | _ => none

def res : Except Error Unit → Res
  | .ok () => .done
  | .error e => .failed e

/-- One step: the code on Linux. -/
def wstep (fresh : (Nat → Option Obj) → Option Nat) (w : W) (op : Op) (fault : Option Nat) : W × Res :=
  match op with
  | .program h v =>
      match w.hs h with
      | none => (w.set h (some (.prog ⟨v, none⟩)), .done)
      | some _ => (w, .nothing)
  | .load h =>
      match w.hs h with
      | some (.prog p) =>
          match load (sys fresh fault) p w.k with
          | (r, p, k) => (({ w with k := k }).set h (some (.prog p)), res r)
      | _ => (w, .nothing)
  | .unload h =>
      match w.hs h with
      | some (.prog p) =>
          match unload (sys fresh fault) p w.k with
          | (r, p, k) => (({ w with k := k }).set h (some (.prog p)), res r)
      | _ => (w, .nothing)
  | .drop h =>
      match w.hs h with
      | some (.prog p) => (({ w with k := drop (sys fresh fault) p w.k }).set h none, .done)
      | some (.own fd) => (({ w with k := w.k.closeFd fd }).set h none, .done)
      | none => (w, .nothing)
  | .socket h inet =>
      match w.hs h, fresh w.k.fds with
      | none, some fd =>
          (({ w with
              k := ({ w.k with net := { w.k.net with socks := w.k.net.socks ++ [({ inet := inet } : Sock)] } }).openFd fd
                (.sock w.k.net.socks.length) }).set h (some (.own fd)), .done)
      | _, _ => (w, .nothing)
  | .file h =>
      match w.hs h, fresh w.k.fds with
      | none, some fd => (({ w with k := w.k.openFd fd .file }).set h (some (.own fd)), .done)
      | _, _ => (w, .nothing)
  | .attach h v s =>
      match w.hs h, w.hs s with
      | some (.prog p), some (.own fd) =>
          match attachAs (sys fresh fault) v p fd w.k with
          | (r, k) => ({ w with k := k }, res r)
      | _, _ => (w, .nothing)
  | .detach v s =>
      match w.hs s with
      | some (.own fd) =>
          match detachAs (sys fresh fault) v fd w.k with
          | (r, k) => ({ w with k := k }, res r)
      | _ => (w, .nothing)
  | op =>
      match w.k.net.env w.sockOf op with
      | some net => ({ w with k := { w.k with net := net } }, .done)
      | none => (w, .nothing)

/-- All steps, and what the caller sees. -/
def wrun (fresh : (Nat → Option Obj) → Option Nat) : W → List (Op × Option Nat) → W × List Res
  | w, [] => (w, [])
  | w, (op, f) :: ops =>
      ((wrun fresh (wstep fresh w op f).1 ops).1, (wstep fresh w op f).2 :: (wrun fresh (wstep fresh w op f).1 ops).2)

/-- Whether there was a free descriptor, at each step. -/
def rooms (fresh : (Nat → Option Obj) → Option Nat) : W → List (Op × Option Nat) → List Bool
  | _, [] => []
  | w, (op, f) :: ops => (fresh w.k.fds).isSome :: rooms fresh (wstep fresh w op f).1 ops

/-- What is promised, over a history. -/
def Spec.run : A → List (Op × Option Nat) → List Bool → A × List Res
  | a, (op, f) :: ops, r :: rs =>
      ((Spec.run (Spec.step a op f r).1 ops rs).1, (Spec.step a op f r).2 :: (Spec.run (Spec.step a op f r).1 ops rs).2)
  | a, _, _ => (a, [])

end Verif.SockFilter
