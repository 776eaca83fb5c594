import Verif.Socks.Spec

/-!
# Socket maps: histories of the code on Linux
-/
namespace Verif.Socks
open Spec

/-- What a name stands for in the process. -/
inductive H where
  | map (kind : Kind) (d : Data)
  | sock (fd : Nat)
deriving DecidableEq, Repr

def H.fd : H → Nat
  | .map _ d => d.fd
  | .sock fd => fd

structure W where
  k : K := {}
  hs : List (Option H) := []

def W.sockOf (w : W) (h : Nat) : Option Nat :=
  match w.hs[h]?.join with
  | some (.sock fd) => some fd
  | _ => none

def W.mapOf (w : W) (h : Nat) : Option (Kind × Data) :=
  match w.hs[h]?.join with
  | some (.map kind d) => some (kind, d)
  | _ => none

def W.result (w : W) : Except Error Unit × K → W × Res
  | (.ok (), k) => ({ w with k := k }, .done)
  | (.error e, k) => ({ w with k := k }, .failed e)

/-- The state of a program at work for a socket. -/
def W.work (w : W) (n : Nat) : Work := { net := w.k.net, own := n, packet := { kind := .odd } }

def W.told (w : W) : Except Int Unit × Work → W × Res
  | (r, x) => ({ w with k := { w.k with net := x.net } }, .told r)

/-- One step: the code on Linux. -/
def wstep (fresh : (Nat → Option Obj) → Option Nat) (w : W) (op : Op) (fault : Option Nat) : W × Res :=
  let S := sys fresh fault
  match op with
  | .map kind max =>
      match create S kind max.toNat w.k with
      | (.ok d, k) => ({ k := k, hs := w.hs ++ [some (.map kind d)] }, .done)
      | (.error e, k) => ({ w with k := k }, .failed e)
  | .socket s =>
      match fresh w.k.fds with
      | none => (w, .nothing)
      | some fd =>
          ({ k := (({ w.k with net := { w.k.net with socks := w.k.net.socks ++ [s] } } : K).openFd fd (.sock w.k.net.socks.length)).ref
               w.k.net.socks.length,
             hs := w.hs ++ [some (.sock fd)] }, .done)
  | .clone h =>
      match w.sockOf h with
      | none => (w, .nothing)
      | some fd =>
          match w.k.fds fd, fresh w.k.fds with
          | some (.sock n), some fd' =>
              ({ k := (w.k.openFd fd' (.sock n)).ref n, hs := w.hs ++ [some (.sock fd')] }, .done)
          | _, _ => (w, .nothing)
  | .drop h =>
      match w.hs[h]?.join with
      | none => (w, .nothing)
      | some x => ({ k := S.close x.fd w.k, hs := w.hs.set h none }, .done)
  | .connect h s =>
      match (w.sockOf h).bind w.k.fds with
      | some (.sock n) => ({ w with k := { w.k with net := w.k.net.connect n s } }, .done)
      | _ => (w, .nothing)
  | .disconnect h =>
      match (w.sockOf h).bind w.k.fds with
      | some (.sock n) => ({ w with k := { w.k with net := w.k.net.disconnect n } }, .done)
      | _ => (w, .nothing)
  | .set m index s flags =>
      match w.mapOf m, w.sockOf s with
      | some (.array, d), some fd => w.result (sockMapSet S d index fd flags w.k)
      | some (.reuse, d), some fd => w.result (reuseSet S d index fd flags w.k)
      | _, _ => (w, .nothing)
  | .clear m index =>
      match w.mapOf m with
      | some (.array, d) => w.result (sockMapClear S d index w.k)
      | some (.reuse, d) => w.result (reuseClear S d index w.k)
      | _ => (w, .nothing)
  | .insert m key s flags =>
      match w.mapOf m, w.sockOf s with
      | some (.hash, d), some fd => w.result (sockHashInsert S d key fd flags w.k)
      | _, _ => (w, .nothing)
  | .insertOwned m key s flags =>
      match w.mapOf m, w.sockOf s with
      | some (.hash, d), some fd => ({ w with hs := w.hs.set s none } : W).result (sockHashInsertOwned S d key fd flags w.k)
      | _, _ => (w, .nothing)
  | .remove m key =>
      match w.mapOf m with
      | some (.hash, d) => w.result (sockHashRemove S d key w.k)
      | _ => (w, .nothing)
  | .update m index n flags =>
      if w.k.refs n = 0 then (w, .nothing) else w.told (progMapUpdate (helpers fault) m index flags (w.work n))
  | .updateHash m key n flags =>
      if w.k.refs n = 0 then (w, .nothing) else w.told (progHashUpdate (helpers fault) m key flags (w.work n))

/-- All steps, and what the caller sees. -/
def wrun (fresh : (Nat → Option Obj) → Option Nat) : W → List (Op × Option Nat) → W × List Res
  | w, [] => (w, [])
  | w, (op, f) :: ops =>
      ((wrun fresh (wstep fresh w op f).1 ops).1, (wstep fresh w op f).2 :: (wrun fresh (wstep fresh w op f).1 ops).2)

/-- Whether there was a free descriptor, at each step. -/
def rooms (fresh : (Nat → Option Obj) → Option Nat) : W → List (Op × Option Nat) → List Bool
  | _, [] => []
  | w, (op, f) :: ops => (fresh w.k.fds).isSome :: rooms fresh (wstep fresh w op f).1 ops

/-- What is promised, over a history. -/
def Spec.run : A → List (Op × Option Nat) → List Bool → A × List Res
  | a, (op, f) :: ops, r :: rs =>
      ((Spec.run (Spec.step a op f r).1 ops rs).1, (Spec.step a op f r).2 :: (Spec.run (Spec.step a op f r).1 ops rs).2)
  | a, _, _ => (a, [])

end Verif.Socks
