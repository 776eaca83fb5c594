import Verif.Mapped.Spec

/-!
# Memory shared with the kernel: histories of the code on Linux
-/
namespace Verif.Mapped
open Spec

inductive H where
  | map (d : Data)
  | ring (r : Ring)
  | perf (b : Perf)
deriving DecidableEq, Repr

structure W where
  k : K
  hs : List (Option H) := []

def W.at_ (w : W) (h : Nat) : Option H := w.hs[h]?.join

/-- A page, where things are placed, which descriptors are given: the parts of the system that do not change. -/
structure Env where
  page : Nat
  place : (Nat → Option Bool) → Nat → Option Nat
  fresh : (Nat → Option Obj) → Option Nat

def W.put (w : W) (h : Nat) (x : H) (k : K) : W := { k := k, hs := w.hs.set h (some x) }

/-- One step: the code on Linux. -/
noncomputable def wstep (E : Env) (w : W) (op : Op) (fault : Call → Option Nat) : W × Res :=
  let S := sys E.page E.place E.fresh fault
  match op with
  | .map size believed =>
      match E.fresh w.k.fds with
      | none => (w, .nothing)
      | some fd =>
          ({ k := { w.k with fds := fun x => if x = fd then some (.ring size.toNat) else w.k.fds x },
             hs := w.hs ++ [some (.map ⟨fd, believed.toNat⟩)] }, .done)
  | .ring h owned pos produced =>
      match w.at_ h with
      | some (.map d) =>
          match Ring.new S E.page owned d pos produced w.k with
          | (.ok r, k) => ({ k := k, hs := (if owned then w.hs.set h none else w.hs) ++ [some (.ring r)] }, .done)
          | (.error e, k) => ({ k := k, hs := if owned then w.hs.set h none else w.hs }, .failed e)
      | _ => (w, .nothing)
  | .next h turns =>
      match w.at_ h with
      | some (.ring r) =>
          if r.item.isSome then (w, .nothing)
          else
            match Ring.next S turns r w.k with
            | (g, r, k) => (w.put h (.ring r) k, .got g)
      | _ => (w, .nothing)
  | .release h =>
      match w.at_ h with
      | some (.ring r) =>
          match r.release S w.k with
          | some (r, k) => (w.put h (.ring r) k, .done)
          | none => (w, .nothing)
      | _ => (w, .nothing)
  | .perf array index pages =>
      match arrayOpen S array index E.page pages.toNat w.k with
      | (.ok b, k) => ({ k := k, hs := w.hs ++ [some (.perf b)] }, .done)
      | (.error e, k) => ({ w with k := k }, .failed e)
  | .fold h head tail records =>
      match w.at_ h with
      | some (.perf b) =>
          match b.fold S head tail records w.k with
          | (panics, k) => ({ w with k := k }, if panics then .panicked else .done)
      | _ => (w, .nothing)
  | .drop h =>
      match w.at_ h with
      | some (.map d) => ({ k := S.close d.fd w.k, hs := w.hs.set h none }, .done)
      | some (.ring r) => if r.item.isSome then (w, .nothing) else ({ k := r.drop S w.k, hs := w.hs.set h none }, .done)
      | some (.perf b) => ({ k := b.drop S w.k, hs := w.hs.set h none }, .done)
      | none => (w, .nothing)

/-- The size of a perf buffer. -/
def W.size (w : W) (h : Nat) : Nat :=
  match w.at_ h with
  | some (.perf b) => b.size
  | _ => 0

/-- The states that can be reached from a process with any memory and descriptors, the kernel keeping its promises. -/
inductive Reached (E : Env) (k0 : K) : W → Prop where
  | init : Reached E k0 { k := k0 }
  | step (w : W) (op : Op) (fault : Call → Option Nat) (h : Reached E k0 w) (hs : Sound w.size op) :
      Reached E k0 (wstep E w op fault).1

end Verif.Mapped
