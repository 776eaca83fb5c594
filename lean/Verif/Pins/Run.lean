import Verif.Pins.Spec

/-!
# Pinning: histories on the code

The functions of `Model.lean`, applied to the handles of a process on the system of `Spec.lean`, one after
another.
-/
namespace Verif.Pins
open Spec

/-- A handle of the library. -/
inductive RH where
  | prog (p : Prog)
  | map (fd : Nat)
  | link (fd : Nat)
  | pinned (l : Nat × Path)
deriving DecidableEq, Repr

/-- The system and the handles of the process; those that are gone are `none`. -/
structure R where
  k : K := {}
  hs : List (Option RH) := []
deriving DecidableEq, Repr

/-- The call gives a new handle. -/
def R.give (r : R) {α : Type} (x : α → RH) : Except Error α × K → R × Res
  | (.ok y, k) => (⟨k, r.hs ++ [some (x y)]⟩, .handle)
  | (.error e, k) => (⟨k, r.hs⟩, .failed e)

/-- The handle is changed by the call, or taken by it. -/
def R.change (r : R) (h : Nat) (x : Option RH) {α : Type} : Except Error α × K → R × Res
  | (.ok _, k) => (⟨k, r.hs.set h x⟩, .done)
  | (.error e, k) => (⟨k, r.hs.set h x⟩, .failed e)

/-- The call takes the handle and gives another one in its place. -/
def R.turn (r : R) (h : Nat) {α : Type} (x : α → RH) : Except Error α × K → R × Res
  | (.ok y, k) => (⟨k, r.hs.set h (some (x y))⟩, .done)
  | (.error e, k) => (⟨k, r.hs.set h none⟩, .failed e)

/-- Dropping a handle. -/
def RH.drop (S : Sys K) (k : K) : RH → K
  | .prog p => progDrop S p k
  | .map fd => S.close fd k
  | .link fd => S.close fd k
  | .pinned l => S.close l.1 k

/-- What another process does. -/
def elsewherePin (k : K) (p : Path) (ty : Option Nat) : K :=
  match k.files.lookup p with
  | some _ => k
  | none => { k with objs := k.objs ++ [ty.elim .map .prog], files := (p, k.objs.length) :: k.files }

/-- One step. -/
def R.step (fresh : List Nat → Nat) (r : R) (op : Op) (f : Faults) : R × Res :=
  let S := sys fresh f
  match op with
  | .load ty => r.give .prog (progLoad S ty r.k)
  | .progPin h p =>
      match r.hs[h]?.join with
      | some (.prog x) => r.change h (some (.prog (progPin S x p r.k).2.1)) ((progPin S x p r.k).1, (progPin S x p r.k).2.2)
      | _ => (r, .nothing)
  | .progUnpin h =>
      match r.hs[h]?.join with
      | some (.prog x) => r.change h (some (.prog (progUnpin S x r.k).2.1)) ((progUnpin S x r.k).1, (progUnpin S x r.k).2.2)
      | _ => (r, .nothing)
  | .progFromPin _ p => r.give .prog (progFromPin S p r.k)
  | .progFromInfo ty o =>
      match r.k.objs[o]? with
      | some (.prog ty') => r.give .prog (progFromInfo S ty o ty' r.k)
      | _ => (r, .nothing)
  | .unload h =>
      match r.hs[h]?.join with
      | some (.prog x) => r.change h (some (.prog (progUnload S x r.k).2.1)) ((progUnload S x r.k).1, (progUnload S x r.k).2.2)
      | _ => (r, .nothing)
  | .create => r.give .map (mapCreate S r.k)
  | .mapPin h p =>
      match r.hs[h]?.join with
      | some (.map fd) => r.change h (some (.map fd)) (mapPin S fd p r.k)
      | _ => (r, .nothing)
  | .typedPin h p =>
      match r.hs[h]?.join with
      | some (.map fd) => r.change h none (typedPin S fd p r.k)
      | _ => (r, .nothing)
  | .mapFromPin p => r.give .map (mapFromPin S p r.k)
  | .attach h =>
      match r.hs[h]?.join with
      | some (.prog x) => r.give .link (progAttach S x r.k)
      | _ => (r, .nothing)
  | .linkPin h p =>
      match r.hs[h]?.join with
      | some (.link fd) => r.turn h .pinned (linkPin S fd p r.k)
      | _ => (r, .nothing)
  | .linkFromPin p => r.give .pinned (linkFromPin S p r.k)
  | .linkUnpin h =>
      match r.hs[h]?.join with
      | some (.pinned l) => r.turn h .link (linkUnpin S l r.k)
      | _ => (r, .nothing)
  | .into h =>
      match r.hs[h]?.join with
      | some (.pinned l) => (⟨r.k, r.hs.set h (some (.link (intoFdLink l)))⟩, .done)
      | _ => (r, .nothing)
  | .drop h =>
      match r.hs[h]?.join with
      | some x => (⟨x.drop S r.k, r.hs.set h none⟩, .done)
      | none => (r, .nothing)
  | .elsewherePin p ty => (⟨elsewherePin r.k p ty, r.hs⟩, .done)
  | .elsewhereRemove p => (⟨{ r.k with files := r.k.files.filter fun e => e.1 ≠ p }, r.hs⟩, .done)

/-- All steps and what the callers see. -/
def R.run (fresh : List Nat → Nat) : R → List (Op × Faults) → R × List Res
  | r, [] => (r, [])
  | r, (op, f) :: ops =>
      ((R.run fresh (r.step fresh op f).1 ops).1, (r.step fresh op f).2 :: (R.run fresh (r.step fresh op f).1 ops).2)

end Verif.Pins
