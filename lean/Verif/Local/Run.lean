import Verif.Local.Spec

/-!
# Storage of sockets, inodes and cgroups: histories of the code on Linux
-/
namespace Verif.Local
open Spec

/-- What a name stands for in the process. -/
inductive H where
  | map (kind : Kind) (d : Data)
  | thing (fd : Nat)
deriving DecidableEq, Repr

def H.fd : H → Nat
  | .map _ d => d.fd
  | .thing fd => fd

structure W where
  k : K := {}
  hs : List (Option H) := []
  ptrs : List (Nat × Nat) := []

def W.thingOf (w : W) (h : Nat) : Option Nat :=
  match w.hs[h]?.join with
  | some (.thing fd) => some fd
  | _ => none

def W.mapOf (w : W) (h : Nat) : Option (Kind × Data) :=
  match w.hs[h]?.join with
  | some (.map kind d) => some (kind, d)
  | _ => none

def W.result (w : W) : Except Error Unit × K → W × Res
  | (.ok (), k) => ({ w with k := k }, .done)
  | (.error e, k) => ({ w with k := k }, .failed e)

def W.given (w : W) : Except Error Spec.Bytes → W × Res
  | .ok v => (w, .value v)
  | .error e => (w, .failed e)

def W.givenAll (w : W) : Except Error (List Spec.Bytes) → W × Res
  | .ok vs => (w, .values vs)
  | .error e => (w, .failed e)

/-- A program is given a pointer. -/
def W.points (w : W) : Option (Nat × Nat) × Work → W × Res
  | (some p, x) => ({ w with k := x.k, ptrs := w.ptrs ++ [p] }, .pointer true)
  | (none, x) => ({ w with k := x.k }, .pointer false)

def W.told (w : W) : Except Int Unit × Work → W × Res
  | (r, x) => ({ w with k := x.k }, .told r)

/-- A program is given the value of the cgroup it is attached to: `none` is a null pointer, which the code takes for one that is valid. -/
def W.pointsOld (w : W) : Option (Nat × Nat) → W × Res
  | some p => ({ w with ptrs := w.ptrs ++ [p] }, .pointer true)
  | none => (w, .pointer false)

/-- One step: the code on Linux. -/
def wstep (cpus : Nat) (fresh : (Nat → Option Obj) → Option Nat) (w : W) (op : Op) (fault : Option Nat) : W × Res :=
  let S := sys cpus fresh fault
  let P := helpers fault
  match op with
  | .open_ t =>
      match w.k.world.welcome t, fresh w.k.fds with
      | true, some fd =>
          ({ w with
              k := ({ w.k with world := { w.k.world with things := w.k.world.things ++ [t] } } : K).openFd fd (.thing w.k.world.things.length)
              hs := w.hs ++ [some (.thing fd)] }, .done)
      | _, _ => (w, .nothing)
  | .clone h =>
      match w.thingOf h with
      | none => (w, .nothing)
      | some fd =>
          match w.k.fds fd, fresh w.k.fds with
          | some (.thing n), some fd' => ({ w with k := w.k.openFd fd' (.thing n), hs := w.hs ++ [some (.thing fd')] }, .done)
          | _, _ => (w, .nothing)
  | .drop h =>
      match w.hs[h]?.join with
      | none => (w, .nothing)
      | some x => ({ w with k := S.close x.fd w.k, hs := w.hs.set h none }, .done)
  | .map kind ksize vsize max size =>
      match make S kind ksize vsize max size w.k with
      | (.ok d, k) => ({ w with k := k, hs := w.hs ++ [some (.map kind d)] }, .done)
      | (.error e, k) => ({ w with k := k }, .failed e)
  | .get m h flags =>
      match w.mapOf m, w.thingOf h with
      | some (.sk, d), some fd => w.given (skGet S d fd flags w.k)
      | some (.inode, d), some fd => w.given (inodeGet S d fd flags w.k)
      | some (.cgrp, d), some fd => w.given (cgrpGet S d fd flags w.k)
      | _, _ => (w, .nothing)
  | .insert m h value flags =>
      match w.mapOf m, w.thingOf h with
      | some (kind, d), some fd =>
          if value.length ≠ d.vsize then (w, .nothing)
          else
            match kind with
            | .sk => w.result (skInsert S d fd value flags w.k)
            | .inode => w.result (inodeInsert S d fd value flags w.k)
            | .cgrp => w.result (cgrpInsert S d fd value flags w.k)
            | _ => (w, .nothing)
      | _, _ => (w, .nothing)
  | .remove m h =>
      match w.mapOf m, w.thingOf h with
      | some (.sk, d), some fd => w.result (skRemove S d fd w.k)
      | some (.inode, d), some fd => w.result (inodeRemove S d fd w.k)
      | some (.cgrp, d), some fd => w.result (cgrpRemove S d fd w.k)
      | _, _ => (w, .nothing)
  | .oldGet m key padding flags =>
      match w.mapOf m with
      | some (.old, d) => w.given (oldGet S d key padding flags w.k)
      | _ => (w, .nothing)
  | .oldInsert m key padding value flags =>
      match w.mapOf m with
      | some (.old, d) =>
          if value.length ≠ d.vsize then (w, .nothing) else w.result (oldInsert S d key padding value flags w.k)
      | _ => (w, .nothing)
  | .oldAllGet m key padding flags =>
      match w.mapOf m with
      | some (.oldAll, d) => w.givenAll (oldAllGet S d key padding flags w.k)
      | _ => (w, .nothing)
  | .oldAllInsert m key padding values flags =>
      match w.mapOf m with
      | some (.oldAll, d) =>
          if values.length ≠ cpus ∨ values.any (fun v => v.length != d.vsize) then (w, .nothing)
          else w.result (oldAllInsert S cpus d key padding values flags w.k)
      | _ => (w, .nothing)
  | .set m index h flags =>
      match w.mapOf m, w.thingOf h with
      | some (.array, d), some fd => w.result (arraySet S d index fd flags w.k)
      | _, _ => (w, .nothing)
  | .setOwned m index h flags =>
      match w.mapOf m, w.thingOf h with
      | some (.array, d), some fd => ({ w with hs := w.hs.set h none } : W).result (arraySetOwned S d index fd flags w.k)
      | _, _ => (w, .nothing)
  | .unset m index =>
      match w.mapOf m with
      | some (.array, d) => w.result (arrayUnset S d index w.k)
      | _ => (w, .nothing)
  | .attach m n type =>
      match w.k.world.tables[m]?, w.k.world.things[n]? with
      | some t, some (.cgroup _ ino) =>
          if t.kind ≠ .old ∧ t.kind ≠ .oldAll then (w, .nothing)
          else if (w.k.at_ m (t.slot ino type)).isSome then (w, .done)
          else ({ w with k := w.k.put m (t.slot ino type) (zeros t.vsize) }, .done)
      | _, _ => (w, .nothing)
  | .ptr m n =>
      match w.k.world.tables[m]? with
      | some t =>
          if (suits w.k.world t.kind n).isSome then (w, .nothing)
          else
            match t.kind with
            | .sk => w.points (skPtrMut P m ⟨n⟩ { k := w.k })
            | .inode => w.points (inodePtrMut P m n { k := w.k })
            | .cgrp => w.points (cgrpPtrMut P m n { k := w.k })
            | _ => (w, .nothing)
      | none => (w, .nothing)
  | .ptrOrInsert m n value =>
      match w.k.world.tables[m]? with
      | some t =>
          if (suits w.k.world t.kind n).isSome || value.any (fun v => v.length != t.vsize) then (w, .nothing)
          else
            match t.kind with
            | .sk => w.points (skPtrOrInsert P m ⟨n⟩ value { k := w.k })
            | .inode => w.points (inodePtrOrInsert P m n value { k := w.k })
            | .cgrp => w.points (cgrpPtrOrInsert P m n value { k := w.k })
            | _ => (w, .nothing)
      | none => (w, .nothing)
  | .delete m n =>
      match w.k.world.tables[m]? with
      | some t =>
          if (suits w.k.world t.kind n).isSome then (w, .nothing)
          else
            match t.kind with
            | .sk => w.told (skDelete P m n { k := w.k })
            | .inode => w.told (inodeDelete P m n { k := w.k })
            | .cgrp => w.told (cgrpDelete P m n { k := w.k })
            | _ => (w, .nothing)
      | none => (w, .nothing)
  | .oldPtr m n type cpu =>
      match w.k.world.tables[m]?, w.k.world.things[n]? with
      | some t, some (.cgroup _ ino) =>
          if (t.kind ≠ .old ∧ t.kind ≠ .oldAll) ∨ cpu ≥ cpus ∨ w.k.at_ m (t.slot ino type) = none then (w, .nothing)
          else w.pointsOld (oldPtrMut P m { k := w.k, ino := ino, attach := type, cpu := cpu })
      | _, _ => (w, .nothing)
  | .read p =>
      match w.ptrs[p]? with
      | some (id, c) => (w, .value (w.k.cells id c))
      | none => (w, .nothing)
  | .write p value =>
      match w.ptrs[p]? with
      | some (id, c) =>
          if (w.k.cells id c).length ≠ value.length then (w, .nothing)
          else ({ w with k := w.k.write id fun c' => if c' = c then value else w.k.cells id c' }, .done)
      | none => (w, .nothing)
  | .taskUnder m index cg =>
      if ((w.k.world.tables[m]?).map Table.kind) = some .array ∧ isCgroup w.k.world.things[cg]? then
        (w, .answer (currentTaskUnderCgroup P m index { k := w.k, task := cg }))
      else (w, .nothing)
  | .skbUnder m index cg =>
      if ((w.k.world.tables[m]?).map Table.kind) = some .array ∧ (∀ c ∈ cg, isCgroup w.k.world.things[c]?) then
        (w, .answer (skbUnderCgroup P m index { k := w.k, sock := cg }))
      else (w, .nothing)

/-- All steps, and what is seen. -/
def wrun (cpus : Nat) (fresh : (Nat → Option Obj) → Option Nat) : W → List (Op × Option Nat) → W × List Res
  | w, [] => (w, [])
  | w, (op, f) :: ops =>
      ((wrun cpus fresh (wstep cpus fresh w op f).1 ops).1,
        (wstep cpus fresh w op f).2 :: (wrun cpus fresh (wstep cpus fresh w op f).1 ops).2)

/-- Whether there was a free descriptor, at each step. -/
def rooms (cpus : Nat) (fresh : (Nat → Option Obj) → Option Nat) : W → List (Op × Option Nat) → List Bool
  | _, [] => []
  | w, (op, f) :: ops => (fresh w.k.fds).isSome :: rooms cpus fresh (wstep cpus fresh w op f).1 ops

/-- What is promised, over a history. -/
def Spec.run (cpus : Nat) : A → List (Op × Option Nat) → List Bool → A × List Res
  | a, (op, f) :: ops, r :: rs =>
      ((Spec.run cpus (Spec.step cpus a op f r).1 ops rs).1, (Spec.step cpus a op f r).2 :: (Spec.run cpus (Spec.step cpus a op f r).1 ops rs).2)
  | a, _, _ => (a, [])

end Verif.Local
