import Verif.Redirect.Spec

/-!
# Maps that packets are redirected with: the code at work on the system
-/
namespace Verif.Redirect
open Spec (K Op Out Thing Target Env Use Chosen upd Book)

/-- The calls of the code, on the system. A map that is made gets descriptor `fd`. -/
def sysOf (E : Env) (fd : Nat) : Sys K where
  createMap := Spec.createMap E fd
  lookup := Spec.lookup
  update := Spec.update E
  delete := Spec.delete
  close := Spec.close E

/-- The helpers of a program at work on a packet from interface `ifindex`. -/
def helpersOf (ifindex : Nat) : Helpers (K × Option Chosen) where
  lookup := Spec.progLookup
  redirect := Spec.redirectMap ifindex

/-- The probes tell the truth (C86). -/
def features (E : Env) : Features := ⟨E.devProg, E.cpuProg⟩

/-- The system, and the typed maps of the process by descriptor. -/
structure W where
  k : K := {}
  maps : Nat → Option (Kind × Data) := fun _ => none

/-- A descriptor that can be given out. -/
def W.free (E : Env) (w : W) (fd : Nat) : Bool := fd < E.limit && w.k.files fd == none

def W.typed (w : W) (kind : Kind) (m : Nat) : Option Data :=
  match w.maps m with
  | some (kind', d) => if kind' = kind then some d else none
  | none => none

/-- Is this a `ProgramFd`? -/
def W.isProg (w : W) : Option Nat → Bool
  | none => true
  | some fd =>
      match w.k.files fd with
      | some (.prog _) => true
      | _ => false

/-- A result that is not a value. -/
def outOf : Except Error Unit → Out
  | .ok () => .done
  | .error e => .failed e

def outGot : Except Error Value → Out
  | .ok v => .got v
  | .error e => .failed e

/-- A map is made, or not. -/
def opened (w : W) (kind : Kind) : Except Error Data × K → W × Out
  | (.ok d, k) => ({ k := k, maps := upd w.maps d.fd (some (kind, d)) }, .done)
  | (.error e, k) => ({ w with k := k }, .failed e)

/-- Something that changes the system. -/
def acted (w : W) (r : Except Error Unit × K) : W × Out := ({ w with k := r.2 }, outOf r.1)

/-- The program returns what `redirect` gave. -/
def returned (k : K) (ifindex queue : Nat) : Except Nat Nat × (K × Option Chosen) → Out
  | (r, s) =>
      let action := match r with
        | .ok v => v
        | .error v => v
      .packet r (if action = 4 then Spec.deliver k ifindex queue s.2 else .acted action)

def wstep (E : Env) (w : W) : Op → W × Out
  | .load fd kind vsize max =>
      if w.free E fd then opened w kind (load (sysOf E fd) (features E) kind vsize max w.k) else (w, .impossible)
  | .adopt fd kind vsize max =>
      if w.free E fd then opened w kind (adopt (sysOf E fd) (features E) kind vsize max w.k) else (w, .impossible)
  | .program fd id use =>
      if w.free E fd ∧ 0 < id ∧ id < 4294967296 ∧ w.k.progs id = none then
        ({ w with k := { w.k with files := upd w.k.files fd (some (.prog id)), progs := upd w.k.progs id (some use) } }, .done)
      else (w, .impossible)
  | .socket fd n x q =>
      if w.free E fd ∧ w.k.socks n = none ∧ q < 4294967296 then
        ({ w with k := { w.k with files := upd w.k.files fd (some (.sock n)), socks := upd w.k.socks n (some (x, q)) } }, .done)
      else (w, .impossible)
  | .dup fd fd' =>
      if w.free E fd' ∧ (w.k.files fd).isSome ∧ w.k.files fd ≠ some .map then
        ({ w with k := { w.k with files := upd w.k.files fd' (w.k.files fd) } }, .done)
      else (w, .impossible)
  | .close fd =>
      if (w.k.files fd).isSome ∧ w.k.files fd ≠ some .map then ({ w with k := Spec.close E fd w.k }, .done) else (w, .impossible)
  | .plug x => ({ w with k := { w.k with devs := fun y => if y = x then true else w.k.devs y } }, .done)
  | .unplug x => ({ w with k := Spec.unplug x w.k }, .done)
  | .devSet m i x p flags =>
      match w.typed .dev m with
      | some d => if w.isProg p then acted w (devSet (sysOf E 0) (features E) d i x p flags w.k) else (w, .impossible)
      | none => (w, .impossible)
  | .devGet m i =>
      match w.typed .dev m with
      | some d => (w, outGot (devGet (sysOf E 0) (features E) d i 0 w.k))
      | none => (w, .impossible)
  | .devIter m =>
      match w.typed .dev m with
      | some d => (w, .all (devIter (sysOf E 0) (features E) d w.k))
      | none => (w, .impossible)
  | .hashInsert m i x p flags =>
      match w.typed .hash m with
      | some d => if w.isProg p then acted w (hashInsert (sysOf E 0) (features E) d i x p flags w.k) else (w, .impossible)
      | none => (w, .impossible)
  | .hashGet m i =>
      match w.typed .hash m with
      | some d => (w, outGot (hashGet (sysOf E 0) (features E) d i 0 w.k))
      | none => (w, .impossible)
  | .hashRemove m i =>
      match w.typed .hash m with
      | some d => acted w (hashRemove (sysOf E 0) d i w.k)
      | none => (w, .impossible)
  | .cpuSet m i n p flags =>
      match w.typed .cpu m with
      | some d => if w.isProg p then acted w (cpuSet (sysOf E 0) (features E) d i n p flags w.k) else (w, .impossible)
      | none => (w, .impossible)
  | .cpuGet m i =>
      match w.typed .cpu m with
      | some d => (w, outGot (cpuGet (sysOf E 0) (features E) d i 0 w.k))
      | none => (w, .impossible)
  | .cpuIter m =>
      match w.typed .cpu m with
      | some d => (w, .all (cpuIter (sysOf E 0) (features E) d w.k))
      | none => (w, .impossible)
  | .xskSet m i fd flags =>
      match w.typed .xsk m with
      | some d => if fd < 4294967296 then acted w (xskSet (sysOf E 0) d i fd flags w.k) else (w, .impossible)
      | none => (w, .impossible)
  | .xskSetOwned m i fd flags =>
      match w.typed .xsk m with
      | some d =>
          if (w.k.files fd).isSome ∧ w.k.files fd ≠ some .map then acted w (xskSetOwned (sysOf E 0) d i fd flags w.k) else (w, .impossible)
      | none => (w, .impossible)
  | .xskUnset m i =>
      match w.typed .xsk m with
      | some d => acted w (xskUnset (sysOf E 0) d i w.k)
      | none => (w, .impossible)
  | .progGet m i =>
      if (w.typed .dev m).isSome ∨ (w.typed .hash m).isSome then (w, .saw (progGet (helpersOf 0) m i (w.k, none))) else (w, .impossible)
  | .progIfindex m i =>
      if (w.typed .dev m).isSome ∨ (w.typed .hash m).isSome then (w, .number (progIfindex (helpersOf 0) m i (w.k, none))) else (w, .impossible)
  | .progQueue m i =>
      if (w.typed .xsk m).isSome then (w, .number (progQueue (helpersOf 0) m i (w.k, none))) else (w, .impossible)
  | .redirect m i flags x q =>
      if (w.maps m).isSome then (w, returned w.k x q (redirect (helpersOf x) m i flags (w.k, none))) else (w, .impossible)

/-- The process and what is known of it, after a history. -/
def run (E : Env) : List Op → W × Book → W × Book
  | [], s => s
  | op :: ops, (w, b) => run E ops ((wstep E w op).1, b.after E.limit op (wstep E w op).2)

/-- What the calls of a history give. -/
def outs (E : Env) : List Op → W → List Out
  | [], _ => []
  | op :: ops, w => (wstep E w op).2 :: outs E ops (wstep E w op).1

/-- What goes wrong is left out: interface number 0 and queues of size 0, programs behind descriptor 0, sockets given away with their only
    descriptor. -/
def Fair (b : Book) : Op → Prop
  | .devSet _ _ x p _ => x ≠ 0 ∧ p ≠ some 0
  | .hashInsert _ _ _ p _ => p ≠ some 0
  | .cpuSet _ _ n p _ => n ≠ 0 ∧ p ≠ some 0
  | .xskSetOwned _ _ fd _ => ∃ f : Nat, f ≠ fd ∧ b.files f = b.files fd
  | _ => True

/-- A history of such operations. -/
def Fairly (E : Env) : List Op → W × Book → Prop
  | [], _ => True
  | op :: ops, (w, b) => Fair b op ∧ Fairly E ops ((wstep E w op).1, b.after E.limit op (wstep E w op).2)

end Verif.Redirect
