import Verif.Pins.Model

/-!
# Pinning: the system, and what is promised

The system (environment): kernel objects, the files of bpffs, and the descriptors of the process. What is
promised: handles and files simply stand for objects.
-/
namespace Verif.Pins.Spec
open Verif.Pins (Path Error)

/-- A program of a type, a map, or a link that attaches a program. -/
inductive Kind where
  | prog (ty : Nat)
  | map
  | link (program : Nat)
deriving DecidableEq, Repr

/-! ## The system -/

/-- Kernel objects by number, files and open descriptors. -/
structure K where
  objs : List Kind := []
  files : List (Path × Nat) := []
  fds : List (Nat × Nat) := []
deriving DecidableEq, Repr

/-- A descriptor or a file refers to the object. -/
def direct (k : K) (o : Nat) : Bool := (k.fds.map Prod.snd).contains o || (k.files.map Prod.snd).contains o

/-- The kernel keeps an object as long as it is referred to; a link refers to its program. -/
def live (k : K) (o : Nat) : Bool :=
  direct k o || (List.range k.objs.length).any fun l => decide (k.objs[l]? = some (.link o)) && direct k l

/-- System calls that can fail for reasons outside of this model: missing rights, directories, memory. -/
inductive Call where
  | load | create | attach | pin | get | byId | dup | info | unlink
deriving DecidableEq, Repr

/-- The error numbers of the calls that fail at one step. -/
abbrev Faults := Call → Option Nat

/-- Open a descriptor; `fresh` picks its number. -/
def openFd (fresh : List Nat → Nat) (o : Nat) (k : K) : Nat × K :=
  (fresh (k.fds.map Prod.fst), { k with fds := (fresh (k.fds.map Prod.fst), o) :: k.fds })

/-- A call that gives a descriptor of an object. -/
def opening (fresh : List Nat → Nat) (fault : Option Nat) (o : Nat) (k k' : K) : Except Nat Nat × K :=
  match fault with
  | some e => (.error e, k)
  | none => (.ok (openFd fresh o k').1, (openFd fresh o k').2)

/-- Linux. -/
def sys (fresh : List Nat → Nat) (f : Faults) : Sys K where
  load ty k := opening fresh (f .load) k.objs.length k { k with objs := k.objs ++ [.prog ty] }
  create k := opening fresh (f .create) k.objs.length k { k with objs := k.objs ++ [.map] }
  attach fd k :=
    match k.fds.lookup fd with
    | none => (.error 9, k)
    | some o => opening fresh (f .attach) k.objs.length k { k with objs := k.objs ++ [.link o] }
  pin fd path k :=
    match f .pin with
    | some e => (.error e, k)
    | none =>
        match k.files.lookup path with
        | some _ => (.error 17, k)
        | none =>
            match k.fds.lookup fd with
            | none => (.error 9, k)
            | some o => (.ok (), { k with files := (path, o) :: k.files })
  get path k :=
    match k.files.lookup path with
    | none => (.error ((f .get).getD 2), k)
    | some o => opening fresh (f .get) o k k
  byId o k := if live k o then opening fresh (f .byId) o k k else (.error ((f .byId).getD 2), k)
  dup fd k :=
    match k.fds.lookup fd with
    | none => (.error 9, k)
    | some o => opening fresh (f .dup) o k k
  info fd k :=
    match k.fds.lookup fd with
    | none => .error 9
    | some _ =>
        match f .info with
        | some e => .error e
        | none => .ok ()
  unlink path k :=
    match f .unlink with
    | some e => (.error e, k)
    | none =>
        match k.files.lookup path with
        | none => (.error 2, k)
        | some _ => (.ok (), { k with files := k.files.filter fun e => e.1 ≠ path })
  close fd k := { k with fds := k.fds.filter fun e => e.1 ≠ fd }

/-! ## Histories -/

/-- What is done. Handles are named by their position; those that are new come last. -/
inductive Op where
  /-- a program of a type is loaded -/
  | load (ty : Nat)
  | progPin (h : Nat) (p : Path)
  | progUnpin (h : Nat)
  | progFromPin (ty : Nat) (p : Path)
  /-- `from_program_info` with the information about object `o` -/
  | progFromInfo (ty o : Nat)
  | unload (h : Nat)
  | create
  | mapPin (h : Nat) (p : Path)
  /-- `pin` of a typed map, which takes the map -/
  | typedPin (h : Nat) (p : Path)
  | mapFromPin (p : Path)
  /-- a program is attached by a link, which is taken -/
  | attach (h : Nat)
  | linkPin (h : Nat) (p : Path)
  | linkFromPin (p : Path)
  | linkUnpin (h : Nat)
  /-- a pinned link is turned into a link -/
  | into (h : Nat)
  | drop (h : Nat)
  /-- another process makes a program or map and pins it, unless there is a file already -/
  | elsewherePin (p : Path) (ty : Option Nat)
  | elsewhereRemove (p : Path)
deriving DecidableEq, Repr

/-- What the caller sees. -/
inductive Res where
  | done
  | handle
  | failed (e : Error)
  /-- there is no such handle, or no such information -/
  | nothing
deriving DecidableEq, Repr

/-! ## What is promised -/

/-- A handle stands for an object. A program also has a mark: the file it was pinned to or opened from last.
    `lost` is not promised anything: it notes that an attempt to pin or unpin has failed since, or that the
    program came from `from_program_info`. -/
inductive Stands where
  | prog (o : Option Nat) (mark : Option Path) (lost : Bool)
  | map (o : Nat)
  | link (o : Nat)
  | pinned (o : Nat) (p : Path)
deriving DecidableEq, Repr

def Stands.obj : Stands → Option Nat
  | .prog o _ _ => o
  | .map o => some o
  | .link o => some o
  | .pinned o _ => some o

/-- Objects, files and handles. -/
structure A where
  objs : List Kind := []
  files : List (Path × Nat) := []
  handles : List (Option Stands) := []
deriving DecidableEq, Repr

/-- A handle or a file stands for the object. -/
def A.held (a : A) (o : Nat) : Bool :=
  (a.handles.any fun h => decide (h.bind Stands.obj = some o)) || (a.files.map Prod.snd).contains o

/-- An object lives as long as a handle or a file stands for it, or for a link that attaches it. -/
def A.live (a : A) (o : Nat) : Bool :=
  a.held o || (List.range a.objs.length).any fun l => decide (a.objs[l]? = some (.link o)) && a.held l

def A.set (a : A) (h : Nat) (x : Option Stands) : A := { a with handles := a.handles.set h x }
def A.add (a : A) (x : Stands) : A := { a with handles := a.handles ++ [some x] }

/-- A file for an object: refused if the path is not one, if the system does not want to, or if there is a file. -/
def A.pin (a : A) (f : Faults) (o : Nat) (p : Path) : Except Error A :=
  if 0 ∈ p then .error .invalidPath
  else
    match f .pin, a.files.lookup p with
    | some e, _ => .error (.sys e)
    | none, some _ => .error (.sys 17)
    | none, none => .ok { a with files := (p, o) :: a.files }

/-- The file is removed. -/
def A.unpin (a : A) (f : Faults) (p : Path) : Except Error A :=
  if 0 ∈ p then .error .invalidInput
  else
    match f .unlink, a.files.lookup p with
    | some e, _ => .error (.sys e)
    | none, none => .error (.sys 2)
    | none, some _ => .ok { a with files := a.files.filter fun e => e.1 ≠ p }

/-- The object of a file, if it is of the right kind. -/
def A.open (a : A) (f : Faults) (right : Kind → Bool) (p : Path) : Except Error Nat :=
  if 0 ∈ p then .error .invalidPath
  else
    match f .get, a.files.lookup p with
    | some e, _ => .error (.sys e)
    | none, none => .error (.sys 2)
    | none, some o =>
        match a.objs[o]? with
        | some k => if right k then .ok o else .error .type_
        | none => .error .type_

def isLink : Kind → Bool
  | .link _ => true
  | _ => false

/-- A new object and a handle for it. -/
def A.fresh (a : A) (fault : Option Nat) (k : Kind) (x : Nat → Stands) : A × Res :=
  match fault with
  | some e => (a, .failed (.sys e))
  | none => (({ a with objs := a.objs ++ [k] }).add (x a.objs.length), .handle)

def A.elsewherePin (a : A) (p : Path) (ty : Option Nat) : A :=
  match a.files.lookup p with
  | some _ => a
  | none =>
      { a with
        objs := a.objs ++ [ty.elim .map .prog]
        files := (p, a.objs.length) :: a.files }

/-- One step. -/
def step (a : A) (op : Op) (f : Faults) : A × Res :=
  match op with
  | .load ty => a.fresh (f .load) (.prog ty) fun o => .prog (some o) none false
  | .progPin h p =>
      match a.handles[h]?.join with
      | some (.prog none mark _) => (a.set h (some (.prog none mark true)), .failed .noFd)
      | some (.prog (some o) mark _) =>
          match a.pin f o p with
          | .ok a => (a.set h (some (.prog (some o) (some p) false)), .done)
          | .error e => (a.set h (some (.prog (some o) mark true)), .failed e)
      | _ => (a, .nothing)
  | .progUnpin h =>
      match a.handles[h]?.join with
      | some (.prog _ none _) => (a, .done)
      | some (.prog o (some p) lost) =>
          match a.unpin f p with
          | .ok a => (a.set h (some (.prog o none lost)), .done)
          | .error e => (a.set h (some (.prog o (some p) true)), .failed e)
      | _ => (a, .nothing)
  | .progFromPin ty p =>
      match a.open f (fun k => decide (k = .prog ty)) p, f .info with
      | .error e, _ => (a, .failed e)
      | .ok _, some e => (a, .failed (.sys e))
      | .ok o, none => (a.add (.prog (some o) (some p) false), .handle)
  | .progFromInfo ty o =>
      match a.objs[o]? with
      | some (.prog ty') =>
          if ty' ≠ ty then (a, .failed .type_)
          else
            match f .byId, f .dup with
            | some e, _ => (a, .failed (.sys e))
            | none, d =>
                if a.live o then
                  match d with
                  | some e => (a, .failed (.sys e))
                  | none => (a.add (.prog (some o) none true), .handle)
                else (a, .failed (.sys 2))
      | _ => (a, .nothing)
  | .unload h =>
      match a.handles[h]?.join with
      | some (.prog none _ _) => (a, .failed .notLoaded)
      | some (.prog (some _) mark lost) => (a.set h (some (.prog none mark lost)), .done)
      | _ => (a, .nothing)
  | .create => a.fresh (f .create) .map .map
  | .mapPin h p =>
      match a.handles[h]?.join with
      | some (.map o) =>
          match a.pin f o p with
          | .ok a => (a, .done)
          | .error e => (a, .failed e)
      | _ => (a, .nothing)
  | .typedPin h p =>
      match a.handles[h]?.join with
      | some (.map o) =>
          match a.pin f o p with
          | .ok a => (a.set h none, .done)
          | .error e => (a.set h none, .failed e)
      | _ => (a, .nothing)
  | .mapFromPin p =>
      match a.open f (fun k => decide (k = .map)) p, f .info with
      | .error e, _ => (a, .failed e)
      | .ok _, some e => (a, .failed (.sys e))
      | .ok o, none => (a.add (.map o), .handle)
  | .attach h =>
      match a.handles[h]?.join with
      | some (.prog none _ _) => (a, .failed .notLoaded)
      | some (.prog (some o) _ _) => a.fresh (f .attach) (.link o) .link
      | _ => (a, .nothing)
  | .linkPin h p =>
      match a.handles[h]?.join with
      | some (.link o) =>
          match a.pin f o p with
          | .ok a => (a.set h (some (.pinned o p)), .done)
          | .error e => (a.set h none, .failed e)
      | _ => (a, .nothing)
  | .linkFromPin p =>
      match a.open f isLink p with
      | .error e => (a, .failed e)
      | .ok o => (a.add (.pinned o p), .handle)
  | .linkUnpin h =>
      match a.handles[h]?.join with
      | some (.pinned o p) =>
          match a.unpin f p with
          | .ok a => (a.set h (some (.link o)), .done)
          | .error e => (a.set h none, .failed e)
      | _ => (a, .nothing)
  | .into h =>
      match a.handles[h]?.join with
      | some (.pinned o _) => (a.set h (some (.link o)), .done)
      | _ => (a, .nothing)
  | .drop h =>
      match a.handles[h]?.join with
      | some _ => (a.set h none, .done)
      | none => (a, .nothing)
  | .elsewherePin p ty => (a.elsewherePin p ty, .done)
  | .elsewhereRemove p => ({ a with files := a.files.filter fun e => e.1 ≠ p }, .done)

/-- All steps and what the callers see. -/
def run : A → List (Op × Faults) → A × List Res
  | a, [] => (a, [])
  | a, (op, f) :: ops => ((run (step a op f).1 ops).1, (step a op f).2 :: (run (step a op f).1 ops).2)

/-- The file, if there is one, is of the right kind. -/
def A.Fits (a : A) (right : Kind → Bool) (p : Path) : Prop :=
  ∀ o, a.files.lookup p = some o → ∃ k, a.objs[o]? = some k ∧ right k = true

/-- The same, as a test. -/
def A.fits (a : A) (right : Kind → Bool) (p : Path) : Bool :=
  match a.files.lookup p with
  | none => true
  | some o => a.objs[o]?.any right

/-- What the promise needs of the caller: a program is not unpinned if the library has lost track of its file, and
    files are opened as what they are, under paths without zero bytes. -/
def careful1 (a : A) : Op → Bool
  | .progUnpin h =>
      match a.handles[h]?.join with
      | some (.prog _ _ lost) => !lost
      | _ => true
  | .progFromPin ty p => !p.contains 0 && a.fits (fun k => decide (k = .prog ty)) p
  | .mapFromPin p => a.fits (fun k => decide (k = .map)) p
  | .linkFromPin p => !p.contains 0 && a.fits isLink p
  | _ => true

def careful : A → List (Op × Faults) → Bool
  | _, [] => true
  | a, (op, f) :: ops => careful1 a op && careful (step a op f).1 ops

/-- The operation may remove the file. -/
def removes (p : Path) : Op → Bool
  | .progUnpin _ => true
  | .linkUnpin _ => true
  | .elsewhereRemove q => decide (q = p)
  | _ => false

end Verif.Pins.Spec
