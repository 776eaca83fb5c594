import Verif.Nested.Model
import Verif.Handles.Spec

/-!
# Maps of maps shared with other threads and processes: the kernel and the others

Inner maps may be of any kind. What others do happens between the calls of an operation.
-/
namespace Verif.Nested.Race
open Verif Verif.Bytes Verif.Handles

/-- The kernel: every map ever created and the id it was given, the map of maps, the open descriptors of the process, and
    the references anybody else has (descriptors of other processes, pins, programs). A map lives as long as somebody or
    the map of maps refers to it; then its id can be given again. -/
structure W where
  maps : List Obj := []
  ids : List Nat := []
  table : List (Bytes × Nat) := []
  fds : List (Nat × Nat) := []
  refs : List Nat := []
deriving DecidableEq, Repr

/-- What is fixed: the descriptor of the map of maps, its number of entries, the maps it takes, how ids are chosen given all ids ever
    given and those in use, and how descriptors are chosen given those in use. `none`: there is none left. -/
structure Conf where
  outerFd : Nat
  size : Nat
  takes : Obj → Bool
  freshId : List Nat → List Nat → Option Nat
  freshFd : List Nat → Option Nat

/-- A new id is none of those in use and fits in 32 bits, a new descriptor is none of those in use and fits in an `i32`. -/
structure Conf.Ok (c : Conf) : Prop where
  id_new : ∀ g u i, c.freshId g u = some i → i ∉ u ∧ i < 2 ^ 32
  fd_new : ∀ u i, c.freshFd u = some i → i ∉ u ∧ i < 2 ^ 31

/-- Somebody refers to the map. -/
def alive (w : W) (o : Nat) : Bool :=
  (w.fds.any fun e => e.2 == o) || (w.table.any fun e => e.2 == o) || w.refs.contains o

/-- The id of a map. -/
def idOf (w : W) (o : Nat) : Nat := w.ids.getD o 0

/-- The ids in use. -/
def inUse (w : W) : List Nat := (w.fds.map Prod.snd ++ w.table.map Prod.snd ++ w.refs).map (idOf w)

/-- The live map of an id. -/
def byId (w : W) (id : Nat) : Option Nat := (List.range w.maps.length).find? fun o => idOf w o = id && alive w o

/-- A new descriptor of the process. -/
def newFd (c : Conf) (w : W) : Option Nat := c.freshFd (c.outerFd :: w.fds.map Prod.fst)

/-- A new map, before anybody refers to it. -/
def addMap (o : Obj) (id : Nat) (w : W) : W := { w with maps := w.maps ++ [o], ids := w.ids ++ [id] }

/-- Something done by others. -/
inductive Act where
  /-- another process creates a map -/
  | create (o : Obj)
  /-- another process opens a map by id -/
  | openId (id : Nat)
  /-- another process gives up a reference -/
  | release (o : Nat)
  /-- a map is stored by anybody who refers to it -/
  | put (key : Bytes) (o : Nat)
  | remove (key : Bytes)
  /-- another thread of this process creates a map -/
  | threadCreate (o : Obj)
  /-- another thread of this process opens a map by id -/
  | threadOpen (id : Nat)
  /-- another thread of this process closes a descriptor, which is its own -/
  | threadClose (fd : Nat)
deriving DecidableEq, Repr

/-- What it does; `own` are the descriptors of the thread that is not one of the others. -/
def act (c : Conf) (own : List Nat) (w : W) : Act → W
  | .create o =>
      match c.freshId w.ids (inUse w) with
      | none => w
      | some id => { addMap o id w with refs := w.maps.length :: w.refs }
  | .openId id =>
      match byId w id with
      | none => w
      | some o => { w with refs := o :: w.refs }
  | .release o => { w with refs := w.refs.erase o }
  | .put key o => if alive w o then { w with table := (key, o) :: w.table.filter fun e => e.1 ≠ key } else w
  | .remove key => { w with table := w.table.filter fun e => e.1 ≠ key }
  | .threadCreate o =>
      match newFd c w, c.freshId w.ids (inUse w) with
      | some fd, some id => { addMap o id w with fds := (fd, w.maps.length) :: w.fds }
      | _, _ => w
  | .threadOpen id =>
      match newFd c w, byId w id with
      | some fd, some o => { w with fds := (fd, o) :: w.fds }
      | _, _ => w
  | .threadClose fd => if own.contains fd then w else { w with fds := w.fds.filter fun e => e.1 ≠ fd }

/-- A thread in the middle of an operation: the kernel, the descriptors the thread has opened in it and not closed, what others will do after each
    call and before the next, and the states the kernel has gone through (the latest first). -/
structure S where
  w : W
  own : List Nat := []
  next : List (List Act) := []
  past : List W := []
deriving Repr

/-- The kernel gets into a state. -/
def S.to (s : S) (w : W) : S := { s with w, past := w :: s.past }

/-- Others do something. -/
def S.acts (c : Conf) (l : List Act) (s : S) : S := l.foldl (fun s a => s.to (act c s.own s.w a)) s

/-- Others have their turn. -/
def S.pass (c : Conf) (s : S) : S := S.acts c (s.next.headD []) { s with next := s.next.tail }

/-- `BPF_MAP_GET_FD_BY_ID`. -/
def openById (c : Conf) (id : Nat) (s : S) : Except Nat Nat × S :=
  match byId s.w id with
  | none => (.error 2, s)
  | some o =>
      match newFd c s.w with
      | none => (.error 24, s)
      | some fd => (.ok fd, { s.to { s.w with fds := (fd, o) :: s.w.fds } with own := fd :: s.own })

/-- `BPF_MAP_CREATE`. -/
def createMap (c : Conf) (o : Obj) (s : S) : Except Nat Nat × S :=
  match newFd c s.w, c.freshId s.w.ids (inUse s.w) with
  | some fd, some id =>
      (.ok fd, { s.to { addMap o id s.w with fds := (fd, s.w.maps.length) :: s.w.fds } with own := fd :: s.own })
  | _, _ => (.error 24, s)

/-- The map behind a descriptor, if the map of maps takes it. -/
def innerOf (c : Conf) (w : W) (fd : Nat) : Except Nat Nat :=
  match w.fds.lookup fd with
  | none => .error 9
  | some o =>
      match w.maps[o]? with
      | none => .error 9
      | some x => if c.takes x then .ok o else .error 22

/-- `BPF_MAP_UPDATE_ELEM` on the map of maps, without flags. -/
def updateElem (c : Conf) (key : Bytes) (fd : Nat) (s : S) : Except Nat Unit × S :=
  match innerOf c s.w fd with
  | .error e => (.error e, s)
  | .ok o =>
      if (s.w.table.lookup key).isNone ∧ c.size ≤ s.w.table.length then (.error 7, s)
      else (.ok (), s.to { s.w with table := (key, o) :: s.w.table.filter fun e => e.1 ≠ key })

/-- The system calls, with others at work before a descriptor is opened, after that, and after every other call. -/
def sys (c : Conf) : Sys S where
  create o s := let r := createMap c o s; (r.1, r.2.pass c)
  lookup fd key _ s :=
    if fd ≠ c.outerFd then .error 9
    else match s.w.table.lookup key with
      | some o => .ok (le 4 (idOf s.w o))
      | none => .error 2
  update fd key value _ s :=
    if fd ≠ c.outerFd then (.error 9, s)
    else let r := updateElem c key (ofLe value) s; (r.1, r.2.pass c)
  delete fd key s :=
    if fd ≠ c.outerFd then (.error 9, s)
    else if (s.w.table.lookup key).isSome then
      (.ok (), (s.to { s.w with table := s.w.table.filter fun e => e.1 ≠ key }).pass c)
    else (.error 2, s)
  fdById id s := let r := openById c id (s.pass c); (r.1, r.2.pass c)
  info fd s :=
    match s.w.fds.lookup fd with
    | none => .error 9
    | some o =>
        match s.w.maps[o]? with
        | none => .error 9
        | some x => .ok x
  close fd s :=
    ({ s.to { s.w with fds := s.w.fds.filter fun e => e.1 ≠ fd } with own := s.own.filter (· ≠ fd) }).pass c

/-- The states that can arise. -/
inductive Reach (c : Conf) : W → Prop
  | init : Reach c {}
  | act {w : W} (own : List Nat) (a : Act) (h : Reach c w) : Reach c (act c own w a)

/-- Where a map is stored. -/
inductive Place where
  | index (i : BitVec 32)
  | key (k : Bytes)
deriving DecidableEq, Repr

/-- The bytes of the slot or key. -/
def Place.bytes : Place → Bytes
  | .index i => le 4 i.toNat
  | .key k => k

/-- There is such a place. -/
def Place.Within (c : Conf) : Place → Prop
  | .index i => i.toNat < c.size
  | .key _ => True

/-- The map of maps, as the process holds it. -/
def outer (c : Conf) : Data := ⟨⟨12, 4, 4, c.size, 0⟩, c.outerFd⟩

/-- `get` of `ArrayOfMaps` and of `HashOfMaps`, started when the kernel is in state `w`. -/
def get (c : Conf) (env : Env) (ty : Ty) (p : Place) (w : W) (others : List (List Act)) : Except Error Data × S :=
  match p with
  | .index i => aomGet (sys c) env ty (outer c) i { w, next := others }
  | .key k => homGet (sys c) env ty (outer c) k { w, next := others }

/-- `set` of `ArrayOfMaps` and `insert` of `HashOfMaps`, of the map with descriptor `fd`. -/
def put (c : Conf) (p : Place) (inner : Data) (w : W) (others : List (List Act)) : Except Error Unit × S :=
  match p with
  | .index i => aomSet (sys c) (outer c) i inner 0 { w, next := others }
  | .key k => homInsert (sys c) (outer c) k inner 0 { w, next := others }

end Verif.Nested.Race
