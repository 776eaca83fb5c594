import Verif.Nested.Model

/-!
# Maps of maps: the kernel, and what a table of maps is
-/
namespace Verif.Nested.Spec
open Verif Verif.Bytes Verif.Handles

/-! ## The kernel -/

/-- An array: the size of its values, and its values. -/
structure Arr where
  valueSize : Nat
  values : List Bytes
deriving DecidableEq, Repr

/-- The kernel: every array ever created and the id it was given, the map of maps, and the open descriptors of the
    process. A map lives as long as a descriptor or the map of maps refers to it; then its id can be given again. -/
structure K where
  maps : List Arr := []
  ids : List Nat := []
  outer : List (Bytes × Nat) := []
  fds : List (Nat × Nat) := []
deriving DecidableEq, Repr

/-- What is fixed: the descriptor of the map of maps and whether it is an array (with that number of
    slots) or a hash table (with that capacity); the maps it takes (size and number of the values); how many descriptors the
    process may have; how ids and descriptors are chosen, given those in use. -/
structure Conf where
  outerFd : Nat
  array : Bool
  size : Nat
  innerSize : Nat
  innerEntries : Nat
  limit : Nat
  freshId : List Nat → Nat
  freshFd : List Nat → Nat

/-- A new id is none of those in use and fits in 32 bits, as long as there are not more in use than descriptors and
    slots. A new descriptor is none of those in use and fits in an `i32`. -/
structure Conf.Ok (c : Conf) : Prop where
  id_new : ∀ l, c.freshId l ∉ l
  id_lt : ∀ l, l.length ≤ c.limit + c.size → c.freshId l < 2 ^ 32
  fd_new : ∀ l, c.freshFd l ∉ l
  fd_lt : ∀ l, l.length ≤ c.limit → c.freshFd l < 2 ^ 31

/-- Somebody refers to the map. -/
def alive (k : K) (o : Nat) : Bool := (k.fds.any fun e => e.2 == o) || (k.outer.any fun e => e.2 == o)

/-- The id of a map. -/
def idOf (k : K) (o : Nat) : Nat := k.ids.getD o 0

/-- The ids in use. -/
def idsInUse (k : K) : List Nat := (k.fds.map Prod.snd ++ k.outer.map Prod.snd).map (idOf k)

/-- Open a descriptor for a map. -/
def openFd (c : Conf) (o : Nat) (k : K) : Nat × K :=
  let fd := c.freshFd (c.outerFd :: k.fds.map Prod.fst)
  (fd, { k with fds := (fd, o) :: k.fds })

/-- `bpf_map_inc_with_uref` and `map_meta_equal` (`kernel/bpf/map_in_map.c`, `arraymap.c`): the map behind a
    descriptor, if the map of maps takes it. -/
def innerOf (c : Conf) (k : K) (fd : Nat) : Except Nat Nat :=
  match k.fds.lookup fd with
  | none => .error 9
  | some o =>
      match k.maps[o]? with
      | none => .error 9
      | some a => if a.valueSize = c.innerSize ∧ a.values.length = c.innerEntries then .ok o else .error 22

/-- The map of maps with the map `o` under `key`. -/
def setOuter (key : Bytes) (o : Nat) (k : K) : K :=
  { k with outer := (key, o) :: k.outer.filter fun e => e.1 ≠ key }

/-- `bpf_fd_array_map_update_elem` (`kernel/bpf/arraymap.c`), `bpf_fd_htab_map_update_elem`
    (`kernel/bpf/hashtab.c`): in an array the flags and the index are looked at first. -/
def updateOuter (c : Conf) (key : Bytes) (fd flags : Nat) (k : K) : Except Nat Unit × K :=
  if c.array then
    if flags ≠ 0 then (.error 22, k)
    else if c.size ≤ ofLe key then (.error 7, k)
    else
      match innerOf c k fd with
      | .error e => (.error e, k)
      | .ok o => (.ok (), setOuter key o k)
  else
    match innerOf c k fd with
    | .error e => (.error e, k)
    | .ok o =>
        if flags > 2 then (.error 22, k)
        else if (k.outer.lookup key).isSome then
          if flags = 1 then (.error 17, k) else (.ok (), setOuter key o k)
        else if flags = 2 then (.error 2, k)
        else if c.size ≤ k.outer.length then (.error 7, k)
        else (.ok (), setOuter key o k)

/-- `array_map_update_elem` (`kernel/bpf/arraymap.c`). -/
def updateArr (o : Nat) (key value : Bytes) (flags : Nat) (k : K) : Except Nat Unit × K :=
  match k.maps[o]? with
  | none => (.error 9, k)
  | some a =>
      if flags > 2 then (.error 22, k)
      else if a.values.length ≤ ofLe key then (.error 7, k)
      else if flags = 1 then (.error 17, k)
      else (.ok (), { k with maps := k.maps.set o { a with values := a.values.set (ofLe key) value } })

/-- The value of an array. -/
def valueOf (k : K) (o i : Nat) : Option Bytes := k.maps[o]?.bind fun a => a.values[i]?

/-- The system calls. -/
def sys (c : Conf) : Sys K where
  create obj k :=
    if c.limit ≤ k.fds.length then (.error 24, k)
    else
      let k' : K :=
        { k with
          maps := k.maps ++ [⟨obj.valueSize, List.replicate obj.maxEntries (List.replicate obj.valueSize 0)⟩]
          ids := k.ids ++ [c.freshId (idsInUse k)] }
      let r := openFd c k.maps.length k'
      (.ok r.1, r.2)
  lookup fd key _ k :=
    if fd = c.outerFd then
      match k.outer.lookup key with
      | some o => .ok (le 4 (idOf k o))
      | none => .error 2
    else
      match k.fds.lookup fd with
      | none => .error 9
      | some o =>
          match valueOf k o (ofLe key) with
          | some v => .ok v
          | none => .error 2
  update fd key value flags k :=
    if fd = c.outerFd then updateOuter c key (ofLe value) flags k
    else
      match k.fds.lookup fd with
      | none => (.error 9, k)
      | some o => updateArr o key value flags k
  delete fd key k :=
    if fd ≠ c.outerFd then (.error 22, k)
    else if c.array then (.error 22, k)
    else if (k.outer.lookup key).isSome then (.ok (), { k with outer := k.outer.filter fun e => e.1 ≠ key })
    else (.error 2, k)
  fdById id k :=
    match (List.range k.maps.length).find? fun o => idOf k o = id && alive k o with
    | none => (.error 2, k)
    | some o =>
        if c.limit ≤ k.fds.length then (.error 24, k)
        else
          let r := openFd c o k
          (.ok r.1, r.2)
  info fd k :=
    match k.fds.lookup fd with
    | none => .error 9
    | some o =>
        match k.maps[o]? with
        | none => .error 9
        | some a => .ok ⟨2, 4, a.valueSize, a.values.length, 0⟩
  close fd k := { k with fds := k.fds.filter fun e => e.1 ≠ fd }

/-- The helper functions: a pointer to a map is the map. -/
def helpers : Helpers K where
  inner key k := k.outer.lookup key
  lookup o key k := valueOf k o (ofLe key)
  store o key value k := (updateArr o key value 0 k).2

/-! ## The property -/

/-- Where a map is stored: in a slot of an `ArrayOfMaps`, under a key of a `HashOfMaps`. -/
inductive Place where
  | index (i : BitVec 32)
  | key (k : Bytes)
deriving DecidableEq, Repr

/-- The bytes of the slot or key. -/
def Place.bytes : Place → Bytes
  | .index i => le 4 i.toNat
  | .key k => k

/-- An operation. Handles are numbered as they are got; `h` is the number of one. -/
inductive Op where
  /-- `Array::create`: a new handle -/
  | create (valueSize entries : Nat)
  | drop (h : Nat)
  /-- `set` and `insert` -/
  | put (at_ : Place) (h flags : Nat)
  /-- `get`: a new handle -/
  | fetch (at_ : Place) (ty : Ty)
  /-- `HashOfMaps::remove` -/
  | remove (key : Bytes)
  | read (h : Nat) (index : BitVec 32)
  | write (h : Nat) (index : BitVec 32) (value : Bytes) (flags : Nat)
  /-- `get_value` of a program -/
  | programRead (at_ : Place) (index : BitVec 32)
  /-- a write through `get_value_ptr_mut` of a program -/
  | programWrite (at_ : Place) (index : BitVec 32) (value : Bytes)
deriving Repr

/-- The place is one of the kind of map. -/
def Place.Suits (c : Conf) : Place → Prop
  | .index _ => c.array = true
  | .key _ => c.array = false

/-- The operation is one of the kind of map. -/
def Op.Suits (c : Conf) : Op → Prop
  | .put p _ _ => p.Suits c
  | .fetch p _ => p.Suits c
  | .remove _ => c.array = false
  | .programRead p _ => p.Suits c
  | .programWrite p _ _ => p.Suits c
  | _ => True

/-- The outcome. -/
inductive Res where
  | handle
  | value (v : Bytes)
  | done
  | missing
  | outOfBounds
  | failed (errno : Nat)
  /-- the map there is not what the typed map describes -/
  | refused
  /-- there is no such handle (any more) -/
  | noHandle
deriving DecidableEq, Repr

/-- Tables of arrays: arrays that exist for ever, and the arrays that handles and places stand for. -/
structure A where
  arrays : List Arr := []
  handles : List (Option Nat) := []
  table : Bytes → Option Nat := fun _ => none
  size : Nat := 0

/-- The array put under a key. -/
def A.put (a : A) (key : Bytes) (o : Nat) : A :=
  { a with
    table := fun x => if x = key then some o else a.table x
    size := if (a.table key).isSome then a.size else a.size + 1 }

/-- The array a handle stands for. -/
def A.at_ (a : A) (h : Nat) : Option Nat := a.handles[h]?.join

/-- The map of maps takes the array. -/
def fits (c : Conf) (x : Arr) : Bool := x.valueSize == c.innerSize && x.values.length == c.innerEntries

/-- Put the array of a handle into a slot. -/
def putIndex (c : Conf) (a : A) (i : Nat) (key : Bytes) (o flags : Nat) (x : Arr) : A × Res :=
  if ¬ i < c.size then (a, .outOfBounds)
  else if flags ≠ 0 then (a, .failed 22)
  else if fits c x = false then (a, .failed 22)
  else (a.put key o, .done)

/-- Put the array of a handle under a key. -/
def putKey (c : Conf) (a : A) (key : Bytes) (o flags : Nat) (x : Arr) : A × Res :=
  if fits c x = false then (a, .failed 22)
  else if flags > 2 then (a, .failed 22)
  else if (a.table key).isSome then
    if flags = 1 then (a, .failed 17) else (a.put key o, .done)
  else if flags = 2 then (a, .failed 2)
  else if c.size ≤ a.size then (a, .failed 7)
  else (a.put key o, .done)

/-- Replace a value. -/
def A.write (a : A) (o i : Nat) (v : Bytes) : A :=
  { a with arrays := a.arrays.modify o fun x => { x with values := x.values.set i v } }

/-- Write into an array, for the process. -/
def writeArr (a : A) (o i : Nat) (v : Bytes) (flags : Nat) (x : Arr) : A × Res :=
  if ¬ i < x.values.length then (a, .outOfBounds)
  else if flags > 2 then (a, .failed 22)
  else if flags = 1 then (a, .failed 17)
  else (a.write o i v, .done)

/-- The process has as many handles as it may have. -/
def full (c : Conf) (a : A) : Bool := c.limit ≤ (a.handles.filter Option.isSome).length

/-- A new handle for an array, if the typed map is an array of such values. -/
def fetchAs (c : Conf) (a : A) (o : Nat) (ty : Ty) (x : Arr) : A × Res :=
  if full c a then (a, .failed 24)
  else if ty = .array x.valueSize then
    ({ a with handles := a.handles ++ [some o] }, .handle)
  else (a, .refused)

/-- The array stored at a place, or what is said if there is none. -/
def stored (c : Conf) (a : A) : Place → Except Res Nat
  | .index i =>
      if ¬ i.toNat < c.size then .error .outOfBounds
      else match a.table (le 4 i.toNat) with
        | some o => .ok o
        | none => .error .missing
  | .key k =>
      match a.table k with
      | some o => .ok o
      | none => .error .missing

/-- What an operation does. -/
def step (c : Conf) (a : A) : Op → A × Res
  | .create v n =>
      if full c a then (a, .failed 24)
      else
        ({ a with
            arrays := a.arrays ++ [⟨v, List.replicate n (List.replicate v 0)⟩]
            handles := a.handles ++ [some a.arrays.length] }, .handle)
  | .drop h =>
      match a.at_ h with
      | some _ => ({ a with handles := a.handles.set h none }, .done)
      | none => (a, .noHandle)
  | .put p h flags =>
      match a.at_ h with
      | none => (a, .noHandle)
      | some o =>
          match a.arrays[o]? with
          | none => (a, .noHandle)
          | some x =>
              match p with
              | .index i => putIndex c a i.toNat (le 4 i.toNat) o flags x
              | .key k => putKey c a k o flags x
  | .fetch p ty =>
      match stored c a p with
      | .error r => (a, r)
      | .ok o =>
          match a.arrays[o]? with
          | none => (a, .noHandle)
          | some x => fetchAs c a o ty x
  | .remove k =>
      match a.table k with
      | some _ => ({ a with table := fun x => if x = k then none else a.table x, size := a.size - 1 }, .done)
      | none => (a, .failed 2)
  | .read h i =>
      match a.at_ h with
      | none => (a, .noHandle)
      | some o =>
          match a.arrays[o]? with
          | none => (a, .noHandle)
          | some x =>
              match x.values[i.toNat]? with
              | some v => (a, .value v)
              | none => (a, .outOfBounds)
  | .write h i v flags =>
      match a.at_ h with
      | none => (a, .noHandle)
      | some o =>
          match a.arrays[o]? with
          | none => (a, .noHandle)
          | some x => writeArr a o i.toNat v flags x
  | .programRead p i =>
      match (a.table p.bytes).bind fun o => a.arrays[o]?.bind fun x => x.values[i.toNat]? with
      | some v => (a, .value v)
      | none => (a, .missing)
  | .programWrite p i v =>
      match a.table p.bytes with
      | none => (a, .missing)
      | some o =>
          match a.arrays[o]?.bind fun x => x.values[i.toNat]? with
          | none => (a, .missing)
          | some _ => (a.write o i.toNat v, .done)

/-- Run several. -/
def run (c : Conf) : A → List Op → A × List Res
  | a, [] => (a, [])
  | a, op :: ops =>
      let r := step c a op
      let rs := run c r.1 ops
      (rs.1, r.2 :: rs.2)

end Verif.Nested.Spec
