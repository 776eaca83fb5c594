import Verif.Local.Model

/-!
# Storage of sockets, inodes and cgroups: the system, and what is promised

The system is Linux (`kernel/bpf/bpf_local_storage.c`, `bpf_inode_storage.c`, `bpf_cgrp_storage.c`, `local_storage.c`, `arraymap.c`,
`net/core/bpf_sk_storage.c`): sockets, files and cgroups, maps whose values are in cells of memory, and the descriptors of the process.
What is promised speaks of objects and their values: there are no cells and no descriptors.
-/
namespace Verif.Local.Spec
open Verif.Local (Kind Error Sys Helpers Data CgKey)

abbrev Bytes := List UInt8

/-- Objects: sockets, other files, and cgroups with the cgroup above them and the number of their inode. -/
inductive Thing where
  | sock
  | file
  | cgroup (above : Option Nat) (ino : BitVec 64)
deriving DecidableEq, Repr

/-- What a value is kept for: an object, or a cgroup (by the number of its inode) with a type of attachment. -/
inductive Slot where
  | thing (n : Nat)
  | cg (ino : Nat) (attach : Nat)
deriving DecidableEq, Repr

structure Table where
  kind : Kind
  ksize : Nat
  vsize : Nat
  max : Nat
deriving DecidableEq, Repr

/-- Objects and maps, by number, and what is in the arrays of cgroups. -/
structure World where
  things : List Thing := []
  tables : List Table := []
  slots : Nat → Nat → Option Nat := fun _ _ => none

/-- The kinds of map Linux makes: storage maps have keys of four bytes and no number of entries; the old ones keys of 16 bytes (or 8, then
    values do not depend on the type of attachment); arrays of cgroups have keys and values of four bytes. -/
def creatable (kind : Kind) (ksize vsize max : Nat) : Bool :=
  match kind with
  | .sk | .inode | .cgrp => ksize == 4 && vsize != 0 && max == 0
  | .old | .oldAll => (ksize == 16 || ksize == 8) && vsize != 0 && max == 0
  | .array => ksize == 4 && vsize == 4 && max != 0

/-- Why a storage map does not take an object: `ENOTSOCK`, `EBADF`. -/
def unsuited : Kind → Thing → Option Nat
  | .sk, .sock => none
  | .sk, _ => some 88
  | .inode, _ => none
  | .cgrp, .cgroup _ _ => none
  | _, _ => some 9

/-- Why a value is not stored for an object. -/
def refusal (present : Bool) (flags : Nat) (fault : Option Nat) : Option Nat :=
  if flags > 2 then some 22
  else if present && flags == 1 then some 17
  else if !present && flags == 2 then some 2
  else fault

/-- The same for the old maps: there are only the values Linux made. -/
def oldRefusal (present : Bool) (flags : Nat) (fault : Option Nat) : Option Nat :=
  if flags ≠ 0 ∧ flags ≠ 2 then some 22
  else if !present then some 2
  else fault

/-- The slot of a cgroup and a type of attachment. -/
def Table.slot (t : Table) (ino : BitVec 64) (attach : BitVec 32) : Slot := .cg ino.toNat (if t.ksize = 8 then 0 else attach.toNat)

def isCgroup : Option Thing → Bool
  | some (.cgroup _ _) => true
  | _ => false

/-- A value of zeros. -/
def zeros (n : Nat) : Nat → Bytes := fun _ => List.replicate n 0

/-- Whether cgroup `c` is `d` or above it, going up at most `fuel` times. -/
def climbs (w : World) (c : Nat) : Nat → Nat → Bool
  | 0, _ => false
  | fuel + 1, d =>
      if d = c then true
      else
        match w.things[d]? with
        | some (.cgroup (some up) _) => climbs w c fuel up
        | _ => false

/-- What `bpf_current_task_under_cgroup` returns for a task in `cg`. -/
def World.taskUnder (w : World) (m : Nat) (index : BitVec 32) (cg : Nat) : Int :=
  match w.tables[m]? with
  | none => -22
  | some t =>
      if index.toNat ≥ t.max then -7
      else
        match w.slots m index.toNat with
        | none => -11
        | some c => if climbs w c (cg + 1) cg then 1 else 0

/-- What `bpf_skb_under_cgroup` returns for a packet with a socket in `cg`. -/
def World.skbUnder (w : World) (m : Nat) (index : BitVec 32) (cg : Option Nat) : Int :=
  match cg with
  | none => -2
  | some cg => w.taskUnder m index cg

/-! ## The system -/

inductive Obj where
  | map (m : Nat)
  | thing (n : Nat)
deriving DecidableEq, Repr

/-- Values are in cells: `cells id` has one value for each CPU, of which maps without such values use the first. -/
structure K where
  world : World := {}
  cells : Nat → Nat → Bytes := fun _ _ => []
  next : Nat := 0
  at_ : Nat → Slot → Option Nat := fun _ _ => none
  fds : Nat → Option Obj := fun _ => none

def K.openFd (k : K) (fd : Nat) (x : Obj) : K := { k with fds := fun n => if n = fd then some x else k.fds n }
def K.closeFd (k : K) (fd : Nat) : K := { k with fds := fun n => if n = fd then none else k.fds n }

/-- A value in a new cell. The old one is freed once no program uses it. -/
def K.put (k : K) (m : Nat) (s : Slot) (f : Nat → Bytes) : K :=
  { k with
    cells := fun id => if id = k.next then f else k.cells id
    next := k.next + 1
    at_ := fun m' s' => if m' = m ∧ s' = s then some k.next else k.at_ m' s' }
def K.erase (k : K) (m : Nat) (s : Slot) : K := { k with at_ := fun m' s' => if m' = m ∧ s' = s then none else k.at_ m' s' }
/-- A cell is written to. -/
def K.write (k : K) (id : Nat) (f : Nat → Bytes) : K := { k with cells := fun id' => if id' = id then f else k.cells id' }

def World.setSlot (w : World) (m i : Nat) (x : Option Nat) : World :=
  { w with slots := fun m' i' => if m' = m ∧ i' = i then x else w.slots m' i' }

/-- The object a storage map finds by a key: the number of a descriptor. -/
def K.find (k : K) (kind : Kind) (key : Bytes) : Except Nat Nat :=
  if Verif.Bytes.ofLe key ≥ 2 ^ 31 then .error 9
  else
    match k.fds (Verif.Bytes.ofLe key) with
    | some (.thing n) =>
        match k.world.things[n]? with
        | some t =>
            match unsuited kind t with
            | some e => .error e
            | none => .ok n
        | none => .error 9
    | _ => .error 9

/-- The slot of an old map by a key, the C structure. -/
def keySlot (key : Bytes) : Slot := .cg (Verif.Bytes.ofLe (key.take 8)) (Verif.Bytes.ofLe ((key.drop 8).take 4))

/-- The size of a value as it is copied to and from the process, for each CPU: a multiple of eight. -/
def wide (n : Nat) : Nat := (n + 7) / 8 * 8
/-- What the process is given. -/
def spread (cpus vsize : Nat) (f : Nat → Bytes) : Bytes :=
  ((List.range cpus).map fun c => f c ++ List.replicate (wide vsize - (f c).length) 0).flatten
/-- What is copied from the process for a CPU. -/
def piece (vsize : Nat) (mem : Bytes) (c : Nat) : Bytes := (mem.drop (c * wide vsize)).take vsize

def K.lookup (k : K) (cpus m : Nat) (t : Table) (key : Bytes) : Except Nat Bytes :=
  match t.kind with
  | .sk | .inode | .cgrp =>
      match k.find t.kind key with
      | .error e => .error e
      | .ok n =>
          match k.at_ m (.thing n) with
          | none => .error 2
          | some id => .ok (k.cells id 0)
  | .old =>
      match k.at_ m (keySlot key) with
      | none => .error 2
      | some id => .ok (k.cells id 0)
  | .oldAll =>
      match k.at_ m (keySlot key) with
      | none => .error 2
      | some id => .ok (spread cpus t.vsize (k.cells id))
  | .array => .error 524

def K.update (k : K) (cpus : Nat) (fault : Option Nat) (m : Nat) (t : Table) (key value : Bytes) (flags : Nat) : Except Nat K :=
  match t.kind with
  | .sk | .inode | .cgrp =>
      match k.find t.kind key with
      | .error e => .error e
      | .ok n =>
          match refusal (k.at_ m (.thing n)).isSome flags fault with
          | some e => .error e
          | none => .ok (k.put m (.thing n) fun _ => value)
  | .old =>
      match oldRefusal (k.at_ m (keySlot key)).isSome flags fault with
      | some e => .error e
      | none => .ok (k.put m (keySlot key) fun _ => value)
  | .oldAll =>
      match oldRefusal (k.at_ m (keySlot key)).isSome flags fault, k.at_ m (keySlot key) with
      | some e, _ => .error e
      | none, none => .error 2
      | none, some id => .ok (k.write id fun c => if c < cpus then piece t.vsize value c else k.cells id c)
  | .array =>
      if flags ≠ 0 then .error 22
      else if Verif.Bytes.ofLe key ≥ t.max then .error 7
      else
        match k.find .cgrp value with
        | .error _ => .error 9
        | .ok n =>
            match fault with
            | some e => .error e
            | none => .ok { k with world := k.world.setSlot m (Verif.Bytes.ofLe key) (some n) }

def K.delete (k : K) (m : Nat) (t : Table) (key : Bytes) : Except Nat K :=
  match t.kind with
  | .sk | .inode | .cgrp =>
      match k.find t.kind key with
      | .error e => .error e
      | .ok n => if (k.at_ m (.thing n)).isSome then .ok (k.erase m (.thing n)) else .error 2
  | .old | .oldAll => .error 22
  | .array =>
      if Verif.Bytes.ofLe key ≥ t.max then .error 7
      else if (k.world.slots m (Verif.Bytes.ofLe key)).isSome then
        .ok { k with world := k.world.setSlot m (Verif.Bytes.ofLe key) none }
      else .error 2

/-- The map a descriptor is for. -/
def K.table (k : K) (fd : Nat) : Option (Nat × Table) :=
  match k.fds fd with
  | some (.map m) => (k.world.tables[m]?).map fun t => (m, t)
  | _ => none

/-- Linux on a machine with `cpus` CPUs: `fresh` picks the numbers of descriptors, if it has any left, `fault` makes a call fail. -/
def sys (cpus : Nat) (fresh : (Nat → Option Obj) → Option Nat) (fault : Option Nat) : Sys K where
  createMap kind ksize vsize max k :=
    if !creatable kind ksize vsize max then (.error 22, k)
    else
      match fault, fresh k.fds with
      | some e, _ => (.error e, k)
      | none, none => (.error 24, k)
      | none, some fd =>
          (.ok fd, ({ k with world := { k.world with tables := k.world.tables ++ [⟨kind, ksize, vsize, max⟩] } } : K).openFd fd
            (.map k.world.tables.length))
  lookup fd key flags k :=
    match k.table fd with
    | none => .error 9
    | some (m, t) => if flags ≠ 0 then .error 22 else k.lookup cpus m t key
  update fd key value flags k :=
    match k.table fd with
    | none => (.error 9, k)
    | some (m, t) =>
        match k.update cpus fault m t key value flags with
        | .ok k => (.ok (), k)
        | .error e => (.error e, k)
  delete fd key k :=
    match k.table fd with
    | none => (.error 9, k)
    | some (m, t) =>
        match k.delete m t key with
        | .ok k => (.ok (), k)
        | .error e => (.error e, k)
  close fd k := k.closeFd fd

/-- Descriptors are numbered from what is free, below 2^31. -/
def Fresh (fresh : (Nat → Option Obj) → Option Nat) : Prop :=
  ∀ fds n, fresh fds = some n → fds n = none ∧ n < 2 ^ 31

/-! ## Programs at work -/

/-- The state of a program at work: the system, the cgroup and type of attachment it runs for, the CPU, and the cgroup of the packet's socket. -/
structure Work where
  k : K
  ino : BitVec 64 := 0
  attach : BitVec 32 := 0
  cpu : Nat := 0
  task : Nat := 0
  sock : Option Nat := none

/-- `bpf_sk_storage_get` and the like: a pointer to the value of an object; with flag 1 a value is made if there is none. Each of them is for maps
of one kind: a program which gives it another is refused by the verifier, here it is given nothing. -/
def storageGet (kind : Kind) (fault : Option Nat) (m n : Nat) (value : Option Bytes) (flags : Nat) (w : Work) : Option (Nat × Nat) × Work :=
  match w.k.world.tables[m]? with
  | none => (none, w)
  | some t =>
      if t.kind ≠ kind ∨ flags > 1 then (none, w)
      else
        match w.k.at_ m (.thing n) with
        | some id => (some (id, 0), w)
        | none =>
            if flags = 1 ∧ fault = none then
              (some (w.k.next, 0), { w with k := w.k.put m (.thing n) fun _ => value.getD (List.replicate t.vsize 0) })
            else (none, w)

/-- `bpf_sk_storage_delete` and the like, each for maps of one kind. -/
def storageDelete (kind : Kind) (m n : Nat) (w : Work) : Int × Work :=
  if (w.k.world.tables[m]?).map (·.kind) ≠ some kind then (-22, w)
  else if (w.k.at_ m (.thing n)).isSome then (0, { w with k := w.k.erase m (.thing n) }) else (-2, w)

/-- The helpers of Linux. -/
def helpers (fault : Option Nat) : Helpers Work (Nat × Nat) where
  skGet := storageGet .sk fault
  inodeGet := storageGet .inode fault
  cgrpGet := storageGet .cgrp fault
  skDelete := storageDelete .sk
  inodeDelete := storageDelete .inode
  cgrpDelete := storageDelete .cgrp
  local_ m flags w :=
    match w.k.world.tables[m]? with
    | none => none
    | some t =>
        if flags ≠ 0 then none
        else (w.k.at_ m (t.slot w.ino w.attach)).map fun id => (id, if t.kind = .oldAll then w.cpu else 0)
  taskUnder m index w := w.k.world.taskUnder m index w.task
  skbUnder m index w := w.k.world.skbUnder m index w.sock

/-! ## Histories -/

/-- What is done. Maps and objects the process has open have names: the first opened is 0, the next 1, and so on; pointers of programs too. Programs name maps
    and objects by their numbers. -/
inductive Op where
  /-- a socket, a file, a cgroup is made and opened -/
  | open_ (t : Thing)
  /-- another descriptor of an object -/
  | clone (h : Nat)
  /-- a map or object is closed -/
  | drop (h : Nat)
  /-- a map, for a type of `size` bytes -/
  | map (kind : Kind) (ksize vsize max size : Nat)
  | get (m h flags : Nat)
  | insert (m h : Nat) (value : Bytes) (flags : Nat)
  | remove (m h : Nat)
  | oldGet (m : Nat) (key : CgKey) (padding : BitVec 32) (flags : Nat)
  | oldInsert (m : Nat) (key : CgKey) (padding : BitVec 32) (value : Bytes) (flags : Nat)
  | oldAllGet (m : Nat) (key : CgKey) (padding : BitVec 32) (flags : Nat)
  | oldAllInsert (m : Nat) (key : CgKey) (padding : BitVec 32) (values : List Bytes) (flags : Nat)
  | set (m : Nat) (index : BitVec 32) (h flags : Nat)
  /-- the open directory itself is given to the array -/
  | setOwned (m : Nat) (index : BitVec 32) (h flags : Nat)
  | unset (m : Nat) (index : BitVec 32)
  /-- a program with an old map is attached to a cgroup -/
  | attach (m n : Nat) (type : BitVec 32)
  /-- a program asks for the value of an object -/
  | ptr (m n : Nat)
  | ptrOrInsert (m n : Nat) (value : Option Bytes)
  | delete (m n : Nat)
  /-- a program attached to a cgroup asks for its value -/
  | oldPtr (m n : Nat) (type : BitVec 32) (cpu : Nat)
  /-- a program reads and writes through a pointer -/
  | read (p : Nat)
  | write (p : Nat) (value : Bytes)
  /-- a program asks whether the task, which is in a cgroup, or a packet is under a cgroup of an array -/
  | taskUnder (m : Nat) (index : BitVec 32) (cg : Nat)
  | skbUnder (m : Nat) (index : BitVec 32) (cg : Option Nat)
deriving DecidableEq, Repr

inductive Res where
  | done
  | failed (e : Error)
  | value (v : Bytes)
  | values (vs : List Bytes)
  /-- whether a program is given a pointer -/
  | pointer (b : Bool)
  /-- what a program is told -/
  | told (r : Except Int Unit)
  | answer (r : Except Int Bool)
  /-- there is no such map, object or pointer, or what is asked for has the wrong type -/
  | nothing
deriving DecidableEq, Repr

/-! ## What is promised -/

inductive Stands where
  | map (kind : Kind) (vsize max m : Nat)
  | thing (n : Nat)
deriving DecidableEq, Repr

/-- A pointer is to the value of a slot, or to something that no longer is the value of anything. -/
inductive Ptr where
  | to (m : Nat) (s : Slot) (cpu : Nat)
  | lost (g : Nat) (cpu : Nat)
deriving DecidableEq, Repr

/-- `val m s` is the value kept for `s` in map `m`, for each CPU. -/
structure A where
  world : World := {}
  val : Nat → Slot → Option (Nat → Bytes) := fun _ _ => none
  lost : List (Nat → Bytes) := []
  ptrs : List Ptr := []
  names : List (Option Stands) := []

def A.thingOf (a : A) (h : Nat) : Option Nat :=
  match a.names[h]?.join with
  | some (.thing n) => some n
  | _ => none

/-- Kind, sizes and number of a map. -/
def A.mapOf (a : A) (h : Nat) : Option (Kind × Nat × Nat × Nat) :=
  match a.names[h]?.join with
  | some (.map kind vsize max m) => some (kind, vsize, max, m)
  | _ => none

def Ptr.detach (m : Nat) (s : Slot) (g : Nat) : Ptr → Ptr
  | .to m' s' c => if m' = m ∧ s' = s then .lost g c else .to m' s' c
  | .lost g' c => .lost g' c

/-- Another value, or none, is kept for a slot. Pointers to the old value no longer are to anything's value. -/
def A.renew (a : A) (m : Nat) (s : Slot) (x : Option (Nat → Bytes)) : A :=
  match a.val m s with
  | none => { a with val := fun m' s' => if m' = m ∧ s' = s then x else a.val m' s' }
  | some old =>
      { a with
        val := fun m' s' => if m' = m ∧ s' = s then x else a.val m' s'
        lost := a.lost ++ [old]
        ptrs := a.ptrs.map (Ptr.detach m s a.lost.length) }

/-- The value kept for a slot is changed in place. -/
def A.change (a : A) (m : Nat) (s : Slot) (f : Nat → Bytes) : A :=
  { a with val := fun m' s' => if m' = m ∧ s' = s then some f else a.val m' s' }

/-- What is at a pointer. -/
def A.deref (a : A) : Ptr → Option Bytes
  | .to m s c => (a.val m s).map fun f => f c
  | .lost g c => (a.lost[g]?).map fun f => f c

def setCpu (f : Nat → Bytes) (c : Nat) (v : Bytes) : Nat → Bytes := fun c' => if c' = c then v else f c'

def A.store (a : A) (p : Ptr) (v : Bytes) : A :=
  match p with
  | .to m s c =>
      match a.val m s with
      | some f => a.change m s (setCpu f c v)
      | none => a
  | .lost g c => { a with lost := a.lost.modify g fun f => setCpu f c v }

/-- The three kinds of storage of objects. -/
def Kind.ofObjects : Kind → Bool
  | .sk | .inode | .cgrp => true
  | _ => false

/-- A new cgroup is made under one there is. -/
def World.welcome (w : World) : Thing → Bool
  | .cgroup (some up) _ => isCgroup w.things[up]?
  | _ => true

/-- An object can have values in a map of this kind. -/
def suits (w : World) (kind : Kind) (n : Nat) : Option Nat :=
  match w.things[n]? with
  | some t => unsuited kind t
  | none => some 9

/-- What each thing does. `room`: a descriptor is left. -/
def step (cpus : Nat) (a : A) (op : Op) (fault : Option Nat) (room : Bool) : A × Res :=
  match op with
  | .open_ t =>
      if a.world.welcome t && room then
        ({ a with world := { a.world with things := a.world.things ++ [t] }, names := a.names ++ [some (.thing a.world.things.length)] }, .done)
      else (a, .nothing)
  | .clone h =>
      match a.thingOf h, room with
      | some n, true => ({ a with names := a.names ++ [some (.thing n)] }, .done)
      | _, _ => (a, .nothing)
  | .drop h => if (a.names[h]?.join).isSome then ({ a with names := a.names.set h none }, .done) else (a, .nothing)
  | .map kind ksize vsize max size =>
      if !creatable kind ksize vsize max then (a, .failed (.create 22))
      else
        match fault, room with
        | some e, _ => (a, .failed (.create e))
        | none, false => (a, .failed (.create 24))
        | none, true =>
            let a := { a with world := { a.world with tables := a.world.tables ++ [⟨kind, ksize, vsize, max⟩] } }
            if ksize = 8 then (a, .failed (.invalidKeySize 16 8))
            else if kind ≠ .array ∧ vsize ≠ size then (a, .failed (.invalidValueSize size vsize))
            else ({ a with names := a.names ++ [some (.map kind vsize max (a.world.tables.length - 1))] }, .done)
  | .get m h flags =>
      match a.mapOf m, a.thingOf h with
      | some (kind, _, _, t), some n =>
          if !Kind.ofObjects kind then (a, .nothing)
          else if flags ≠ 0 then (a, .failed (.syscall "bpf_map_lookup_elem" 22))
          else
            match suits a.world kind n, a.val t (.thing n) with
            | some e, _ => (a, .failed (.syscall "bpf_map_lookup_elem" e))
            | none, some f => (a, .value (f 0))
            | none, none => (a, .failed .keyNotFound)
      | _, _ => (a, .nothing)
  | .insert m h value flags =>
      match a.mapOf m, a.thingOf h with
      | some (kind, vsize, _, t), some n =>
          if !Kind.ofObjects kind || value.length ≠ vsize then (a, .nothing)
          else
            match suits a.world kind n, refusal (a.val t (.thing n)).isSome flags fault with
            | some e, _ => (a, .failed (.syscall "bpf_map_update_elem" e))
            | none, some e => (a, .failed (.syscall "bpf_map_update_elem" e))
            | none, none => (a.renew t (.thing n) (some fun _ => value), .done)
      | _, _ => (a, .nothing)
  | .remove m h =>
      match a.mapOf m, a.thingOf h with
      | some (kind, _, _, t), some n =>
          if !Kind.ofObjects kind then (a, .nothing)
          else
            match suits a.world kind n with
            | some e => (a, .failed (.syscall "bpf_map_delete_elem" e))
            | none =>
                if (a.val t (.thing n)).isSome then (a.renew t (.thing n) none, .done)
                else (a, .failed (.syscall "bpf_map_delete_elem" 2))
      | _, _ => (a, .nothing)
  | .oldGet m key _ flags =>
      match a.mapOf m with
      | some (.old, _, _, t) =>
          if flags ≠ 0 then (a, .failed (.syscall "bpf_map_lookup_elem" 22))
          else
            match a.val t (.cg key.ino.toNat key.attach.toNat) with
            | some f => (a, .value (f 0))
            | none => (a, .failed .keyNotFound)
      | _ => (a, .nothing)
  | .oldInsert m key _ value flags =>
      match a.mapOf m with
      | some (.old, vsize, _, t) =>
          if value.length ≠ vsize then (a, .nothing)
          else
            match oldRefusal (a.val t (.cg key.ino.toNat key.attach.toNat)).isSome flags fault with
            | some e => (a, .failed (.syscall "bpf_map_update_elem" e))
            | none => (a.renew t (.cg key.ino.toNat key.attach.toNat) (some fun _ => value), .done)
      | _ => (a, .nothing)
  | .oldAllGet m key _ flags =>
      match a.mapOf m with
      | some (.oldAll, _, _, t) =>
          if flags ≠ 0 then (a, .failed (.syscall "bpf_map_lookup_elem" 22))
          else
            match a.val t (.cg key.ino.toNat key.attach.toNat) with
            | some f => (a, .values ((List.range cpus).map f))
            | none => (a, .failed .keyNotFound)
      | _ => (a, .nothing)
  | .oldAllInsert m key _ values flags =>
      match a.mapOf m with
      | some (.oldAll, vsize, _, t) =>
          if values.length ≠ cpus ∨ values.any (fun v => v.length != vsize) then (a, .nothing)
          else
            match oldRefusal (a.val t (.cg key.ino.toNat key.attach.toNat)).isSome flags fault, a.val t (.cg key.ino.toNat key.attach.toNat) with
            | some e, _ => (a, .failed (.syscall "bpf_map_update_elem" e))
            | none, none => (a, .nothing)
            | none, some f => (a.change t (.cg key.ino.toNat key.attach.toNat) (fun c => (values[c]?).getD (f c)), .done)
      | _ => (a, .nothing)
  | .set m index h flags =>
      match a.mapOf m, a.thingOf h with
      | some (.array, _, max, t), some n => setArray a max t index n flags fault
      | _, _ => (a, .nothing)
  | .setOwned m index h flags =>
      match a.mapOf m, a.thingOf h with
      | some (.array, _, max, t), some n =>
          match setArray a max t index n flags fault with
          | (a, r) => ({ a with names := a.names.set h none }, r)
      | _, _ => (a, .nothing)
  | .unset m index =>
      match a.mapOf m with
      | some (.array, _, max, t) =>
          if index.toNat ≥ max then (a, .failed (.outOfBounds index.toNat max))
          else if (a.world.slots t index.toNat).isSome then ({ a with world := a.world.setSlot t index.toNat none }, .done)
          else (a, .failed (.syscall "bpf_map_delete_elem" 2))
      | _ => (a, .nothing)
  | .attach m n type =>
      match a.world.tables[m]?, a.world.things[n]? with
      | some t, some (.cgroup _ ino) =>
          if t.kind ≠ .old ∧ t.kind ≠ .oldAll then (a, .nothing)
          else
            match a.val m (t.slot ino type) with
            | some _ => (a, .done)
            | none => (a.change m (t.slot ino type) (zeros t.vsize), .done)
      | _, _ => (a, .nothing)
  | .ptr m n =>
      match a.world.tables[m]? with
      | some t =>
          if !Kind.ofObjects t.kind || (suits a.world t.kind n).isSome then (a, .nothing)
          else if (a.val m (.thing n)).isSome then ({ a with ptrs := a.ptrs ++ [.to m (.thing n) 0] }, .pointer true)
          else (a, .pointer false)
      | none => (a, .nothing)
  | .ptrOrInsert m n value =>
      match a.world.tables[m]? with
      | some t =>
          if !Kind.ofObjects t.kind || (suits a.world t.kind n).isSome || value.any (fun v => v.length != t.vsize) then (a, .nothing)
          else if (a.val m (.thing n)).isSome then ({ a with ptrs := a.ptrs ++ [.to m (.thing n) 0] }, .pointer true)
          else if fault.isSome then (a, .pointer false)
          else
            let b := a.change m (.thing n) fun _ => value.getD (List.replicate t.vsize 0)
            ({ b with ptrs := b.ptrs ++ [.to m (.thing n) 0] }, .pointer true)
      | none => (a, .nothing)
  | .delete m n =>
      match a.world.tables[m]? with
      | some t =>
          if !Kind.ofObjects t.kind || (suits a.world t.kind n).isSome then (a, .nothing)
          else if (a.val m (.thing n)).isSome then (a.renew m (.thing n) none, .told (.ok ()))
          else (a, .told (.error (-2)))
      | none => (a, .nothing)
  | .oldPtr m n type cpu =>
      match a.world.tables[m]?, a.world.things[n]? with
      | some t, some (.cgroup _ ino) =>
          if (t.kind ≠ .old ∧ t.kind ≠ .oldAll) ∨ cpu ≥ cpus then (a, .nothing)
          else
            match a.val m (t.slot ino type) with
            | none => (a, .nothing)
            | some _ =>
                ({ a with ptrs := a.ptrs ++ [.to m (t.slot ino type) (if t.kind = .oldAll then cpu else 0)] }, .pointer true)
      | _, _ => (a, .nothing)
  | .read p =>
      match (a.ptrs[p]?).bind a.deref with
      | some v => (a, .value v)
      | none => (a, .nothing)
  | .write p value =>
      match a.ptrs[p]? with
      | some q =>
          match a.deref q with
          | some old => if old.length ≠ value.length then (a, .nothing) else (a.store q value, .done)
          | none => (a, .nothing)
      | none => (a, .nothing)
  | .taskUnder m index cg =>
      if ((a.world.tables[m]?).map Table.kind) = some .array ∧ isCgroup a.world.things[cg]? then
        (a, .answer (answerOf (a.world.taskUnder m index cg)))
      else (a, .nothing)
  | .skbUnder m index cg =>
      if ((a.world.tables[m]?).map Table.kind) = some .array ∧ (∀ c ∈ cg, isCgroup a.world.things[c]?) then
        (a, .answer (answerOf (a.world.skbUnder m index cg)))
      else (a, .nothing)
where
  setArray (a : A) (max t : Nat) (index : BitVec 32) (n flags : Nat) (fault : Option Nat) : A × Res :=
    if index.toNat ≥ max then (a, .failed (.outOfBounds index.toNat max))
    else if flags ≠ 0 then (a, .failed (.syscall "bpf_map_update_elem" 22))
    else if !isCgroup a.world.things[n]? then (a, .failed (.syscall "bpf_map_update_elem" 9))
    else
      match fault with
      | some e => (a, .failed (.syscall "bpf_map_update_elem" e))
      | none => ({ a with world := a.world.setSlot t index.toNat (some n) }, .done)
  /-- Yes, no, or the error. -/
  answerOf (r : Int) : Except Int Bool :=
    if r < 0 then .error r else .ok (r != 0)

end Verif.Local.Spec
