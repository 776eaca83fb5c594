import Verif.Redirect.Model

/-!
# Maps that packets are redirected with: the system, and what is promised

The system is Linux (`kernel/bpf/devmap.c`, `cpumap.c`, `net/xdp/xskmap.c`, `net/core/filter.c`): network interfaces come and go, programs and
sockets are behind descriptors. What is promised is read off what the process did and was told.
-/
namespace Verif.Redirect.Spec
open Verif.Redirect (Kind Error Value Read Bytes)
open Verif.Bytes

/-- What is behind a descriptor: a program (by its id), an `AF_XDP` socket (by a number that is its own), a map. -/
inductive Thing where
  | prog (id : Nat)
  | sock (n : Nat)
  | map
deriving DecidableEq, Repr

/-- Where a packet goes: out of an interface or to a CPU (with a queue of so many packets), in both cases after the program with this id, if any;
    to a socket. -/
inductive Target where
  | dev (ifindex : Nat) (prog : Option Nat)
  | cpu (size : Nat) (prog : Option Nat)
  | sock (n : Nat)
deriving DecidableEq, Repr

/-- What a program was loaded for. -/
inductive Use where
  | devmap | cpumap | other
deriving DecidableEq, Repr

/-- The machine: whether programs in maps of devices and of CPUs are known, the number of CPUs, the limit of descriptors. -/
structure Env where
  devProg : Bool
  cpuProg : Bool
  cpus : Nat
  limit : Nat

/-- What the process does and what happens. Maps, programs and sockets are named by their descriptors, which the system chooses. Sockets are bound to an
    interface and a queue. -/
inductive Op where
  | load (fd : Nat) (kind : Kind) (vsize max : Nat)
  | adopt (fd : Nat) (kind : Kind) (vsize max : Nat)
  | program (fd id : Nat) (use : Use)
  | socket (fd n ifindex queue : Nat)
  | dup (fd fd' : Nat)
  | close (fd : Nat)
  | plug (ifindex : Nat)
  | unplug (ifindex : Nat)
  | devSet (m : Nat) (index target : BitVec 32) (program : Option Nat) (flags : Nat)
  | devGet (m : Nat) (index : BitVec 32)
  | devIter (m : Nat)
  | hashInsert (m : Nat) (key target : BitVec 32) (program : Option Nat) (flags : Nat)
  | hashGet (m : Nat) (key : BitVec 32)
  | hashRemove (m : Nat) (key : BitVec 32)
  | cpuSet (m : Nat) (index size : BitVec 32) (program : Option Nat) (flags : Nat)
  | cpuGet (m : Nat) (index : BitVec 32)
  | cpuIter (m : Nat)
  | xskSet (m : Nat) (index : BitVec 32) (fd flags : Nat)
  | xskSetOwned (m : Nat) (index : BitVec 32) (fd flags : Nat)
  | xskUnset (m : Nat) (index : BitVec 32)
  /-- by a program -/
  | progGet (m : Nat) (key : BitVec 32)
  | progIfindex (m : Nat) (key : BitVec 32)
  | progQueue (m : Nat) (key : BitVec 32)
  /-- a packet that came in on an interface and queue is redirected, by a program that returns what `redirect` gives, be it `Ok` or `Err` -/
  | redirect (m : Nat) (key : BitVec 32) (flags : BitVec 64) (ifindex queue : Nat)
deriving DecidableEq, Repr

/-- What becomes of a packet. -/
inductive Fate where
  | sent (ifindex : Nat) (prog : Option Nat)
  | sentAll (tos : List (Nat × Option Nat))
  | queued (cpu size : Nat) (prog : Option Nat)
  | received (sock : Nat)
  | dropped
  /-- what else the program returned: 0 is to abort, 1 to drop, 2 to pass, 3 to send back -/
  | acted (action : Nat)
deriving DecidableEq, Repr

inductive Out where
  | done
  | failed (e : Error)
  | got (v : Value)
  | all (vs : List (Except Error Value))
  | saw (v : Read (Option Value))
  | number (n : Read (Option Nat))
  | packet (r : Except Nat Nat) (f : Fate)
  /-- there is no such map, program or descriptor -/
  | impossible
deriving DecidableEq, Repr

/-! ## What is promised -/

/-- Is something behind another descriptor too? -/
def others (limit : Nat) (files : Nat → Option Thing) (fd : Nat) (t : Thing) : Bool :=
  (List.range limit).any fun f => f != fd && files f == some t

/-- Function update. -/
def upd {α : Type} (f : Nat → α) (k : Nat) (v : α) : Nat → α := fun k' => if k' = k then v else f k'

/-- What is known from what happened: what is behind descriptors, and where each map sends each key. -/
structure Book where
  files : Nat → Option Thing := fun _ => none
  table : Nat → Nat → Option Target := fun _ _ => none

/-- Everything that goes to a target is gone with the target. -/
def forget (table : Nat → Nat → Option Target) (p : Target → Bool) : Nat → Nat → Option Target :=
  fun m k => match table m k with
    | some t => if p t then none else some t
    | none => none

/-- Does it go out of this interface? -/
def Target.isDev (x : Nat) : Target → Bool
  | .dev y _ => y == x
  | _ => false

/-- Does it go to this socket? -/
def Target.isSock (n : Nat) : Target → Bool
  | .sock k => k == n
  | _ => false

/-- The program behind a descriptor. -/
def Book.progAt (b : Book) (fd : Nat) : Option Nat :=
  match b.files fd with
  | some (.prog id) => some id
  | _ => none

/-- A descriptor is closed. A socket is gone when it has no descriptor left. -/
def Book.close (limit : Nat) (b : Book) (fd : Nat) : Book :=
  match b.files fd with
  | some (.sock n) =>
      { files := upd b.files fd none,
        table := if others limit b.files fd (.sock n) then b.table else forget b.table (Target.isSock n) }
  | _ => { b with files := upd b.files fd none }

/-- An entry is set, by a call that gave `Ok`. -/
def Book.set (b : Book) (m : Nat) (key : BitVec 32) (t : Option Target) : Book :=
  { b with table := upd b.table m (upd (b.table m) key.toNat t) }

/-- What is known after something was done with success: an entry is what it was last set to, until it is removed or its target is gone. Anything else
    changes nothing. -/
def Book.after (limit : Nat) (b : Book) : Op → Out → Book
  | .load fd _ _ _, .done => { files := upd b.files fd (some .map), table := upd b.table fd fun _ => none }
  | .adopt fd _ _ _, .done => { files := upd b.files fd (some .map), table := upd b.table fd fun _ => none }
  | .program fd id _, .done => { b with files := upd b.files fd (some (.prog id)) }
  | .socket fd n _ _, .done => { b with files := upd b.files fd (some (.sock n)) }
  | .dup fd fd', .done => { b with files := upd b.files fd' (b.files fd) }
  | .close fd, .done => b.close limit fd
  | .unplug x, .done => { b with table := forget b.table (Target.isDev x) }
  | .devSet m i x p _, .done => b.set m i (some (.dev x.toNat (p.bind b.progAt)))
  | .hashInsert m i x p _, .done => b.set m i (some (.dev x.toNat (p.bind b.progAt)))
  | .hashRemove m i, .done => b.set m i none
  | .cpuSet m i n p _, .done => b.set m i (some (.cpu n.toNat (p.bind b.progAt)))
  | .xskSet m i fd _, .done =>
      match b.files fd with
      | some (.sock n) => b.set m i (some (.sock n))
      | _ => b
  | .xskSetOwned m i fd _, .done =>
      match b.files fd with
      | some (.sock n) => { b.set m i (some (.sock n)) with files := upd b.files fd none }
      | _ => b.close limit fd
  | .xskSetOwned _ _ fd _, .failed _ => b.close limit fd
  | .xskUnset m i, .done => b.set m i none
  | _, _ => b

/-! ## The system -/

structure KMap where
  kind : Kind
  vsize : Nat
  max : Nat
  entries : Nat → Option Target := fun _ => none
  /-- keys there ever were -/
  keys : List Nat := []

structure K where
  files : Nat → Option Thing := fun _ => none
  /-- by id -/
  progs : Nat → Option Use := fun _ => none
  /-- interface and queue, by number -/
  socks : Nat → Option (Nat × Nat) := fun _ => none
  devs : Nat → Bool := fun _ => false
  /-- by descriptor -/
  maps : Nat → Option KMap := fun _ => none

/-- Which maps are made: `dev_map_init_map`, `cpu_map_alloc`, `xsk_map_alloc`. Values may have eight bytes if programs are known. -/
def creatable (E : Env) (kind : Kind) (ksize vsize max : Nat) : Bool :=
  ksize == 4 && max != 0 && max < 4294967296 &&
  match kind with
  | .dev | .hash => vsize == 4 || vsize == 8 && E.devProg
  | .cpu => (vsize == 4 || vsize == 8 && E.cpuProg) && max ≤ E.cpus
  | .xsk => vsize == 4

/-- `BPF_MAP_CREATE`; the descriptor is `fd`. -/
def createMap (E : Env) (fd : Nat) (kind : Kind) (ksize vsize max : Nat) (k : K) : Except Nat Nat × K :=
  if creatable E kind ksize vsize max then
    (.ok fd, { k with files := upd k.files fd (some .map), maps := upd k.maps fd (some { kind := kind, vsize := vsize, max := max }) })
  else (.error 22, k)

/-- How the system shows a target in a map with values of this size: interface or size of the queue, and id of the program. -/
def shown (vsize : Nat) : Target → Bytes
  | .dev x p => (le 4 x ++ le 4 (p.getD 0)).take vsize
  | .cpu n p => (le 4 n ++ le 4 (p.getD 0)).take vsize
  | .sock _ => []

/-- `BPF_MAP_LOOKUP_ELEM`. -/
def lookup (fd : Nat) (key : Bytes) (flags : Nat) (k : K) : Except Nat Bytes :=
  match k.maps fd with
  | none => .error 9
  | some m =>
      if m.kind = .xsk then .error 95
      else if flags ≠ 0 then .error 22
      else
        match m.entries (ofLe key) with
        | some t => .ok (shown m.vsize t)
        | none => .error 2

/-- The program a map of this kind is given by its descriptor: 0 is none; it has to be made for the purpose. -/
def chained (k : K) (use : Use) (fd : Nat) : Except Nat (Option Nat) :=
  if fd = 0 then .ok none
  else
    match k.files fd with
    | some (.prog id) => if k.progs id = some use then .ok (some id) else .error 22
    | _ => .error 22

/-- The second word of a value, if there is one. -/
def second (v : Bytes) : Nat := ofLe ((v.drop 4).take 4)

/-- An entry is changed. -/
def KMap.put (m : KMap) (key : Nat) (t : Option Target) : KMap :=
  { m with entries := upd m.entries key t, keys := if key ∈ m.keys then m.keys else key :: m.keys }

/-- How many entries there are. -/
def KMap.count (m : KMap) : Nat := (m.keys.filter fun k => (m.entries k).isSome).length

/-- `dev_map_update_elem`, `dev_map_hash_update_elem`, `cpu_map_update_elem`, `xsk_map_update_elem`: the entry that is to be, or an error. -/
def entry (E : Env) (k : K) (m : KMap) (key : Nat) (v : Bytes) (flags : Nat) : Except Nat (Option Target) :=
  match m.kind with
  | .dev =>
      if flags > 2 then .error 22
      else if key ≥ m.max then .error 7
      else if flags = 1 then .error 17
      else if ofLe (v.take 4) = 0 then (if second v ≠ 0 then .error 22 else .ok none)
      else if k.devs (ofLe (v.take 4)) then
        match chained k .devmap (second v) with
        | .error e => .error e
        | .ok p => .ok (some (.dev (ofLe (v.take 4)) p))
      else .error 22
  | .hash =>
      if flags > 2 then .error 22
      else if ofLe (v.take 4) = 0 then .error 22
      else if flags = 1 ∧ (m.entries key).isSome then .error 17
      else if k.devs (ofLe (v.take 4)) then
        match chained k .devmap (second v) with
        | .error e => .error e
        | .ok p => if (m.entries key).isNone ∧ m.count ≥ m.max then .error 7 else .ok (some (.dev (ofLe (v.take 4)) p))
      else .error 22
  | .cpu =>
      if flags > 2 then .error 22
      else if key ≥ m.max then .error 7
      else if flags = 1 then .error 17
      else if ofLe (v.take 4) > 16384 then .error 75
      else if key ≥ E.cpus then .error 19
      else if ofLe (v.take 4) = 0 then .ok none
      else
        match chained k .cpumap (second v) with
        | .error e => .error e
        | .ok p => .ok (some (.cpu (ofLe (v.take 4)) p))
  | .xsk =>
      if flags > 2 then .error 22
      else if key ≥ m.max then .error 7
      else
        match k.files (ofLe v) with
        | none => .error 9
        | some (.sock n) =>
            if m.entries key = some (.sock n) then .ok (some (.sock n))
            else if (m.entries key).isSome ∧ flags = 1 then .error 17
            else if (m.entries key).isNone ∧ flags = 2 then .error 2
            else .ok (some (.sock n))
        | some _ => .error 88

/-- `BPF_MAP_UPDATE_ELEM`. The value is read up to the size of values. -/
def update (E : Env) (fd : Nat) (key v : Bytes) (flags : Nat) (k : K) : Except Nat Unit × K :=
  match k.maps fd with
  | none => (.error 9, k)
  | some m =>
      match entry E k m (ofLe key) (v.take m.vsize) flags with
      | .error e => (.error e, k)
      | .ok t => (.ok (), { k with maps := upd k.maps fd (some (m.put (ofLe key) t)) })

/-- `BPF_MAP_DELETE_ELEM`: the arrays do not mind if nothing is there. -/
def delete (fd : Nat) (key : Bytes) (k : K) : Except Nat Unit × K :=
  match k.maps fd with
  | none => (.error 9, k)
  | some m =>
      if m.kind = .hash then
        if (m.entries (ofLe key)).isNone then (.error 2, k)
        else (.ok (), { k with maps := upd k.maps fd (some (m.put (ofLe key) none)) })
      else if ofLe key ≥ m.max then (.error 22, k)
      else (.ok (), { k with maps := upd k.maps fd (some (m.put (ofLe key) none)) })

/-- Entries that go to a target are removed from a map. -/
def KMap.drop (m : KMap) (p : Target → Bool) : KMap := { m with entries := forget (fun _ => m.entries) p 0 }

/-- And from all maps. -/
def K.drop (k : K) (p : Target → Bool) : K := { k with maps := fun fd => (k.maps fd).map fun m => m.drop p }

/-- `close`: with the last descriptor a socket is released (`xsk_release` takes it out of all maps). The maps of this model have one descriptor. -/
def close (E : Env) (fd : Nat) (k : K) : K :=
  match k.files fd with
  | some (.sock n) =>
      let k' := if others E.limit k.files fd (.sock n) then k else k.drop (Target.isSock n)
      { k' with files := upd k.files fd none }
  | some .map => { k with files := upd k.files fd none, maps := upd k.maps fd none }
  | _ => { k with files := upd k.files fd none }

/-- An interface is unregistered: `dev_map_notification` takes it out of all maps. -/
def unplug (x : Nat) (k : K) : K := { k.drop (Target.isDev x) with devs := fun y => if y = x then false else k.devs y }

/-- What `bpf_redirect_map` leaves for the time when the program returns. -/
inductive Chosen where
  | one (key : Nat) (t : Target)
  | every (ts : List (Nat × Option Nat))
deriving DecidableEq, Repr

/-- Interface and program. -/
def Target.out : Target → Option (Nat × Option Nat)
  | .dev x p => some (x, p)
  | _ => none

/-- All interfaces in a map. -/
def KMap.outs (m : KMap) : List (Nat × Option Nat) :=
  match m.kind with
  | .dev => (List.range m.max).filterMap fun i => (m.entries i).bind Target.out
  | _ => m.keys.filterMap fun i => (m.entries i).bind Target.out

/-- Flags: the lowest two bits are an action; bit 3 (`BPF_F_BROADCAST`) and bit 4 (`BPF_F_EXCLUDE_INGRESS`) are for devices. -/
def allowed (kind : Kind) (flags : Nat) : Bool :=
  flags < 4 || (kind == .dev || kind == .hash) && flags < 32 && flags % 8 < 4

/-- `__bpf_xdp_redirect_map`, for a packet from interface `ifindex`. -/
def redirectMap (ifindex fd : Nat) (key : BitVec 32) (flags : BitVec 64) (s : K × Option Chosen) : Int × (K × Option Chosen) :=
  match s.1.maps fd with
  | none => (0, s)
  | some m =>
      if allowed m.kind flags.toNat = false then (0, s)
      else if flags.toNat / 8 % 2 = 1 then
        (4, (s.1, some (.every (m.outs.filter fun t => ¬ (flags.toNat / 16 % 2 = 1 ∧ t.1 = ifindex)))))
      else
        match m.entries key.toNat with
        | none => ((flags.toNat % 4 : Nat), (s.1, none))
        | some t => (4, (s.1, some (.one key.toNat t)))

/-- `xdp_do_redirect`, for a packet from this interface and queue: only the socket bound to both gets it. -/
def deliver (k : K) (ifindex queue : Nat) : Option Chosen → Fate
  | none => .dropped
  | some (.every ts) => .sentAll ts
  | some (.one _ (.dev x p)) => .sent x p
  | some (.one key (.cpu n p)) => .queued key n p
  | some (.one _ (.sock n)) => if k.socks n = some (ifindex, queue) then .received n else .dropped

/-- `bpf_map_lookup_elem` of programs: of a socket, the queue can be read. -/
def progLookup (fd : Nat) (key : Bytes) (s : K × Option Chosen) : Option Bytes :=
  match s.1.maps fd with
  | none => none
  | some m =>
      match m.entries (ofLe key) with
      | some (.sock n) => (s.1.socks n).map fun q => le 4 q.2
      | some t => some (shown m.vsize t)
      | none => none

end Verif.Redirect.Spec
