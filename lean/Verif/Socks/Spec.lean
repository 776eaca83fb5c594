import Verif.Socks.Model

/-!
# Socket maps: the system, and what is promised

The system is Linux (`net/core/sock_map.c`, `kernel/bpf/reuseport_array.c`, `net/core/filter.c`): sockets, maps with entries
that are sockets, and the descriptors of the process. What is promised speaks of maps and sockets by name.
-/
namespace Verif.Socks.Spec
open Verif.Socks (Kind Error Sys Helpers Data)

abbrev Bytes := List UInt8

/-- What a socket is: a connected TCP socket, a listening one, a UDP socket, a TCP socket that is neither connected nor listening, or
    a socket maps do not take. -/
inductive SockKind where
  | conn | listen | udp | idle | odd
deriving DecidableEq, Repr

/-- A socket, with its `SO_REUSEPORT` group and its address family. -/
structure Sock where
  kind : SockKind
  group : Option Nat := none
  family : Nat := 2
deriving DecidableEq, Repr

/-- A map: entries have a key and a socket. -/
structure Table where
  kind : Kind
  max : Nat
  entries : List (Bytes × Nat) := []
deriving DecidableEq, Repr

/-- The socket under a key. -/
def Table.at_ (t : Table) (key : Bytes) : Option Nat := t.entries.lookup key
def Table.erase (t : Table) (key : Bytes) : Table := { t with entries := t.entries.filter fun e => e.1 != key }
def Table.put (t : Table) (key : Bytes) (n : Nat) : Table :=
  { t with entries := (key, n) :: t.entries.filter fun e => e.1 != key }
/-- Without a socket. -/
def Table.without (t : Table) (n : Nat) : Table := { t with entries := t.entries.filter fun e => e.2 != n }

/-- Sockets and maps, by number. -/
structure Net where
  socks : List Sock := []
  tables : List Table := []
deriving DecidableEq, Repr

/-- The bytes of an index in memory. -/
def indexKey (i : BitVec 32) : Bytes := Verif.Bytes.le 4 i.toNat

/-- The socket under a key of a map. -/
def Net.at_ (net : Net) (m : Nat) (key : Bytes) : Option Nat := (net.tables[m]?).bind fun t => t.at_ key

/-- A socket that is closed, or no longer connected or listening, leaves all maps. -/
def Net.leave (net : Net) (n : Nat) : Net := { net with tables := net.tables.map fun t => t.without n }

/-- Sockets a `SOCKMAP` or `SOCKHASH` takes. -/
def SockKind.suited : SockKind → Bool
  | .conn | .listen | .udp => true
  | _ => false

/-- The flags `BPF_NOEXIST` (1) and `BPF_EXIST` (2). -/
def exists_ (t : Table) (key : Bytes) (flags : Nat) : Option Nat :=
  if (t.at_ key).isSome && flags == 1 then some 17
  else if (t.at_ key).isNone && flags == 2 then some 2
  else none

/-- A socket is put in a map: `sock_map_update_common`, `sock_hash_update_common`, `reuseport_array_update_check`. `fault` is a lack of memory and
    the like. -/
def refusal (t : Table) (s : Sock) (n : Nat) (key : Bytes) (flags : Nat) (fault : Option Nat) : Option Nat :=
  match t.kind with
  | .array =>
      if !s.kind.suited then some 95
      else if flags > 2 then some 22
      else if Verif.Bytes.ofLe key ≥ t.max then some 7
      else if fault.isSome then fault
      else exists_ t key flags
  | .hash =>
      if !s.kind.suited then some 95
      else if flags > 2 then some 22
      else if fault.isSome then fault
      else if (exists_ t key flags).isSome then exists_ t key flags
      else if (t.at_ key).isNone && t.entries.length ≥ t.max then some 7
      else none
  | .reuse =>
      if flags > 2 then some 22
      else if Verif.Bytes.ofLe key ≥ t.max then some 7
      else if fault.isSome then fault
      else if (exists_ t key flags).isSome then exists_ t key flags
      else if s.group.isNone || !s.kind.suited then some 22
      else if t.entries.any (fun e => e.2 == n) then some 16
      else none

def Net.store (net : Net) (fault : Option Nat) (m : Nat) (key : Bytes) (n : Nat) (flags : Nat) : Except Nat Net :=
  match net.tables[m]?, net.socks[n]? with
  | some t, some s =>
      match refusal t s n key flags fault with
      | some e => .error e
      | none => .ok { net with tables := net.tables.set m (t.put key n) }
  | _, _ => .error 9

/-- An entry is deleted. -/
def Net.erase (net : Net) (m : Nat) (key : Bytes) : Except Nat Net :=
  match net.tables[m]? with
  | none => .error 9
  | some t =>
      match t.at_ key, t.kind with
      | none, .array => .error 22
      | none, _ => .error 2
      | some _, _ => .ok { net with tables := net.tables.set m (t.erase key) }

/-! ## The system -/

inductive Obj where
  | map (m : Nat)
  | sock (n : Nat)
deriving DecidableEq, Repr

/-- `refs` counts the descriptors of a socket. -/
structure K where
  net : Net := {}
  refs : Nat → Nat := fun _ => 0
  fds : Nat → Option Obj := fun _ => none

def K.openFd (k : K) (fd : Nat) (x : Obj) : K := { k with fds := fun n => if n = fd then some x else k.fds n }
def K.closeFd (k : K) (fd : Nat) : K := { k with fds := fun n => if n = fd then none else k.fds n }
def K.ref (k : K) (n : Nat) : K := { k with refs := fun x => if x = n then k.refs n + 1 else k.refs x }
def K.unref (k : K) (n : Nat) : K := { k with refs := fun x => if x = n then k.refs n - 1 else k.refs x }

/-- `close`: with its last descriptor a socket is closed. -/
def K.close (k : K) (fd : Nat) : K :=
  match k.fds fd with
  | some (.sock n) =>
      if k.refs n = 1 then { (k.closeFd fd).unref n with net := k.net.leave n } else (k.closeFd fd).unref n
  | _ => k.closeFd fd

/-- Linux: `fresh` picks the numbers of descriptors, if it has any left, `fault` makes a call fail. -/
def sys (fresh : (Nat → Option Obj) → Option Nat) (fault : Option Nat) : Sys K where
  createMap kind max k :=
    match fault, fresh k.fds with
    | some e, _ => (.error e, k)
    | none, none => (.error 24, k)
    | none, some fd =>
        (.ok fd, ({ k with net := { k.net with tables := k.net.tables ++ [{ kind := kind, max := max }] } } : K).openFd fd
          (.map k.net.tables.length))
  update fd key value flags k :=
    match k.fds fd with
    | some (.map m) =>
        if Verif.Bytes.ofLe value ≥ 2 ^ 31 then (.error 22, k)
        else
          match k.fds (Verif.Bytes.ofLe value) with
          | none => (.error 9, k)
          | some (.map _) => (.error 88, k)
          | some (.sock n) =>
              match k.net.store fault m key n flags with
              | .ok net => (.ok (), { k with net := net })
              | .error e => (.error e, k)
    | _ => (.error 9, k)
  delete fd key k :=
    match k.fds fd with
    | some (.map m) =>
        match k.net.erase m key with
        | .ok net => (.ok (), { k with net := net })
        | .error e => (.error e, k)
    | _ => (.error 9, k)
  nextKey fd key k :=
    match k.fds fd with
    | some (.map m) =>
        match k.net.tables[m]? with
        | none => .error 9
        | some t =>
            let next := match key with
              | none => 0
              | some key => if Verif.Bytes.ofLe key ≥ t.max then 0 else Verif.Bytes.ofLe key + 1
            if next < t.max then .ok (Verif.Bytes.le 4 next) else .error 2
    | _ => .error 9
  close fd k := k.close fd

/-- Descriptors are numbered from what is free, below 2^31. -/
def Fresh (fresh : (Nat → Option Obj) → Option Nat) : Prop :=
  ∀ fds n, fresh fds = some n → fds n = none ∧ n < 2 ^ 31

/-! ## Programs at work -/

/-- The state of a program at work: the net, the socket its context is about, with protocol and group of the packet, where the packet goes,
    the socket selected, and the references the program holds. -/
structure Work where
  net : Net
  own : Nat
  packet : Sock
  target : Option Nat := none
  selected : Option Nat := none
  refs : Nat → Nat := fun _ => 0

/-- Connected sockets are counted, the others are not. -/
def counted (net : Net) (n : Nat) : Bool :=
  match net.socks[n]? with
  | some s => s.kind == .conn
  | none => false

/-- `bpf_msg_redirect_map` and the like: `SK_PASS` (1) and the packet goes to the socket, or `SK_DROP` (0). A listening socket gets no
    packets; the only flag is `BPF_F_INGRESS` (1). -/
def redirect (m : Nat) (key : Bytes) (flags : Nat) (w : Work) : Int × Work :=
  if flags > 1 then (0, w)
  else
    match w.net.at_ m key with
    | none => (0, w)
    | some n =>
        match w.net.socks[n]? with
        | none => (0, w)
        | some s => if s.kind = .listen then (0, w) else (1, { w with target := some n })

/-- Whether two sockets speak the same protocol. -/
def sameProtocol (a b : Sock) : Bool := (a.kind == .udp) == (b.kind == .udp)

/-- The helpers of Linux. -/
def helpers (fault : Option Nat) : Helpers Work where
  sockMapUpdate m key flags w :=
    match w.net.store fault m key w.own flags with
    | .ok net => (0, { w with net := net })
    | .error e => (-(e : Int), w)
  sockHashUpdate m key flags w :=
    match w.net.store fault m key w.own flags with
    | .ok net => (0, { w with net := net })
    | .error e => (-(e : Int), w)
  msgRedirectMap m i flags w := redirect m (indexKey i) flags w
  msgRedirectHash m key flags w := redirect m key flags w
  skRedirectMap m i flags w := redirect m (indexKey i) flags w
  skRedirectHash m key flags w := redirect m key flags w
  lookup m key w :=
    match w.net.at_ m key with
    | none => (none, w)
    | some n => (some n, if counted w.net n then { w with refs := fun x => if x = n then w.refs n + 1 else w.refs x } else w)
  assign n flags w :=
    if flags > 3 then (-22, w)
    else if counted w.net n then (-94, w)
    else
      match w.net.socks[n]? with
      | none => (-22, w)
      | some s =>
          if !sameProtocol s w.packet then (-91, w)
          else if s.family ≠ w.packet.family then (-97, w)
          else if w.selected.isSome && flags % 2 == 0 then (-17, w)
          else (0, { w with selected := some n })
  release n w := if counted w.net n then { w with refs := fun x => if x = n then w.refs n - 1 else w.refs x } else w
  select m key flags w :=
    if flags ≠ 0 then (-22, w)
    else
      match w.net.at_ m key with
      | none => (-2, w)
      | some n =>
          match w.net.socks[n]? with
          | none => (-2, w)
          | some s =>
              if s.group.isSome && s.group == w.packet.group then (0, { w with selected := some n })
              else if !sameProtocol s w.packet then (-91, w)
              else if s.family ≠ w.packet.family then (-97, w)
              else (-77, w)

/-! ## Histories -/

/-- What is done. Maps and sockets have names: the first thing made is 0, the next 1, and so on. -/
inductive Op where
  | map (kind : Kind) (max : BitVec 32)
  /-- a socket is opened -/
  | socket (s : Sock)
  /-- another descriptor of a socket -/
  | clone (h : Nat)
  /-- a map or socket is dropped -/
  | drop (h : Nat)
  /-- a socket connects, listens, is bound -/
  | connect (h : Nat) (s : Sock)
  /-- a connection ends, a socket stops listening -/
  | disconnect (h : Nat)
  | set (m : Nat) (index : BitVec 32) (s : Nat) (flags : Nat)
  | clear (m : Nat) (index : BitVec 32)
  | insert (m : Nat) (key : Bytes) (s : Nat) (flags : Nat)
  /-- the socket itself is given to the map -/
  | insertOwned (m : Nat) (key : Bytes) (s : Nat) (flags : Nat)
  | remove (m : Nat) (key : Bytes)
  /-- a program at work for a socket puts it in a map -/
  | update (m : Nat) (index : BitVec 32) (n : Nat) (flags : Nat)
  | updateHash (m : Nat) (key : Bytes) (n : Nat) (flags : Nat)
deriving DecidableEq, Repr

inductive Res where
  | done
  | failed (e : Error)
  /-- what a program is told -/
  | told (r : Except Int Unit)
  /-- there is no such map or socket, or no descriptor is left for a socket -/
  | nothing
deriving DecidableEq, Repr

/-- A socket connects or listens: only one that did neither. -/
def Net.connect (net : Net) (n : Nat) (s : Sock) : Net :=
  match net.socks[n]? with
  | some old => if old.kind = .idle then { net with socks := net.socks.set n s } else net
  | none => net

/-- A socket no longer is connected or listens. -/
def Net.disconnect (net : Net) (n : Nat) : Net :=
  { net.leave n with socks := net.socks.modify n fun s => { s with kind := .idle, group := none } }

/-! ## What is promised -/

inductive Stands where
  | map (kind : Kind) (max : Nat) (m : Nat)
  | sock (n : Nat)
deriving DecidableEq, Repr

structure A where
  net : Net := {}
  names : List (Option Stands) := []
deriving DecidableEq, Repr

def A.sockOf (a : A) (h : Nat) : Option Nat :=
  match a.names[h]?.join with
  | some (.sock n) => some n
  | _ => none

/-- The kind, size and number of a map. -/
def A.mapOf (a : A) (h : Nat) : Option (Kind × Nat × Nat) :=
  match a.names[h]?.join with
  | some (.map kind max m) => some (kind, max, m)
  | _ => none

/-- A name is given up. A socket without a name is closed: it is in no map any more. -/
def A.forget (a : A) (h : Nat) : A :=
  match a.sockOf h with
  | some n =>
      if some (Stands.sock n) ∈ a.names.set h none then { a with names := a.names.set h none }
      else { net := a.net.leave n, names := a.names.set h none }
  | none => { a with names := a.names.set h none }

/-- A socket is put into a map or an entry removed: done, or the caller is told the error and nothing has changed. -/
def A.change (a : A) (call : String) : Except Nat Net → A × Res
  | .ok net => ({ a with net := net }, .done)
  | .error e => (a, .failed (.syscall call e))

def A.told (a : A) : Except Nat Net → A × Res
  | .ok net => ({ a with net := net }, .told (.ok ()))
  | .error e => (a, .told (.error (-(e : Int))))

/-- What each thing does. `room`: a descriptor is left. -/
def step (a : A) (op : Op) (fault : Option Nat) (room : Bool) : A × Res :=
  match op with
  | .map kind max =>
      match fault, room with
      | some e, _ => (a, .failed (.create e))
      | none, false => (a, .failed (.create 24))
      | none, true =>
          ({ net := { a.net with tables := a.net.tables ++ [{ kind := kind, max := max.toNat }] },
             names := a.names ++ [some (.map kind max.toNat a.net.tables.length)] }, .done)
  | .socket s =>
      if room then
        ({ net := { a.net with socks := a.net.socks ++ [s] }, names := a.names ++ [some (.sock a.net.socks.length)] }, .done)
      else (a, .nothing)
  | .clone h =>
      match a.sockOf h, room with
      | some n, true => ({ a with names := a.names ++ [some (.sock n)] }, .done)
      | _, _ => (a, .nothing)
  | .drop h => if (a.names[h]?.join).isSome then (a.forget h, .done) else (a, .nothing)
  | .connect h s =>
      match a.sockOf h with
      | some n => ({ a with net := a.net.connect n s }, .done)
      | none => (a, .nothing)
  | .disconnect h =>
      match a.sockOf h with
      | some n => ({ a with net := a.net.disconnect n }, .done)
      | none => (a, .nothing)
  | .set m index s flags =>
      match a.mapOf m, a.sockOf s with
      | some (kind, max, t), some n =>
          if kind = .hash then (a, .nothing)
          else if index.toNat ≥ max then (a, .failed (.outOfBounds index.toNat max))
          else a.change "bpf_map_update_elem" (a.net.store fault t (indexKey index) n flags)
      | _, _ => (a, .nothing)
  | .clear m index =>
      match a.mapOf m with
      | some (kind, max, t) =>
          if kind = .hash then (a, .nothing)
          else if index.toNat ≥ max then (a, .failed (.outOfBounds index.toNat max))
          else a.change "bpf_map_delete_elem" (a.net.erase t (indexKey index))
      | none => (a, .nothing)
  | .insert m key s flags =>
      match a.mapOf m, a.sockOf s with
      | some (.hash, _, t), some n => a.change "bpf_map_update_elem" (a.net.store fault t key n flags)
      | _, _ => (a, .nothing)
  | .insertOwned m key s flags =>
      match a.mapOf m, a.sockOf s with
      | some (.hash, _, t), some n =>
          match a.change "bpf_map_update_elem" (a.net.store fault t key n flags) with
          | (a, r) => (a.forget s, r)
      | _, _ => (a, .nothing)
  | .remove m key =>
      match a.mapOf m with
      | some (.hash, _, t) => a.change "bpf_map_delete_elem" (a.net.erase t key)
      | _ => (a, .nothing)
  | .update m index n flags =>
      if some (Stands.sock n) ∈ a.names then a.told (a.net.store fault m (indexKey index) n flags) else (a, .nothing)
  | .updateHash m key n flags =>
      if some (Stands.sock n) ∈ a.names then a.told (a.net.store fault m key n flags) else (a, .nothing)

end Verif.Socks.Spec
