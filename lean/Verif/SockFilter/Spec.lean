import Verif.SockFilter.Model

/-!
# Programs attached by socket options: the system, and what is promised

The system is Linux: sockets with a filter each, groups of sockets with a selector each, and the descriptors of the process.
What is promised speaks of programs and sockets only.
-/
namespace Verif.SockFilter.Spec
open Verif.SockFilter (Variant View Error)

/-- A socket: whether it is a TCP or UDP socket, whether `SO_REUSEPORT` is set, whether it receives already (UDP: bound, TCP: listening),
    its group, its filter (a program), and whether the filter is locked. -/
structure Sock where
  inet : Bool := true
  reuse : Bool := false
  receives : Bool := false
  group : Option Nat := none
  filter : Option Nat := none
  locked : Bool := false
deriving DecidableEq, Repr

/-- Programs, sockets and groups, by number. -/
structure Net where
  progs : List Nat := []
  socks : List Sock := []
  selectors : List (Option Nat) := []
deriving DecidableEq, Repr

/-- What the descriptors of the process stand for. -/
inductive Obj where
  | prog (o : Nat)
  | sock (n : Nat)
  | file
deriving DecidableEq, Repr

/-! ## The system -/

structure K where
  net : Net := {}
  fds : Nat → Option Obj := fun _ => none

def K.openFd (k : K) (fd : Nat) (x : Obj) : K := { k with fds := fun n => if n = fd then some x else k.fds n }
def K.closeFd (k : K) (fd : Nat) : K := { k with fds := fun n => if n = fd then none else k.fds n }

/-- The program a value of a socket option names, if it is of one of the types. -/
def K.prog (k : K) (types : List Nat) (val : List UInt8) : Except Nat Nat :=
  match k.fds (Verif.Bytes.ofLe val) with
  | none => .error 9
  | some (.prog o) =>
      match k.net.progs[o]? with
      | some ty => if ty ∈ types then .ok o else .error 22
      | none => .error 22
  | some _ => .error 22

/-- `sk_attach_bpf`. -/
def skAttachBpf (k : K) (fault : Option Nat) (n : Nat) (s : Sock) (val : List UInt8) : Except Nat Net :=
  if s.locked then .error 1
  else
    match k.prog [1] val, fault with
    | .error e, _ => .error e
    | .ok _, some e => .error e
    | .ok o, none => .ok { k.net with socks := k.net.socks.set n { s with filter := some o } }

/-- `sk_detach_filter`. -/
def skDetachFilter (k : K) (n : Nat) (s : Sock) : Except Nat Net :=
  if s.locked then .error 1
  else
    match s.filter with
    | none => .error 2
    | some _ => .ok { k.net with socks := k.net.socks.set n { s with filter := none } }

/-- `reuseport_attach_prog`. -/
def reuseportAttach (k : K) (n : Nat) (s : Sock) (o : Nat) : Except Nat Net :=
  match s.group with
  | some g => .ok { k.net with selectors := k.net.selectors.set g (some o) }
  | none =>
      if !s.receives && s.reuse then
        .ok { k.net with
          socks := k.net.socks.set n { s with group := some k.net.selectors.length }
          selectors := k.net.selectors ++ [some o] }
      else .error 22

/-- `sk_reuseport_attach_bpf`. -/
def skReuseportAttachBpf (k : K) (fault : Option Nat) (n : Nat) (s : Sock) (val : List UInt8) : Except Nat Net :=
  if s.locked then .error 1
  else
    match k.prog [1, 21] val, fault with
    | .error e, _ => .error e
    | .ok o, fault =>
        if k.net.progs[o]? = some 21 && !s.inet then .error 524
        else
          match fault with
          | some e => .error e
          | none => reuseportAttach k n s o

/-- `reuseport_detach_prog`. -/
def reuseportDetach (k : K) (s : Sock) : Except Nat Net :=
  match s.group with
  | none => if s.reuse then .error 2 else .error 22
  | some g =>
      match k.net.selectors[g]?.join with
      | none => .error 2
      | some _ => .ok { k.net with selectors := k.net.selectors.set g none }

/-- `sk_setsockopt`. -/
def setsockopt (fault : Option Nat) (fd level option : Nat) (val : List UInt8) (k : K) : Except Nat Net :=
  match k.fds fd with
  | none => .error 9
  | some (.sock n) =>
      match k.net.socks[n]? with
      | none => .error 9
      | some s =>
          if level ≠ 1 then .error 92
          else if val.length < 4 then .error 22
          else
            match option with
            | 50 => skAttachBpf k fault n s val
            | 27 => skDetachFilter k n s
            | 52 => skReuseportAttachBpf k fault n s val
            | 68 => reuseportDetach k s
            | _ => .error 92
  | some _ => .error 88

/-- Linux: `fresh` picks the numbers of descriptors, if it has any left, `fault` makes a call fail (missing rights, no memory). -/
def sys (fresh : (Nat → Option Obj) → Option Nat) (fault : Option Nat) : Sys K where
  load ty k :=
    match fault, fresh k.fds with
    | some e, _ => (.error e, k)
    | none, none => (.error 24, k)
    | none, some fd =>
        (.ok fd, ({ k with net := { k.net with progs := k.net.progs ++ [ty] } }).openFd fd (.prog k.net.progs.length))
  setsockopt fd level option val k :=
    match setsockopt fault fd level option val k with
    | .ok net => (.ok (), { k with net := net })
    | .error e => (.error e, k)
  close fd k := k.closeFd fd

/-- Descriptors are numbered from what is free, below 2^31. -/
def Fresh (fresh : (Nat → Option Obj) → Option Nat) : Prop :=
  ∀ fds n, fresh fds = some n → fds n = none ∧ n < 2 ^ 31

/-! ## Histories -/

/-- What is done. Programs and sockets have names, chosen by the caller. -/
inductive Op where
  /-- an object with a program is opened -/
  | program (h : Nat) (v : Variant)
  | load (h : Nat)
  | unload (h : Nat)
  /-- a program, socket or file is dropped -/
  | drop (h : Nat)
  | socket (h : Nat) (inet : Bool)
  | file (h : Nat)
  | attach (h : Nat) (v : View) (s : Nat)
  | detach (v : View) (s : Nat)
  /-- `SO_REUSEPORT` is set -/
  | setReuse (s : Nat)
  /-- the socket starts to receive, alone or on the port of another -/
  | receive (s : Nat) (with_ : Option Nat)
  /-- `SO_LOCK_FILTER` -/
  | lock (s : Nat)
  /-- other code sets the filter of a socket to a program of its own -/
  | elsewhere (s : Nat)
deriving DecidableEq, Repr

inductive Res where
  | done
  | failed (e : Error)
  /-- there is no such program or socket, or the name is taken -/
  | nothing
deriving DecidableEq, Repr

/-- A socket starts to receive: with `SO_REUSEPORT` it is in a group, its own or that of the other socket on the port. -/
def Net.receive (net : Net) (n : Nat) (s : Sock) (other : Option Sock) : Net :=
  match other with
  | none =>
      match s.reuse, s.group with
      | true, none =>
          { net with
            socks := net.socks.set n { s with receives := true, group := some net.selectors.length }
            selectors := net.selectors ++ [none] }
      | _, _ => { net with socks := net.socks.set n { s with receives := true } }
  | some t =>
      match s.reuse, t.receives, t.group with
      | true, true, some g => { net with socks := net.socks.set n { s with receives := true, group := some g } }
      | _, _, _ => net

/-- What others do to a socket. -/
def Net.env (net : Net) (sockOf : Nat → Option Nat) : Op → Option Net
  | .setReuse s =>
      match sockOf s with
      | none => none
      | some n => (net.socks[n]?).map fun x => { net with socks := net.socks.set n { x with reuse := true } }
  | .receive s none =>
      match sockOf s with
      | none => none
      | some n => (net.socks[n]?).map fun x => net.receive n x none
  | .receive s (some t) =>
      match sockOf s, sockOf t with
      | some n, some m => (net.socks[n]?).map fun x => net.receive n x net.socks[m]?
      | _, _ => none
  | .lock s =>
      match sockOf s with
      | none => none
      | some n => (net.socks[n]?).map fun x => { net with socks := net.socks.set n { x with locked := true } }
  | .elsewhere s =>
      match sockOf s with
      | none => none
      | some n => (net.socks[n]?).map fun x =>
          { net with progs := net.progs ++ [1], socks := net.socks.set n { x with filter := some net.progs.length } }
  | _ => none

/-! ## What is promised -/

/-- A name stands for a program, loaded as a program of the kernel or not, for a socket, or for another file. -/
inductive Stands where
  | prog (v : Variant) (o : Option Nat)
  | sock (n : Nat)
  | file
deriving DecidableEq, Repr

structure A where
  net : Net := {}
  names : Nat → Option Stands := fun _ => none

def A.set (a : A) (h : Nat) (x : Option Stands) : A := { a with names := fun n => if n = h then x else a.names n }

def A.sockOf (a : A) (h : Nat) : Option Nat :=
  match a.names h with
  | some (.sock n) => some n
  | _ => none

def A.progOf (a : A) (h : Nat) : Option Nat :=
  match a.names h with
  | some (.prog _ (some o)) => some o
  | _ => none

/-- The operations that give a socket another filter. -/
inductive Refilters (s : Nat) : Op → Prop
  | attach {h} : Refilters s (.attach h .socketFilter s)
  | detach : Refilters s (.detach .socketFilter s)
  | elsewhere : Refilters s (.elsewhere s)

/-- Socket filters can be used in both ways; nothing else can be used as something it is not. -/
def usable : View → Variant → Bool
  | .socketFilter, v => v = .socketFilter || v = .reusePortSocketFilter
  | .reusePortSocketFilter, v => v = .socketFilter || v = .reusePortSocketFilter
  | .skReuseport, v => v = .skReuseport

/-- The type of kernel programs. -/
def kernelType : Variant → Nat
  | .skReuseport => 21
  | .other ty => ty
  | _ => 1

/-- The error a refusal by the system is reported as. -/
def refused (v : View) (attach : Bool) (e : Nat) : Error :=
  match v, attach with
  | .socketFilter, true => .socketFilter "SO_ATTACH_BPF" e
  | .socketFilter, false => .socketFilter "SO_DETACH_BPF" e
  | .reusePortSocketFilter, true => .socketFilter "SO_ATTACH_REUSEPORT_EBPF" e
  | .reusePortSocketFilter, false => .socketFilter "SO_DETACH_REUSEPORT_BPF" e
  | .skReuseport, true => .skReuseport "SO_ATTACH_REUSEPORT_EBPF" e
  | .skReuseport, false => .skReuseport "SO_DETACH_REUSEPORT_BPF" e

/-- The program becomes the filter of the socket, in place of any other. -/
def filterSock (net : Net) (n : Nat) (s : Sock) (o : Option Nat) : Net := { net with socks := net.socks.set n { s with filter := o } }

/-- Attaching a program to a socket. A filter is for the socket alone. A selector is for the group of the socket, which it has once it
    receives with `SO_REUSEPORT`, and which is made before that if `SO_REUSEPORT` is set. -/
def promiseAttach (net : Net) (fault : Option Nat) (v : View) (o n : Nat) (s : Sock) : Except Nat Net :=
  if s.locked = true then .error 1
  else if v = .skReuseport ∧ s.inet = false then .error 524
  else if let some e := fault then .error e
  else if v = .socketFilter then .ok (filterSock net n s (some o))
  else if let some g := s.group then .ok { net with selectors := net.selectors.set g (some o) }
  else if s.reuse = true ∧ s.receives = false then
    .ok { net with socks := net.socks.set n { s with group := some net.selectors.length }, selectors := net.selectors ++ [some o] }
  else .error 22

/-- Detaching clears the filter of the socket, or the selector of its group, whichever program it is. -/
def promiseDetach (net : Net) (v : View) (n : Nat) (s : Sock) : Except Nat Net :=
  if v = .socketFilter then
    if s.locked = true then .error 1
    else if s.filter = none then .error 2
    else .ok (filterSock net n s none)
  else if let some g := s.group then
    if net.selectors[g]? = some none ∨ net.selectors.length ≤ g then .error 2
    else .ok { net with selectors := net.selectors.set g none }
  else if s.reuse = true then .error 2
  else .error 22

/-- A change of the net by `attach` or `detach`, through something that may not be a socket. -/
def A.through (a : A) (v : View) (attach : Bool) (x : Stands) (f : Nat → Sock → Except Nat Net) : A × Res :=
  match x with
  | .sock n =>
      match a.net.socks[n]? with
      | some s =>
          match f n s with
          | .ok net => ({ a with net := net }, .done)
          | .error e => (a, .failed (refused v attach e))
      | none => (a, .nothing)
  | _ => (a, .failed (refused v attach 88))

/-- One step. `room` says if there is a free descriptor. -/
def step (a : A) (op : Op) (fault : Option Nat) (room : Bool) : A × Res :=
  match op with
  | .program h v =>
      match a.names h with
      | none => (a.set h (some (.prog v none)), .done)
      | some _ => (a, .nothing)
  | .load h =>
      match a.names h with
      | some (.prog _ (some _)) => (a, .failed .alreadyLoaded)
      | some (.prog v none) =>
          match fault with
          | some e => (a, .failed (.load e))
          | none =>
              if room then
                (({ a with net := { a.net with progs := a.net.progs ++ [kernelType v] } }).set h (some (.prog v (some a.net.progs.length))), .done)
              else (a, .failed (.load 24))
      | _ => (a, .nothing)
  | .unload h =>
      match a.names h with
      | some (.prog _ none) => (a, .failed .notLoaded)
      | some (.prog v (some _)) => (a.set h (some (.prog v none)), .done)
      | _ => (a, .nothing)
  | .drop h =>
      match a.names h with
      | some _ => (a.set h none, .done)
      | none => (a, .nothing)
  | .socket h inet =>
      match a.names h with
      | none =>
          if room then
            (({ a with net := { a.net with socks := a.net.socks ++ [({ inet := inet } : Sock)] } }).set h (some (.sock a.net.socks.length)), .done)
          else (a, .nothing)
      | some _ => (a, .nothing)
  | .file h =>
      match a.names h with
      | none => if room then (a.set h (some .file), .done) else (a, .nothing)
      | some _ => (a, .nothing)
  | .attach h v s =>
      match a.names h, a.names s with
      | some (.prog p o), some x =>
          match x with
          | .prog _ _ => (a, .nothing)
          | x =>
              if usable v p then
                match o with
                | none => (a, .failed .notLoaded)
                | some o => a.through v true x (promiseAttach a.net fault v o)
              else (a, .failed .unexpectedType)
      | _, _ => (a, .nothing)
  | .detach v s =>
      match a.names s with
      | some (.prog _ _) => (a, .nothing)
      | some x => a.through v false x (promiseDetach a.net v)
      | none => (a, .nothing)
  | op =>
      match a.net.env a.sockOf op with
      | some net => ({ a with net := net }, .done)
      | none => (a, .nothing)

end Verif.SockFilter.Spec
