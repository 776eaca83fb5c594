import Verif.Common.Bytes

/-!
# Programs attached by socket options: the code

`SocketFilter` and `ReusePortSocketFilter` (`/repo/aya/src/programs/socket_filter.rs`), `SkReuseport`
(`/repo/aya/src/programs/sk_reuseport.rs`). The system is a parameter.
-/
namespace Verif.SockFilter
open Verif.Bytes

/-- The system calls that are made, on a system in state `σ`: `BPF_PROG_LOAD` with a program type gives a descriptor;
    `setsockopt` with socket, level, option and value; `close`. -/
structure Sys (σ : Type) where
  load : Nat → σ → Except Nat Nat × σ
  setsockopt : Nat → Nat → Nat → List UInt8 → σ → Except Nat Unit × σ
  close : Nat → σ → σ

/-- The variants of `Program`, `/repo/aya/src/programs/mod.rs:300-359`, that matter here. -/
inductive Variant where
  | socketFilter | reusePortSocketFilter | skReuseport
  /-- any other, with the program type of the kernel -/
  | other (ty : Nat)
deriving DecidableEq, Repr

/-- The types a `Program` is converted to with `try_into`. -/
inductive View where
  | socketFilter | reusePortSocketFilter | skReuseport
deriving DecidableEq, Repr

inductive Error where
  | unexpectedType
  | notLoaded
  | alreadyLoaded
  /-- `BPF_PROG_LOAD` failed -/
  | load (errno : Nat)
  /-- `SocketFilterError::SetsockoptError` -/
  | socketFilter (option : String) (errno : Nat)
  /-- `SkReuseportError::SetsockoptError` -/
  | skReuseport (option : String) (errno : Nat)
deriving DecidableEq, Repr

/-- What matters here of `ProgramData`: the descriptor. -/
structure Prog where
  variant : Variant
  fd : Option Nat
deriving DecidableEq, Repr

/-- `TryFrom<&mut Program>`, `/repo/aya/src/programs/mod.rs:1505-1542` for the two kinds of socket filters, which are views of the
    same data, and `impl_try_from_program!` (1471-1497) for `SkReuseport`. -/
def tryInto (p : Prog) (v : View) : Except Error Prog :=
  match v, p.variant with
  | .socketFilter, .socketFilter => .ok p
  | .socketFilter, .reusePortSocketFilter => .ok p
  | .reusePortSocketFilter, .reusePortSocketFilter => .ok p
  | .reusePortSocketFilter, .socketFilter => .ok p
  | .skReuseport, .skReuseport => .ok p
  | _, _ => .error .unexpectedType

/-- The program type `load` passes on: `socket_filter.rs:132-135, 316-319`, `sk_reuseport.rs:151-154`. -/
def Variant.type : Variant → Nat
  | .socketFilter => 1
  | .reusePortSocketFilter => 1
  | .skReuseport => 21
  | .other ty => ty

/-- `load`, through `load_program` (`/repo/aya/src/programs/mod.rs:705-793`), which refuses to load twice (723-725). Everything
    but the program type is left out here. -/
def load {σ : Type} (S : Sys σ) (p : Prog) (s : σ) : Except Error Unit × Prog × σ :=
  match p.fd with
  | some _ => (.error .alreadyLoaded, p, s)
  | none =>
      match S.load p.variant.type s with
      | (.ok fd, s) => (.ok (), { p with fd := some fd }, s)
      | (.error e, s) => (.error (.load e), p, s)

/-- `unload_program`, `/repo/aya/src/programs/mod.rs:659-665`: these programs have no links. -/
def unload {σ : Type} (S : Sys σ) (p : Prog) (s : σ) : Except Error Unit × Prog × σ :=
  match p.fd with
  | none => (.error .notLoaded, p, s)
  | some fd => (.ok (), { p with fd := none }, S.close fd s)

/-- Dropping a program (`impl_program_unload!`, `/repo/aya/src/programs/mod.rs:837-858`). -/
def drop {σ : Type} (S : Sys σ) (p : Prog) (s : σ) : σ := (unload S p s).2.2

/-- `setsockopt_socket_filter!`, `socket_filter.rs:22-43`: the level is `SOL_SOCKET`, the value a C int. -/
def setFilter {σ : Type} (S : Sys σ) (socket option : Nat) (name : String) (value : Nat) (s : σ) : Except Error Unit × σ :=
  match S.setsockopt socket 1 option (le 4 value) s with
  | (.ok (), s) => (.ok (), s)
  | (.error e, s) => (.error (.socketFilter name e), s)

/-- `setsockopt_reuseport!`, `sk_reuseport.rs:21-42`. -/
def setReuseport {σ : Type} (S : Sys σ) (socket option : Nat) (name : String) (value : Nat) (s : σ) : Except Error Unit × σ :=
  match S.setsockopt socket 1 option (le 4 value) s with
  | (.ok (), s) => (.ok (), s)
  | (.error e, s) => (.error (.skReuseport name e), s)

/-- `SocketFilter::attach`, `socket_filter.rs:142-153`. -/
def filterAttach {σ : Type} (S : Sys σ) (p : Prog) (socket : Nat) (s : σ) : Except Error Unit × σ :=
  match p.fd with
  | none => (.error .notLoaded, s)
  | some fd => setFilter S socket 50 "SO_ATTACH_BPF" fd s

/-- `SocketFilter::detach`, `socket_filter.rs:164-182`. -/
def filterDetach {σ : Type} (S : Sys σ) (socket : Nat) (s : σ) : Except Error Unit × σ :=
  setFilter S socket 27 "SO_DETACH_BPF" 0 s

/-- `ReusePortSocketFilter::attach`, `socket_filter.rs:325-336`. -/
def reuseAttach {σ : Type} (S : Sys σ) (p : Prog) (socket : Nat) (s : σ) : Except Error Unit × σ :=
  match p.fd with
  | none => (.error .notLoaded, s)
  | some fd => setFilter S socket 52 "SO_ATTACH_REUSEPORT_EBPF" fd s

/-- `ReusePortSocketFilter::detach`, `socket_filter.rs:345-361`. -/
def reuseDetach {σ : Type} (S : Sys σ) (socket : Nat) (s : σ) : Except Error Unit × σ :=
  setFilter S socket 68 "SO_DETACH_REUSEPORT_BPF" 0 s

/-- `SkReuseport::attach`, `sk_reuseport.rs:164-170`. -/
def skAttach {σ : Type} (S : Sys σ) (p : Prog) (socket : Nat) (s : σ) : Except Error Unit × σ :=
  match p.fd with
  | none => (.error .notLoaded, s)
  | some fd => setReuseport S socket 52 "SO_ATTACH_REUSEPORT_EBPF" fd s

/-- `SkReuseport::detach`, `sk_reuseport.rs:179-189`. -/
def skDetach {σ : Type} (S : Sys σ) (socket : Nat) (s : σ) : Except Error Unit × σ :=
  setReuseport S socket 68 "SO_DETACH_REUSEPORT_BPF" 0 s

/-- `attach` of the type chosen by the caller. -/
def attachAs {σ : Type} (S : Sys σ) (v : View) (p : Prog) (socket : Nat) (s : σ) : Except Error Unit × σ :=
  match tryInto p v with
  | .error e => (.error e, s)
  | .ok p =>
      match v with
      | .socketFilter => filterAttach S p socket s
      | .reusePortSocketFilter => reuseAttach S p socket s
      | .skReuseport => skAttach S p socket s

/-- `detach` of the type chosen by the caller. -/
def detachAs {σ : Type} (S : Sys σ) (v : View) (socket : Nat) (s : σ) : Except Error Unit × σ :=
  match v with
  | .socketFilter => filterDetach S socket s
  | .reusePortSocketFilter => reuseDetach S socket s
  | .skReuseport => skDetach S socket s

end Verif.SockFilter
