import Verif.LogRun.Model
import Verif.Log.Spec
import Verif.Ebpf.RingSpec
/-!
# What the log should say, told from the statements alone

Nothing of the ring, its positions, entries or bytes occurs here.
-/
namespace Verif.LogRun.Spec
open Verif.Bytes Verif.Log Verif.Log.Spec Verif.LogRun
open Verif.Ebpf.Ring.Spec (Each)

/-- A statement that was given a place. -/
structure Entry where
  stmt : Stmt
  /-- it has been carried out to its end -/
  finished : Bool
  /-- the kernel has decided whether to notify the process of it -/
  announced : Bool
deriving DecidableEq, Repr

/-- The statements given a place, after one more step. -/
def after (es : List Entry) : Op × Res → List Entry
  | (.log st _, .placed) => es ++ [⟨st, false, false⟩]
  | (.run k, .sent) => es.modify k (fun e => { e with finished := true })
  | (.decide k, .done) => es.modify k (fun e => { e with announced := true })
  | _ => es

/-- The statements given a place in a run, in that order. -/
def entries (log : List (Op × Res)) : List Entry := log.foldl after []

/-- A statement of a program that is like any other: it compiles; its texts are UTF-8 and its values are values of their types; it does
not show a `&[u8; 4]`, `&[u8; 6]` or `&[u8; 16]` in hexadecimal (see `C43_hex_array_violated`). `ps` is its format string. -/
structure Plain (std : Std) (utf8 : Char → Bytes) (st : Stmt) (ps : List Piece) : Prop where
  target : std.utf8 st.header.target = true
  module : std.utf8 st.header.module = true
  file : std.utf8 st.header.file = true
  line : st.header.line < 2 ^ 32
  format : st.format = written ps
  ordinary : ∀ p ∈ ps, p.Ordinary
  values : ∀ v ∈ st.args, Valid std v
  noHex : ∀ p ∈ (hints ps).zip st.args, ¬ HexOfSpecialArray p.1 p.2

/-- What the logger should be given for a statement: its place in the source and its message. -/
def Told (std : Std) (utf8 : Char → Bytes) (st : Stmt) (x : Shown) : Prop :=
  ∀ ps, Plain std utf8 st ps → ∃ m, message std utf8 ps st.args = some m ∧
    x = .logged ⟨st.header.target, st.header.level, st.header.module, st.header.file, st.header.line, m⟩

/-- All statements executed in the run are like that. -/
def AllPlain (std : Std) (utf8 : Char → Bytes) (ops : List Op) : Prop :=
  ∀ st pg, Op.log st pg ∈ ops → ∃ ps, Plain std utf8 st ps

/-- Room for a record of `n` bytes: with its header of 8 bytes, rounded up to 8, it fits besides what the process has not released. -/
def Room (size : Nat) (s : State) (n : Nat) : Prop :=
  n < 1073741824 ∧ s.ring.sys.prod + (8 + n + 7) / 8 * 8 < s.ring.sys.consMem + size

/-- `flush` has found nothing more and returns. -/
def Returns (s s' : State) : Prop := s.ring.sys.sleeping = false ∧ s'.ring.sys.sleeping = true

/-- `flush` has returned, was not called again, and the process has not been notified since. -/
def Waiting (s : State) : Prop := s.ring.sys.sleeping = true ∧ s.ring.sys.notified = false

end Verif.LogRun.Spec
