import Verif.Fetch.Model
/-!
# Servers, and histories of downloads
-/
namespace Verif.Fetch

open Verif.Verdict (Text isSpace)

/-- What a server has at a time. -/
structure Version where
  serial : Nat
  body : List UInt8
  tag : Option Text
deriving DecidableEq, Repr

/-- What a server says if asked with this tag. -/
def serve (v : Version) (asked : Option Text) : Reply :=
  match v.tag, asked with
  | some t, some a => if t = a then .notModified else .contents v.body v.tag
  | _, _ => .contents v.body v.tag

/-- The network: it works, gives nothing, or breaks in the middle of contents. -/
inductive Net where
  | works
  | fails
  | breaks
deriving DecidableEq, Repr

/-- One run: what the server has, if the network works, and after how many changes it crashes. -/
structure Event where
  now : Version
  net : Net
  crash : Option Nat

/-- What comes back in a run. -/
def reply (d : Disk) (e : Event) : Reply :=
  match e.net with
  | .works => serve e.now (sent d)
  | .fails => .error
  | .breaks => match serve e.now (sent d) with
    | .contents _ _ => .short
    | r => r

/-- The disk after a run. -/
def step (d : Disk) (e : Event) : Disk :=
  match e.crash with
  | none => exec d (download d (reply d e)).1
  | some n => exec d ((download d (reply d e)).1.take n)

/-- The disk after a history that begins with nothing kept. -/
def after (es : List Event) : Disk := es.foldl step ⟨none, none⟩

/-- A tag as servers give them: with no white space around it. -/
def Plain (t : Text) : Prop := t ≠ [] ∧ (∀ c, t.head? = some c → isSpace c = false) ∧ ∀ c, t.getLast? = some c → isSpace c = false

/-- Tags of the versions: plain, a tag tells the version, and no tag begins with another. (Tags end with a quote that is not within them.) -/
def Tagged (vs : List Version) : Prop :=
  (∀ v ∈ vs, ∀ t, v.tag = some t → Plain t) ∧ (∀ v ∈ vs, ∀ w ∈ vs, v.serial = w.serial → v = w) ∧
    ∀ v ∈ vs, ∀ w ∈ vs, ∀ t u, v.tag = some t → w.tag = some u → t <+: u → t = u ∧ v = w

/-- The server never goes back to a version that it had before another. -/
def Forward (vs : List Version) : Prop := vs.Pairwise (fun v w => v.serial ≤ w.serial)

/-- Two lists one within the other, each in its order. -/
inductive Merge {α : Type} : List α → List α → List α → Prop where
  | nil : Merge [] [] []
  | left {x a b c} : Merge a b c → Merge (x :: a) b (x :: c)
  | right {x a b c} : Merge a b c → Merge a (x :: b) (x :: c)

end Verif.Fetch
