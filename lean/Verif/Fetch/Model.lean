import Verif.Verdict.Model
import Mathlib.Data.List.Infix
/-!
# Files kept from downloads

Model of `HttpClient::download_to_path` (`/repo/xtask/src/http.rs:61-195`), which keeps a file and the tag that the server gave for it, as the changes to the disk that it makes one after the
other, so that a crash of the process between any two of them can be looked at (what a disk loses with its power is
not modelled). The file that is written to before it is renamed is left out: its name is that of the process, and nothing reads it. Text is
a list of characters; contents are lists of bytes.
-/
namespace Verif.Fetch

open Verif.Verdict (Text isSpace)

/-- `str::trim` (`/repo/xtask/src/http.rs:110`). -/
def trim (t : Text) : Text := ((t.dropWhile isSpace).reverse.dropWhile isSpace).reverse

/-- What is on the disk: the file, and the file with the tag (`/repo/xtask/src/http.rs:67-72`). -/
structure Disk where
  dest : Option (List UInt8)
  etag : Option Text
deriving DecidableEq, Repr

/-- What comes back (`/repo/xtask/src/http.rs:117-155`): an error, which includes the statuses from 400 on; 304; or the contents with the tag, if there is one in ASCII. That the connection ends
    in the middle of the contents, or another status, is an error after which nothing has changed (`/repo/xtask/src/http.rs:167-176`). -/
inductive Reply where
  | error
  | notModified
  | short
  | contents (body : List UInt8) (tag : Option Text)
deriving DecidableEq, Repr

/-- The tag that is sent (`/repo/xtask/src/http.rs:106-115`). -/
def sent (d : Disk) : Option Text :=
  match d.dest, d.etag with
  | some _, some t => if (trim t).isEmpty then none else some (trim t)
  | _, _ => none

/-- One change to the disk (`/repo/xtask/src/http.rs:177-192`). -/
inductive Op where
  | rename (body : List UInt8)
  | writeTag (t : Text)
  | removeTag
deriving DecidableEq, Repr

/-- What a change does (`/repo/xtask/src/http.rs:177-192`). -/
def Op.apply (d : Disk) : Op → Disk
  | .rename b => { d with dest := some b }
  | .writeTag t => { d with etag := some t }
  | .removeTag => { d with etag := none }

/-- `fs::write` empties the file and then writes, perhaps in several parts (`/repo/xtask/src/http.rs:184-186`). -/
def writeTag (t : Text) : List Op := t.inits.map .writeTag

/-- The changes, and whether it succeeds (`/repo/xtask/src/http.rs:117-194`). -/
def download (d : Disk) : Reply → List Op × Bool
  | .error => ([], d.dest.isSome)
  | .notModified => ([], d.dest.isSome)
  | .short => ([], false)
  | .contents b (some t) => (.rename b :: writeTag t, true)
  | .contents b none => ([.rename b, .removeTag], true)

/-- The disk after changes. -/
def exec (d : Disk) (ops : List Op) : Disk := ops.foldl Op.apply d

end Verif.Fetch
