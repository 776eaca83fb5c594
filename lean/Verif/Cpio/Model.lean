import Verif.Common.Except
/-!
# The archive that test machines boot from

Model of `CpioArchiveBuilder` (`/repo/xtask/src/run.rs:150-330`), which writes the initial file system of a test machine. Bytes that were written before an error are left out, since the command
ends with the error.
-/
namespace Verif.Cpio

abbrev Bytes := List UInt8

/-- What is known of the file to copy: its size by `fs::metadata`, and what is then read from it. -/
structure Source where
  size : Nat
  contents : Bytes
deriving DecidableEq, Repr

/-- The arguments of `append` (`/repo/xtask/src/run.rs:200-208`). `mode` is the type and the mode together. -/
structure Item where
  name : Bytes
  mode : Nat
  mtime : Nat
  source : Option Source
  nlink : Nat
deriving DecidableEq, Repr

/-- The errors of `append` (`/repo/xtask/src/run.rs:222-241,269-285`). -/
inductive Err where
  | nameLen
  | fileSize
  | mismatch
  | entries
deriving DecidableEq, Repr

/-- One digit of `{:x}` (`/repo/xtask/src/run.rs:245-261`). -/
def hexDigit (d : Nat) : UInt8 := UInt8.ofNat (if d < 10 then 48 + d else 87 + d)

/-- `{:08x}` of a `u32` (`/repo/xtask/src/run.rs:245-261`). -/
def hex8 (n : Nat) : Bytes :=
  [hexDigit (n / 268435456 % 16), hexDigit (n / 16777216 % 16), hexDigit (n / 1048576 % 16), hexDigit (n / 65536 % 16), hexDigit (n / 4096 % 16), hexDigit (n / 256 % 16),
    hexDigit (n / 16 % 16), hexDigit (n % 16)]

/-- `NEWC_MAGIC` (`/repo/xtask/src/run.rs:150`). -/
def magic : Bytes := [48, 55, 48, 55, 48, 49]

/-- `NEWC_HEADER_LEN` (`/repo/xtask/src/run.rs:162-182`). -/
def headerLen : Nat := 6 + 13 * 8

/-- `write_padding` (`/repo/xtask/src/run.rs:209-215`). -/
def padding (len : Nat) : Bytes := List.replicate ((4 - len % 4) % 4) 0

/-- The size of a source (`/repo/xtask/src/run.rs:235-243`). -/
def fileSize : Option Source → Except Err Nat
  | none => .ok 0
  | some s => if s.size < 2 ^ 32 then .ok s.size else .error .fileSize

/-- The header (`/repo/xtask/src/run.rs:244-261`). -/
def header (ino size nameLen : Nat) (i : Item) : Bytes :=
  magic ++ (([ino, i.mode, 0, 0, i.nlink, i.mtime, size, 0, 0, 0, 0, nameLen, 0] : List Nat).map hex8).flatten

/-- The contents (`/repo/xtask/src/run.rs:265-278`). -/
def body (size : Nat) : Option Source → Except Err Bytes
  | none => .ok []
  | some s => if s.contents.length = size then .ok (s.contents ++ padding s.contents.length) else .error .mismatch

/-- `append` (`/repo/xtask/src/run.rs:200-288`): what is written, and the number for the next entry. -/
def append (ino : Nat) (i : Item) : Except Err (Bytes × Nat) :=
  if i.name.length + 1 < 2 ^ 32 then
    match fileSize i.source with
    | .error e => .error e
    | .ok size =>
      match body size i.source with
      | .error e => .error e
      | .ok b =>
        if ino + 1 < 2 ^ 32 then
          .ok (header ino size (i.name.length + 1) i ++ i.name ++ [0] ++ padding (headerLen + (i.name.length + 1)) ++ b, ino + 1)
        else .error .entries
  else .error .nameLen

/-- `append_dir` (`/repo/xtask/src/run.rs:292-305`): `S_IFDIR` and two links. -/
def dir (name : Bytes) (mode mtime : Nat) : Item := ⟨name, 16384 ||| mode, mtime, none, 2⟩

/-- `append_file` (`/repo/xtask/src/run.rs:309-323`): `S_IFREG` and one link. -/
def file (name : Bytes) (source : Source) (mode mtime : Nat) : Item := ⟨name, 32768 ||| mode, mtime, some source, 1⟩

/-- `append_trailer` (`/repo/xtask/src/run.rs:327-329`). -/
def trailer : Item := ⟨[84, 82, 65, 73, 76, 69, 82, 33, 33, 33], 0, 0, none, 1⟩

/-- Entries one after the other, and the trailer (`/repo/xtask/src/run.rs:539-637`). -/
def build (ino : Nat) : List Item → Except Err Bytes
  | [] =>
    match append ino trailer with
    | .error e => .error e
    | .ok (b, _) => .ok b
  | i :: is =>
    match append ino i with
    | .error e => .error e
    | .ok (b, ino') =>
      match build ino' is with
      | .error e => .error e
      | .ok bs => .ok (b ++ bs)

end Verif.Cpio
