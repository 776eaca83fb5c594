import Verif.Common.Except
/-!
# The list of aliases of kernel modules, and loading a module by an alias

Model of the two tools with which the integration tests get the kernel modules that classifiers need: `depmod` writes `modules.alias`
(`/repo/test-distro/src/depmod.rs`), `modprobe` looks an alias up in it and loads the module (`/repo/test-distro/src/modprobe.rs`).

Strings are bytes. Reading a file and decompressing it, finding the section `.modinfo` in an object, and `init_module` are parameters. The tree is a list of
regular files, each with the names of its directories below the directory of modules; `depmod` sees it in the order of `WalkDir`, `modprobe` in the order of `glob`.
-/
namespace Verif.Modules

abbrev Bytes := List UInt8

/-- `"alias "` -/
def aliasSp : Bytes := [97, 108, 105, 97, 115, 32]
/-- `"alias="` -/
def aliasEq : Bytes := [97, 108, 105, 97, 115, 61]
/-- `".ko"` -/
def dotKo : Bytes := [46, 107, 111]
/-- `"xz"` -/
def xz : Bytes := [120, 122]
/-- `"zst"` -/
def zst : Bytes := [122, 115, 116]
/-- `"kernel"` -/
def kernelDir : Bytes := [107, 101, 114, 110, 101, 108]

/-- `Compression` (`/repo/test-distro/src/lib.rs:6-11`). -/
inductive Compression where
  | plain
  | xz
  | zstd
deriving DecidableEq, Repr

structure File where
  dirs : List Bytes
  name : Bytes
  content : Bytes
deriving DecidableEq, Repr

/-- What the tools ask of the system and of libraries: `read_to_end` (`/repo/test-distro/src/lib.rs:39-78`), `object::read::File::parse` with the data of the
    first section `.modinfo` (`/repo/test-distro/src/depmod.rs:83-99`; no section is `none`), `init_module`, and `glob` for names in which there are wildcards. -/
structure Sys where
  read : Compression → Bytes → Except Nat Bytes
  modinfo : Bytes → Except Nat (Option Bytes)
  init : Bytes → Except Nat Unit
  glob : Bytes → List File → List File

inductive Err where
  /-- `expect("write")` -/
  | panic
  | stat
  | notDirectory
  | fileName
  | read (e : Nat)
  | parse (e : Nat)
  | noModinfo
  | utf8
  | noAliasFile
  | aliasLine
  | aliasNotFound
  | moduleNotFound
  | notElf
  | init (e : Nat)
deriving DecidableEq, Repr

/-- The state of checking UTF-8: how many bytes of the character are missing, and where the next has to be. -/
inductive Utf8 where
  | start
  | more (n : Nat) (lo hi : UInt8)
  | bad
deriving DecidableEq, Repr

/-- One byte of `core::str::from_utf8` (a function of the standard library). -/
def Utf8.step : Utf8 → UInt8 → Utf8
  | .start, b =>
    if b < 0x80 then .start
    else if b < 0xC2 then .bad
    else if b < 0xE0 then .more 0 0x80 0xBF
    else if b = 0xE0 then .more 1 0xA0 0xBF
    else if b = 0xED then .more 1 0x80 0x9F
    else if b < 0xF0 then .more 1 0x80 0xBF
    else if b = 0xF0 then .more 2 0x90 0xBF
    else if b < 0xF4 then .more 2 0x80 0xBF
    else if b = 0xF4 then .more 2 0x80 0x8F
    else .bad
  | .more n lo hi, b =>
    if lo ≤ b ∧ b ≤ hi then
      match n with
      | 0 => .start
      | n + 1 => .more n 0x80 0xBF
    else .bad
  | .bad, _ => .bad

/-- `core::str::from_utf8` succeeds. -/
def utf8 (s : Bytes) : Bool := s.foldl Utf8.step .start == .start

/-- `slice::split` with one byte: always at least one piece. -/
def splitOn (c : UInt8) : Bytes → List Bytes
  | [] => [[]]
  | b :: bs =>
    if b = c then [] :: splitOn c bs
    else
      match splitOn c bs with
      | h :: t => (b :: h) :: t
      | [] => [[b]]

/-- `str::rsplit_once` with one byte. -/
def rsplitOnce (c : UInt8) : Bytes → Option (Bytes × Bytes)
  | [] => none
  | b :: bs =>
    match rsplitOnce c bs with
    | some (l, r) => some (b :: l, r)
    | none => if b = c then some ([], bs) else none

/-- `str::strip_prefix`. -/
def stripPrefix : Bytes → Bytes → Option Bytes
  | [], s => some s
  | _ :: _, [] => none
  | p :: ps, b :: bs => if p = b then stripPrefix ps bs else none

/-- `str::strip_suffix`. -/
def stripSuffix (p s : Bytes) : Option Bytes := (stripPrefix p.reverse s.reverse).map List.reverse

/-- `modinfo_entries` (`/repo/test-distro/src/depmod.rs:104-109`). -/
def modinfoEntries (data : Bytes) : Except Err (List Bytes) :=
  let entries := (splitOn 0 data).filter (fun e => !e.isEmpty)
  if entries.all utf8 then .ok entries else .error .utf8

/-- What a file can still grow by, and what is in it. -/
structure Disk where
  data : Bytes
  room : Nat
deriving DecidableEq, Repr

/-- `write_all` of a `File`: what fits is written before the error. -/
def Disk.writeAll (d : Disk) (b : Bytes) : Bool × Disk :=
  (b.length ≤ d.room, ⟨d.data ++ b.take d.room, d.room - b.length⟩)

/-- `BufWriter` (of the standard library), with the file it writes to. -/
structure Writer where
  disk : Disk
  buf : Bytes
deriving DecidableEq, Repr

def capacity : Nat := 8192

/-- `BufWriter::flush_buf`. -/
def Writer.flush (w : Writer) : Bool × Writer :=
  ((w.disk.writeAll w.buf).1, ⟨(w.disk.writeAll w.buf).2, w.buf.drop w.disk.room⟩)

/-- `BufWriter::write_all_cold`, after the buffer was emptied if need be. -/
def Writer.put (w : Writer) (b : Bytes) : Bool × Writer :=
  if capacity ≤ b.length then ((w.disk.writeAll b).1, ⟨(w.disk.writeAll b).2, w.buf⟩)
  else (true, ⟨w.disk, w.buf ++ b⟩)

/-- `BufWriter::write_all`. -/
def Writer.writeAll (w : Writer) (b : Bytes) : Bool × Writer :=
  if b.length < capacity - w.buf.length then (true, ⟨w.disk, w.buf ++ b⟩)
  else if capacity - w.buf.length < b.length then
    match w.flush with
    | (true, w) => w.put b
    | (false, w) => (false, w)
  else w.put b

/-- The pieces that `writeln!` gives to `write_all` one by one. -/
def writePieces : List Bytes → Writer → Bool × Writer
  | [], w => (true, w)
  | b :: bs, w =>
    match w.writeAll b with
    | (true, w) => writePieces bs w
    | (false, w) => (false, w)

/-- `writeln!(output, "alias {alias} {module_name}")` (`/repo/test-distro/src/depmod.rs:118`). -/
def linePieces (a m : Bytes) : List Bytes := [aliasSp, a, [32], m, [10]]

/-- The loop of `write_aliases_from_modinfo` (`/repo/test-distro/src/depmod.rs:116-121`). -/
def writeEntries (m : Bytes) : List Bytes → Writer → Except Err Unit × Writer
  | [], w => (.ok (), w)
  | e :: es, w =>
    match stripPrefix aliasEq e with
    | some a =>
      match writePieces (linePieces a m) w with
      | (true, w) => writeEntries m es w
      | (false, w) => (.error .panic, w)
    | none => writeEntries m es w

/-- `write_aliases_from_modinfo` (`/repo/test-distro/src/depmod.rs:111-122`). -/
def writeAliases (data m : Bytes) (w : Writer) : Except Err Unit × Writer :=
  match modinfoEntries data with
  | .ok es => writeEntries m es w
  | .error e => (.error e, w)

/-- `read_aliases_from_module` (`/repo/test-distro/src/depmod.rs:78-102`). -/
def readAliases (S : Sys) (contents m : Bytes) (w : Writer) : Except Err Unit × Writer :=
  match S.modinfo contents with
  | .ok (some data) => writeAliases data m w
  | .ok none => (.error .noModinfo, w)
  | .error e => (.error (.parse e), w)

/-- The name before the ending of compressed files, and the compression (`/repo/test-distro/src/depmod.rs:56-60`). -/
def uncompressed (name : Bytes) : Bytes × Compression :=
  match rsplitOnce 46 name with
  | some (n, e) => if e = xz then (n, .xz) else if e = zst then (n, .zstd) else (name, .plain)
  | none => (name, .plain)

/-- The name of the module in a file (`/repo/test-distro/src/depmod.rs:56-67`). -/
def moduleName (name : Bytes) : Option (Bytes × Compression) :=
  (stripSuffix dotKo (uncompressed name).1).map (fun m => (m, (uncompressed name).2))

/-- One file of the walk (`/repo/test-distro/src/depmod.rs:48-73`). -/
def depmodFile (S : Sys) (f : File) (w : Writer) : Except Err Unit × Writer :=
  if utf8 f.name then
    match moduleName f.name with
    | some (m, c) =>
      match S.read c f.content with
      | .ok contents => readAliases S contents m w
      | .error e => (.error (.read e), w)
    | none => (.ok (), w)
  else (.error .fileName, w)

/-- The walk (`/repo/test-distro/src/depmod.rs:43-74`). -/
def depmodFiles (S : Sys) : List File → Writer → Except Err Unit × Writer
  | [], w => (.ok (), w)
  | f :: fs, w =>
    match depmodFile S f w with
    | (.ok _, w) => depmodFiles S fs w
    | (.error e, w) => (.error e, w)

/-- `main` of `depmod` (`/repo/test-distro/src/depmod.rs:26-76`) on a file system with room for so many bytes: the result, and `modules.alias` afterwards. The writer
    is dropped at the end, which writes what is in its buffer and ignores errors. -/
def depmod (S : Sys) (files : List File) (room : Nat) : Except Err Unit × Bytes :=
  match depmodFiles S files ⟨⟨[], room⟩, []⟩ with
  | (r, w) => (r, w.flush.2.disk.data)

/-- The end of a line without `\r` (`BufRead::lines`). -/
def stripCr (l : Bytes) : Bytes := if l.getLast? = some 13 then l.dropLast else l

/-- `BufRead::lines`: pieces between `\n`; the last piece is a line if there is something in it. -/
def linesOf : List Bytes → List Bytes
  | [] => []
  | [x] => if x.isEmpty then [] else [x]
  | x :: y :: r => stripCr x :: linesOf (y :: r)

def lines (s : Bytes) : List Bytes := linesOf (splitOn 10 s)

/-- `parse_alias_line` (`/repo/test-distro/src/modprobe.rs:116-129`). -/
def parseAliasLine (line : Bytes) : Except Err (Option (Bytes × Bytes)) :=
  match stripPrefix aliasSp line with
  | none => .ok none
  | some rest =>
    match rsplitOnce 32 rest with
    | none => .error .aliasLine
    | some (a, m) => if a.isEmpty || m.isEmpty then .error .aliasLine else .ok (some (a, m))

/-- The loop of `resolve_alias` (`/repo/test-distro/src/modprobe.rs:104-113`). -/
def resolveLines (name : Bytes) : List Bytes → Except Err Bytes
  | [] => .error .aliasNotFound
  | l :: ls =>
    if utf8 l then
      match parseAliasLine l with
      | .ok (some (a, m)) => if a = name then .ok m else resolveLines name ls
      | .ok none => resolveLines name ls
      | .error e => .error e
    else .error .utf8

/-- `resolve_alias` (`/repo/test-distro/src/modprobe.rs:93-114`), of the contents of `modules.alias` if it can be opened. -/
def resolveAlias (file : Option Bytes) (name : Bytes) : Except Err Bytes :=
  match file with
  | some s => resolveLines name (lines s)
  | none => .error .noAliasFile

/-- `glob("{modules_dir}/kernel/**/{module}.ko*")` (`/repo/test-distro/src/modprobe.rs:46-57`). Directories whose names match are left out. -/
def globModule (S : Sys) (files : List File) (m : Bytes) : List File :=
  if m.any (fun b => b == 42 || b == 63 || b == 91) then S.glob m files
  else files.filter (fun f => f.dirs.head? == some kernelDir && (m ++ dotKo).isPrefixOf f.name)

/-- `Path::extension` of a file name. -/
def extension (name : Bytes) : Option Bytes :=
  match rsplitOnce 46 name with
  | some (n, e) => if n.isEmpty then none else some e
  | none => none

/-- The compression by the extension (`/repo/test-distro/src/modprobe.rs:61-69`). -/
def compressionOf (name : Bytes) : Compression :=
  if extension name = some xz then .xz else if extension name = some zst then .zstd else .plain

/-- `try_main` of `modprobe` after the name was resolved (`/repo/test-distro/src/modprobe.rs:46-90`): the result, and the images given to the kernel. -/
def loadModule (S : Sys) (files : List File) (m : Bytes) : Except Err Unit × List Bytes :=
  match globModule S files m with
  | [] => (.error .moduleNotFound, [])
  | f :: _ =>
    match S.read (compressionOf f.name) f.content with
    | .error e => (.error (.read e), [])
    | .ok contents =>
      if [0x7f, 0x45, 0x4c, 0x46].isPrefixOf contents then
        match S.init contents with
        | .ok _ => (.ok (), [contents])
        | .error e => (.error (.init e), [contents])
      else (.error .notElf, [])

/-- `try_main` of `modprobe` (`/repo/test-distro/src/modprobe.rs:40-91`), in the directory of modules. -/
def tryMain (S : Sys) (files : List File) (aliasFile : Option Bytes) (name : Bytes) : Except Err Unit × List Bytes :=
  match resolveAlias aliasFile name with
  | .ok m => loadModule S files m
  | .error e => (.error e, [])

/-- `main` of `modprobe` (`/repo/test-distro/src/modprobe.rs:34-38`). -/
def modprobe (S : Sys) (quiet : Bool) (files : List File) (aliasFile : Option Bytes) (name : Bytes) : Except Err Unit × List Bytes :=
  if quiet then (.ok (), (tryMain S files aliasFile name).2) else tryMain S files aliasFile name

/-- `resolve_modules_dir` (`/repo/test-distro/src/lib.rs:16-37`): `stat` says of a path below the root if it is a directory. -/
def resolveModulesDir (stat : List Bytes → Except Nat Bool) (lib modules release : Bytes) : Except Err (List Bytes) :=
  match stat [lib, modules] with
  | .error _ => .error .stat
  | .ok true => .ok [lib, modules]
  | .ok false =>
    match stat [lib, modules, release] with
    | .error _ => .error .stat
    | .ok true => .ok [lib, modules, release]
    | .ok false => .error .notDirectory

end Verif.Modules
