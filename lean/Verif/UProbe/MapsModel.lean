import Verif.Common.Str
import Verif.Common.Except
/-!
# Model of the process map and library lookup (`/repo/aya/src/programs/uprobe.rs`)

Texts are byte strings in the code. Here they are lists of characters, one character for each byte. The code
checks that numbers are valid UTF-8 before it parses them; a text that parses as a number is ASCII, so the check
never decides anything and is left out.
-/
namespace Verif.UProbe
open Verif.Str

abbrev Text := List Char

/-- `u8::is_ascii_whitespace`: space, tab, line feed, form feed, carriage return. -/
def isWs (c : Char) : Bool := c = ' ' || c = '\t' || c = '\n' || c = '\x0c' || c = '\r'

/-- `<[u8]>::trim_ascii_start`. -/
def trimStart (s : Text) : Text := s.dropWhile isWs

/-- `<[u8]>::trim_ascii_end`. -/
def trimEnd (s : Text) : Text := (s.reverse.dropWhile isWs).reverse

/-- The closure of `split_ascii_whitespace_n`, called until it returns `None` (uprobe.rs:1115-1133): at most `n`
    parts, of which the last is the rest. -/
def splitParts : Nat → Text → List Text
  | 0, _ => []
  | 1, s => [trimStart s]
  | n + 2, s =>
    if (trimStart s).any isWs then
      (trimStart s).takeWhile (fun c => !isWs c)
        :: splitParts (n + 1) ((trimStart s).dropWhile (fun c => !isWs c))
    else [trimStart s]

/-- `split_ascii_whitespace_n` (uprobe.rs:1112-1134). -/
def splitN (s : Text) (n : Nat) : List Text := splitParts n (trimEnd s)

/-- `ProcMapEntry` (uprobe.rs:1092-1106). -/
structure Entry where
  address : Nat
  addressEnd : Nat
  perms : Text
  offset : Nat
  dev : Text
  inode : Nat
  path : Option Text
deriving DecidableEq, Repr

/-- The address range (uprobe.rs:1151-1173): two hexadecimal numbers around the only `-`. -/
def parseRange (s : Text) : Option (Nat × Nat) :=
  match splitBy (· = '-') s with
  | [a, b] =>
    match parseUInt 16 64 a, parseUInt 16 64 b with
    | some x, some y => some (x, y)
    | _, _ => none
  | _ => none

/-- The fields after the line has been split (uprobe.rs:1151-1203). -/
def parseFields : List Text → Option Entry
  | addr :: perms :: off :: dev :: ino :: rest =>
    match parseRange addr, parseUInt 16 64 off, parseUInt 10 32 ino with
    | some (a, b), some o, some i =>
      match rest with
      | [] => some ⟨a, b, perms, o, dev, i, none⟩
      | [p] => some ⟨a, b, perms, o, dev, i, some p⟩
      | _ => none
    | _, _, _ => none
  | _ => none

/-- `ProcMapEntry::parse` (uprobe.rs:1137-1204); `none` is `ProcMapError::ParseLine`. -/
def parseLine (line : Text) : Option Entry :=
  parseFields ((splitN line 6).filter (fun p => !p.isEmpty))

/-- `ProcMap::libs` (uprobe.rs:1227-1235): the lines that are parsed. -/
def mapLines (data : Text) : List Text := splitBy (· = '\n') (trimEnd (trimStart data))

/-- `Path::file_name`: the last component after `.` components and empty ones are dropped, unless it is `..`. -/
def fileName (p : Text) : Option Text :=
  match ((splitBy (· = '/') p).filter (fun c => !c.isEmpty && c ≠ ['.'])).getLast? with
  | none => none
  | some n => if n = ['.', '.'] then none else some n

/-- `strip_prefix`. -/
def stripPrefix : Text → Text → Option Text
  | [], s => some s
  | _ :: _, [] => none
  | p :: ps, c :: cs => if p = c then stripPrefix ps cs else none

/-- `strip_suffix`. -/
def stripSuffix (suf s : Text) : Option Text := (stripPrefix suf.reverse s.reverse).map List.reverse

/-- `lib.strip_suffix(".so").unwrap_or(lib)` (uprobe.rs:1243, 1383). -/
def libBase (lib : Text) : Text := (stripSuffix ['.', 's', 'o'] lib).getD lib

/-- The test on one path (uprobe.rs:1255-1266). -/
def pathMatches (base : Text) (path : Text) : Bool :=
  match fileName path with
  | none => false
  | some name =>
    match stripPrefix base name with
    | none => false
    | some suffix => suffix.isEmpty || ['.', 's', 'o'].isPrefixOf suffix || ['-'].isPrefixOf suffix

/-- What looking for a library gives: the path, nothing, or an error naming the line. -/
inductive Found where
  | path (p : Text)
  | none
  | badLine (line : Text)
deriving DecidableEq, Repr

/-- The loop of `find_library_path_by_name` (uprobe.rs:1245-1269). -/
def findLoop (base : Text) : List Text → Found
  | [] => .none
  | l :: ls =>
    match parseLine l with
    | none => .badLine l
    | some e =>
      match e.path with
      | none => findLoop base ls
      | some p => if pathMatches base p then .path p else findLoop base ls

/-- `ProcMap::find_library_path_by_name` (uprobe.rs:1241-1270). -/
def findLibrary (data lib : Text) : Found := findLoop (libBase lib) (mapLines data)

/-- `is_basename_only` (uprobe.rs:663-665). -/
def isBasenameOnly (target : Text) : Bool := fileName target = some target

end Verif.UProbe
