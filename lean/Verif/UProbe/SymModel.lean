import Verif.UProbe.MapsModel
/-!
# Resolving attach points to file offsets

Model of the part of `/repo/aya/src/programs/uprobe.rs` that turns attach points into offsets in the target file.
Arithmetic on `u64` wraps, as in release builds.
-/
namespace Verif.UProbe

/-- `object::ObjectKind` (external crate). -/
inductive Kind where
  | unknown | relocatable | executable | dynamic | core
deriving DecidableEq, Repr

/-- A section of an object file as the `object` crate shows it: `address()`, the file offset and size, and whether
`file_range()` is `None` (`SHT_NOBITS`). -/
structure Sect where
  addr : Nat
  off : Nat
  size : Nat
  nobits : Bool
deriving DecidableEq, Repr

/-- A symbol: `name()` (`none` if unreadable), `address()` and `section_index()` (`none` for undefined, absolute and
common symbols). The index counts into `Obj.sections`. -/
structure Symbol where
  name : Option Text
  addr : Nat
  sect : Option Nat
deriving DecidableEq, Repr

/-- A parsed object file. `debuglink` is `gnu_debuglink()`: `none` for an error, `some none` if there is none. `buildId` is
`build_id().ok().flatten()`. -/
structure Obj where
  kind : Kind
  sections : List Sect
  dynsyms : List Symbol
  syms : List Symbol
  debuglink : Option (Option Text)
  buildId : Option (List Nat)
deriving DecidableEq, Repr

/-- Why a file cannot be used: it cannot be mapped, or it cannot be parsed. -/
inductive FileErr where
  | io | parse
deriving DecidableEq, Repr

/-- The file system: `MMap::map_copy_read_only` followed by `object::read::File::parse`, and `Path::parent`. -/
structure Fs where
  file : Text → Except FileErr Obj
  parent : Text → Option Text

/-- `ResolveSymbolError` (`/repo/aya/src/programs/uprobe.rs:1397-1418`). -/
inductive SymErr where
  | io
  | object
  | unknown (symbol : Text)
  | notInSection (symbol : Text)
  | noFileRange (symbol : Text)
  | debuglinkAccess (path : Text)
  | buildIdMismatch (symbol : Text)
deriving DecidableEq, Repr

/-- `u64` subtraction and addition of `sym.address() - section.address() + offset`. -/
def rebase (addr base off : Nat) : Nat := ((addr + 2 ^ 64 - base) % 2 ^ 64 + off) % 2 ^ 64

/-- `symbol_translated_address` (`1468-1492`). -/
def translate (o : Obj) (sym : Symbol) (name : Text) : Except SymErr Nat :=
  if o.kind = .dynamic ∨ o.kind = .executable then
    match sym.sect with
    | none => .error (.notInSection name)
    | some i =>
      match o.sections[i]? with
      | none => .error .object
      | some s => if s.nobits then .error (.noFileRange name) else .ok (rebase sym.addr s.addr s.off)
  else .ok sym.addr

/-- `find_symbol_in_object` (`758-762`). -/
def findSymbol (o : Obj) (name : Text) : Option Symbol :=
  (o.dynsyms ++ o.syms).find? (fun s => s.name = some name)

/-- `construct_debuglink_path` (`1420-1434`). `Path::join` is written out for a relative right-hand side. -/
def debugPath (fs : Fs) (main filename : Text) : Text :=
  if filename.head? = some '/' then filename
  else
    match fs.parent main with
    | none => filename
    | some d => if d = [] then filename else if d.getLast? = some '/' then d ++ filename else d ++ '/' :: filename

/-- `find_debug_path_in_object` (`1456-1466`). -/
def findDebugPath (fs : Fs) (o : Obj) (main symbol : Text) : Except SymErr Text :=
  match o.debuglink with
  | some (some f) => .ok (debugPath fs main f)
  | some none => .error (.unknown symbol)
  | none => .error .object

/-- `verify_build_ids` (`1436-1454`). -/
def verifyBuildIds (main debug : Obj) (symbol : Text) : Except SymErr Unit :=
  match debug.buildId, main.buildId with
  | some d, some m => if d ≠ m then .error (.buildIdMismatch symbol) else .ok ()
  | _, _ => .ok ()

/-- Opening and parsing the target file. -/
def openMain (fs : Fs) (path : Text) : Except SymErr Obj :=
  match fs.file path with
  | .ok o => .ok o
  | .error .io => .error .io
  | .error .parse => .error .object

/-- Opening, parsing and checking the debug file (`771-777` and `845-857`). -/
def openDebug (fs : Fs) (o : Obj) (path symbol : Text) : Except SymErr Obj :=
  match findDebugPath fs o path symbol with
  | .error e => .error e
  | .ok d =>
    match fs.file d with
    | .error .io => .error (.debuglinkAccess d)
    | .error .parse => .error .object
    | .ok dbg =>
      match verifyBuildIds o dbg symbol with
      | .error e => .error e
      | .ok () => .ok dbg

/-- `resolve_symbol` (`764-783`). -/
def resolveSymbol (fs : Fs) (path symbol : Text) : Except SymErr Nat :=
  match openMain fs path with
  | .error e => .error e
  | .ok o =>
    match findSymbol o symbol with
    | some sym => translate o sym symbol
    | none =>
      match openDebug fs o path symbol with
      | .error e => .error e
      | .ok dbg =>
        match findSymbol dbg symbol with
        | none => .error (.unknown symbol)
        | some sym => translate dbg sym symbol

/-- `UProbeAttachLocation` (`80-88`). -/
inductive Location where
  | symbol (name : Text)
  | symbolOffset (name : Text) (additional : Nat)
  | absolute (offset : Nat)
deriving DecidableEq, Repr

/-- `UProbeAttachPoint` (`201-206`). -/
structure Point where
  loc : Location
  cookie : Option Nat
deriving DecidableEq, Repr

/-- `UProbeAttachLocationError` (`114-140`). -/
inductive LocErr where
  | notInSection
  | overflow
deriving DecidableEq, Repr

/-- `UProbeAttachLocation::from_virtual_address` (`176-196`). -/
def fromVirtualAddress (instr sectAddr sectOff : Nat) : Except LocErr Location :=
  if instr < sectAddr then .error .notInSection
  else if instr - sectAddr + sectOff < 2 ^ 64 then .ok (.absolute (instr - sectAddr + sectOff))
  else .error .overflow

/-- `ResolvedPoints` (`234-247`). -/
inductive Resolved where
  | one (offset : Nat) (cookie : Option Nat)
  | many (offsets : List Nat) (cookies : Option (List Nat))
deriving DecidableEq, Repr

/-- `ResolvedPoints::offsets` (`255-263`). -/
def Resolved.offsets : Resolved → List Nat
  | .one o _ => [o]
  | .many os _ => os

/-- `ResolvedPoints::cookies` (`265-273`). -/
def Resolved.cookies : Resolved → Option (List Nat)
  | .one _ c => c.map ([·])
  | .many _ cs => cs

/-- `PendingOffset` (`249-252`). -/
inductive Pending where
  | absolute (offset : Nat)
  | symbol (name : Text) (additional : Nat)
deriving DecidableEq, Repr

/-- The symbol table of a request: a `HashMap` from names to resolved offsets, as an association list with one entry for
each name. -/
abbrev Tbl := List (Text × Option Nat)

/-- `HashMap::get`. -/
def Tbl.get (t : Tbl) (k : Text) : Option (Option Nat) := (t.find? (fun e => e.1 = k)).map (·.2)

/-- Assignment through `HashMap::get_mut`. -/
def Tbl.set (t : Tbl) (k : Text) (v : Nat) : Tbl := t.map (fun e => if e.1 = k then (k, some v) else e)

/-- Collecting `(symbol, None)` pairs into a `HashMap` (`792-801`). -/
def Tbl.collect : List Pending → Tbl
  | [] => []
  | .absolute _ :: ps => Tbl.collect ps
  | .symbol s _ :: ps => if (Tbl.collect ps).any (fun e => e.1 = s) then Tbl.collect ps else (s, none) :: Tbl.collect ps

/-- The number of symbols not resolved yet (`890`). -/
def Tbl.remaining (t : Tbl) : Nat := (t.filter (fun e => e.2.isNone)).length

/-- The loop of `resolve_symbols_in_object` (`892-909`). `remaining` is a `usize`. -/
def resolveLoop (o : Obj) : List Symbol → Tbl → Nat → Except SymErr Tbl
  | [], t, _ => .ok t
  | s :: ss, t, rem =>
    match s.name with
    | none => resolveLoop o ss t rem
    | some n =>
      match t.get n with
      | some none =>
        match translate o s n with
        | .error e => .error e
        | .ok off =>
          let rem' := if rem = 0 then 2 ^ 64 - 1 else rem - 1
          if rem' = 0 then .ok (t.set n off) else resolveLoop o ss (t.set n off) rem'
      | _ => resolveLoop o ss t rem

/-- `resolve_symbols_in_object` (`882-912`). -/
def resolveSymbolsIn (o : Obj) (t : Tbl) : Except SymErr Tbl :=
  if t = [] then .ok t else resolveLoop o (o.dynsyms ++ o.syms) t t.remaining

/-- `UProbeError::SymbolError`, the only error of resolving points. -/
structure PointErr where
  symbol : Text
  error : SymErr
deriving DecidableEq, Repr

/-- The closure `symbol_error` (`810-823`). -/
def symbolError (fallback : Text) (e : SymErr) : PointErr :=
  match e with
  | .unknown s => ⟨s, e⟩
  | .notInSection s => ⟨s, e⟩
  | .noFileRange s => ⟨s, e⟩
  | .buildIdMismatch s => ⟨s, e⟩
  | _ => ⟨fallback, e⟩

/-- The first symbol asked for (`803-809`). -/
def firstSymbol : List Pending → Option Text
  | [] => none
  | .absolute _ :: ps => firstSymbol ps
  | .symbol s _ :: _ => some s

/-- The first symbol that is still unresolved (`832-842`). -/
def firstUnresolved (t : Tbl) : List Pending → Option Text
  | [] => none
  | .absolute _ :: ps => firstUnresolved t ps
  | .symbol s _ :: ps => if t.get s = some none then some s else firstUnresolved t ps

/-- The part of `resolve_pending_offsets` that fills the table (`803-861`). -/
def fillTable (fs : Fs) (path : Text) (pending : List Pending) : Except PointErr Tbl :=
  match firstSymbol pending with
  | none => .ok (Tbl.collect pending)
  | some first =>
    match openMain fs path with
    | .error e => .error (symbolError first e)
    | .ok o =>
      match resolveSymbolsIn o (Tbl.collect pending) with
      | .error e => .error (symbolError first e)
      | .ok t =>
        match firstUnresolved t pending with
        | none => .ok t
        | some u =>
          match openDebug fs o path u with
          | .error e => .error (symbolError u e)
          | .ok dbg =>
            match resolveSymbolsIn dbg t with
            | .error e => .error (symbolError u e)
            | .ok t' => .ok t'

/-- The offset of one pending point (`864-877`). -/
def finish (t : Tbl) : Pending → Except PointErr Nat
  | .absolute n => .ok n
  | .symbol s a =>
    match t.get s with
    | some (some off) => .ok ((off + a) % 2 ^ 64)
    | _ => .error ⟨s, .unknown s⟩

/-- Collecting results, stopping at the first error (`862-879`). -/
def finishAll (t : Tbl) : List Pending → Except PointErr (List Nat)
  | [] => .ok []
  | p :: ps =>
    match finish t p with
    | .error e => .error e
    | .ok o =>
      match finishAll t ps with
      | .error e => .error e
      | .ok os => .ok (o :: os)

/-- `resolve_pending_offsets` (`785-880`). -/
def resolvePending (fs : Fs) (path : Text) (pending : List Pending) : Except PointErr (List Nat) :=
  match fillTable fs path pending with
  | .error e => .error e
  | .ok t => finishAll t pending

/-- The match on the location (`323-332`). -/
def pendingOf : Location → Pending
  | .symbol s => .symbol s 0
  | .symbolOffset s a => .symbol s a
  | .absolute n => .absolute n

/-- One round of collecting cookies (`335-344`); `index` is the number of points before this one. -/
def pushCookie (cookies : Option (List Nat)) (index : Nat) (cookie : Option Nat) : Option (List Nat) :=
  match cookies, cookie with
  | some vs, some c => some (vs ++ [c])
  | some vs, none => some (vs ++ [0])
  | none, some c => some (List.replicate index 0 ++ [c])
  | none, none => none

/-- The loop over the points (`322-345`). -/
def collectPoints : List Point → List Pending → Option (List Nat) → List Pending × Option (List Nat)
  | [], pend, cookies => (pend, cookies)
  | p :: ps, pend, cookies => collectPoints ps (pend ++ [pendingOf p.loc]) (pushCookie cookies pend.length p.cookie)

/-- The branch of `resolve_points` for a single point (`289-308`). -/
def resolveOne (fs : Fs) (path : Text) (p : Point) : Except PointErr Resolved :=
  match pendingOf p.loc with
  | .absolute n => .ok (.one n p.cookie)
  | .symbol s a =>
    match resolveSymbol fs path s with
    | .error e => .error ⟨s, e⟩
    | .ok off => .ok (.one ((off + a) % 2 ^ 64) p.cookie)

/-- `resolve_points` (`277-352`). -/
def resolvePoints (fs : Fs) (path : Text) (first : Point) (rest : List Point) : Except PointErr Resolved :=
  match rest with
  | [] => resolveOne fs path first
  | second :: rest =>
    let (pend, cookies) := collectPoints (first :: second :: rest) [] none
    match resolvePending fs path pend with
    | .error e => .error e
    | .ok offsets => .ok (.many offsets cookies)

end Verif.UProbe
