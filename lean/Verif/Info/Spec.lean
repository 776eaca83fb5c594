import Verif.Info.Model
/-!
# Specification: what the kernel knows about programs and maps

A world is what there is to know: the facts about every program and map, which of them are loaded at which time, which maps a
program uses at which time, the clocks, and what this version of the kernel can tell. Time is counted in system calls of the
process; between two of them, other processes may do anything the functions below allow.
-/
namespace Verif.Info

/-- The facts about a program that never change. -/
structure Prog where
  type : Nat
  tag : List UInt8
  jited : Nat
  xlated : Nat
  /-- Nanoseconds from boot to loading. -/
  loadTime : Nat
  uid : Nat
  name : List UInt8
  gpl : Bool
  btfId : Nat
  verified : Nat
  memlock : Nat
deriving DecidableEq, Repr

structure MapFacts where
  type : Nat
  keySize : Nat
  valueSize : Nat
  maxEntries : Nat
  mapFlags : Nat
  name : List UInt8
deriving DecidableEq, Repr

structure World where
  prog : Nat → Prog
  /-- The ids of the programs loaded at a time. -/
  progs : Nat → List Nat
  /-- The ids of the maps a program uses at a time, in the kernel's order. -/
  uses : Nat → Nat → List Nat
  /-- Run time in nanoseconds and number of runs. -/
  ran : Nat → Nat → Nat × Nat
  map : Nat → MapFacts
  maps : Nat → List Nat
  pins : Nat → List UInt8 → Option Nat
  /-- What this kernel version tells. -/
  tellsLoadTime : Bool := true
  tellsMaps : Bool := true
  tellsName : Bool := true
  tellsGpl : Bool := true
  /-- Whether the process may load programs. -/
  mayLoad : Nat → Bool := fun _ => true
  /-- The call made at this time fails for a reason of its own. -/
  fault : Nat → Option Nat := fun _ => none
  /-- Nanoseconds from boot, and from 1970 to boot. -/
  now : Nat → Nat := fun _ => 0
  booted : Int := 0

/-- A name in its field of 16 bytes. -/
def nameField (name : List UInt8) : List UInt8 := name ++ List.replicate (16 - name.length) 0

/-- What the kernel tells about program `id` at time `t`. -/
def World.progRec (w : World) (t id : Nat) : ProgRec :=
  { type := (w.prog id).type
    id := id
    tag := (w.prog id).tag
    jited := (w.prog id).jited
    xlated := (w.prog id).xlated
    loadTime := if w.tellsLoadTime then (w.prog id).loadTime else 0
    uid := if w.tellsLoadTime then (w.prog id).uid else 0
    nrMapIds := if w.tellsMaps then (w.uses t id).length else 0
    name := if w.tellsName then nameField (w.prog id).name else List.replicate 16 0
    gpl := if w.tellsGpl && (w.prog id).gpl then 1 else 0
    btfId := (w.prog id).btfId
    runTimeNs := (w.ran t id).1
    runCnt := (w.ran t id).2
    verified := (w.prog id).verified }

/-- What the kernel tells about map `id`. -/
def World.mapRec (w : World) (id : Nat) : MapRec :=
  { type := (w.map id).type
    id := id
    keySize := (w.map id).keySize
    valueSize := (w.map id).valueSize
    maxEntries := (w.map id).maxEntries
    mapFlags := (w.map id).mapFlags
    name := if w.tellsName then nameField (w.map id).name else List.replicate 16 0 }

/-- The smallest id above `cur`. -/
def above (cur : Nat) (ids : List Nat) : Option Nat := (ids.filter (fun i => decide (cur < i))).min?

/-- Hexadecimal digits of bytes, as the tag of a program is printed. -/
def hexOf (bs : List UInt8) : List Char :=
  bs.flatMap fun b => [Verif.Str.digitChar (b.toNat / 16), Verif.Str.digitChar (b.toNat % 16)]

/-- A line of `/proc/self/fdinfo`: key, colon, tab, value. -/
def fdLine (key : String) (value : List Char) : List Char := key.toList ++ [':', '\t'] ++ value

/-- The lines of `/proc/self/fdinfo` for program `id`. `pos`, `flags`, `mount` and `ino` are chosen by the kernel. -/
def World.fdLines (w : World) (id pos flags mount ino : Nat) : List (List Char) :=
  [fdLine "pos" (Verif.Str.render 10 pos),
   fdLine "flags" ('0' :: Verif.Str.render 8 flags),
   fdLine "mnt_id" (Verif.Str.render 10 mount),
   fdLine "ino" (Verif.Str.render 10 ino),
   fdLine "prog_type" (Verif.Str.render 10 (w.prog id).type),
   fdLine "prog_jited" (Verif.Str.render 10 (if (w.prog id).jited = 0 then 0 else 1)),
   fdLine "prog_tag" (hexOf (w.prog id).tag),
   fdLine "memlock" (Verif.Str.render 10 (w.prog id).memlock),
   fdLine "prog_id" (Verif.Str.render 10 id)]

/-- Lines as the text of a file. -/
def asText (ls : List (List Char)) : List Char := ls.flatMap (· ++ ['\n'])

/-- A clock that shows `ns` nanoseconds. -/
def clockAt (ns : Int) : Clock := { sec := ns / 1000000000, nsec := (ns % 1000000000).toNat }

/-- A call that fails for a reason of its own, or does what it does. -/
def World.unless (w : World) (t : Nat) (a : Except Nat α) : Except Nat α :=
  match w.fault t with
  | some e => .error e
  | none => a

/-- `x`, or the error `e` if there is none. -/
def orErr (e : Nat) : Option α → Except Nat α
  | some x => .ok x
  | none => .error e

/-- The kernel of a world. A descriptor is named by the id it refers to. It keeps what it refers to alive, so that information
    can be had by descriptor at any time. Asking for information about a program with something in a field this version does not
    have fails with `E2BIG` (7); what is not there is not found, `ENOENT` (2); who may not load is refused, `EPERM` (1). -/
def World.kernel (w : World) : Kernel where
  nextProgId t cur := w.unless t (orErr 2 (above cur (w.progs t)))
  nextMapId t cur := w.unless t (orErr 2 (above cur (w.maps t)))
  progFd t id := w.unless t (orErr 2 (if id ∈ w.progs t then some id else none))
  mapFd t id := w.unless t (orErr 2 (if id ∈ w.maps t then some id else none))
  pinned t path := w.unless t (orErr 2 (w.pins t path))
  progInfo t fd n := w.unless t (.ok (w.progRec t fd, if w.tellsMaps then (w.uses t fd).take n else []))
  mapInfo t fd := w.unless t (.ok (w.mapRec fd))
  trivial t := w.unless t (orErr 1 (if w.mayLoad t then some 0 else none))
  probe t _ r := w.unless t (orErr 7 (if (r.nrMapIds ≠ 0 ∧ ¬ w.tellsMaps) ∨ (r.gpl ≠ 0 ∧ ¬ w.tellsGpl) then none else some ()))
  fdinfo t fd := w.unless t (.ok (asText (w.fdLines fd t 2000002 15 (t + fd))))
  bootClock t := clockAt (w.now t)
  realClock t := clockAt (w.booted + w.now t)

/-- What holds in every world: programs are known by ids that are not 0; a tag has 8 bytes; a name has at most 15 bytes and none
    is zero; loading takes place after boot; a program comes to use more maps but never fewer; the clock does not go back. -/
structure World.Good (w : World) : Prop where
  tag : ∀ id, (w.prog id).tag.length = 8
  name : ∀ id, (w.prog id).name.length ≤ 15 ∧ 0 ∉ (w.prog id).name
  mapName : ∀ id, (w.map id).name.length ≤ 15 ∧ 0 ∉ (w.map id).name
  loadTime : ∀ id, 0 < (w.prog id).loadTime
  uses : ∀ t t' id, t ≤ t' → (w.uses t id) <+: (w.uses t' id)
  now : ∀ t t', t ≤ t' → w.now t ≤ w.now t'

/-- The number written by bytes with the most significant first. -/
def bigEndian (bs : List UInt8) : Nat := bs.foldl (fun n b => n * 256 + b.toNat) 0

/-- `some x` if this is told, else `none`. -/
def told (b : Bool) (x : α) : Option α := if b then some x else none

/-- `some n` unless it is 0. -/
def unlessZero (n : Nat) : Option Nat := if n = 0 then none else some n

end Verif.Info
