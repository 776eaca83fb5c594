import Verif.Common.Str
/-!
# Information about loaded programs and maps

Model of `ProgramInfo`, `loaded_programs` (`/repo/aya/src/programs/info.rs`), `MapInfo`, `loaded_maps`
(`/repo/aya/src/maps/info.rs`), the functions of `/repo/aya/src/programs/utils.rs` and `/repo/aya/src/sys/bpf.rs` they use, and
the two probes of `/repo/aya/src/sys/feature_probe.rs:605-659`.

The kernel is a record of functions. The first argument of each is the number of system calls the process has made before, so
that an answer may depend on everything done by this process and by others until then. Errors are error numbers. Numbers are
`Nat`, bytes `UInt8`.
-/
namespace Verif.Info

abbrev Fd := Nat

/-- `bpf_prog_info` (`/repo/aya-obj/src/generated/linux_bindings_x86_64.rs`), the fields that are read. `gpl` is the bit
    `gpl_compatible`. -/
structure ProgRec where
  type : Nat := 0
  id : Nat := 0
  tag : List UInt8 := List.replicate 8 0
  jited : Nat := 0
  xlated : Nat := 0
  loadTime : Nat := 0
  uid : Nat := 0
  nrMapIds : Nat := 0
  name : List UInt8 := List.replicate 16 0
  gpl : Nat := 0
  btfId : Nat := 0
  runTimeNs : Nat := 0
  runCnt : Nat := 0
  verified : Nat := 0
deriving DecidableEq, Repr

/-- `bpf_map_info`, the fields that are read. -/
structure MapRec where
  type : Nat := 0
  id : Nat := 0
  keySize : Nat := 0
  valueSize : Nat := 0
  maxEntries : Nat := 0
  mapFlags : Nat := 0
  name : List UInt8 := List.replicate 16 0
deriving DecidableEq, Repr

/-- `timespec`: seconds and nanoseconds. -/
structure Clock where
  sec : Int
  nsec : Nat
deriving DecidableEq, Repr

/-- The system calls and file reads. `progInfo t fd n` is `BPF_OBJ_GET_INFO_BY_FD` with room for `n` map ids: the record and the
    ids written to the room. `trivial` loads the two instruction program of `with_trivial_prog`
    (`/repo/aya/src/sys/bpf.rs:1145-1154`); `probe t fd r` asks for information with the record `r` as initial contents. -/
structure Kernel where
  nextProgId : Nat → Nat → Except Nat Nat
  nextMapId : Nat → Nat → Except Nat Nat
  progFd : Nat → Nat → Except Nat Fd
  mapFd : Nat → Nat → Except Nat Fd
  pinned : Nat → List UInt8 → Except Nat Fd
  progInfo : Nat → Fd → Nat → Except Nat (ProgRec × List Nat)
  mapInfo : Nat → Fd → Except Nat MapRec
  trivial : Nat → Except Nat Fd
  probe : Nat → Fd → ProgRec → Except Nat Unit
  fdinfo : Nat → Fd → Except Nat (List Char)
  bootClock : Nat → Clock
  realClock : Nat → Clock

/-- The two `static CACHE: OnceLock<bool>` (`/repo/aya/src/programs/info.rs:116`, `152`). They last as long as the process. -/
structure Caches where
  mapIds : Option Bool := none
  gpl : Option Bool := none
deriving DecidableEq, Repr

/-- What a function can do. -/
inductive Res (α : Type) where
  | ok (a : α)
  | err (errno : Nat)
  | panic
deriving DecidableEq, Repr

/-! ## Program information -/

/-- `ProgramInfo::new_from_fd` (`/repo/aya/src/programs/info.rs:35-38`, `/repo/aya/src/sys/bpf.rs:801-836`). The time is advanced
    by one call. -/
def progFromFd (k : Kernel) (t : Nat) (fd : Fd) : Res ProgRec × Nat :=
  match k.progInfo t fd 0 with
  | .ok (r, _) => (.ok r, t + 1)
  | .error e => (.err e, t + 1)

/-- `ProgramInfo::from_pin` (`/repo/aya/src/programs/info.rs:224-235`). A path with a zero byte panics (`228`). -/
def progFromPin (k : Kernel) (t : Nat) (path : List UInt8) : Res ProgRec × Nat :=
  if path.contains 0 then (.panic, t)
  else
    match k.pinned t path with
    | .error e => (.err e, t + 1)
    | .ok fd => progFromFd k (t + 1) fd

/-- `program_type` (`/repo/aya/src/programs/info.rs:43-45`, `/repo/aya-obj/src/programs/types.rs:5-55`): the types are the numbers
    0 to 32, and 33 stands for all others. -/
def programType (r : ProgRec) : Nat := if r.type < 33 then r.type else 33

/-- Value of bytes, the first one the most significant (`u64::from_be_bytes`). -/
def ofBe : List UInt8 → Nat
  | [] => 0
  | b :: bs => b.toNat * 256 ^ bs.length + ofBe bs

/-- `tag` (`/repo/aya/src/programs/info.rs:65-67`). -/
def tag (r : ProgRec) : Nat := ofBe r.tag

/-- `size_translated` (`/repo/aya/src/programs/info.rs:87-89`). -/
def sizeTranslated (r : ProgRec) : Option Nat := if r.xlated > 0 then some r.xlated else none

/-- `created_by_uid` (`/repo/aya/src/programs/info.rs:105-108`). -/
def createdByUid (r : ProgRec) : Option Nat := if r.loadTime > 0 then some r.uid else none

/-- `btf_id` (`/repo/aya/src/programs/info.rs:163-165`). -/
def btfId (r : ProgRec) : Option Nat := if r.btfId > 0 then some r.btfId else none

/-- `verified_instruction_count` (`/repo/aya/src/programs/info.rs:200-202`). -/
def verifiedInstructionCount (r : ProgRec) : Option Nat := if r.verified > 0 then some r.verified else none

/-- `name` (`/repo/aya/src/programs/info.rs:132-134`, `/repo/aya/src/util.rs:430-436`): the bytes to the last one that is not
    zero. -/
def nameOf (name : List UInt8) : List UInt8 := (name.reverse.dropWhile (· == 0)).reverse

/-- `ProgramInfo::fd` (`/repo/aya/src/programs/info.rs:215-219`). -/
def progFd (k : Kernel) (t : Nat) (r : ProgRec) : Res Fd × Nat :=
  match k.progFd t r.id with
  | .ok fd => (.ok fd, t + 1)
  | .error e => (.err e, t + 1)

/-- `E2BIG`. -/
def e2big : Nat := 7

/-- `probe_bpf_info` (`/repo/aya/src/sys/feature_probe.rs:640-659`) after loading the trivial program (`606-620`, `623-637`):
    `some` of the answer, or `none` for an error. -/
def probeField (k : Kernel) (t : Nat) (r : ProgRec) : Option Bool × Nat :=
  match k.trivial t with
  | .error _ => (none, t + 1)
  | .ok fd =>
    match k.probe (t + 1) fd r with
    | .ok () => (some true, t + 2)
    | .error e => (if e = e2big then some false else none, t + 2)

/-- `CACHE.get_or_init` (`/repo/aya/src/programs/info.rs:118-120`, `154-156`): `shown` says that the field of this program is not
    zero. The second result is the new contents of the cache. -/
def getOrInit (k : Kernel) (t : Nat) (cache : Option Bool) (shown : Bool) (r : ProgRec) : Bool × Nat :=
  match cache with
  | some b => (b, t)
  | none =>
    if shown then (true, t)
    else
      match probeField k t r with
      | (some true, t') => (true, t')
      | (_, t') => (false, t')

/-- `map_ids` (`/repo/aya/src/programs/info.rs:115-127`). What the kernel does not fill stays 0. -/
def mapIds (k : Kernel) (t : Nat) (c : Caches) (r : ProgRec) : Res (Option (List Nat)) × Nat × Caches :=
  let (b, t) := getOrInit k t c.mapIds (decide (r.nrMapIds > 0)) { nrMapIds := 1 }
  let c := { c with mapIds := some b }
  if b then
    match progFd k t r with
    | (.err e, t) => (.err e, t, c)
    | (.panic, t) => (.panic, t, c)
    | (.ok fd, t) =>
      match k.progInfo t fd r.nrMapIds with
      | .error e => (.err e, t + 1, c)
      | .ok (_, ids) => (.ok (some (ids ++ List.replicate (r.nrMapIds - ids.length) 0)), t + 1, c)
  else (.ok none, t, c)

/-- `gpl_compatible` (`/repo/aya/src/programs/info.rs:151-158`). -/
def gplCompatible (k : Kernel) (t : Nat) (c : Caches) (r : ProgRec) : Option Bool × Nat × Caches :=
  let (b, t) := getOrInit k t c.gpl (decide (r.gpl ≠ 0)) { gpl := 1 }
  (if b then some (decide (r.gpl ≠ 0)) else none, t, { c with gpl := some b })

/-! ## Times -/

/-- `i64` limits of the seconds of `SystemTime`. -/
def maxSec : Int := 9223372036854775807
def minSec : Int := -9223372036854775808

/-- Whether a time in nanoseconds can be held. Outside, the operators of `SystemTime` panic. -/
def representable (ns : Int) : Bool := decide (minSec * 1000000000 ≤ ns) && decide (ns < (maxSec + 1) * 1000000000)

/-- `Duration::new(tv_sec as u64, tv_nsec as u32)` in nanoseconds (`/repo/aya/src/programs/utils.rs:70-72`). Negative seconds
    wrap around. -/
def duration (c : Clock) : Int := (if 0 ≤ c.sec then c.sec else c.sec + 18446744073709551616) * 1000000000 + c.nsec

/-- `boot_time` (`/repo/aya/src/programs/utils.rs:62-77`), in nanoseconds from 1970. Reading a clock is counted as a call. The
    `assert_eq!` on the result of `clock_gettime` is left out: the two clocks exist. -/
def bootTime (k : Kernel) (t : Nat) : Option Int :=
  let sinceBoot := duration (k.bootClock t)
  let sinceEpoch := duration (k.realClock (t + 1))
  if representable sinceEpoch then
    if representable (sinceEpoch - sinceBoot) then some (sinceEpoch - sinceBoot) else none
  else none

/-- `loaded_at` (`/repo/aya/src/programs/info.rs:96-98`). The time is computed even if it is not used. -/
def loadedAt (k : Kernel) (t : Nat) (r : ProgRec) : Res (Option Int) × Nat :=
  match bootTime k t with
  | none => (.panic, t + 2)
  | some b =>
    if representable (b + r.loadTime) then
      (.ok (if r.loadTime > 0 then some (b + r.loadTime) else none), t + 2)
    else (.panic, t + 2)

/-! ## Locked memory -/

/-- Whether `key` starts `s`. -/
def startsWith (key : List Char) : List Char → Bool
  | s => key.isPrefixOf s

/-- `str::contains`. -/
def containsKey (key : List Char) : List Char → Bool
  | [] => startsWith key []
  | c :: s => startsWith key (c :: s) || containsKey key s

/-- `rsplit_once('\t')`, the part after the last tab; `none` if there is no tab. -/
def afterTab : List Char → Option (List Char)
  | [] => none
  | c :: s =>
    match afterTab s with
    | some v => some v
    | none => if c = '\t' then some s else none

/-- `BufRead::lines`: the text cut at line feeds, without an empty last line. A carriage return before a line feed is not
    treated specially here; there is none in these files. -/
def linesOf (s : List Char) : List (List Char) :=
  let ls := Verif.Str.splitBy (· == '\n') s
  if ls.getLast? = some [] then ls.dropLast else ls

/-- The loop of `get_fdinfo` (`/repo/aya/src/programs/utils.rs:83-94`). -/
def scan (key : List Char) : List (List Char) → Res Nat
  | [] => .ok 0
  | l :: ls =>
    if containsKey key l then
      match afterTab l with
      | none => .panic
      | some v =>
        match Verif.Str.parseUInt 10 32 v with
        | none => .panic
        | some n => .ok n
    else scan key ls

/-- `memory_locked` with `get_fdinfo` (`/repo/aya/src/programs/info.rs:205-207`, `utils.rs:80-95`). -/
def memoryLocked (k : Kernel) (t : Nat) (r : ProgRec) : Res Nat × Nat :=
  match progFd k t r with
  | (.err e, t) => (.err e, t)
  | (.panic, t) => (.panic, t)
  | (.ok fd, t) =>
    match k.fdinfo t fd with
    | .error e => (.err e, t + 1)
    | .ok text => (scan "memlock".toList (linesOf text), t + 1)

/-! ## All loaded programs and maps -/

/-- `ENOENT`. -/
def enoent : Nat := 2

/-- One `next` of `iter_obj_ids` (`/repo/aya/src/sys/bpf.rs:1467-1506`): the item, the calls made and the new `current_id`. -/
def idStep (next : Nat → Nat → Except Nat Nat) (t : Nat) : Option Nat → Option (Except Nat Nat) × Nat × Option Nat
  | none => (none, t, none)
  | some cur =>
    match next t cur with
    | .ok id => (some (.ok id), t + 1, some id)
    | .error e => if e = enoent then (none, t + 1, none) else (some (.error e), t + 1, none)

/-- One `next` of `loaded_programs` (`/repo/aya/src/programs/info.rs:287-298`). -/
def progStep (k : Kernel) (t : Nat) (cur : Option Nat) : Option (Res ProgRec) × Nat × Option Nat :=
  match idStep k.nextProgId t cur with
  | (none, t, cur) => (none, t, cur)
  | (some (.error e), t, cur) => (some (.err e), t, cur)
  | (some (.ok id), t, cur) =>
    match k.progFd t id with
    | .error e => (some (.err e), t + 1, cur)
    | .ok fd =>
      let (r, t) := progFromFd k (t + 1) fd
      (some r, t, cur)

/-- A loop over `loaded_programs()`, at most `fuel` items: the items, and the time it ended or `none` if it has not. -/
def progsAll (k : Kernel) : Nat → Nat → Option Nat → List (Res ProgRec) × Option Nat
  | 0, _, _ => ([], none)
  | fuel + 1, t, cur =>
    match progStep k t cur with
    | (none, t, _) => ([], some t)
    | (some item, t, cur) =>
      let (items, e) := progsAll k fuel t cur
      (item :: items, e)

/-- `MapInfo::new_from_fd` (`/repo/aya/src/maps/info.rs:28-31`). -/
def mapFromFd (k : Kernel) (t : Nat) (fd : Fd) : Res MapRec × Nat :=
  match k.mapInfo t fd with
  | .ok r => (.ok r, t + 1)
  | .error e => (.err e, t + 1)

/-- `MapInfo::from_id` (`/repo/aya/src/maps/info.rs:36-39`). -/
def mapFromId (k : Kernel) (t : Nat) (id : Nat) : Res MapRec × Nat :=
  match k.mapFd t id with
  | .error e => (.err e, t + 1)
  | .ok fd => mapFromFd k (t + 1) fd

/-- `MapInfo::from_pin` (`/repo/aya/src/maps/info.rs:117-128`). -/
def mapFromPin (k : Kernel) (t : Nat) (path : List UInt8) : Res MapRec × Nat :=
  if path.contains 0 then (.panic, t)
  else
    match k.pinned t path with
    | .error e => (.err e, t + 1)
    | .ok fd => mapFromFd k (t + 1) fd

/-- `map_type` (`/repo/aya/src/maps/info.rs:44-48`, `352-400`, `/repo/aya-obj/src/maps.rs:5-57`): the types are the numbers 0 to 33.
    The error carries a number. -/
def mapType (r : MapRec) : Except Nat Nat := if r.type < 34 then .ok r.type else .error 34

/-- One `next` of `loaded_maps` (`/repo/aya/src/maps/info.rs:157-162`). -/
def mapStep (k : Kernel) (t : Nat) (cur : Option Nat) : Option (Res MapRec) × Nat × Option Nat :=
  match idStep k.nextMapId t cur with
  | (none, t, cur) => (none, t, cur)
  | (some (.error e), t, cur) => (some (.err e), t, cur)
  | (some (.ok id), t, cur) =>
    let (r, t) := mapFromId k t id
    (some r, t, cur)

/-- A loop over `loaded_maps()`. -/
def mapsAll (k : Kernel) : Nat → Nat → Option Nat → List (Res MapRec) × Option Nat
  | 0, _, _ => ([], none)
  | fuel + 1, t, cur =>
    match mapStep k t cur with
    | (none, t, _) => ([], some t)
    | (some item, t, cur) =>
      let (items, e) := mapsAll k fuel t cur
      (item :: items, e)

/-! ## Histories -/

/-- The calls whose answers depend on the caches. -/
inductive Op where
  | mapIds (r : ProgRec)
  | gpl (r : ProgRec)

/-- Their answers. -/
inductive Ans where
  | mapIds (a : Res (Option (List Nat)))
  | gpl (a : Option Bool)
deriving DecidableEq, Repr

/-- One call. -/
def opStep (k : Kernel) (t : Nat) (c : Caches) : Op → Ans × Nat × Caches
  | .mapIds r => let (a, t, c) := mapIds k t c r; (.mapIds a, t, c)
  | .gpl r => let (a, t, c) := gplCompatible k t c r; (.gpl a, t, c)

/-- A sequence of calls by one process. -/
def opsAll (k : Kernel) : Nat → Caches → List Op → List Ans
  | _, _, [] => []
  | t, c, o :: os => let (a, t, c) := opStep k t c o; a :: opsAll k t c os

end Verif.Info
