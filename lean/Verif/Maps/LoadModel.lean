import Verif.Maps.Model

/-!
# Model of map creation when an object is loaded (`/repo/aya/src/bpf.rs:574-671`,
`/repo/aya/src/maps/mod.rs:812-973`)

The maps come as a list of names and definitions: the code drains a `HashMap`, whose order is arbitrary, so
theorems hold for every list.  Closing descriptors is not modelled.
-/
namespace Verif.Maps

/-- `BtfMapDef`, `bpf_map_def` (`/repo/aya-obj/src/maps.rs:61-73,114-132`); `btf` holds the key and value type
    ids of a map declared through BTF. -/
structure MapDef where
  mapType : Nat
  keySize : Nat
  valueSize : Nat
  maxEntries : Nat
  flags : Nat := 0
  extra : Nat := 0
  pinByName : Bool := false
  btf : Option (Nat × Nat) := none
deriving DecidableEq, Repr

/-- `EbpfSectionKind` (`/repo/aya-obj/src/obj.rs`), as far as the loader looks at it. -/
inductive DataKind where
  | bss
  | data
  | rodata
  | other
deriving DecidableEq, Repr

/-- `Map` (`/repo/aya-obj/src/maps.rs:139-145`) with its inner definition and initial contents. -/
structure MapObj where
  def_ : MapDef
  inner : Option MapDef := none
  kind : DataKind := .other
  data : Bytes := []
deriving DecidableEq, Repr

/-- What the loader knows besides the object: the settings of `EbpfLoader` and the probed machine. -/
structure LoadEnv where
  nrCpus : Option Nat
  pageSize : Nat
  cpuProgId : Bool
  devProgId : Bool
  globalData : Bool
  named : Bool
  btfFd : Option Nat
  userEntries : List (Bytes × Nat)
  pinPaths : List (Bytes × Bytes)
  pinDir : Option Bytes

/-- Errors of loading maps (`EbpfError`, `MapError`). -/
inductive LoadError where
  | invalidType (ty : Nat)
  | missingInner (name : Bytes)
  | invalidName (name : Bytes)
  | invalidPinPath (path : Bytes)
  | cpus
  | create (name : Bytes) (errno : Nat)
  | pin (name : Bytes) (errno : Nat)
  | map (e : MapError)
deriving DecidableEq, Repr

/-- `bpf_map_type::try_from` (`/repo/aya-obj/src/maps.rs:5-58`): the known map types. -/
def validType (ty : Nat) : Bool := ty ≤ 33

/-- `is_map_of_maps` (`/repo/aya/src/bpf.rs:574-579`): array of maps, hash of maps. -/
def isMapOfMaps (ty : Nat) : Bool := ty == 12 || ty == 13

/-- Map types created without BTF ids (`/repo/aya/src/sys/bpf.rs:81-101`). -/
def noBtf (ty : Nat) : Bool :=
  ty == 4 || ty == 8 || ty == 7 || ty == 12 || ty == 13 || ty == 14 || ty == 25 || ty == 16 || ty == 17
    || ty == 15 || ty == 18 || ty == 22 || ty == 23 || ty == 27

/-- `bpf_create_map` (`/repo/aya/src/sys/bpf.rs:54-126`): the attributes. The name is cut to 15 bytes and
    left out on kernels before 4.15. -/
def createAttr (env : LoadEnv) (name : Bytes) (d : MapDef) (innerFd : Option Nat) : CreateAttr :=
  let btf : Nat × Nat × Nat :=
    match d.btf with
    | none => (0, 0, 0)
    | some (kid, vid) =>
        if noBtf d.mapType then (0, 0, 0)
        else if d.mapType = 30 then (0, vid, env.btfFd.getD 0)
        else (kid, vid, env.btfFd.getD 0)
  { mapType := d.mapType, keySize := d.keySize, valueSize := d.valueSize, maxEntries := d.maxEntries
    flags := d.flags, extra := if d.btf.isSome then d.extra else 0, innerFd := innerFd.getD 0
    btfKey := btf.1, btfValue := btf.2.1, btfFd := btf.2.2
    name := if env.named then name.take 15 else [] }

/-- `MapData::create_with_inner_map_fd` (`/repo/aya/src/maps/mod.rs:823-860`). -/
def createMap (k : Kernel) (env : LoadEnv) (d : MapDef) (name : Bytes) (innerFd : Option Nat) (h : Hist) :
    Except LoadError MapData × Hist :=
  if name.contains 0 then (.error (.invalidName name), h)
  else
    let d' : Option MapDef :=
      if d.mapType = PERF_EVENT_ARRAY then
        match env.nrCpus with
        | none => none
        | some n => some (if d.maxEntries = 0 ∨ d.maxEntries > n then { d with maxEntries := n } else d)
      else some d
    match d' with
    | none => (.error .cpus, h)
    | some d =>
        match sys k (.create (createAttr env name d innerFd)) h with
        | (.ok o, h) => (.ok ⟨o.num, d.keySize, d.valueSize, d.maxEntries⟩, h)
        | (.error e, h) => (.error (.create name e), h)

/-- The name of the inner map: `format!("{name}.inner")` (`/repo/aya/src/bpf.rs:650`,
    `/repo/aya/src/maps/mod.rs:892`). -/
def innerName (name : Bytes) : Bytes := name ++ [0x2e, 0x69, 0x6e, 0x6e, 0x65, 0x72]

/-- Create the inner map, if any, then the map (`/repo/aya/src/bpf.rs:646-656`,
    `/repo/aya/src/maps/mod.rs:890-897`). -/
def createWithInner (k : Kernel) (env : LoadEnv) (d : MapDef) (name : Bytes) (inner : Option MapDef)
    (h : Hist) : Except LoadError MapData × Hist :=
  match inner with
  | none => createMap k env d name none h
  | some i =>
      match createMap k env i (innerName name) none h with
      | (.error e, h) => (.error e, h)
      | (.ok m, h) => createMap k env d name (some m.fd) h

/-- `MapData::create_pinned_by_name` (`/repo/aya/src/maps/mod.rs:862-905`). -/
def createPinned (k : Kernel) (env : LoadEnv) (path : Bytes) (d : MapDef) (name : Bytes)
    (inner : Option MapDef) (h : Hist) : Except LoadError MapData × Hist :=
  if path.contains 0 then (.error (.invalidPinPath path), h)
  else
    match sys k (.objGet path) h with
    | (.ok o, h) => (.ok ⟨o.num, d.keySize, d.valueSize, d.maxEntries⟩, h)
    | (.error _, h) =>
        match createWithInner k env d name inner h with
        | (.error e, h) => (.error e, h)
        | (.ok m, h) =>
            match sys k (.objPin m.fd path) h with
            | (.ok _, h) => (.ok m, h)
            | (.error e, h) => (.error (.pin name e), h)

/-- `Path::join` of the pin directory and the map name (`/repo/aya/src/bpf.rs:663`): an absolute second path
    replaces the first. -/
def joinPath (dir name : Bytes) : Bytes :=
  if name.head? = some 0x2f then name
  else if dir.isEmpty ∨ dir.getLast? = some 0x2f then dir ++ name
  else dir ++ [0x2f] ++ name

/-- `"/sys/fs/bpf"`. -/
def bpffs : Bytes := [0x2f, 0x73, 0x79, 0x73, 0x2f, 0x66, 0x73, 0x2f, 0x62, 0x70, 0x66]

/-- `set_max_entries`, when there is an override (`/repo/aya-obj/src/maps.rs:185-190`). -/
def setEntries (d : MapDef) (n : Option Nat) : MapDef := { d with maxEntries := n.getD d.maxEntries }

/-- `set_value_size`, when there is an override (`/repo/aya-obj/src/maps.rs:169-174`). -/
def setValueSize (d : MapDef) (n : Option Nat) : MapDef := { d with valueSize := n.getD d.valueSize }

/-- The definition after the overrides (`/repo/aya/src/bpf.rs:610-628`). `none`: the CPUs could not be
    counted. -/
def overridden (env : LoadEnv) (name : Bytes) (d : MapDef) : Option MapDef :=
  match maxEntriesOverride d.mapType (env.userEntries.lookup name) d.maxEntries env.nrCpus env.pageSize with
  | none => none
  | some me =>
      some (setValueSize (setEntries d me) (valueSizeOverride d.mapType env.cpuProgId env.devProgId))

/-- Create or open the map: at the user's pin path, by name, or unpinned (`/repo/aya/src/bpf.rs:642-668`). -/
def openMap (k : Kernel) (env : LoadEnv) (d : MapDef) (name : Bytes) (inner : Option MapDef) (h : Hist) :
    Except LoadError MapData × Hist :=
  match env.pinPaths.lookup name with
  | some path => createPinned k env path d name inner h
  | none =>
      if d.pinByName then createPinned k env (joinPath (env.pinDir.getD bpffs) name) d name inner h
      else createWithInner k env d name inner h

/-- One turn of the map creation loop (`/repo/aya/src/bpf.rs:605-671`). -/
def loadMap (k : Kernel) (env : LoadEnv) (name : Bytes) (obj : MapObj) (h : Hist) :
    Except LoadError MapData × Hist :=
  match overridden env name obj.def_ with
  | none => (.error .cpus, h)
  | some d =>
      if isMapOfMaps d.mapType ∧ obj.inner.isNone then (.error (.missingInner name), h)
      else
        match openMap k env d name (if isMapOfMaps d.mapType then obj.inner else none) h with
        | (.error e, h) => (.error e, h)
        | (.ok m, h) =>
            match finalize k m.fd obj.data (obj.kind = .rodata) h with
            | (.error e, h) => (.error (.map e), h)
            | (.ok (), h) => (.ok m, h)

/-- Maps of global data sections are skipped when the kernel has no support for them
    (`/repo/aya/src/bpf.rs:587-593`). -/
def skipped (env : LoadEnv) (obj : MapObj) : Bool := obj.kind != .other && !env.globalData

/-- The split into ordinary maps and maps of maps (`/repo/aya/src/bpf.rs:583-600`); the error is an unknown
    map type. -/
def partitionMaps (env : LoadEnv) : List (Bytes × MapObj) →
    Except LoadError (List (Bytes × MapObj) × List (Bytes × MapObj))
  | [] => .ok ([], [])
  | (name, obj) :: rest =>
      if skipped env obj then partitionMaps env rest
      else if !validType obj.def_.mapType then .error (.invalidType obj.def_.mapType)
      else
        match partitionMaps env rest with
        | .error e => .error e
        | .ok (a, b) =>
            if isMapOfMaps obj.def_.mapType then .ok (a, (name, obj) :: b) else .ok ((name, obj) :: a, b)

/-- The loop itself (`/repo/aya/src/bpf.rs:602-671`). -/
def loadEach (k : Kernel) (env : LoadEnv) : List (Bytes × MapObj) → Hist →
    Except LoadError (List (Bytes × MapData)) × Hist
  | [], h => (.ok [], h)
  | (name, obj) :: rest, h =>
      match loadMap k env name obj h with
      | (.error e, h) => (.error e, h)
      | (.ok m, h) =>
          match loadEach k env rest h with
          | (.error e, h) => (.error e, h)
          | (.ok ms, h) => (.ok ((name, m) :: ms), h)

/-- Creation of all maps of an object (`/repo/aya/src/bpf.rs:574-671`). -/
def loadMaps (k : Kernel) (env : LoadEnv) (maps : List (Bytes × MapObj)) (h : Hist) :
    Except LoadError (List (Bytes × MapData)) × Hist :=
  match partitionMaps env maps with
  | .error e => (.error e, h)
  | .ok (a, b) => loadEach k env (a ++ b) h

/-- `MapData::from_fd_inner` (`/repo/aya/src/maps/mod.rs:955-961`, `parse_map_info` at
    `/repo/aya-obj/src/obj.rs:1372-1412`): the sizes are asked from the kernel. -/
def fromFd (k : Kernel) (fd : Nat) (h : Hist) : Except LoadError MapData × Hist :=
  match sys k (.info fd) h with
  | (.ok o, h) => (.ok ⟨fd, o.sizes.1, o.sizes.2.1, o.sizes.2.2⟩, h)
  | (.error e, h) => (.error (.map (.syscall "bpf_map_get_info_by_fd" e)), h)

/-- `MapData::from_pin` (`/repo/aya/src/maps/mod.rs:929-947`). -/
def fromPin (k : Kernel) (path : Bytes) (h : Hist) : Except LoadError MapData × Hist :=
  if path.contains 0 then (.error (.invalidPinPath path), h)
  else
    match sys k (.objGet path) h with
    | (.ok o, h) => fromFd k o.num h
    | (.error e, h) => (.error (.map (.syscall "BPF_OBJ_GET" e)), h)

/-- `MapData::from_id` (`/repo/aya/src/maps/mod.rs:950-953`). -/
def fromId (k : Kernel) (id : Nat) (h : Hist) : Except LoadError MapData × Hist :=
  match sys k (.mapFdById id) h with
  | (.ok o, h) => fromFd k o.num h
  | (.error e, h) => (.error (.map (.syscall "bpf_map_get_fd_by_id" e)), h)

end Verif.Maps
