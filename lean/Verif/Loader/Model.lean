import Verif.Attach.LoadModel
import Verif.Maps.LoadModel
import Verif.Pipe.Model
import Verif.Section.Model
/-!
# Loading an object

Model of `EbpfLoader::load` (`/repo/aya/src/bpf.rs:450-886`) after `Object::parse` and `patch_map_data`, and of `parse_map`
(`889-941`). The stages that create maps and change code are those of `Verif.Maps.loadMaps` and `Verif.Pipe.code`. Reading
the target BTF, CO-RE relocation, resolving externs and preparing the object's own BTF are functions given with the object
and the machine. Hash maps are lists in the order in which they are iterated.
-/
namespace Verif.Loader
open Verif.Section (ProgramSection)

abbrev Bytes := List UInt8

/-- `TargetBtf` (`bpf.rs:91-96`). -/
inductive Target (β : Type) where
  | system
  | parsed (b : β)
  | source
deriving DecidableEq, Repr

/-- A read of the target BTF: `Btf::from_sys_fs`, or the user's callback with a parser for the byte order. -/
inductive Fetch where
  | sysFs
  | callback (bigEndian : Bool)
deriving DecidableEq, Repr

/-- What a read gives, depending on the reads before. -/
abbrev Provider (β : Type) := List Fetch → Fetch → Except Nat β

/-- `EbpfError` as far as it arises here. -/
inductive Err where
  /-- preparing the object's BTF failed -/
  | fixup
  /-- the kernel refused the object's BTF -/
  | btf (errno : Nat)
  /-- reading the target BTF failed -/
  | target (errno : Nat)
  /-- CO-RE relocation or resolving externs failed -/
  | resolve
  | maps (e : Maps.LoadError)
  | code (e : Pipe.Err)
  | unsupported (name : Bytes) (mapType : Nat)
  /-- indexing `functions` with the key of a program that is not there -/
  | panicked
deriving DecidableEq

/-- A program of the object (`Program`, `/repo/aya-obj/src/obj.rs:69-80`). -/
structure Prog where
  sect : ProgramSection
  license : Bytes
  kernelVersion : Option Nat
  key : Nat × Nat
deriving DecidableEq

/-- A map of the object: definition, section index, symbol index. -/
structure MapEntry where
  map : Maps.MapObj
  sectionIndex : Nat
  symbolIndex : Option Nat
deriving DecidableEq

/-- `Object` (`/repo/aya-obj/src/obj.rs:40-65`) with the functions standing for the stages that are not modelled here.
`btf` is `fixup_and_sanitize_btf` and `to_bytes` (`none`: failure; `some none`: no BTF), `resolve` is `relocate_btf` and
`resolve_externs`: it gives functions, relocations, symbols and externs. -/
structure Object (β : Type) where
  programs : List (Bytes × Prog)
  maps : List (Bytes × MapEntry)
  bigEndian : Bool
  hasRelocations : Bool
  hasTypedKsyms : Bool
  hasStrongTypedKsyms : Bool
  btf : Option (Option Bytes)
  resolve : Option β → Option Pipe.Object
  /-- sizes of function and line records -/
  funcRec : Nat
  lineRec : Nat

/-- The settings of the loader (`bpf.rs:75-89`), without the target BTF, and the probed machine. `env.btfFd` is replaced. -/
structure Setup where
  env : Maps.LoadEnv
  extensions : List Bytes
  logLevel : Nat
  allowUnsupported : Bool
  /-- `Feature::BpfName` -/
  progNames : Bool
  /-- `Feature::BpfProbeReadKernel` -/
  probeReadKernel : Bool
  /-- `BPF_BTF_LOAD` with its retries -/
  loadBtf : Bytes → Except Nat Nat

/-- Programs for which missing BTF is an error (`bpf.rs:473-513`). -/
def needsBtf : ProgramSection → Bool
  | .extension | .fEntry _ | .fExit _ | .lsm _ | .lsmCgroup | .btfTracePoint | .iter _ => true
  | _ => false

/-- Loading the object's BTF (`bpf.rs:464-530`). -/
def objectBtf {β : Type} (s : Setup) (o : Object β) : Except Err (Option Nat) :=
  match o.btf with
  | none => .error .fixup
  | some none => .ok none
  | some (some bytes) =>
    match s.loadBtf bytes with
    | .ok fd => .ok (some fd)
    | .error e =>
      if o.programs.any (fun p => needsBtf p.2.sect) then .error (.btf e)
      else if o.hasRelocations then .error (.btf e)
      else .ok none

/-- `bpf.rs:534-540`: the target BTF and the reads so far. -/
def targetBtf {β : Type} (P : Provider β) (t : Target β) (bigEndian : Bool) (h : List Fetch) :
    Except Nat β × List Fetch :=
  match t with
  | .system => (P h .sysFs, h ++ [.sysFs])
  | .parsed b => (.ok b, h)
  | .source => (P h (.callback bigEndian), h ++ [.callback bigEndian])

/-- `?` on the result of relocating and resolving. -/
def orResolve {α : Type} : Option α → Except Err α
  | some a => .ok a
  | none => .error .resolve

/-- Relocating against the target BTF (`bpf.rs:532-572`), with the target BTF kept by the loader. -/
def relocateBtf {β : Type} (P : Provider β) (o : Object β) (t : Target β) (h : List Fetch) :
    Except Err Pipe.Object × Target β × List Fetch :=
  if o.hasRelocations || o.hasTypedKsyms then
    match targetBtf P t o.bigEndian h with
    | (.ok b, h) => (orResolve (o.resolve (some b)), .parsed b, h)
    | (.error e, h) =>
      if o.hasRelocations || o.hasStrongTypedKsyms then (.error (.target e), t, h)
      else (orResolve (o.resolve none), t, h)
  else (orResolve (o.resolve none), t, h)

/-- `HashMap::get`. -/
def find {α : Type} (m : List (Bytes × α)) (name : Bytes) : Option α := (m.find? (fun p => p.1 == name)).map Prod.snd

/-- What `relocate_maps` is told (`bpf.rs:679-683`): `MapData` carries the definition it was created from, here it is looked
up by name. -/
def refs (objs : List (Bytes × MapEntry)) (ms : List (Bytes × Maps.MapData)) : List Reloc.MapRef :=
  ms.filterMap fun m => (find objs m.1).map fun o =>
    ⟨(m.2.fd : Int), o.sectionIndex, o.symbolIndex, !o.map.data.isEmpty⟩

/-- A program handed to the user: its kind, which is the section it was built from, or `extension`. -/
structure Program where
  kind : ProgramSection
  data : Attach.Load.Data
deriving DecidableEq

/-- `data.flags` (`bpf.rs:720-722`, `736-738`, `760-762`, `816-818`, `830-832`, `838-840`, `870-872`). -/
def flags : ProgramSection → Nat
  | .uProbe true _ | .uRetProbe true _ | .lsm true | .fEntry true | .fExit true | .iter true => 16
  | .xdp true _ => 32
  | _ => 0

/-- The program built from a program of the object (`bpf.rs:693-878`). -/
def buildProgram {β : Type} (s : Setup) (o : Object β) (btfFd : Option Nat) (name : Bytes) (p : Prog)
    (f : Linker.Func) : Program :=
  let data : Attach.Load.Data :=
    { name := if s.progNames then some name else none
      obj := some ⟨p.license, p.kernelVersion, f.insns, f.funcInfo, o.funcRec, f.lineInfo, o.lineRec⟩
      fd := none, attachBtfObjFd := none, attachBtfId := none, attachProgFd := none
      btfFd := btfFd, logLevel := s.logLevel, flags := 0 }
  if s.extensions.contains name then ⟨.extension, data⟩
  else ⟨p.sect, { data with flags := flags p.sect }⟩

/-- The programs of the object, each with its function (`bpf.rs:690-879`). -/
def buildPrograms {β : Type} (s : Setup) (o : Object β) (btfFd : Option Nat) (fs : List ((Nat × Nat) × Linker.Func)) :
    List (Bytes × Prog) → Except Err (List (Bytes × Program))
  | [] => .ok []
  | (name, p) :: rest =>
    match Pipe.get fs p.key with
    | none => .error .panicked
    | some f =>
      match buildPrograms s o btfFd fs rest with
      | .error e => .error e
      | .ok ps => .ok ((name, buildProgram s o btfFd name p f) :: ps)

/-- `Map` (`/repo/aya/src/maps/mod.rs:306-367`). -/
inductive Variant where
  | array | arrayOfMaps | bloomFilter | cgroupArray | cgroupStorage | cgrpStorage | cpuMap | devMap | devMapHash
  | hashMap | hashOfMaps | inodeStorage | lpmTrie | lruHashMap | perCpuArray | perCpuCgroupStorage | perCpuHashMap
  | perCpuLruHashMap | perfEventArray | programArray | queue | reusePortSockArray | ringBuf | sockHash | sockMap
  | skStorage | stack | stackTrace | unsupported | xskMap
deriving DecidableEq, Repr

/-- `parse_map` (`bpf.rs:889-941`), by the number of the type
(`/repo/aya-obj/src/generated/linux_bindings_x86_64.rs:502-538`). `none`: not supported. -/
def parseMap : Nat → Option Variant
  | 2 => some .array
  | 6 => some .perCpuArray
  | 3 => some .programArray
  | 8 => some .cgroupArray
  | 19 => some .cgroupStorage
  | 21 => some .perCpuCgroupStorage
  | 1 => some .hashMap
  | 9 => some .lruHashMap
  | 5 => some .perCpuHashMap
  | 10 => some .perCpuLruHashMap
  | 4 => some .perfEventArray
  | 20 => some .reusePortSockArray
  | 27 => some .ringBuf
  | 18 => some .sockHash
  | 15 => some .sockMap
  | 30 => some .bloomFilter
  | 11 => some .lpmTrie
  | 23 => some .stack
  | 7 => some .stackTrace
  | 22 => some .queue
  | 16 => some .cpuMap
  | 14 => some .devMap
  | 25 => some .devMapHash
  | 17 => some .xskMap
  | 24 => some .skStorage
  | 28 => some .inodeStorage
  | 32 => some .cgrpStorage
  | 12 => some .arrayOfMaps
  | 13 => some .hashOfMaps
  | _ => none

/-- A map handed to the user. -/
structure Map where
  variant : Variant
  data : Maps.MapData
deriving DecidableEq

/-- `parse_map` with its last arm (`bpf.rs:927-937`). `none`: an error. -/
def variantFor (allow : Bool) (ty : Nat) : Option Variant :=
  match parseMap ty with
  | some v => some v
  | none => if allow then some .unsupported else none

/-- The maps handed out (`bpf.rs:880-883`). The entry of a map is looked up by name. -/
def buildMaps (allow : Bool) (objs : List (Bytes × MapEntry)) :
    List (Bytes × Maps.MapData) → Except Err (List (Bytes × Map))
  | [] => .ok []
  | (name, m) :: rest =>
    match find objs name with
    | none => .error .panicked
    | some o =>
      match variantFor allow o.map.def_.mapType with
      | none => .error (.unsupported name o.map.def_.mapType)
      | some v =>
        match buildMaps allow objs rest with
        | .error e => .error e
        | .ok ms => .ok ((name, ⟨v, m⟩) :: ms)

/-- `Ebpf` (`bpf.rs:1088-1091`). -/
structure Ebpf where
  maps : List (Bytes × Map)
  programs : List (Bytes × Program)
deriving DecidableEq

/-- The stages after the target BTF (`bpf.rs:574-886`). -/
def finish {β : Type} (k : Maps.Kernel) (s : Setup) (o : Object β) (btfFd : Option Nat) (po : Pipe.Object) (h : Maps.Hist) :
    Except Err Ebpf × Maps.Hist :=
  match Maps.loadMaps k { s.env with btfFd := btfFd } (o.maps.map (fun m => (m.1, m.2.map))) h with
  | (.error e, h) => (.error (.maps e), h)
  | (.ok ms, h) =>
    match Pipe.code (refs o.maps ms) s.probeReadKernel { po with programs := o.programs.map (fun p => p.2.key) } with
    | .error e => (.error (.code e), h)
    | .ok fs =>
      match buildPrograms s o btfFd fs o.programs with
      | .error e => (.error e, h)
      | .ok ps =>
        match buildMaps s.allowUnsupported o.maps ms with
        | .error e => (.error e, h)
        | .ok maps => (.ok ⟨maps, ps⟩, h)

/-- `EbpfLoader::load` (`bpf.rs:450-886`). -/
def load {β : Type} (P : Provider β) (k : Maps.Kernel) (s : Setup) (o : Object β) (t : Target β) (reads : List Fetch)
    (h : Maps.Hist) : Except Err Ebpf × Target β × List Fetch × Maps.Hist :=
  match objectBtf s o with
  | .error e => (.error e, t, reads, h)
  | .ok btfFd =>
    match relocateBtf P o t reads with
    | (.error e, t, reads) => (.error e, t, reads, h)
    | (.ok po, t, reads) =>
      match finish k s o btfFd po h with
      | (r, h) => (r, t, reads, h)

/-- A loader used for several objects, one after the other; the settings may change in between. -/
def loads {β : Type} (P : Provider β) (k : Maps.Kernel) : List (Setup × Object β) → Target β → List Fetch → Maps.Hist →
    List (Except Err Ebpf) × Target β × List Fetch × Maps.Hist
  | [], t, reads, h => ([], t, reads, h)
  | (s, o) :: rest, t, reads, h =>
    match load P k s o t reads h with
    | (r, t, reads, h) =>
      match loads P k rest t reads h with
      | (rs, t, reads, h) => (r :: rs, t, reads, h)

end Verif.Loader
