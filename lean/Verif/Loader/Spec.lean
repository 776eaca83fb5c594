import Verif.Loader.Model
import Verif.Maps.LoadSpec
import Verif.Pipe.Spec
/-!
# What loading an object must do
-/
namespace Verif.Loader.Spec
open Verif.Loader
open Verif.Section (ProgramSection)

/-- Programs of this kind are loaded as tracing (26), extension (28) or LSM (29) programs, which the kernel only takes
together with BTF. -/
def RequiresBtf (k : ProgramSection) : Prop := k.load.progType = 26 ∨ k.load.progType = 28 ∨ k.load.progType = 29

/-- The object has no use without its BTF being loaded: it is relocated by it, or has a program that requires it. -/
def Required {β : Type} (o : Object β) : Prop :=
  o.hasRelocations = true ∨ ∃ name p, (name, p) ∈ o.programs ∧ RequiresBtf p.sect

/-- The BTF of the object is prepared, and loaded as `fd`, or there is none, or the kernel refuses it and it is not
required. -/
inductive OwnBtf {β : Type} (s : Setup) (o : Object β) : Option Nat → Prop
  | absent (h : o.btf = some none) : OwnBtf s o none
  | loaded (bytes fd) (h : o.btf = some (some bytes)) (hl : s.loadBtf bytes = .ok fd) : OwnBtf s o (some fd)
  | refused (bytes e) (h : o.btf = some (some bytes)) (hl : s.loadBtf bytes = .error e) (hn : ¬ Required o) : OwnBtf s o none

/-- Types of the running kernel are needed to load the object. -/
def Needs {β : Type} (o : Object β) : Prop := o.hasRelocations = true ∨ o.hasTypedKsyms = true

/-- It cannot be loaded without. -/
def Essential {β : Type} (o : Object β) : Prop := o.hasRelocations = true ∨ o.hasStrongTypedKsyms = true

/-- What is read to get the types of the running kernel: the file in sysfs, or what the user's callback returns. -/
inductive Reads {β : Type} (bigEndian : Bool) : Target β → Fetch → Prop
  | system : Reads bigEndian .system .sysFs
  | source : Reads bigEndian .source (.callback bigEndian)

/-- The types `x` the object is resolved against, what the loader holds afterwards, and what is read. -/
inductive Against {β : Type} (P : Provider β) (o : Object β) (t : Target β) (reads : List Fetch) :
    Option β → Target β → List Fetch → Prop
  | unneeded (h : ¬ Needs o) : Against P o t reads none t []
  | known (b) (h : Needs o) (ht : t = .parsed b) : Against P o t reads (some b) t []
  | read (f b) (h : Needs o) (hf : Reads o.bigEndian t f) (hp : P reads f = .ok b) :
      Against P o t reads (some b) (.parsed b) [f]
  | missing (f e) (h : Needs o) (hf : Reads o.bigEndian t f) (hp : P reads f = .error e) (hn : ¬ Essential o) :
      Against P o t reads none t [f]

/-- A program handed out, for the program `p` of the object whose code is `f`. -/
structure Handed {β : Type} (s : Setup) (o : Object β) (btfFd : Option Nat) (name : Bytes) (p : Prog) (f : Linker.Func)
    (q : Program) : Prop where
  kind : q.kind = if name ∈ s.extensions then .extension else p.sect
  flags : q.data.flags = q.kind.load.flags
  name : q.data.name = if s.progNames then some name else none
  log : q.data.logLevel = s.logLevel
  btf : q.data.btfFd = btfFd
  code : ∃ ob, q.data.obj = some ob ∧ ob.insns = f.insns ∧ ob.license = p.license ∧ ob.kernelVersion = p.kernelVersion ∧
    ob.funcInfo = f.funcInfo ∧ ob.lineInfo = f.lineInfo ∧ ob.funcRec = o.funcRec ∧ ob.lineRec = o.lineRec
  notLoaded : q.data.fd = none
  noTarget : q.data.attachProgFd = none ∧ q.data.attachBtfObjFd = none ∧ q.data.attachBtfId = none

/-- The kinds of maps, in the order of the kernel's map types. 0 is unspecified; 26 (struct ops), 29 (task
storage), 31 (user ring buffer) and 33 (arena) are not supported by the library. -/
def variants : List (Option Variant) :=
  [none, some .hashMap, some .array, some .programArray, some .perfEventArray, some .perCpuHashMap, some .perCpuArray,
   some .stackTrace, some .cgroupArray, some .lruHashMap, some .perCpuLruHashMap, some .lpmTrie, some .arrayOfMaps,
   some .hashOfMaps, some .devMap, some .sockMap, some .cpuMap, some .xskMap, some .sockHash, some .cgroupStorage,
   some .reusePortSockArray, some .perCpuCgroupStorage, some .queue, some .stack, some .skStorage, some .devMapHash,
   none, some .ringBuf, some .inodeStorage, none, some .bloomFilter, none, some .cgrpStorage, none]

/-- The variant for a type, `unsupported` if there is none. -/
def variantOf (ty : Nat) : Variant := ((variants[ty]?).join).getD .unsupported

/-- The entry of the map named `name` in the references given to the relocation: the descriptor of the map handed out
under that name, section and symbol of the object's map, and whether it holds data of the object. -/
def RefOf {β : Type} (o : Object β) (eb : Ebpf) (r : Reloc.MapRef) : Prop :=
  ∃ name m e, (name, m) ∈ eb.maps ∧ (name, e) ∈ o.maps ∧ r.fd = (m.data.fd : Int) ∧ r.sectionIndex = e.sectionIndex ∧
    r.symbolIndex = e.symbolIndex ∧ (r.hasData = true ↔ e.map.data ≠ [])

end Verif.Loader.Spec
