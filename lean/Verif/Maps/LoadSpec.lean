import Verif.Maps.LoadModel
import Verif.Maps.Spec

/-!
# Specification of map creation

What loading an object is meant to do with its maps, in terms of the system calls a kernel observer sees.
Only the interface types of the model are used.
-/
namespace Verif.Maps.Spec
open Verif.Maps

/-- The kernel map types that take no BTF type ids for keys and values: perf event array, cgroup array,
    stack trace, array of maps, hash of maps, device map (both), CPU map, AF_XDP map, socket map, socket
    hash, queue, stack and ring buffer. -/
def untyped : List Nat := [4, 8, 7, 12, 13, 14, 25, 16, 17, 15, 18, 22, 23, 27]

/-- The creation `a` asks for a map `name` defined by `d`, but with `entries` entries and values of `value`
    bytes, with the inner map `inner` (0: none). -/
structure Asks (env : LoadEnv) (name : Bytes) (d : MapDef) (entries value inner : Nat) (a : CreateAttr) :
    Prop where
  mapType : a.mapType = d.mapType
  keySize : a.keySize = d.keySize
  valueSize : a.valueSize = value
  maxEntries : a.maxEntries = entries
  flags : a.flags = d.flags
  extra : a.extra = if d.btf.isSome then d.extra else 0
  innerFd : a.innerFd = inner
  legacy : d.btf = none → a.btfKey = 0 ∧ a.btfValue = 0 ∧ a.btfFd = 0
  typed : ∀ key value, d.btf = some (key, value) → d.mapType ∉ untyped →
    a.btfKey = (if d.mapType = 30 then 0 else key) ∧ a.btfValue = value ∧ a.btfFd = env.btfFd.getD 0
  notTyped : d.mapType ∈ untyped → a.btfKey = 0 ∧ a.btfValue = 0 ∧ a.btfFd = 0
  name : a.name = if env.named then name.take 15 else []

/-- The number of entries a map of the object gets: what the user asked for, else what the object says. A
    ring buffer's is turned into a legal size (C31), a perf event array gets at most one entry per CPU. -/
def entriesFor (env : LoadEnv) (name : Bytes) (d : MapDef) : Nat :=
  let want := (env.userEntries.lookup name).getD d.maxEntries
  if d.mapType = 27 then adjustToPageSize want env.pageSize
  else if d.mapType = 4 then
    (if want = 0 ∨ want > env.nrCpus.getD 0 then env.nrCpus.getD 0 else want)
  else want

/-- The same for a map that is not created but reused from a pin: no limit for perf event arrays. -/
def entriesReused (env : LoadEnv) (name : Bytes) (d : MapDef) : Nat :=
  let want := (env.userEntries.lookup name).getD d.maxEntries
  if d.mapType = 27 then adjustToPageSize want env.pageSize
  else if d.mapType = 4 ∧ want = 0 then env.nrCpus.getD 0
  else want

/-- The number of entries an inner map gets. -/
def entriesInner (env : LoadEnv) (d : MapDef) : Nat :=
  if d.mapType = 4 ∧ (d.maxEntries = 0 ∨ d.maxEntries > env.nrCpus.getD 0) then env.nrCpus.getD 0
  else d.maxEntries

/-- The value size a map of the object gets: CPU and device maps hold a program besides the target where
    the kernel supports it, ring buffers have no values. -/
def valueFor (env : LoadEnv) (d : MapDef) : Nat :=
  if d.mapType = 16 then (if env.cpuProgId then 8 else 4)
  else if d.mapType = 14 ∨ d.mapType = 25 then (if env.devProgId then 8 else 4)
  else if d.mapType = 27 then 0
  else d.valueSize

/-- Where a map is to be pinned: at the path the user gave for it, else, if the object says so, under its name
    in the pin directory, by default `/sys/fs/bpf`. -/
def pinPath (env : LoadEnv) (name : Bytes) (d : MapDef) : Option Bytes :=
  match env.pinPaths.lookup name with
  | some p => some p
  | none =>
      if d.pinByName then
        some (if name.head? = some 0x2f then name
          else
            let dir := env.pinDir.getD "/sys/fs/bpf".toUTF8.toList
            if dir = [] ∨ dir.getLast? = some 0x2f then dir ++ name else dir ++ "/".toUTF8.toList ++ name)
      else none

/-- All calls of `seg`, made after `h`, were answered successfully, apart from looking for a pin. -/
def Answered (k : Kernel) (h seg : Hist) : Prop :=
  ∀ (i : Nat) c, seg[i]? = some c → (∃ p, c = .objGet p) ∨ ∃ o, k (h ++ seg.take i) c = .ok o

/-- The calls `seg`, made after `h`, create or open map `name` of the object and hand out `m`. -/
inductive Made (k : Kernel) (env : LoadEnv) (name : Bytes) (obj : MapObj) (h : Hist) : Hist → MapData → Prop
  /-- The pin exists: it is opened, nothing is created. -/
  | reused (path : Bytes) (o : Out) (m : MapData)
      (pinned : pinPath env name obj.def_ = some path)
      (found : k h (.objGet path) = .ok o)
      (fd : m.fd = o.num)
      (key : m.keySize = obj.def_.keySize)
      (value : m.valueSize = valueFor env obj.def_)
      (entries : m.maxEntries = entriesReused env name obj.def_) :
      Made k env name obj h (.objGet path :: initCalls m.fd obj.data (obj.kind = .rodata)) m
  /-- There is no pin: the inner map of a map of maps is created, then the map, which is then pinned if it
      should be, and only then filled. -/
  | created (pre inner pin : Hist) (innerFd : Nat) (a : CreateAttr) (o : Out) (m : MapData)
      (look : pre = ((pinPath env name obj.def_).toList.map Call.objGet))
      (missing : ∀ path, pinPath env name obj.def_ = some path → ∃ e, k h (.objGet path) = .error e)
      (innerMap :
        (obj.def_.mapType ≠ 12 ∧ obj.def_.mapType ≠ 13 ∧ inner = [] ∧ innerFd = 0) ∨
        ((obj.def_.mapType = 12 ∨ obj.def_.mapType = 13) ∧ ∃ d ai oi,
          obj.inner = some d ∧
          Asks env (name ++ ".inner".toUTF8.toList) d (entriesInner env d) d.valueSize 0 ai ∧
          inner = [.create ai] ∧ k (h ++ pre) (.create ai) = .ok oi ∧ innerFd = oi.num))
      (asks : Asks env name obj.def_ (entriesFor env name obj.def_) (valueFor env obj.def_) innerFd a)
      (reply : k (h ++ pre ++ inner) (.create a) = .ok o)
      (fd : m.fd = o.num)
      (key : m.keySize = a.keySize)
      (value : m.valueSize = a.valueSize)
      (entries : m.maxEntries = a.maxEntries)
      (pins : pin = (pinPath env name obj.def_).toList.map (Call.objPin m.fd)) :
      Made k env name obj h
        (pre ++ inner ++ [.create a] ++ pin ++ initCalls m.fd obj.data (obj.kind = .rodata)) m

/-- The maps `ms` are made one after the other, by the calls between `h` and `h'`, all of which succeed. -/
inductive MadeAll (k : Kernel) (env : LoadEnv) :
    List (Bytes × MapObj) → Hist → List (Bytes × MapData) → Hist → Prop
  | done (h : Hist) : MadeAll k env [] h [] h
  | step (name : Bytes) (obj : MapObj) (rest : List (Bytes × MapObj)) (h seg h' : Hist) (m : MapData)
      (ms : List (Bytes × MapData))
      (made : Made k env name obj h seg m) (ok : Answered k h seg)
      (more : MadeAll k env rest (h ++ seg) ms h') :
      MadeAll k env ((name, obj) :: rest) h ((name, m) :: ms) h'

/-- The maps to create: all but those of global data on kernels that do not support it. -/
def wanted (env : LoadEnv) (maps : List (Bytes × MapObj)) : List (Bytes × MapObj) :=
  maps.filter (fun m => m.2.kind = .other ∨ env.globalData)

/-- Maps of maps. -/
def holdsMaps (m : Bytes × MapObj) : Bool := m.2.def_.mapType = 12 ∨ m.2.def_.mapType = 13

/-- What the kernel knows about the maps behind descriptors, as the calls go on: the key size, the value size
    and the number of entries. A created map has the sizes asked for, and asking for them tells them. -/
structure KnowsSizes (k : Kernel) (sizes : Hist → Nat → Option (Nat × Nat × Nat)) : Prop where
  created : ∀ h a o, k h (.create a) = .ok o →
    sizes (h ++ [.create a]) o.num = some (a.keySize, a.valueSize, a.maxEntries)
  told : ∀ h fd o, k h (.info fd) = .ok o → sizes h fd = some o.sizes
  /-- No call but a creation or opening returning that very descriptor changes what a descriptor is. -/
  kept : ∀ h c fd, (∀ o, k h c = .ok o → o.num ≠ fd ∨ (∀ a, c ≠ .create a) ∧ (∀ p, c ≠ .objGet p) ∧
      (∀ i, c ≠ .mapFdById i)) → sizes (h ++ [c]) fd = sizes h fd

end Verif.Maps.Spec
