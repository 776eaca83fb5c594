import Verif.Features.Model

/-!
# What kernels answer

A `Machine` is a kernel and what the process may do on it. Its answers follow the order of the checks of Linux: fields that the
kernel does not have (7, `E2BIG`), types it does not have (22, `EINVAL`), sizes and flags the type does not take (22), rights (1,
`EPERM`), and then what depends on the state of the machine. Error numbers are written as numbers here.
-/
namespace Verif.Features

/-- The kinds of BTF that came one after the other. -/
inductive Kind where
  | func | globalFunc | data | emptyData | float | declTag | typeTag | enum64
deriving DecidableEq, Repr

structure Machine where
  /-- Map types, by number. -/
  map : Nat → Bool
  /-- Program types, by number. -/
  prog : Nat → Bool
  /-- LSM programs of cgroups. -/
  cgroupLsm : Bool
  /-- Programs that are called from functions of the kernel can be attached. -/
  trampolines : Bool
  /-- Functions programs of the type may call. -/
  helper : Nat → Nat → Bool
  /-- What is written about a program that consists of a call of the function, and whether the program is accepted. -/
  callLog : Nat → Nat → List UInt8
  callAccepted : Nat → Nat → Bool
  /-- Fields of the attributes. -/
  fieldBtf : Bool
  fieldVmlinux : Bool
  fieldAttach : Bool
  fieldAttachBtf : Bool
  fieldName : Bool
  perfLink : Bool
  globalData : Bool
  /-- Values of CPU and device maps may have a program. -/
  progId : Nat → Bool
  btf : Bool
  kind : Kind → Bool
  /-- Ids of functions in the kernel's own BTF, if there is one. -/
  function : String → Nat
  pageSize : Nat
  /-- The version code; whether programs for kprobes must give it; and what the process believes it is. -/
  code : Nat
  checksCode : Bool
  believed : Nat
  /-- Rights, for each attribute. -/
  mayCreate : MapAttr → Bool
  mayLoad : ProgAttr → Bool
  mayLoadBtf : Bool
  /-- Anything else that goes wrong: lack of memory, descriptors, signals and so on. -/
  mapFault : MapAttr → Option Nat
  progFault : ProgAttr → Option Nat
  linkFault : Option Nat
  btfFault : Option Nat
  dataFault : Option Nat

/-- A power of two. -/
def isPow2 (n : Nat) : Prop := ∃ i, n = 2 ^ i

/-- What the type of a map takes, in Linux: sizes of key and value, entries, flags, and types of key and value. Hash tables (1, 5,
    9, 10), arrays (2, 6), arrays of programs, events and cgroups (3, 4, 8), stack traces (7), tries (11), maps of maps (12, 13),
    device, socket, CPU and AF_XDP maps (14–18, 20, 25), storage of cgroups (19, 21), queues, stacks, filters (22, 23, 30), storage of
    sockets, inodes, tasks, cgroups (24, 28, 29, 32), operations (26), ring buffers (27, 31), arenas (33). -/
def fits (m : Machine) (a : MapAttr) : Prop :=
  match a.type with
  | 1 | 5 | 9 | 10 => 0 < a.key ∧ 0 < a.value ∧ 0 < a.max
  | 2 | 6 => a.key = 4 ∧ 0 < a.value ∧ 0 < a.max
  | 3 | 4 | 8 => a.key = 4 ∧ a.value = 4 ∧ 0 < a.max
  | 7 => a.key = 4 ∧ 8 ≤ a.value ∧ a.value % 8 = 0 ∧ 0 < a.max
  | 11 => a.flags = 1 ∧ 5 ≤ a.key ∧ a.key ≤ 260 ∧ 0 < a.value ∧ 0 < a.max
  | 12 => a.key = 4 ∧ a.value = 4 ∧ 0 < a.max ∧ a.inner ≠ none
  | 13 => 0 < a.key ∧ a.value = 4 ∧ 0 < a.max ∧ a.inner ≠ none
  | 14 | 16 | 25 => a.key = 4 ∧ (a.value = 4 ∨ a.value = 8 ∧ m.progId a.type = true) ∧ 0 < a.max
  | 15 | 20 => a.key = 4 ∧ (a.value = 4 ∨ a.value = 8) ∧ 0 < a.max
  | 17 => a.key = 4 ∧ a.value = 4 ∧ 0 < a.max
  | 18 => 0 < a.key ∧ (a.value = 4 ∨ a.value = 8) ∧ 0 < a.max
  | 19 | 21 => a.key = 16 ∧ 0 < a.value ∧ a.max = 0
  | 22 | 23 | 30 => a.key = 0 ∧ 0 < a.value ∧ 0 < a.max
  | 24 | 28 | 29 | 32 => a.flags = 1 ∧ a.key = 4 ∧ 0 < a.value ∧ a.max = 0 ∧ a.btfKey ≠ 0 ∧ a.btfValue ≠ 0
  | 26 => a.key = 4 ∧ a.max = 1 ∧ a.vmlinuxValue ≠ 0 ∧ a.btfKey = 0 ∧ a.btfValue = 0
  | 27 | 31 => a.key = 0 ∧ a.value = 0 ∧ isPow2 a.max ∧ a.max % m.pageSize = 0
  | 33 => a.flags = 1024 ∧ a.key = 0 ∧ a.value = 0 ∧ 0 < a.max
  | _ => False

/-- Flags, an inner map and the kernel's types are for the types that have them. -/
def plain (a : MapAttr) : Prop :=
  (a.flags ≠ 0 → a.type ∈ [11, 24, 28, 29, 32, 33]) ∧ (a.inner ≠ none → a.type = 12 ∨ a.type = 13) ∧
  (a.vmlinuxValue ≠ 0 → a.type = 26)

open Classical in
/-- `BPF_MAP_CREATE`. The descriptor of the BTF is looked up last (9, `EBADF`); the descriptors used by the probes are not of BTF. -/
noncomputable def Machine.create (m : Machine) (a : MapAttr) : Except Nat Nat :=
  if (a.btfFd ≠ 0 ∨ a.btfKey ≠ 0 ∨ a.btfValue ≠ 0) ∧ m.fieldBtf = false then .error 7
  else if a.vmlinuxValue ≠ 0 ∧ m.fieldVmlinux = false then .error 7
  else if m.map a.type = false ∨ ¬ fits m a ∨ ¬ plain a then .error 22
  else if m.mayCreate a = false then .error 1
  else match m.mapFault a with
    | some e => .error e
    | none =>
      if a.type = 26 then .error 524
      else if a.btfKey ≠ 0 ∨ a.btfValue ≠ 0 then .error 9
      else .ok 40

/-- Attach types that the type of the program takes when it is loaded. -/
def attaches (type attach : Nat) : Prop :=
  match type with
  | 8 => attach = 0 ∨ attach = 1
  | 9 => attach = 0 ∨ attach = 2
  | 18 => attach ∈ [8, 9, 10, 11, 12, 13, 14, 15, 19, 20]
  | 21 => attach = 0 ∨ attach = 39 ∨ attach = 40
  | 25 => attach = 21 ∨ attach = 22
  | 28 | 31 => attach = 0
  | 30 => attach = 36
  | 32 => attach = 45
  | _ => True

/-- What the verifier writes for programs that must say what they are for. -/
def mustProvide : List UInt8 := "Tracing programs must provide btf_id\nprocessed 0 insns".toUTF8.toList

/-- Text in a buffer of the size, filled with zeroes. -/
def inBuffer (n : Nat) (text : List UInt8) : List UInt8 := text ++ List.replicate (n - text.length) 0

/-- The verifier refuses a program and says why: in the buffer, if there is one; when the text with a zero at its end does not fit,
    the error is another one (28, `ENOSPC`). -/
def refusal (n : Nat) (text : List UInt8) : Except Nat Nat × List UInt8 :=
  if n = 0 then (.error 22, [])
  else if text.length < n then (.error 22, inBuffer n text)
  else (.error 28, text.take (n - 1) ++ [0])

open Classical in
/-- `BPF_PROG_LOAD`: fields, type, attach type and version, rights, faults, and then the verifier. -/
noncomputable def Machine.load (m : Machine) (a : ProgAttr) : Except Nat Nat × List UInt8 :=
  let silent := List.replicate a.log 0
  if a.attachType ≠ 0 ∧ m.fieldAttach = false ∨ a.attachBtfId ≠ 0 ∧ m.fieldAttachBtf = false ∨ a.named = true ∧ m.fieldName = false
  then (.error 7, silent)
  else if m.prog a.type = false ∨ ¬ attaches a.type a.attachType then (.error 22, silent)
  else if a.attachBtfId ≠ 0 ∧ ¬ a.type ∈ [26, 27, 28, 29] then (.error 22, silent)
  else if a.type = 2 ∧ m.checksCode = true ∧ a.kernVersion ≠ m.code then (.error 22, silent)
  else if m.mayLoad a = false then (.error 1, silent)
  else match m.progFault a with
    | some e => (.error e, silent)
    | none =>
      if a.type = 31 ∧ a.sleepable = false ∨ a.sleepable = true ∧ a.type ∉ [26, 29, 31] then (.error 22, silent)
      else if a.type = 27 then (.error 524, silent)
      else if a.type ∈ [26, 28, 29] ∧ a.attachBtfId = 0 then refusal a.log mustProvide
      else if a.type = 29 ∧ a.attachType = 43 ∧ m.cgroupLsm = false then (.error 22, silent)
      else match a.code with
        | .trivial => (.ok 41, silent)
        | .call h =>
          if m.helper a.type h = true ∧ m.callAccepted a.type h = true then (.ok 41, silent)
          else refusal a.log (m.callLog a.type h)

/-- The kinds of a piece of BTF. -/
def kindOf : BtfItem → Option Kind
  | .func false => some .func
  | .func true => some .globalFunc
  | .var => some .data
  | .datasec 0 => some .emptyData
  | .datasec _ => some .data
  | .float => some .float
  | .declTag => some .declTag
  | .typeTag => some .typeTag
  | .enum64 => some .enum64
  | _ => none

open Classical in
/-- The machine as the functions the process calls. -/
noncomputable def Machine.kernel (m : Machine) : Kernel where
  create := m.create
  load := m.load
  tracing _ :=
    match m.linkFault with
    | some e => .error e
    | none => if m.trampolines then .ok () else .error 524
  perfLink _ :=
    match m.linkFault with
    | some e => .error e
    | none => if m.perfLink then .error 9 else .error 22
  btf items :=
    if m.btf = false then .error 22
    else if m.mayLoadBtf = false then .error 1
    else match m.btfFault with
      | some e => .error e
      | none => if ∀ i ∈ items, ∀ k, kindOf i = some k → m.kind k = true then .ok () else .error 22
  globalData _ :=
    match m.dataFault with
    | some e => .error e
    | none => if m.globalData then .ok () else .error 22
  pageSize := m.pageSize
  version := m.believed
  btfId := m.function

/-- The phrase is in the text. -/
def Says (text : List UInt8) (phrase : String) : Prop := ∃ a b, text = a ++ phrase.toUTF8.toList ++ b

/-- Error numbers other than those that are answers. -/
def OtherError (e : Nat) : Prop := e ≠ 22 ∧ e ≠ 7 ∧ e ≠ 9 ∧ e ≠ 524

/-- Error numbers other than those that are answers about the type of map. -/
def OtherMapError (type e : Nat) : Prop :=
  e ≠ 22 ∧ e ≠ 7 ∧ (e = 9 → type ∉ [24, 28, 29, 32]) ∧ (e = 524 → type ≠ 26)

/-- What holds of kernels: every one has hash tables and arrays; types that came later than a field come with the field; later kinds
    of BTF come with the earlier ones they refer to; what the verifier writes about a function; pages; and the version is known
    where it is asked for. -/
structure Machine.Good (m : Machine) : Prop where
  hash : m.map 1 = true ∧ m.map 2 = true
  socketFilter : m.prog 1 = true
  storage : ∀ t ∈ [24, 28, 29, 32], m.map t = true → m.fieldBtf = true
  ops : m.map 26 = true → m.fieldVmlinux = true
  attach : ∀ t ∈ [16, 18, 20, 21, 22, 23, 25, 26, 29, 30, 32], m.prog t = true → m.fieldAttach = true
  attachBtf : ∀ t ∈ [26, 29], m.prog t = true → m.fieldAttachBtf = true
  cgroupLsm : m.cgroupLsm = true → m.prog 29 = true
  declTag : m.kind .declTag = true → m.kind .data = true
  refused : ∀ t h, m.prog t = true → m.helper t h = false →
    Says (m.callLog t h) "invalid func " ∨ Says (m.callLog t h) "unknown func " ∨
    Says (m.callLog t h) "program of this type cannot use helper "
  accepted : ∀ t h, m.helper t h = true → m.callLog t h ≠ [] ∧ ¬ Says (m.callLog t h) "invalid func " ∧
    ¬ Says (m.callLog t h) "unknown func " ∧ ¬ Says (m.callLog t h) "program of this type cannot use helper "
  text : ∀ t h, 0 ∉ m.callLog t h ∧ (m.callLog t h).length < 4096
  page : isPow2 m.pageSize
  code : m.checksCode = true → m.believed = m.code
  faults : (∀ a e, m.mapFault a = some e → OtherMapError a.type e) ∧ (∀ a e, m.progFault a = some e → OtherError e) ∧
    (∀ e, m.linkFault = some e → OtherError e) ∧ (∀ e, m.btfFault = some e → OtherError e) ∧
    (∀ e, m.dataFault = some e → OtherError e)

/-- The process may do everything and nothing goes wrong. -/
structure Machine.Willing (m : Machine) : Prop where
  create : ∀ a, m.mayCreate a = true ∧ m.mapFault a = none
  load : ∀ a, m.mayLoad a = true ∧ m.progFault a = none
  btf : m.mayLoadBtf = true ∧ m.btfFault = none
  link : m.linkFault = none
  data : m.dataFault = none

/-- A reason for which there is no answer: a right that is missing or something that goes wrong. -/
def Machine.Hindrance (m : Machine) (e : Nat) : Prop :=
  (e = 1 ∧ ((∃ a, m.mayCreate a = false) ∨ (∃ a, m.mayLoad a = false) ∨ m.mayLoadBtf = false)) ∨
  (∃ a, m.mapFault a = some e) ∨ (∃ a, m.progFault a = some e) ∨ m.linkFault = some e ∨ m.btfFault = some e ∨ m.dataFault = some e

/-- The kernel describes the functions that the probes of programs ask for. -/
def Machine.Described (m : Machine) : Prop :=
  (m.prog 26 = true → m.function "bpf_fentry_test1" ≠ 0) ∧ (m.prog 29 = true → m.function "bpf_lsm_bpf" ≠ 0)

/-- Programs of the type can be loaded and, if they are called from the kernel's functions, attached. -/
def Machine.runs (m : Machine) (p : ProgType) : Bool :=
  match p with
  | .plain 26 => m.prog 26 && m.trampolines
  | .lsmMac => m.prog 29 && m.trampolines
  | .lsmCgroup => m.prog 29 && m.cgroupLsm
  | .plain n => n != 0 && n != 29 && m.prog n

/-- The types there are: numbers 1 to 32 without the one of LSM programs, which has two variants. -/
def ProgType.exists : ProgType → Prop
  | .plain n => n ≤ 32 ∧ n ≠ 29
  | _ => True

/-- What each feature means. -/
def Machine.provides (m : Machine) : Feature → Bool
  | .name => m.fieldName
  | .probeReadKernel => m.prog 5 && m.helper 5 113
  | .perfLink => m.prog 5 && m.perfLink
  | .globalData => m.globalData
  | .cookie => m.prog 2 && m.helper 2 174
  | .cpuMapProgId => m.map 16 && m.progId 16
  | .devMapProgId => m.map 14 && m.progId 14
  | .btf => m.btf
  | .btfFeature .func => m.btf && m.kind .func
  | .btfFeature .funcGlobal => m.btf && m.kind .globalFunc
  | .btfFeature .dataSec => m.btf && m.kind .data
  | .btfFeature .dataSecZero => m.btf && m.kind .emptyData
  | .btfFeature .float => m.btf && m.kind .float
  | .btfFeature .declTag => m.btf && m.kind .declTag
  | .btfFeature .typeTag => m.btf && m.kind .typeTag
  | .btfFeature .enum64 => m.btf && m.kind .enum64

/-- Locking memory for a map or a program: refused with the given number above the limit. -/
def charge (refusal : Nat) (n : Nat) (p : Proc) : Except Nat Unit × Proc :=
  match p.soft with
  | none => (.ok (), { p with locked := p.locked + n })
  | some l => if p.locked + n ≤ l then (.ok (), { p with locked := p.locked + n }) else (.error refusal, p)

end Verif.Features
