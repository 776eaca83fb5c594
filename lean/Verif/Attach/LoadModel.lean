import Verif.Ext.Model
import Verif.Maps.Retry
import Verif.Btf.Model
import Verif.Common.Insn
/-!
# Loading a program

Model of `load_program` (`/repo/aya/src/programs/mod.rs:705-793`), `bpf_load_program`
(`/repo/aya/src/sys/bpf.rs:163-223`), `unload_program` (`programs/mod.rs:656-663`), of `load` and `attach` of extensions
(`/repo/aya/src/programs/extension.rs:79-197`) and of tracing programs (`fentry.rs:62-66`, `fexit.rs:75-79`,
`iter.rs:68-73`, `lsm.rs:66-71`, `lsm_cgroup.rs:71-76`, `tp_btf.rs:64-69`), and of the `license` and `version`
sections (`/repo/aya-obj/src/obj.rs:411-426`, `1098-1132`). Type, attach type and flags of each kind of program are in
`Verif.Section.ProgramSection.load`.
-/
namespace Verif.Attach.Load
open Verif.Bytes
open Verif.Bpf (Insn)

/-- `aya_obj::Program` and `aya_obj::Function` after relocation, as far as `load_program` uses them. The license is a
C string without its terminator. -/
structure Obj where
  license : List UInt8
  kernelVersion : Option Nat
  insns : List Insn
  funcInfo : List Linker.FuncInfo
  funcRec : Nat
  lineInfo : List Linker.LineInfo
  lineRec : Nat
deriving DecidableEq

/-- `ProgramData` (`programs/mod.rs:546-562`) without links and path. -/
structure Data where
  name : Option (List UInt8)
  obj : Option Obj
  fd : Option Nat
  attachBtfObjFd : Option Nat
  attachBtfId : Option Nat
  attachProgFd : Option Nat
  btfFd : Option Nat
  logLevel : Nat
  flags : Nat
deriving DecidableEq

/-- What `BPF_PROG_LOAD` is given, with buffers instead of pointers. `attachFd` is the field shared by
`attach_btf_obj_fd` and `attach_prog_fd`. -/
structure Request where
  name : List UInt8
  flags : Nat
  progType : Nat
  attachType : Nat
  insns : List Insn
  insnCnt : Nat
  license : List UInt8
  version : Nat
  btfFd : Nat
  lineInfo : Option Ext.Given
  funcInfo : Option Ext.Given
  /-- log level and size of the buffer -/
  log : Option (Nat × Nat)
  attachFd : Nat
  attachBtfId : Nat
deriving DecidableEq

/-- Errors. -/
inductive Err where
  | alreadyLoaded
  | notLoaded
  | invalidName
  | load (errno : Nat) (log : List UInt8)
  | syscall (errno : Nat)
  | noBtf
  | btf (e : Btf.Fail)
  | detach (errno : Nat)
  | panicked
deriving DecidableEq

/-- The name field: 16 bytes, the last one zero (`bpf.rs:172-177`). -/
def nameField : Option (List UInt8) → List UInt8
  | none => List.replicate 16 0
  | some n => n.take (min n.length 15) ++ List.replicate (16 - min n.length 15) 0

/-- `bpf_load_program` up to the call (`bpf.rs:168-221`). `current` is the version of the running kernel
(`mod.rs:743-744`). -/
def request (current progType : Nat) (attachType : Option Nat) (d : Data) (o : Obj) (logBuf : List UInt8) : Request where
  name := nameField d.name
  flags := d.flags
  progType := progType
  attachType := attachType.getD 0
  insns := o.insns
  insnCnt := o.insns.length % 4294967296
  license := o.license
  version := o.kernelVersion.getD current
  btfFd := d.btfFd.getD 0
  lineInfo := if d.btfFd.isSome then Ext.giveLines o.lineRec o.lineInfo else none
  funcInfo := if d.btfFd.isSome then Ext.giveFuncs o.funcRec o.funcInfo else none
  log := if logBuf.isEmpty then none else some (d.logLevel, logBuf.length)
  attachFd := match d.attachProgFd with
    | some f => f
    | none => d.attachBtfObjFd.getD 0
  attachBtfId := d.attachBtfId.getD 0

/-- The kernel, including the retry with a raised limit: what it answers and leaves in the log buffer, depending on the
attempts before. -/
abbrev Kern := List (Retry.Attempt Nat) → Request → List UInt8 → Except Nat Nat × List UInt8

/-- What becomes of the program (`mod.rs:783-792`). -/
def outcome (d : Data) (r : Retry.End Nat) (reqs : List Request) : Except Err Unit × Data × List Request :=
  match r with
  | .panicked => (.error .panicked, d, reqs)
  | .done (.ok fd) _ => (.ok (), { d with fd := some fd }, reqs)
  | .done (.error e) log => (.error (.load e log), d, reqs)

/-- `load_program` (`mod.rs:705-793`). The requests made are returned as well. -/
def loadProgram (utf8 : List UInt8 → Bool) (kern : Kern) (current progType : Nat) (attachType : Option Nat) (d : Data) :
    Except Err Unit × Data × List Request :=
  if d.fd.isSome then (.error .alreadyLoaded, d, [])
  else
    match d.obj with
    | none => (.error .alreadyLoaded, d, [])
    | some o =>
      if (d.name.getD []).contains 0 then (.error .invalidName, d, [])
      else
        let r := Retry.retryWithVerifierLogs utf8 10
          (fun acc buf => kern acc (request current progType attachType d o buf) buf)
        let reqs := r.2.map (fun a => request current progType attachType d o a.given)
        outcome d r.1 reqs

/-- `unload_program` (`mod.rs:656-663`); `links` is the result of detaching all links. -/
def unloadProgram (links : Except Nat Unit) (d : Data) : Except Err Unit × Data :=
  match links with
  | .error e => (.error (.detach e), d)
  | .ok () =>
    match d.fd with
    | none => (.error .notLoaded, d)
    | some _ => (.ok (), { d with fd := none })

/-- The tracing programs: name of the type looked up, its kind, type and attach type of the program (files listed
above). -/
inductive Tracing where
  | fentry | fexit | iter | lsm | lsmCgroup | btfTracePoint
deriving DecidableEq, Repr

def Tracing.prefix : Tracing → List UInt8
  | .fentry | .fexit => []
  | .iter => "bpf_iter_".toUTF8.toList
  | .lsm | .lsmCgroup => "bpf_lsm_".toUTF8.toList
  | .btfTracePoint => "btf_trace_".toUTF8.toList

def Tracing.kind : Tracing → Nat
  | .btfTracePoint => 8
  | _ => 12

def Tracing.type : Tracing → Nat × Nat
  | .fentry => (26, 24)
  | .fexit => (26, 25)
  | .iter => (26, 28)
  | .lsm => (29, 27)
  | .lsmCgroup => (29, 43)
  | .btfTracePoint => (26, 23)

/-- `load` of a tracing program. -/
def Tracing.load (t : Tracing) (utf8 : List UInt8 → Bool) (kern : Kern) (current : Nat) (name : List UInt8)
    (btf : Btf.Btf) (d : Data) : Except Err Unit × Data × List Request :=
  match btf.idByTypeNameKind (t.prefix ++ name) t.kind with
  | .error e => (.error (.btf e), d, [])
  | .ok id => loadProgram utf8 kern current t.type.1 (some t.type.2) { d with attachBtfId := some id }

/-! ### Extensions -/

/-- What is asked about the program to extend: its BTF id, a descriptor for a BTF id, and `BPF_OBJ_GET_INFO_BY_FD` on it
with a buffer, giving the buffer afterwards and the size of the BTF. -/
structure Info where
  btfId : Nat → Except Nat Nat
  btfFd : Nat → Except Nat Nat
  btf : Nat → List UInt8 → Except Nat (List UInt8 × Nat)

/-- The loop that reads the BTF (`extension.rs:177-188`); `none` if it does not end within the given number of rounds. -/
def readBtf (info : List UInt8 → Except Nat (List UInt8 × Nat)) : Nat → List UInt8 → Option (Except Nat (List UInt8))
  | 0, _ => none
  | n + 1, buf =>
    match info buf with
    | .error e => some (.error e)
    | .ok (buf', size) =>
      if size > buf'.length then readBtf info n (buf' ++ List.replicate (size - buf'.length) 0)
      else some (.ok (buf'.take size))

/-- `get_btf_info` (`extension.rs:159-198`), in at most `rounds` rounds of the loop. -/
def getBtfInfo (I : Info) (rounds prog : Nat) (func : List UInt8) : Except Err (Nat × Nat) :=
  match I.btfId prog with
  | .error e => .error (.syscall e)
  | .ok id =>
    if id = 0 then .error .noBtf
    else
      match I.btfFd id with
      | .error e => .error (.syscall e)
      | .ok fd =>
        match readBtf (I.btf fd) rounds (List.replicate 4096 0) with
        | none => .error .panicked
        | some (.error e) => .error (.syscall e)
        | some (.ok bytes) =>
          match Btf.Btf.parse bytes with
          | .error e => .error (.btf e)
          | .ok b =>
            match b.idByTypeNameKind func 12 with
            | .error e => .error (.btf e)
            | .ok id => .ok (fd, id)

/-- `Extension::load` (`extension.rs:79-87`). -/
def extLoad (utf8 : List UInt8 → Bool) (kern : Kern) (current : Nat) (I : Info) (rounds prog : Nat) (func : List UInt8)
    (d : Data) : Except Err Unit × Data × List Request :=
  match getBtfInfo I rounds prog func with
  | .error e => (.error e, d, [])
  | .ok (fd, id) =>
    loadProgram utf8 kern current 28 none
      { d with attachBtfObjFd := some fd, attachProgFd := some prog, attachBtfId := some id }

/-- The link asked for: extension, program, attach type, flags, id of the function in the program's BTF. -/
structure ExtLink where
  ext : Nat
  prog : Nat
  attachType : Nat
  flags : Nat
  func : Nat
deriving DecidableEq, Repr

/-- `Extension::attach` up to the call (`extension.rs:96-114`). -/
def extAttach (d : Data) : Except Err ExtLink :=
  match d.fd with
  | none => .error .notLoaded
  | some f =>
    match d.attachProgFd with
    | none => .error .notLoaded
    | some p =>
      match d.attachBtfId with
      | none => .error .notLoaded
      | some id => .ok ⟨f, p, 0, 0, id⟩

/-- `Extension::attach_to_program` up to the call (`extension.rs:134-152`). -/
def extAttachTo (I : Info) (rounds prog : Nat) (func : List UInt8) (d : Data) : Except Err ExtLink :=
  match getBtfInfo I rounds prog func with
  | .error e => .error e
  | .ok (_, id) =>
    match d.fd with
    | none => .error .notLoaded
    | some f => .ok ⟨f, prog, 0, 0, id⟩

/-! ### License and version -/

inductive ParseErr where
  | invalidLicense
  | missingLicenseTerminator
  | invalidKernelVersion
deriving DecidableEq, Repr

/-- `parse_license` (`obj.rs:1098-1114`), and `"GPL"` without a section (`414-418`). `CStr::from_bytes_with_nul`: the
first zero byte must be the last byte. -/
def license : Option (List UInt8) → Except ParseErr (List UInt8)
  | none => .ok "GPL".toUTF8.toList
  | some data =>
    if data.length < 2 then .error .invalidLicense
    else
      match data.findIdx? (· == 0) with
      | none => .error .missingLicenseTerminator
      | some i => if i + 1 = data.length then .ok (data.take i) else .error .invalidLicense

/-- `parse_version` (`obj.rs:1116-1132`), and `None` without a section (`420-424`). -/
def version (bigEndian : Bool) : Option (List UInt8) → Except ParseErr (Option Nat)
  | none => .ok none
  | some data =>
    if data.length ≠ 4 then .error .invalidKernelVersion
    else
      let v := ofLe (if bigEndian then data.reverse else data)
      .ok (if v = 0xFFFFFFFE then none else some v)

end Verif.Attach.Load
