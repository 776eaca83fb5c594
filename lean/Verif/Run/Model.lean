import Verif.Run.Mem
import Verif.Common.Bytes
/-!
# Running a program with test data

Model of `TestRun::test_run` for the programs that have it (`/repo/aya/src/programs/mod.rs:638-657`, `938-1181`) and of
the calls (`/repo/aya/src/sys/bpf.rs:684-797`). The kernel reads and writes the memory of the process at the addresses it is
given; it is a function from the attributes and the memory.
-/
namespace Verif.Run

/-- A slice: address and number of bytes. -/
structure Slice where
  addr : Nat
  len : Nat
deriving DecidableEq, Repr

/-- `bpf_attr.test` (`/repo/aya-obj/src/generated/linux_bindings_x86_64.rs:842-858`). -/
structure Attr where
  progFd : Nat := 0
  retval : Nat := 0
  dataSizeIn : Nat := 0
  dataSizeOut : Nat := 0
  dataIn : Nat := 0
  dataOut : Nat := 0
  repeats : Nat := 0
  duration : Nat := 0
  ctxSizeIn : Nat := 0
  ctxSizeOut : Nat := 0
  ctxIn : Nat := 0
  ctxOut : Nat := 0
  flags : Nat := 0
  cpu : Nat := 0
  batchSize : Nat := 0
deriving DecidableEq, Repr

/-- `TestRunAttrs` (`mod.rs:943-946`). -/
structure Attrs where
  batchSize : Nat := 0
  flags : Nat := 0
deriving DecidableEq, Repr

/-- `TestRunAttrs::xdp_live_frames` (`mod.rs:961-966`); the flag is `BPF_F_TEST_XDP_LIVE_FRAMES`. -/
def Attrs.xdpLiveFrames (a : Attrs) (batchSize : Nat) : Attrs := { batchSize, flags := a.flags ||| 2 }

/-- `TestRunOptions` and its default (`mod.rs:980-1013`). -/
structure Options where
  dataIn : Option Slice := none
  dataOut : Option Slice := none
  ctxIn : Option Slice := none
  ctxOut : Option Slice := none
  repeats : Nat := 1
  attrs : Attrs := {}
deriving DecidableEq, Repr

/-- `TestRunResult` (`mod.rs:1059-1068`). -/
structure Result where
  returnValue : Nat
  duration : Nat
  dataSizeOut : Nat
  ctxSizeOut : Nat
deriving DecidableEq, Repr

inductive Err where
  | notLoaded
  | syscall (errno : Nat)
deriving DecidableEq, Repr

/-- `BPF_PROG_TEST_RUN`: the attributes as the kernel leaves them, and the memory. -/
abbrev Sys := Attr → Mem → Except Nat Attr × Mem

/-- A length as `u32`. -/
def u32 (n : Nat) : Nat := n % 4294967296

/-- `invoke_prog_test_run` (`sys/bpf.rs:684-690`). -/
def invoke (sys : Sys) (a : Attr) (m : Mem) : Except Err Attr × Mem :=
  match sys a m with
  | (.error e, m) => (.error (.syscall e), m)
  | (.ok a, m) => (.ok a, m)

/-- The attributes (`sys/bpf.rs:699-734`). -/
def attr (fd : Nat) (o : Options) : Attr :=
  let a : Attr := { progFd := fd, repeats := o.repeats, flags := o.attrs.flags, batchSize := o.attrs.batchSize }
  let a := match o.dataIn with
    | some s => { a with dataIn := s.addr, dataSizeIn := u32 s.len }
    | none => a
  let a := match o.dataOut with
    | some s => { a with dataOut := s.addr, dataSizeOut := u32 s.len }
    | none => a
  let a := match o.ctxIn with
    | some s => { a with ctxIn := s.addr, ctxSizeIn := u32 s.len }
    | none => a
  match o.ctxOut with
    | some s => { a with ctxOut := s.addr, ctxSizeOut := u32 s.len }
    | none => a

/-- `test_run`, `bpf_prog_test_run` (`mod.rs:638-644`, `sys/bpf.rs:695-744`). -/
def testRun (sys : Sys) (fd : Option Nat) (o : Options) (m : Mem) : Except Err Result × Mem :=
  match fd with
  | none => (.error .notLoaded, m)
  | some fd =>
    match invoke sys (attr fd o) m with
    | (.error e, m) => (.error e, m)
    | (.ok a, m) => (.ok ⟨a.retval, a.duration, a.dataSizeOut, a.ctxSizeOut⟩, m)

/-- `test_run_raw_tp`, `bpf_prog_test_run_raw_tp` (`mod.rs:646-652`, `sys/bpf.rs:757-781`). The twelve arguments are an
array on the stack, at `stack`. -/
def testRunRawTp (sys : Sys) (stack : Nat) (fd : Option Nat) (args : List UInt64) (cpu : Option Nat) (m : Mem) :
    Except Err Nat × Mem :=
  match fd with
  | none => (.error .notLoaded, m)
  | some fd =>
    let m := write m stack (args.flatMap (fun x => Bytes.le 8 x.toNat))
    let a : Attr := { progFd := fd, ctxIn := stack, ctxSizeIn := args.length * 8 }
    let a := match cpu with
      | some c => { a with cpu := c, flags := a.flags ||| 1 }
      | none => a
    match invoke sys a m with
    | (.error e, m) => (.error e, m)
    | (.ok a, m) => (.ok a.retval, m)

/-- `test_run_tracing`, `bpf_prog_test_run_tracing` (`mod.rs:654-657`, `sys/bpf.rs:785-797`). -/
def testRunTracing (sys : Sys) (fd : Option Nat) (m : Mem) : Except Err Unit × Mem :=
  match fd with
  | none => (.error .notLoaded, m)
  | some fd =>
    match invoke sys { progFd := fd } m with
    | (.error e, m) => (.error e, m)
    | (.ok _, m) => (.ok (), m)

end Verif.Run
