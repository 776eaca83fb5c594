import Verif.Common.Except
/-!
# Statistics of programs

Model of `enable_stats`, of `ProgramInfo::run_count` and `run_time`, and of the documented way to use them.

Programs are numbers; the descriptor by which a program is asked for its information is left out.
-/
namespace Verif.Stats

abbrev Fd := Nat
abbrev Prog := Nat

/-- The fields of `bpf_prog_info` that are read here. -/
structure RawInfo where
  runTimeNs : Nat
  runCnt : Nat
deriving DecidableEq, Repr

/-- The system calls: `BPF_ENABLE_STATS` with a type, `BPF_OBJ_GET_INFO_BY_FD`, and `close`. -/
structure Sys (σ : Type) where
  enable : Nat → σ → Except Nat Fd × σ
  info : Prog → σ → Except Nat RawInfo × σ
  close : Fd → σ → σ

/-- `SyscallError` (`/repo/aya/src/sys/mod.rs:63-72`). -/
structure SyscallError where
  call : String
  errno : Nat
deriving DecidableEq, Repr

/-- `Stats` (`/repo/aya/src/sys/mod.rs:204-213`). -/
inductive Kind where
  | runTime
deriving DecidableEq, Repr

/-- `From<Stats> for bpf_stats_type` (`/repo/aya/src/sys/mod.rs:215-221`); `BPF_STATS_RUN_TIME` is 0. -/
def Kind.raw : Kind → Nat
  | .runTime => 0

variable {σ : Type}

/-- `bpf_enable_stats` (`/repo/aya/src/sys/bpf.rs:1522-1534`). -/
def bpfEnableStats (S : Sys σ) (type : Nat) (s : σ) : Except SyscallError Fd × σ :=
  match S.enable type s with
  | (.error e, s) => (.error ⟨"bpf_enable_stats", e⟩, s)
  | (.ok fd, s) => (.ok fd, s)

/-- `enable_stats` (`/repo/aya/src/sys/mod.rs:248-251`). -/
def enableStats (S : Sys σ) (k : Kind) (s : σ) : Except SyscallError Fd × σ := bpfEnableStats S k.raw s

/-- `ProgramInfo::new_from_fd` (`/repo/aya/src/programs/info.rs:34-37`, `/repo/aya/src/sys/bpf.rs:801-835`). -/
def infoOf (S : Sys σ) (p : Prog) (s : σ) : Except SyscallError RawInfo × σ :=
  match S.info p s with
  | (.error e, s) => (.error ⟨"bpf_obj_get_info_by_fd", e⟩, s)
  | (.ok i, s) => (.ok i, s)

/-- `ProgramInfo::run_time` (`/repo/aya/src/programs/info.rs:177-179`), in nanoseconds. -/
def runTime (i : RawInfo) : Nat := i.runTimeNs

/-- `ProgramInfo::run_count` (`/repo/aya/src/programs/info.rs:188-190`). -/
def runCount (i : RawInfo) : Nat := i.runCnt

/-- The documented usage (`/repo/aya/src/sys/mod.rs:230-235`): enable, record, wait, record again, give the differences of count and time, and
    release the descriptor. Others are at work between any two calls. -/
def measure (S : Sys σ) (p : Prog) (s : σ) : Except SyscallError (Nat × Nat) × σ :=
  match enableStats S .runTime s with
  | (.error e, s) => (.error e, s)
  | (.ok fd, s) =>
    match infoOf S p s with
    | (.error e, s) => (.error e, S.close fd s)
    | (.ok a, s) =>
      match infoOf S p s with
      | (.error e, s) => (.error e, S.close fd s)
      | (.ok b, s) => (.ok (runCount b - runCount a, runTime b - runTime a), S.close fd s)

end Verif.Stats
