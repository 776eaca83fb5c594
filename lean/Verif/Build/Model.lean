import Verif.Common.Except
import Verif.Common.Str
/-!
# Building eBPF crates

Model of `/repo/aya-build/src/lib.rs`: `build_ebpf` and `emit_bpf_target_arch_cfg`. Strings are lists of characters, paths are
lists of components; `cargo`, `rustc`, `rustup`, the environment and the files are parameters. What is printed for cargo is left
out except the flag for the architecture and the warnings.
-/
namespace Verif.Build

abbrev Str := List Char
abbrev Path := List Str

/-- The value of an environment variable, which need not be UTF-8. -/
inductive Os where
  | text (s : Str)
  | raw (n : Nat)
deriving DecidableEq, Repr

abbrev Env := Str → Option Os

/-- `Package` (`/repo/aya-build/src/lib.rs:18-23`); `root_dir` is only printed. -/
structure Package where
  name : Str
  noDefaultFeatures : Bool := false
  features : List Str := []
deriving DecidableEq, Repr

/-- `Toolchain` (`/repo/aya-build/src/lib.rs:281-289`). -/
inductive Toolchain where
  | nightly
  | custom (s : Str)
deriving DecidableEq, Repr

/-- `Toolchain::as_str` (`/repo/aya-build/src/lib.rs:292-297`). -/
def Toolchain.asStr : Toolchain → Str
  | .nightly => "nightly".toList
  | .custom s => s

/-- A command: the words, the first of which is the program; the value of `CARGO_ENCODED_RUSTFLAGS`; the variables removed. -/
structure Cmd where
  words : List Str
  rustflags : Str
  removed : List Str
deriving DecidableEq, Repr

/-- A message of cargo (`cargo_metadata::Message`), or a line that is none. -/
inductive Msg where
  | artifact (name : Str) (executable : Option Path)
  | message (rendered : Option Str)
  | text (line : Str)
  | other
  | invalid
deriving DecidableEq, Repr

inductive Entry where
  | file (bytes : List UInt8)
  | dir
deriving DecidableEq, Repr

abbrev Fs := Path → Option Entry

/-- What cargo did: messages, lines of `stderr` (`none` if not UTF-8), whether it succeeded, and the files after it. -/
structure Outcome where
  msgs : List Msg
  err : List (Option Str)
  success : Bool
  fs : Fs

/-- `cargo`; `none` if it could not be started. -/
abbrev Cargo := Cmd → Fs → Option Outcome

inductive Fail where
  | outDirUnset | endianUnset | endianUnknown | archUnset | archNotUtf8 | rustc | spawn | json | status | copy | hostUnset | hostNotUtf8
deriving DecidableEq, Repr

inductive Res where
  | ok
  | err (e : Fail)
  | panic
deriving DecidableEq, Repr

/-- `target_arch_fixup` (`/repo/aya-build/src/lib.rs:25-31`). -/
def archFixup (arch : Str) : Str := if "riscv64".toList.isPrefixOf arch then "riscv64".toList else arch

/-- `OsStr::eq_ignore_ascii_case("true")` (`/repo/aya-build/src/lib.rs:53`). -/
def isTrue (s : Str) : Bool := s.map Char.toLower == "true".toList

/-- Whether to skip (`/repo/aya-build/src/lib.rs:52-60`). -/
def skips (env : Env) : Bool :=
  match env "AYA_BUILD_SKIP".toList with
  | some (.text s) => s == "1".toList || isTrue s
  | _ => false

/-- The target (`/repo/aya-build/src/lib.rs:66-75`, `87`). -/
def targetOf (env : Env) : Except Fail Str :=
  match env "CARGO_CFG_TARGET_ENDIAN".toList with
  | none => .error .endianUnset
  | some e =>
    if e = .text "big".toList then .ok ("bpfeb".toList ++ "-unknown-none".toList)
    else if e = .text "little".toList then .ok ("bpfel".toList ++ "-unknown-none".toList)
    else .error .endianUnknown

/-- The architecture (`/repo/aya-build/src/lib.rs:77-86`). -/
def archOf (env : Env) : Except Fail Str :=
  match env "CARGO_CFG_TARGET_ARCH".toList with
  | none => .error .archUnset
  | some (.raw _) => .error .archNotUtf8
  | some (.text s) => .ok (archFixup s)

/-- `use_build_std` (`/repo/aya-build/src/lib.rs:157-168`). -/
def useBuildStd (bootstrap : Option Os) (nightly : Bool) (name : Str) : Bool :=
  match bootstrap with
  | some b =>
    if b = .text "1".toList ∨ b = .text name then true
    else if b = .text "-1".toList then false
    else nightly
  | none => nightly

/-- The words before the program (`/repo/aya-build/src/lib.rs:89-110`). -/
def prefixWords (rustup : Option Str) (tc : Toolchain) : List Str :=
  match rustup with
  | some r => [r, "run".toList, tc.asStr]
  | none => []

/-- The separator of encoded flags (`/repo/aya-build/src/lib.rs:181`). -/
def separator : Char := Char.ofNat 31

/-- `rustflags` (`/repo/aya-build/src/lib.rs:183-195`). -/
def rustflags (arch : Str) : Str :=
  "--cfg=bpf_target_arch=\"".toList ++ arch ++ "\"".toList ++ [separator] ++ "-Cdebuginfo=2".toList ++ [separator] ++
    "-Clink-arg=--btf".toList

/-- The directory cargo works in (`/repo/aya-build/src/lib.rs:210`). -/
def targetDir (out : Path) (name : Str) : Path := out ++ ["aya-build".toList, "target".toList, name]

/-- A path as one word, as `Command::arg` takes it. -/
def pathWord (p : Path) : Str := (p.map ('/' :: ·)).flatten

/-- The command for a package (`/repo/aya-build/src/lib.rs:139-211`). -/
def cmdFor (pre : List Str) (target arch : Str) (bootstrap : Option Os) (nightly : Bool) (out : Path) (p : Package) : Cmd where
  words := pre ++ ["cargo".toList, "build".toList, "--package".toList, p.name, "--bins".toList, "--message-format=json".toList,
      "--release".toList, "--target".toList, target]
    ++ (if useBuildStd bootstrap nightly p.name then ["-Z".toList, "build-std=core".toList] else [])
    ++ (if p.noDefaultFeatures then ["--no-default-features".toList] else [])
    ++ ["--features".toList, Str.joinWith ',' p.features]
    ++ ["--target-dir".toList, pathWord (targetDir out p.name)]
  rustflags := rustflags arch
  removed := ["RUSTC".toList, "RUSTC_WORKSPACE_WRAPPER".toList]

/-- The loop over the messages (`/repo/aya-build/src/lib.rs:232-255`): the executables and the warnings. -/
def collect : List Msg → Except Fail (List (Str × Path) × List Str)
  | [] => .ok ([], [])
  | .invalid :: _ => .error .json
  | .artifact n exe :: ms =>
    match collect ms with
    | .error e => .error e
    | .ok (es, ws) =>
      match exe with
      | some x => .ok ((n, x) :: es, ws)
      | none => .ok (es, ws)
  | .message r :: ms =>
    match collect ms with
    | .error e => .error e
    | .ok (es, ws) => .ok (es, Str.splitBy (· == '\n') (r.getD []) ++ ws)
  | .text l :: ms =>
    match collect ms with
    | .error e => .error e
    | .ok (es, ws) => .ok (es, l :: ws)
  | .other :: ms => collect ms

/-- The files with one changed. -/
def Fs.set (fs : Fs) (p : Path) (e : Entry) : Fs := fun q => if q = p then some e else fs q

/-- `fs::copy` (library): the source must be a file, the destination no directory and in one; a file copied onto itself is emptied. -/
def copy (fs : Fs) (src dst : Path) : Option Fs :=
  match fs src with
  | some (.file bytes) =>
    if fs dst = some .dir ∨ fs dst.dropLast ≠ some .dir then none
    else some (fs.set dst (.file (if src = dst then [] else bytes)))
  | _ => none

/-- The copies (`/repo/aya-build/src/lib.rs:269-274`). -/
def copyAll (out : Path) : List (Str × Path) → Fs → Option Fs
  | [], fs => some fs
  | (n, src) :: es, fs =>
    match copy fs src (out ++ [n]) with
    | none => none
    | some fs => copyAll out es fs

/-- The warnings, and the lines of `stderr` up to the first that is not UTF-8 (`/repo/aya-build/src/lib.rs:223-228`). -/
def errLines (err : List (Option Str)) : List Str := (err.takeWhile Option.isSome).filterMap id

/-- One package (`/repo/aya-build/src/lib.rs:213-274`), with what cargo did: result, files, warnings. That the streams are read to
    their ends whatever the schedule is the subject of `Verif.Build.Pipes`. -/
def onePackage (out : Path) (fs : Fs) : Option Outcome → Res × Fs × List Str
  | none => (.err .spawn, fs, [])
  | some o =>
    match collect o.msgs with
    | .error e => (.err e, o.fs, [])
    | .ok (es, ws) =>
      if !o.success then (.err .status, o.fs, ws ++ errLines o.err)
      else if o.err.any Option.isNone then (.panic, o.fs, ws ++ errLines o.err)
      else
        match copyAll out es o.fs with
        | none => (.err .copy, o.fs, ws ++ errLines o.err)
        | some fs => (.ok, fs, ws ++ errLines o.err)

/-- The loop over the packages (`/repo/aya-build/src/lib.rs:126-275`). After a failed copy the files are those before the copies of this
    package, which is a simplification. -/
def packages (cargo : Cargo) (cmd : Package → Cmd) (out : Path) : List Package → Fs → Res × Fs × List Str
  | [], fs => (.ok, fs, [])
  | p :: ps, fs =>
    match onePackage out fs (cargo (cmd p) fs) with
    | (.ok, fs, ws) =>
      match packages cargo cmd out ps fs with
      | (r, fs, ws') => (r, fs, ws ++ ws')
    | (r, fs, ws) => (r, fs, ws)

/-- What surrounds a build script: `which("rustup")`, the channel of `rustc` (`none`: it cannot be asked), `OUT_DIR` as a path. -/
structure World where
  env : Env
  rustup : Option Str
  nightly : Option Bool
  outDir : Option Path
  cargo : Cargo

/-- `build_ebpf` (`/repo/aya-build/src/lib.rs:46-277`). -/
def buildEbpf (w : World) (ps : List Package) (tc : Toolchain) (fs : Fs) : Res × Fs × List Str :=
  if skips w.env then (.ok, fs, [])
  else
    match w.outDir with
    | none => (.err .outDirUnset, fs, [])
    | some out =>
      match targetOf w.env with
      | .error e => (.err e, fs, [])
      | .ok target =>
        match archOf w.env with
        | .error e => (.err e, fs, [])
        | .ok arch =>
          match w.nightly with
          | none => (.err .rustc, fs, [])
          | some nightly =>
            packages w.cargo
              (cmdFor (prefixWords w.rustup tc) target arch (w.env "RUSTC_BOOTSTRAP".toList) nightly out) out ps fs

/-- The part of a string before the first `-` (`/repo/aya-build/src/lib.rs:339-340`). -/
def beforeDash (s : Str) : Str := s.takeWhile (· != '-')

/-- The values of `bpf_target_arch` known to the compiler (`/repo/aya-build/src/lib.rs:348-358`). -/
def checked : List Str :=
  ["aarch64".toList, "arm".toList, "loongarch64".toList, "mips".toList, "mips64".toList, "powerpc64".toList, "riscv64".toList,
   "s390x".toList, "x86_64".toList]

/-- `emit_bpf_target_arch_cfg` (`/repo/aya-build/src/lib.rs:302-364`): the value given to `bpf_target_arch`, if any. -/
def emitCfg (env : Env) : Except Fail (Option Str) :=
  match env "CARGO_CFG_BPF_TARGET_ARCH".toList with
  | some _ => .ok none
  | none =>
    match env "HOST".toList with
    | none => .error .hostUnset
    | some (.raw _) => .error .hostNotUtf8
    | some (.text host) =>
      match env "AYA_BPF_TARGET_ARCH".toList with
      | some (.text a) => .ok (some a)
      | some (.raw _) => .error .archNotUtf8
      | none => .ok (some (archFixup (beforeDash host)))

/-- Whether `c_char` is signed, for each value of `bpf_target_arch` (`/repo/ebpf/aya-ebpf-cty/src/lib.rs:20-35`); `none` if the type does
    not exist. -/
def charSigned (arch : Str) : Option Bool :=
  if arch ∈ ["aarch64".toList, "arm".toList, "powerpc64".toList, "riscv64".toList, "s390x".toList, "mips".toList] then some false
  else if arch ∈ ["loongarch64".toList, "mips64".toList, "x86_64".toList] then some true
  else none

end Verif.Build
