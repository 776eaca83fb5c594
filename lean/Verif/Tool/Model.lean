import Verif.Common.Except
/-!
# `aya-tool generate`

Rust bindings of kernel types: a header is made of BTF with `bpftool` (or read), written to a
temporary directory, and given to `bindgen` with the options of the library and those of the user.
`/repo/aya-tool/src/generate.rs`, `/repo/aya-tool/src/bindgen.rs`.

Strings are lists of characters. The two commands, the files and the temporary directory are
parameters (`World`).
-/
namespace Verif.Tool

/-- An argument of a command, a path, a text. -/
abbrev Arg := List Char

/-- What a command left behind (`std::process::Output`): whether it succeeded, and its output, `none`
where that is not UTF-8. What it wrote to its error output is left out. -/
structure Output where
  success : Bool
  stdout : Option Arg
  deriving DecidableEq, Repr

/-- Everything outside: `read_to_string`, the commands `bpftool` and `bindgen` (an error is a command
that could not be run), and the temporary directory. `bindgen` is given the directory, the name and
the content of the file named by its first argument, and all its arguments. -/
structure World where
  read : Arg → Except Nat Arg
  bpftool : List Arg → Except Nat Output
  tmp : Arg
  bindgen : (dir name content : Arg) → List Arg → Except Nat Output

/-- `/repo/aya-tool/src/generate.rs:30-33`. Of a header the path and its last component are needed,
`none` where that is not UTF-8; a path without last component (`/`, `..`) is a directory and is not
read. -/
inductive Input where
  | btf (path : Arg)
  | header (path : Arg) (name : Option Arg)
  deriving DecidableEq, Repr

/-- `/repo/aya-tool/src/generate.rs:12-28`. -/
inductive Err where
  | bpftool (code : Nat)
  | bpftoolExit (out : Output)
  | bindgen (code : Nat)
  | bindgenExit (out : Output)
  | readHeader (code : Nat)
  deriving DecidableEq, Repr

/-- How a call of `generate` ends. -/
inductive Res where
  | ok (bindings : Arg)
  | err (e : Err)
  | panic
  deriving DecidableEq, Repr

def ctypesPrefix : Arg := "--ctypes-prefix".toList
def allowlistType : Arg := "--allowlist-type".toList
def dashes : Arg := "--".toList

/-- The `bindgen::Builder` made by `bpf_builder` (`/repo/aya-tool/src/bindgen.rs:3-23`): the prefix of
C types, the types to emit, the arguments for clang, and the options that never change (`--use-core`,
`--no-layout-tests` and so on), which are left open. -/
structure Builder where
  fixed : List Arg
  ctypes : Arg
  types : List Arg
  clang : List Arg
  deriving DecidableEq, Repr

/-- `bpf_builder()`, `/repo/aya-tool/src/bindgen.rs:18-23`. -/
def bpfBuilder (fixed : List Arg) : Builder :=
  { fixed, ctypes := "::aya_ebpf::cty".toList, types := [],
    clang := ["-Wno-unknown-attributes".toList] }

/-- `Builder::command_line_flags` of the `bindgen` crate (not in `/repo`): the options, then `--` and
the arguments for clang. -/
def Builder.flags (b : Builder) : List Arg :=
  b.fixed ++ [ctypesPrefix, b.ctypes] ++ b.types.flatMap (fun t => [allowlistType, t])
    ++ (if b.clang.isEmpty then [] else dashes :: b.clang)

/-- `Iterator::position`. -/
def position (a : Arg) : List Arg → Option Nat
  | [] => none
  | x :: xs => if x = a then some 0 else (position a xs).map (· + 1)

/-- `/repo/aya-tool/src/generate.rs:103-115`. `s.len() - 1` does not wrap: a position was found. -/
def extractCtypesPrefix (s : List Arg) : List Arg × Option Arg :=
  match position ctypesPrefix s with
  | some index =>
    if index < s.length - 1 then (s.take index ++ s.drop (index + 2), s[index + 1]?)
    else (s, none)
  | none => (s, none)

/-- `splitn(2, |el| el == "--")`: what comes before the first `--`, and what comes after it. -/
def splitDashes : List Arg → List Arg × Option (List Arg)
  | [] => ([], none)
  | x :: xs =>
    if x = dashes then ([], some xs) else (x :: (splitDashes xs).1, (splitDashes xs).2)

/-- `/repo/aya-tool/src/generate.rs:117-138`. -/
def combineFlags (s1 s2 : List Arg) : List Arg :=
  let a := splitDashes s1
  let b := splitDashes s2
  let flags := a.1 ++ b.1
  let extra := a.2.getD [] ++ b.2.getD []
  if extra.isEmpty then flags else flags ++ dashes :: extra

/-- `/repo/aya-tool/src/generate.rs:86-101`. -/
def cHeaderFromBtf (w : World) (path : Arg) : Except Res Arg :=
  match w.bpftool ["btf".toList, "dump".toList, "file".toList, path, "format".toList, "c".toList] with
  | .error e => .error (.err (.bpftool e))
  | .ok out =>
    if out.success then
      match out.stdout with
      | some s => .ok s
      | none => .error .panic
    else .error (.err (.bpftoolExit out))

/-- The header and its name, `/repo/aya-tool/src/generate.rs:56-62`. -/
def header (w : World) : Input → Except Res (Arg × Arg)
  | .btf path =>
    match cHeaderFromBtf w path with
    | .ok h => .ok (h, "kernel_types.h".toList)
    | .error r => .error r
  | .header path name =>
    match w.read path with
    | .error e => .error (.err (.readHeader e))
    | .ok h =>
      match name with
      | some n => .ok (h, n)
      | none => .error .panic

/-- The builder and the user's flags without the prefix, `/repo/aya-tool/src/generate.rs:40-54`. -/
def builderFor (fixed types flags : List Arg) : Builder × List Arg :=
  let b := bpfBuilder fixed
  let x := extractCtypesPrefix flags
  let b := match x.2 with
    | some p => { b with ctypes := p }
    | none => b
  ({ b with types := b.types ++ types }, x.1)

/-- The arguments of `bindgen` after the file, `/repo/aya-tool/src/generate.rs:69`. -/
def bindgenFlags (fixed types flags : List Arg) : List Arg :=
  let x := builderFor fixed types flags
  combineFlags x.1.flags x.2

/-- `generate`, `/repo/aya-tool/src/generate.rs:35-84`. The temporary directory can be made and the
file written (`unwrap`, 64-67). -/
def generate (w : World) (fixed : List Arg) (input : Input) (types flags : List Arg) : Res :=
  match header w input with
  | .error r => r
  | .ok (content, name) =>
    match w.bindgen w.tmp name content
        ((w.tmp ++ '/' :: name) :: bindgenFlags fixed types flags) with
    | .error e => .err (.bindgen e)
    | .ok out =>
      if out.success then
        match out.stdout with
        | some s => .ok s
        | none => .panic
      else .err (.bindgenExit out)

end Verif.Tool
