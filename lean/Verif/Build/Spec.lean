import Verif.Build.Pipes
/-!
# Specification: what cargo is asked for, what it makes, and the architectures of Rust

Independent of the model's functions; only the types are shared.
-/
namespace Verif.Build

/-- What a user asks cargo for. -/
structure Request where
  toolchain : Option Str := none
  package : Option Str := none
  bins : Bool := false
  json : Bool := false
  release : Bool := false
  target : Option Str := none
  buildCore : Bool := false
  defaultFeatures : Bool := true
  features : List Str := []
  targetDir : Option Str := none
deriving DecidableEq, Repr

/-- A text cut where `sep` holds. -/
def cut (sep : Char → Bool) : Str → Str → List Str
  | w, [] => [w.reverse]
  | w, c :: cs => if sep c then w.reverse :: cut sep [] cs else cut sep (c :: w) cs

/-- The features named by a word: cut at commas and blanks, and nothing is no feature. -/
def featuresOf (s : Str) : List Str := (cut (fun c => c == ',' || c == ' ') [] s).filter (fun f => f ≠ [])

/-- cargo's reading of its options. -/
def readOpts : Request → List Str → Option Request
  | r, [] => some r
  | r, w :: ws =>
    if w = "--bins".toList then readOpts { r with bins := true } ws
    else if w = "--message-format=json".toList then readOpts { r with json := true } ws
    else if w = "--release".toList then readOpts { r with release := true } ws
    else if w = "--no-default-features".toList then readOpts { r with defaultFeatures := false } ws
    else
      match ws with
      | [] => none
      | v :: ws =>
        if w = "--package".toList then readOpts { r with package := some v } ws
        else if w = "--target".toList then readOpts { r with target := some v } ws
        else if w = "-Z".toList then
          if v = "build-std=core".toList then readOpts { r with buildCore := true } ws else none
        else if w = "--features".toList then readOpts { r with features := r.features ++ featuresOf v } ws
        else if w = "--target-dir".toList then readOpts { r with targetDir := some v } ws
        else none

/-- A command for cargo, run directly or by `rustup run TOOLCHAIN`. -/
def readWords (ws : List Str) : Option Request :=
  if ws.take 2 = ["cargo".toList, "build".toList] then readOpts {} (ws.drop 2)
  else if (ws.drop 1).take 1 = ["run".toList] ∧ (ws.drop 3).take 2 = ["cargo".toList, "build".toList] then
    readOpts { toolchain := ws[2]? } (ws.drop 5)
  else none

/-- The flags for `rustc` in the variable `CARGO_ENCODED_RUSTFLAGS`. -/
def flagsOf (s : Str) : List Str := cut (fun c => c == Char.ofNat 31) [] s

/-- The binaries reported in cargo's messages. -/
def reported (ms : List Msg) : List (Str × Path) :=
  ms.filterMap fun m =>
    match m with
    | .artifact n (some x) => some (n, x)
    | _ => none

/-- A cargo that, asked for `req` with flags `flags`, makes the binaries `bins req flags` if it succeeds: it reports each of them, where it
    is; it works in a directory of its own, not with the files in `OUT_DIR` except `OUT_DIR/aya-build`, in which it was told to work;
    what it writes is UTF-8 and its messages are well formed. -/
structure Behaves (cargo : Cargo) (out : Path) (bins : Request → List Str → List (Str × List UInt8)) : Prop where
  made : ∀ cmd req fs o, readWords cmd.words = some req → cargo cmd fs = some o → o.success = true →
    (reported o.msgs).map (fun x => (x.1, o.fs x.2)) = (bins req (flagsOf cmd.rustflags)).map (fun b => (b.1, some (.file b.2)))
  elsewhere : ∀ cmd fs o, cargo cmd fs = some o → ∀ x ∈ reported o.msgs, ∀ m, x.2 ≠ out ++ [m]
  keeps : ∀ cmd fs o, cargo cmd fs = some o → fs out = some .dir → o.fs out = some .dir
  leaves : ∀ cmd fs o, cargo cmd fs = some o → ∀ m, m ≠ "aya-build".toList → o.fs (out ++ [m]) = fs (out ++ [m])
  messages : ∀ cmd fs o, cargo cmd fs = some o → Msg.invalid ∉ o.msgs
  utf8 : ∀ cmd fs o, cargo cmd fs = some o → none ∉ o.err

/-- `target_arch` of Rust for the first part of the name of a target, for those that `aya` has bindings for. -/
def rustArch (part : Str) : Str :=
  if "arm".toList.isPrefixOf part ∨ "thumb".toList.isPrefixOf part then "arm".toList
  else if "riscv64".toList.isPrefixOf part then "riscv64".toList
  else if part = "aarch64_be".toList then "aarch64".toList
  else if part = "powerpc64le".toList then "powerpc64".toList
  else if part = "mipsel".toList then "mips".toList
  else if part = "mips64el".toList then "mips64".toList
  else part

/-- Whether `char` of C is signed on Linux (`core::ffi::c_char`). -/
def cCharSigned (arch : Str) : Bool :=
  decide (arch ∉ ["aarch64".toList, "arm".toList, "powerpc64".toList, "riscv64".toList, "s390x".toList])

/-- The lines written to each stream. -/
def outs (ws : List Write) : List Msg := ws.filterMap fun w => match w with | .out m => some m | .err _ => none
def errs (ws : List Write) : List (Option Str) := ws.filterMap fun w => match w with | .err l => some l | .out _ => none

/-- States after any schedule. -/
inductive Reach (cap : Nat) (kept : Bool) (script : List Write) : Nat → Sys → Prop where
  | start : Reach cap kept script 0 { script }
  | step {n s s'} (a : Step) : Reach cap kept script n s → sysStep cap kept s a = some s' → Reach cap kept script (n + 1) s'

end Verif.Build
