import Verif.Tool.Model
/-!
# How `bindgen` reads its command line

An argument is an option with a value in the next argument, or one that stands for itself; `--` ends
the options, and everything after it goes to clang. Which options take a value is left open.
-/
namespace Verif.Tool.Spec
open Verif.Tool

/-- A part of a command line. -/
inductive Item where
  /-- an argument for itself: a switch, `--name=value`, or a file -/
  | plain (a : Arg)
  /-- an option and, as the next argument, its value -/
  | value (name v : Arg)
  deriving DecidableEq, Repr

/-- Reading a command line: its parts, and the arguments for clang. `takes` are the options that take
a value; a value is never `--`. -/
def parse (takes : Arg → Bool) : List Arg → Option (List Item × List Arg)
  | [] => some ([], [])
  | a :: rest =>
    if a = ['-', '-'] then some ([], rest)
    else if takes a then
      match rest with
      | v :: rest' =>
        if v = ['-', '-'] then none
        else (parse takes rest').map fun (is, c) => (.value a v :: is, c)
      | [] => none
    else (parse takes rest).map fun (is, c) => (.plain a :: is, c)

/-- The prefixes for C types asked for, in either form. -/
def prefixes : List Item → List Arg
  | [] => []
  | .value n v :: is => if n = "--ctypes-prefix".toList then v :: prefixes is else prefixes is
  | .plain a :: is =>
    if a.take 16 = "--ctypes-prefix=".toList then a.drop 16 :: prefixes is else prefixes is

/-- Does this part ask for something other than a prefix for C types? -/
def keeps : Item → Bool
  | .value n _ => n ≠ "--ctypes-prefix".toList
  | .plain a => a.take 16 ≠ "--ctypes-prefix=".toList

/-- Everything else asked for. -/
def others (is : List Item) : List Item := is.filter keeps

/-- The words `--ctypes-prefix` among the arguments are all names of options: none is the value of
another option or an argument for clang. -/
def Named (is : List Item) (clang : List Arg) : Prop :=
  (∀ n v, Item.value n v ∈ is → v ≠ "--ctypes-prefix".toList) ∧ "--ctypes-prefix".toList ∉ clang

/-- No prefix is given as `--ctypes-prefix=...`. -/
def Apart (is : List Item) : Prop :=
  ∀ a, Item.plain a ∈ is → a.take 16 ≠ "--ctypes-prefix=".toList

/-- The header `bindgen` is to read, and its name: what `bpftool` says of the BTF, or the file given. -/
inductive Header (w : World) : Input → Arg → Arg → Prop
  | btf (path content : Arg) :
    w.bpftool ["btf".toList, "dump".toList, "file".toList, path, "format".toList, "c".toList]
      = .ok ⟨true, some content⟩ →
    Header w (.btf path) content "kernel_types.h".toList
  | header (path content name : Arg) :
    w.read path = .ok content → Header w (.header path (some name)) content name

/-- How `generate` ends, given how `bindgen` ends for a header (`run`). -/
inductive Ends (w : World) (run : Arg → Arg → Except Nat Output) (i : Input) : Res → Prop
  | bindings (content name b : Arg) :
    Header w i content name → run name content = .ok ⟨true, some b⟩ → Ends w run i (.ok b)
  | notUtf8 (content name : Arg) :
    Header w i content name → run name content = .ok ⟨true, none⟩ → Ends w run i .panic
  | failed (content name : Arg) (out : Option Arg) :
    Header w i content name → run name content = .ok ⟨false, out⟩ →
    Ends w run i (.err (.bindgenExit ⟨false, out⟩))
  | noBindgen (content name : Arg) (e : Nat) :
    Header w i content name → run name content = .error e → Ends w run i (.err (.bindgen e))
  | unreadable (path : Arg) (name : Option Arg) (e : Nat) :
    i = .header path name → w.read path = .error e → Ends w run i (.err (.readHeader e))
  | nameNotUtf8 (path content : Arg) :
    i = .header path none → w.read path = .ok content → Ends w run i .panic
  | noBpftool (path : Arg) (e : Nat) :
    i = .btf path →
    w.bpftool ["btf".toList, "dump".toList, "file".toList, path, "format".toList, "c".toList]
      = .error e → Ends w run i (.err (.bpftool e))
  | dumpFailed (path : Arg) (out : Option Arg) :
    i = .btf path →
    w.bpftool ["btf".toList, "dump".toList, "file".toList, path, "format".toList, "c".toList]
      = .ok ⟨false, out⟩ → Ends w run i (.err (.bpftoolExit ⟨false, out⟩))
  | dumpNotUtf8 (path : Arg) :
    i = .btf path →
    w.bpftool ["btf".toList, "dump".toList, "file".toList, path, "format".toList, "c".toList]
      = .ok ⟨true, none⟩ → Ends w run i .panic

end Verif.Tool.Spec
