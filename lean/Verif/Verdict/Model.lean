import Verif.Common.Except
/-!
# The verdict of a test run in virtual machines

Model of the first process of the virtual machine (`/repo/test-distro/src/init.rs`), which runs the test binaries, and of the end of the command that starts the
machine and reads its console (`/repo/xtask/src/run.rs`). Building, and what is put into the machine, are not modelled; what the kernel and the binaries do and print are
parameters. Text is a list of characters.
-/
namespace Verif.Verdict

abbrev Text := List Char

/-- `"init: "` (`/repo/xtask/src/run.rs:753`, `/repo/test-distro/src/init.rs:195-199`) -/
def initColon : Text := ['i', 'n', 'i', 't', ':', ' ']
/-- `/repo/xtask/src/run.rs:755` -/
def success : Text := ['s', 'u', 'c', 'c', 'e', 's', 's']
/-- `/repo/xtask/src/run.rs:756` -/
def failure : Text := ['f', 'a', 'i', 'l', 'u', 'r', 'e']
/-- `"init.arg="` (`/repo/test-distro/src/init.rs:148`) -/
def initArg : Text := ['i', 'n', 'i', 't', '.', 'a', 'r', 'g', '=']

/-- `str::strip_prefix` (`/repo/xtask/src/run.rs:753`, `/repo/test-distro/src/init.rs:148`). -/
def stripPrefix : Text → Text → Option Text
  | [], s => some s
  | _ :: _, [] => none
  | p :: ps, c :: cs => if p = c then stripPrefix ps cs else none

/-- White space of Unicode (`char::is_whitespace`). -/
def isSpace (c : Char) : Bool :=
  (9 ≤ c.toNat && c.toNat ≤ 13) || c.toNat == 32 || c.toNat == 0x85 || c.toNat == 0xA0 || c.toNat == 0x1680 || (0x2000 ≤ c.toNat && c.toNat ≤ 0x200A) ||
    c.toNat == 0x2028 || c.toNat == 0x2029 || c.toNat == 0x202F || c.toNat == 0x205F || c.toNat == 0x3000

/-- `str::split_whitespace`; `w` is the word so far. -/
def words (w : Text) : Text → List Text
  | [] => if w.isEmpty then [] else [w]
  | c :: cs => if isSpace c then (if w.isEmpty then words [] cs else w :: words [] cs) else words (w ++ [c]) cs

/-! ## The host: the kernel's command line -/

/-- One parameter of the kernel (`/repo/xtask/src/run.rs:659-661`). -/
def param (kv : Text × Text) : Text := kv.1 ++ ['='] ++ kv.2

/-- The parameters, with spaces between them (`/repo/xtask/src/run.rs:652-663`). -/
def joined : List (Text × Text) → Text
  | [] => []
  | [p] => param p
  | p :: q :: r => param p ++ ' ' :: joined (q :: r)

/-- `kernel_args` (`/repo/xtask/src/run.rs:651-674`). -/
def kernelArgs (console : Text) (args : List Text) : Text :=
  joined ((['c', 'o', 'n', 's', 'o', 'l', 'e'], console) :: args.map (fun a => (['i', 'n', 'i', 't', '.', 'a', 'r', 'g'], a))) ++
    [' ', 'n', 'o', 'a', 'p', 'i', 'c'] ++ [' ', 'l', 's', 'm', '=', 'b', 'p', 'f']

/-! ## The guest -/

/-- The arguments for the binaries (`/repo/test-distro/src/init.rs:144-150`). -/
def guestArgs (cmdline : Text) : List Text := (words [] cmdline).filterMap (stripPrefix initArg)

/-- One binary: whether it could be started, what it prints, and its exit code (`none` if a signal ended it). -/
structure Run where
  started : Bool
  out : Text
  code : Option Nat
deriving DecidableEq, Repr

/-- What is in the machine: whether each mount succeeds (`/repo/test-distro/src/init.rs:44-136`), what is read of `/proc/cmdline`, and the entries of `/bin` (`none` if reading them
    failed), each of which says `none` if reading it failed. -/
structure Guest where
  mounts : List Bool
  cmdline : Option Text
  bin : Option (List (Option (List Text → Run)))

/-- One entry of `/bin` (`/repo/test-distro/src/init.rs:155-174`): whether it succeeded, and what is on the console. `line` is the line `running ...`
    (simplified: the same for all entries). -/
def runEntry (line : Text) (args : List Text) : Option (List Text → Run) → Bool × Text
  | none => (false, [])
  | some f =>
    if (f args).started then (decide ((f args).code = some 0), line ++ ['\n'] ++ (f args).out)
    else (false, line ++ ['\n'])

/-- All entries (`/repo/test-distro/src/init.rs:153-189`). Entries after one that failed are run, too. -/
def runEntries (line : Text) (args : List Text) : List (Option (List Text → Run)) → Bool × Text
  | [] => (true, [])
  | e :: es => ((runEntry line args e).1 && (runEntries line args es).1, (runEntry line args e).2 ++ (runEntries line args es).2)

/-- `run` (`/repo/test-distro/src/init.rs:26-190`). -/
def run (line : Text) (g : Guest) : Bool × Text :=
  if g.mounts.all id then
    match g.cmdline with
    | none => (false, [])
    | some c =>
      match g.bin with
      | none => (false, [])
      | some es => runEntries line (guestArgs c) es
  else (false, [])

/-- What is on the console from `main` (`/repo/test-distro/src/init.rs:192-201`); `err` is the description of the errors. -/
def initOut (line err : Text) (g : Guest) : Text :=
  match run line g with
  | (true, t) => t ++ initColon ++ success ++ ['\n']
  | (false, t) => t ++ err ++ ['\n'] ++ initColon ++ failure ++ ['\n']

/-! ## The host: reading the console -/

/-- What `BufRead::lines` does with the end of a line (`/repo/xtask/src/run.rs:747`). -/
def stripCr (l : Text) : Text := if l.getLast? = some '\r' then l.dropLast else l

/-- `BufRead::lines` (`/repo/xtask/src/run.rs:747`); `w` is the line so far. -/
def lines (w : Text) : Text → List Text
  | [] => if w.isEmpty then [] else [w]
  | c :: cs => if c = '\n' then stripCr w :: lines [] cs else lines (w ++ [c]) cs

/-- The errors of one machine, and of the command (`/repo/xtask/src/run.rs:725,757-760,772-788`). -/
inductive Err where
  | unexpected
  | multiple
  | stdin
  | status
  | noOutcome
  /-- `"VM binaries failed on ..."`, once for each machine -/
  | failed (n : Nat)
deriving DecidableEq, Repr

/-- Signs that the kernel hangs, and how often they may be there (`/repo/xtask/src/run.rs:703-707`). -/
def markers : List (Text × Nat) :=
  [("end Kernel panic".toList, 0),
   ("rcu: RCU grace-period kthread stack dump:".toList, 0),
   ("watchdog: BUG: soft lockup".toList, 1)]

/-- `str::contains` (`/repo/xtask/src/run.rs:714`). -/
def containsText (p : Text) : Text → Bool
  | [] => p.isEmpty
  | c :: cs => (stripPrefix p (c :: cs)).isSome || containsText p cs

/-- `terminate_if_kernel_hang` (`/repo/xtask/src/run.rs:710-730`): the counts afterwards, and whether it writes to the machine. -/
def hang (counts : Nat → Nat) (l : Text) : (Nat → Nat) × Bool :=
  match markers.findIdx? (fun m => containsText m.1 l) with
  | some i => (fun j => if j = i then counts i + 1 else counts j, decide ((markers.getD i ([], 0)).2 < counts i + 1))
  | none => (counts, false)

/-- The loop over the lines of the standard output (`/repo/xtask/src/run.rs:746-763`). `stdin` is whether writing to the machine succeeds. -/
def readLines (stdin : Bool) (counts : Nat → Nat) (outcome : Option Bool) : List Text → Except Err (Option Bool)
  | [] => .ok outcome
  | l :: ls =>
    if (hang counts l).2 && !stdin then .error .stdin
    else
      match stripPrefix initColon l with
      | none => readLines stdin (hang counts l).1 outcome ls
      | some r =>
        if r = success then
          (match outcome with
          | some _ => .error .multiple
          | none => readLines stdin (hang counts l).1 (some true) ls)
        else if r = failure then
          (match outcome with
          | some _ => .error .multiple
          | none => readLines stdin (hang counts l).1 (some false) ls)
        else .error .unexpected

/-- One machine as the host sees it: its console, whether writing to it succeeds, whether the thread for its standard error succeeded, and its exit code. -/
structure Vm where
  console : Text
  stdin : Bool
  stderr : Bool
  code : Option Nat
deriving DecidableEq, Repr

/-- One machine (`/repo/xtask/src/run.rs:746-776`). -/
def vm (v : Vm) : Except Err Bool :=
  match readLines v.stdin (fun _ => 0) none (lines [] v.console) with
  | .error e => .error e
  | .ok o =>
    if v.stderr then
      if v.code = some 0 then
        match o with
        | some b => .ok b
        | none => .error .noOutcome
      else .error .status
    else .error .stdin

/-- The machines one after the other, with the number of those that failed (`/repo/xtask/src/run.rs:775-788`). -/
def vms (failed : Nat) : List Vm → Except Err Unit
  | [] => if failed = 0 then .ok () else .error (.failed failed)
  | v :: vs =>
    match vm v with
    | .error e => .error e
    | .ok true => vms failed vs
    | .ok false => vms (failed + 1) vs

end Verif.Verdict
