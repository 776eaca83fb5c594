import Verif.Verdict.Model
/-!
# What a verdict has to say
-/
namespace Verif.Verdict

/-- Everything in the machine worked, and every binary ended with 0 when run with these arguments. -/
def Passed (g : Guest) (args : List Text) : Prop :=
  (∀ m ∈ g.mounts, m = true) ∧ g.cmdline ≠ none ∧
    ∃ (es : List (Option (List Text → Run))), g.bin = some es ∧ ∀ e ∈ es, ∃ (f : List Text → Run), e = some f ∧ (f args).started = true ∧ (f args).code = some 0

/-- Whole lines, none of which begins as the verdict does. -/
def Quiet (t : Text) : Prop :=
  ∃ (ls : List Text), t = ls.flatMap (· ++ ['\n']) ∧ ∀ l ∈ ls, '\n' ∉ l ∧ ¬ ['i', 'n', 'i', 't', ':', ' '] <+: l

/-- No binary prints anything else, whatever its arguments. -/
def QuietGuest (g : Guest) : Prop :=
  ∀ (es : List (Option (List Text → Run))), g.bin = some es → ∀ (f : List Text → Run), some f ∈ es → ∀ args, Quiet (f args).out

/-- An argument of one word. -/
def Word (a : Text) : Prop := ∀ c ∈ a, isSpace c = false

/-- What a terminal makes of ends of lines. -/
def crlf (t : Text) : Text := t.flatMap (fun c => if c = '\n' then ['\r', '\n'] else [c])

/-- The lines of a console that begin as the verdict does. -/
def Verdicts (ls : List Text) : List Text := ls.filter (fun l => decide (['i', 'n', 'i', 't', ':', ' '] <+: l))

/-- The kernel does not go on: a panic, a stall, or two lockups. -/
def Hung (ls : List Text) : Prop :=
  (∃ l ∈ ls, "end Kernel panic".toList <:+: l ∨ "rcu: RCU grace-period kthread stack dump:".toList <:+: l) ∨
    ∃ (a b : Text) (x y z : List Text), ls = x ++ a :: y ++ b :: z ∧ "watchdog: BUG: soft lockup".toList <:+: a ∧ "watchdog: BUG: soft lockup".toList <:+: b

/-- The machine booted, `init` ran in it and wrote to the console, which may be a terminal, and then the machine was switched off. -/
def Booted (line err before after : Text) (g : Guest) (v : Vm) : Prop :=
  (v.console = before ++ initOut line err g ++ after ∨ v.console = crlf (before ++ initOut line err g ++ after)) ∧ v.stdin = true ∧ v.stderr = true ∧ v.code = some 0 ∧ Quiet before ∧ Quiet after ∧ Quiet (line ++ ['\n']) ∧ Quiet (err ++ ['\n']) ∧
    QuietGuest g

end Verif.Verdict
