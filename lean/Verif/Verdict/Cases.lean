import Verif.Verdict.Props
/-!
# C116: cases, and what the verdict does not say
-/
namespace Verif.Verdict

/-- A binary that fails unless it gets `-v`. -/
def picky : List Text → Run := fun args => { started := true, out := ['o', 'k', '\r', '\n'], code := some (if ['-', 'v'] ∈ args then 0 else 101) }

def guestOf (args : List Text) (bin : List (Option (List Text → Run))) : Guest :=
  { mounts := [true, true], cmdline := some (kernelArgs ['t', 't', 'y', 'S', '0'] args ++ ['\n']), bin := some bin }

def vmOf (g : Guest) : Vm :=
  { console := ['b', 'o', 'o', 't', '\n'] ++ initOut ['r', 'u', 'n'] ['e', 'r', 'r'] g ++ ['o', 'f', 'f', '\n'], stdin := true, stderr := true, code := some 0 }

theorem quiet_line {l : Text} (h : '\n' ∉ l) (h' : ¬ ['i', 'n', 'i', 't', ':', ' '] <+: l) : Quiet (l ++ ['\n']) :=
  ⟨[l], by simp, fun x hx => by rw [List.mem_singleton.1 hx]; exact ⟨h, h'⟩⟩

/-- The hypotheses of `C116_user_partial` are met by a machine with a binary that passes, and by one with a binary that fails. -/
theorem booted_picky (args : List Text) : Booted ['r', 'u', 'n'] ['e', 'r', 'r'] ['b', 'o', 'o', 't', '\n'] ['o', 'f', 'f', '\n'] (guestOf args [some picky]) (vmOf (guestOf args [some picky])) := by
  refine ⟨.inl rfl, rfl, rfl, rfl, quiet_line (l := ['b', 'o', 'o', 't']) (by decide) (by decide), quiet_line (l := ['o', 'f', 'f']) (by decide) (by decide),
    quiet_line (by decide) (by decide), quiet_line (by decide) (by decide), ?_⟩
  intro es he f hf a
  cases he
  cases List.mem_singleton.1 hf
  exact quiet_line (l := ['o', 'k', '\r']) (by decide) (by decide)

example : vm (vmOf (guestOf [['-', 'v']] [some picky])) = .ok true :=
  (C116_user_partial (booted_picky [['-', 'v']]) rfl (by unfold Word; decide) (by unfold Word; decide)).2
    ⟨by decide, by simp [guestOf], _, rfl, fun e he => ⟨picky, List.mem_singleton.1 he, by decide, by decide⟩⟩

example : vm (vmOf (guestOf [['-', 'q']] [some picky])) = .ok false := by decide +kernel

/-- One machine of two fails: the command does. -/
example : vms 0 [vmOf (guestOf [['-', 'v']] [some picky]), vmOf (guestOf [['-', 'q']] [some picky])] = .error (.failed 1) := by decide +kernel

/-- An argument of the user with a space in it does not reach the binaries: they get its first word, and the rest is a parameter of the kernel. -/
theorem C116_args_violated : guestArgs (kernelArgs ['t', 't', 'y', 'S', '0'] [['-', 'v', ' ', 'x']] ++ ['\n']) = [['-', 'v']] := by decide +kernel

/-- And a rest that looks like an argument is one: a user's argument becomes two. -/
theorem C116_two_violated : guestArgs (kernelArgs ['t', 't', 'y', 'S', '0'] [['a', ' '] ++ initArg ++ ['b']] ++ ['\n']) = [['a'], ['b']] := by decide +kernel

/-- With nothing in `/bin`, the verdict is success although no test was run. -/
theorem C116_empty_violated : vm (vmOf (guestOf [] [])) = .ok true := by decide +kernel

/-- With no machines at all, too. -/
theorem C116_none_violated : vms 0 [] = .ok () := rfl

/-- A binary that passes but does not end its last line makes the verdict go unseen. -/
theorem C116_unfinished_violated : Passed (guestOf [] [some (fun _ => ⟨true, ['o', 'k'], some 0⟩)]) [] ∧ vm (vmOf (guestOf [] [some (fun _ => ⟨true, ['o', 'k'], some 0⟩)])) = .error .noOutcome :=
  ⟨⟨by decide, by simp [guestOf], _, rfl, fun e he => ⟨_, List.mem_singleton.1 he, rfl, rfl⟩⟩, by decide +kernel⟩

/-- If a binary prints what `init` would, and the kernel panics while the binary runs so that the host switches the machine off, the verdict is success. -/
theorem C116_forged_violated : vm (Vm.mk (initColon ++ success ++ ['\n'] ++ ['e', 'n', 'd', ' ', 'K', 'e', 'r', 'n', 'e', 'l', ' ', 'p', 'a', 'n', 'i', 'c', '\n']) true true (some 0)) = .ok true := by decide +kernel

/-- On a terminal. -/
example : vm { vmOf (guestOf [['-', 'v']] [some picky]) with console := crlf (vmOf (guestOf [['-', 'v']] [some picky])).console } = .ok true := by decide +kernel

/-- Two lockups, with something in between. -/
example : Hung ["watchdog: BUG: soft lockup".toList, ['x'], "watchdog: BUG: soft lockup".toList] :=
  .inr ⟨_, _, [], [['x']], [], rfl, List.infix_rfl, List.infix_rfl⟩

/-- Two verdicts are none. -/
example : vm (Vm.mk (initColon ++ failure ++ ['\n'] ++ initColon ++ success ++ ['\n']) true true (some 0)) = .error .multiple := by decide +kernel

end Verif.Verdict
