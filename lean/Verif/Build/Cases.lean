import Verif.Build.Props
/-!
# C106: cargo's streams, the architecture, refutations and cases
-/
set_option linter.unusedSimpArgs false
set_option linter.unusedVariables false
namespace Verif.Build

/-! ## Streams -/

/-- What is known in every state reached. -/
structure Inv (kept : Bool) (script : List Write) (s : Sys) : Prop where
  out : s.main ≠ .failed → s.msgs ++ s.outPipe ++ outs s.script = outs script
  valid : Msg.invalid ∉ s.msgs
  err : s.thread ≠ .panicked → s.lines.map some ++ s.errPipe ++ errs s.script = errs script
  panic : s.thread = .panicked → none ∈ errs script
  failed : s.main = .failed → Msg.invalid ∈ outs script
  exit : s.exited = true → s.script = []
  ended : s.thread = .ended → s.exited = true ∧ s.errPipe = []
  later : s.main ≠ .reading → s.main ≠ .failed → s.exited = true ∧ s.outPipe = [] ∧ kept = false
  done : s.main = .done → s.thread = .ended
  panicked : s.main = .panicked → s.thread = .panicked

theorem outs_cons_out (m : Msg) (ws : List Write) : outs (.out m :: ws) = m :: outs ws := rfl
theorem outs_cons_err (l : Option Str) (ws : List Write) : outs (.err l :: ws) = outs ws := rfl
theorem errs_cons_out (m : Msg) (ws : List Write) : errs (.out m :: ws) = errs ws := rfl
theorem errs_cons_err (l : Option Str) (ws : List Write) : errs (.err l :: ws) = l :: errs ws := rfl

theorem inv_cargo (cap : Nat) (kept : Bool) (script : List Write) (s s' : Sys) (h : Inv kept script s)
    (hs : cargoStep cap s = some s') : Inv kept script s' := by
  obtain ⟨h1, h2, h3, h4, h5, h6, h7, h8, h9, h10⟩ := h
  simp only [cargoStep] at hs
  split at hs
  · rename_i hnil
    split at hs
    · cases hs
    · cases hs
      exact ⟨h1, h2, h3, h4, h5, fun _ => hnil, fun he => ⟨rfl, (h7 he).2⟩, fun a b => ⟨rfl, (h8 a b).2⟩, h9, h10⟩
  · rename_i m rest hcons
    have hex : s.exited = false := by
      cases he : s.exited with
      | false => rfl
      | true => have := h6 he; rw [this] at hcons; cases hcons
    split at hs
    · rename_i hf
      cases hs
      refine ⟨fun hh => absurd hf hh, h2, fun hh => ?_, h4, h5, fun he => ?_, h7, h8, h9, h10⟩
      · have := h3 hh; rw [hcons, errs_cons_out] at this; exact this
      · rw [hex] at he; cases he
    · split at hs
      · cases hs
        refine ⟨fun hh => ?_, h2, fun hh => ?_, h4, h5, fun he => ?_, h7, fun a b => ?_, h9, h10⟩
        · have := h1 hh; rw [hcons, outs_cons_out] at this; simpa using this
        · have := h3 hh; rw [hcons, errs_cons_out] at this; exact this
        · rw [hex] at he; cases he
        · have := (h8 a b).1; rw [hex] at this; cases this
      · cases hs
  · rename_i l rest hcons
    have hex : s.exited = false := by
      cases he : s.exited with
      | false => rfl
      | true => have := h6 he; rw [this] at hcons; cases hcons
    split at hs
    · rename_i hf
      cases hs
      refine ⟨fun hh => ?_, h2, fun hh => absurd hf hh, h4, h5, fun he => ?_, h7, h8, h9, h10⟩
      · have := h1 hh; rw [hcons, outs_cons_err] at this; exact this
      · rw [hex] at he; cases he
    · split at hs
      · cases hs
        refine ⟨fun hh => ?_, h2, fun hh => ?_, h4, h5, fun he => ?_, fun he => ?_, h8, h9, h10⟩
        · have := h1 hh; rw [hcons, outs_cons_err] at this; exact this
        · have := h3 hh; rw [hcons, errs_cons_err] at this; simpa using this
        · rw [hex] at he; cases he
        · have := (h7 he).1; rw [hex] at this; cases this
      · cases hs

theorem inv_main (kept : Bool) (script : List Write) (s s' : Sys) (h : Inv kept script s)
    (hs : mainStep kept s = some s') : Inv kept script s' := by
  obtain ⟨h1, h2, h3, h4, h5, h6, h7, h8, h9, h10⟩ := h
  simp only [mainStep] at hs
  split at hs
  · rename_i hm
    have hnf : s.main ≠ .failed := by rw [hm]; decide
    split at hs
    · rename_i rest hp
      cases hs
      refine ⟨fun hh => absurd rfl hh, h2, h3, h4, fun _ => ?_, h6, h7, fun _ b => absurd rfl b, fun hh => ?_, fun hh => ?_⟩
      · have := h1 hnf; rw [hp] at this; rw [← this]; simp
      · cases hh
      · cases hh
    · rename_i m rest hne hp
      cases hs
      refine ⟨fun _ => ?_, ?_, h3, h4, h5, h6, h7, fun a _ => absurd hm a, h9, h10⟩
      · have := h1 hnf; rw [hp] at this; simpa using this
      · simp only [List.mem_append, List.mem_singleton, not_or]
        exact ⟨h2, fun hh => hne hh.symm⟩
    · rename_i hp
      split at hs
      · rename_i hc
        cases hs
        simp only [Bool.and_eq_true, Bool.not_eq_true'] at hc
        refine ⟨fun _ => h1 hnf, h2, h3, h4, fun hh => ?_, h6, h7, fun _ _ => ⟨hc.1, hp, hc.2⟩, fun hh => ?_, fun hh => ?_⟩ <;> cases hh
      · cases hs
  · rename_i hm
    have hnf : s.main ≠ .failed := by rw [hm]; decide
    have hl := h8 (by rw [hm]; decide) hnf
    split at hs
    · cases hs
      refine ⟨fun _ => h1 hnf, h2, h3, h4, fun hh => ?_, h6, h7, fun _ _ => hl, fun hh => ?_, fun hh => ?_⟩ <;> cases hh
    · cases hs
  · rename_i hm
    have hnf : s.main ≠ .failed := by rw [hm]; decide
    have hl := h8 (by rw [hm]; decide) hnf
    split at hs
    · cases hs
    · rename_i ht
      cases hs
      refine ⟨fun _ => h1 hnf, h2, h3, h4, fun hh => ?_, h6, h7, fun _ _ => hl, fun _ => ht, fun hh => ?_⟩ <;> cases hh
    · rename_i ht
      cases hs
      refine ⟨fun _ => h1 hnf, h2, h3, h4, fun hh => ?_, h6, h7, fun _ _ => hl, fun hh => ?_, fun _ => ht⟩ <;> cases hh
  all_goals cases hs

theorem inv_thread (kept : Bool) (script : List Write) (s s' : Sys) (h : Inv kept script s)
    (hs : threadStep kept s = some s') : Inv kept script s' := by
  obtain ⟨h1, h2, h3, h4, h5, h6, h7, h8, h9, h10⟩ := h
  simp only [threadStep] at hs
  split at hs
  · rename_i ht
    have hnp : s.thread ≠ .panicked := by rw [ht]; decide
    have hnd : s.main ≠ .done := fun hh => by have := h9 hh; rw [ht] at this; cases this
    have hnk : s.main ≠ .panicked := fun hh => by have := h10 hh; rw [ht] at this; cases this
    split at hs
    · rename_i l rest hp
      cases hs
      refine ⟨h1, h2, fun _ => ?_, h4, h5, h6, fun hh => ?_, h8, h9, h10⟩
      · have := h3 hnp; rw [hp] at this; simpa using this
      · exact absurd hh (by rw [ht]; decide)
    · rename_i rest hp
      cases hs
      refine ⟨h1, h2, fun hh => absurd rfl hh, fun _ => ?_, h5, h6, fun hh => ?_, h8, fun hh => absurd hh hnd, fun hh => rfl⟩
      · have := h3 hnp; rw [hp] at this; rw [← this]; simp
      · cases hh
    · rename_i hp
      split at hs
      · rename_i hc
        cases hs
        simp only [Bool.and_eq_true, Bool.not_eq_true'] at hc
        refine ⟨h1, h2, fun _ => h3 hnp, fun hh => ?_, h5, h6, fun _ => ⟨hc.1, hp⟩, h8, fun _ => rfl, fun hh => absurd hh hnk⟩
        cases hh
      · cases hs
  · cases hs

theorem inv_reach {cap : Nat} {kept : Bool} {script : List Write} {n : Nat} {s : Sys} (h : Reach cap kept script n s) :
    Inv kept script s := by
  induction h with
  | start =>
    exact ⟨fun _ => rfl, by simp, fun _ => rfl, (fun hh => by cases hh), (fun hh => by cases hh), (fun hh => by cases hh),
      (fun hh => by cases hh), fun hh => absurd rfl hh, (fun hh => by cases hh), (fun hh => by cases hh)⟩
  | step a _ hs ih =>
    cases a with
    | cargo => exact inv_cargo _ _ _ _ _ ih hs
    | main => exact inv_main _ _ _ _ ih hs
    | thread => exact inv_thread _ _ _ _ ih hs

/-- What is left to do. -/
def left (s : Sys) : Nat :=
  2 * s.script.length + s.outPipe.length + s.errPipe.length + (if s.exited then 0 else 1) +
    (match s.main with | .reading => 3 | .waiting => 2 | .joining => 1 | _ => 0) +
    (match s.thread with | .reading => 1 | _ => 0)

theorem left_step (cap : Nat) (kept : Bool) (s s' : Sys) (a : Step) (h : sysStep cap kept s a = some s') : left s' < left s := by
  cases a with
  | cargo =>
    simp only [sysStep, cargoStep] at h
    repeat' split at h
    all_goals first
      | (cases h; done)
      | (cases h; simp_all [left]; try omega)
  | main =>
    simp only [sysStep, mainStep] at h
    repeat' split at h
    all_goals first
      | (cases h; done)
      | (cases h; simp_all [left]; try omega)
  | thread =>
    simp only [sysStep, threadStep] at h
    repeat' split at h
    all_goals first
      | (cases h; done)
      | (cases h; simp_all [left]; try omega)

theorem reach_left {cap : Nat} {kept : Bool} {script : List Write} {n : Nat} {s : Sys} (h : Reach cap kept script n s) :
    n + left s ≤ 2 * script.length + 5 := by
  induction h with
  | start => simp [left]
  | step a _ hs ih => have := left_step _ _ _ _ a hs; omega

/-- **C106 (nobody waits for ever).** For all output of cargo, all sizes of the pipes and all schedules: the number of steps is bounded,
    and as long as `build_ebpf` has not got to an end, some step can be taken. -/
theorem C106_no_deadlock (cap : Nat) (hcap : 0 < cap) (script : List Write) (n : Nat) (s : Sys) (h : Reach cap false script n s) :
    n ≤ 2 * script.length + 5 ∧
      (s.main ≠ .done → s.main ≠ .failed → s.main ≠ .panicked → ∃ a s', sysStep cap false s a = some s') := by
  have hl := reach_left h
  refine ⟨by omega, fun h1 h2 h3 => ?_⟩
  by_cases hm : s.main = .reading
  · rcases ho : s.outPipe with _ | ⟨m, rest⟩
    · by_cases he : s.exited = true
      · exact ⟨.main, _, by simp only [sysStep, mainStep, hm, ho, he]; rfl⟩
      · simp only [Bool.not_eq_true] at he
        rcases hs : s.script with _ | ⟨w, ws⟩
        · exact ⟨.cargo, _, by simp only [sysStep, cargoStep, hs, he]; rfl⟩
        · cases w with
          | out m => exact ⟨.cargo, _, by simp only [sysStep, cargoStep, hs, hm, ho, List.length_nil, hcap, if_true]; rfl⟩
          | err l =>
            by_cases hp : s.thread = .panicked
            · exact ⟨.cargo, _, by simp only [sysStep, cargoStep, hs, hp, if_true]; rfl⟩
            · rcases hep : s.errPipe with _ | ⟨x, xs⟩
              · exact ⟨.cargo, _, by simp only [sysStep, cargoStep, hs, hp, hep, List.length_nil, hcap, if_true, if_false]; rfl⟩
              · have ht : s.thread = .reading := by
                  rcases ht : s.thread
                  · rfl
                  · have := (inv_reach h).ended ht; rw [hep] at this; cases this.2
                  · exact absurd ht hp
                cases x with
                | none => exact ⟨.thread, _, by simp only [sysStep, threadStep, ht, hep]; rfl⟩
                | some l => exact ⟨.thread, _, by simp only [sysStep, threadStep, ht, hep]; rfl⟩
    · cases m with
      | invalid => exact ⟨.main, _, by simp only [sysStep, mainStep, hm, ho]; rfl⟩
      | artifact a b => exact ⟨.main, _, by simp only [sysStep, mainStep, hm, ho]; rfl⟩
      | message a => exact ⟨.main, _, by simp only [sysStep, mainStep, hm, ho]; rfl⟩
      | text a => exact ⟨.main, _, by simp only [sysStep, mainStep, hm, ho]; rfl⟩
      | other => exact ⟨.main, _, by simp only [sysStep, mainStep, hm, ho]; rfl⟩
  · have hlater := (inv_reach h).later hm h2
    rcases hm' : s.main
    · exact absurd hm' hm
    · exact ⟨.main, _, by simp only [sysStep, mainStep, hm', hlater.1, if_true]; rfl⟩
    · rcases ht : s.thread
      · rcases hep : s.errPipe with _ | ⟨x, xs⟩
        · exact ⟨.thread, _, by simp only [sysStep, threadStep, ht, hep, hlater.1]; rfl⟩
        · cases x with
          | none => exact ⟨.thread, _, by simp only [sysStep, threadStep, ht, hep]; rfl⟩
          | some l => exact ⟨.thread, _, by simp only [sysStep, threadStep, ht, hep]; rfl⟩
      · exact ⟨.main, _, by simp only [sysStep, mainStep, hm', ht]; rfl⟩
      · exact ⟨.main, _, by simp only [sysStep, mainStep, hm', ht]; rfl⟩
    · exact absurd hm' h2
    · exact absurd hm' h3
    · exact absurd hm' h1

/-- **C106 (nothing is lost).** When reading has ended well, every message was read and every line printed, in order. It ends in an error
    only if a message is malformed, and in a panic only if a line is not UTF-8 (`C106_not_utf8_violated`). -/
theorem C106_streams (cap : Nat) (kept : Bool) (script : List Write) (n : Nat) (s : Sys) (h : Reach cap kept script n s) :
    (s.main = .done → s.msgs = outs script ∧ s.lines.map some = errs script) ∧
    (s.main = .failed → Msg.invalid ∈ outs script) ∧ (s.main = .panicked → none ∈ errs script) := by
  have hi := inv_reach h
  refine ⟨fun hd => ?_, hi.failed, fun hp => hi.panic (hi.panicked hp)⟩
  have hnr : s.main ≠ .reading := by rw [hd]; decide
  have hnf : s.main ≠ .failed := by rw [hd]; decide
  have hl := hi.later hnr hnf
  have hs := hi.exit hl.1
  have ht := hi.done hd
  have h1 := hi.out hnf
  have h2 := hi.err (by rw [ht]; decide)
  rw [hl.2.1, hs] at h1
  rw [(hi.ended ht).2, hs] at h2
  exact ⟨by simpa [outs] using h1, by simpa [errs] using h2⟩

/-- **C106 refuted: a process left behind.** If a process started by cargo lives on with cargo's streams open, such as the server of a
    compiler cache, `build_ebpf` does not get to an end, whatever the schedule, although cargo has exited successfully. -/
theorem C106_left_behind_violated (cap : Nat) (script : List Write) (n : Nat) (s : Sys) (h : Reach cap true script n s) :
    s.main = .reading ∨ s.main = .failed := by
  by_cases h1 : s.main = .reading
  · exact .inl h1
  · by_cases h2 : s.main = .failed
    · exact .inr h2
    · have := ((inv_reach h).later h1 h2).2.2; cases this

/-- **C106 refuted: output that is not UTF-8.** A build that cargo has done successfully ends in a panic. -/
theorem C106_not_utf8_violated (out : Path) (fs : Fs) (o : Outcome) (hs : o.success = true) (hm : Msg.invalid ∉ o.msgs)
    (hu : none ∈ o.err) : (onePackage out fs (some o)).1 = .panic := by
  obtain ⟨ws, hw⟩ := collect_ok o.msgs hm
  have : o.err.any Option.isNone = true := List.any_eq_true.mpr ⟨none, hu, rfl⟩
  simp only [onePackage, hw, hs, this, Bool.not_true, Bool.false_eq_true, if_false, if_true]

/-- A schedule with pipes of one line, in which each of the three waits for another at some time. -/
example : ∃ s, Reach 1 false [.err (some ['a']), .err (some ['b']), .out .other, .out (.text ['x'])] 13 s ∧ s.main = .done ∧
    s.msgs = [.other, .text ['x']] ∧ s.lines = [['a'], ['b']] := by
  refine ⟨_, .step .main (.step .main (.step .main (.step .thread (.step .cargo (.step .main (.step .cargo (.step .main (.step .cargo
    (.step .thread (.step .cargo (.step .thread (.step .cargo .start rfl) rfl) rfl) rfl) rfl) rfl) rfl) rfl) rfl) rfl) rfl) rfl) rfl,
    rfl, rfl, rfl⟩

/-! ## The architecture -/

/-- **C106 (the architecture of a host, partial).** Outside of `build_ebpf` and without `AYA_BPF_TARGET_ARCH`, the value of
    `bpf_target_arch` is the architecture of the host, if the name of the host begins with a value the crates know, or with `riscv64`.
    See `C106_host_violated` for the others. -/
theorem C106_host_partial (env : Env) (part rest : Str) (hset : env "CARGO_CFG_BPF_TARGET_ARCH".toList = none)
    (hover : env "AYA_BPF_TARGET_ARCH".toList = none) (hhost : env "HOST".toList = some (.text (part ++ '-' :: rest)))
    (hdash : '-' ∉ part) (hk : part ∈ checked ∨ "riscv64".toList.isPrefixOf part = true) :
    emitCfg env = .ok (some (rustArch part)) ∧ rustArch part ∈ checked := by
  have hb : beforeDash (part ++ '-' :: rest) = part := by
    unfold beforeDash
    rw [List.takeWhile_append_of_pos]
    · simp
    · intro c hc
      simp only [bne_iff_ne, ne_eq]
      rintro rfl
      exact hdash hc
  have hfix : archFixup part = rustArch part ∧ rustArch part ∈ checked := by
    rcases hk with hk | hk
    · have : ∀ q ∈ checked, archFixup q = rustArch q ∧ rustArch q ∈ checked := by decide +kernel
      exact this part hk
    · have h1 : archFixup part = "riscv64".toList := by simp only [archFixup, hk, if_true]
      have h2 : ¬ ("arm".toList.isPrefixOf part = true ∨ "thumb".toList.isPrefixOf part = true) := by
        obtain ⟨t, rfl⟩ := List.isPrefixOf_iff_prefix.mp hk
        have ha : "riscv64".toList = ['r', 'i', 's', 'c', 'v', '6', '4'] := by decide +kernel
        have hb : "arm".toList = ['a', 'r', 'm'] := by decide +kernel
        have hc : "thumb".toList = ['t', 'h', 'u', 'm', 'b'] := by decide +kernel
        rw [ha, hb, hc]
        intro hh
        rcases hh with hh | hh <;> simp [List.isPrefixOf] at hh
      have h3 : rustArch part = "riscv64".toList := by simp only [rustArch, if_neg h2, hk, if_true]
      rw [h1, h3]
      exact ⟨rfl, by decide +kernel⟩
  simp only [emitCfg, hset, hover, hhost, hb]
  exact ⟨by rw [hfix.1], hfix.2⟩

/-- An environment with just a host. -/
def hostEnv (host : Str) : Env := fun n => if n = "HOST".toList then some (.text host) else none

example : emitCfg (hostEnv "riscv64gc-unknown-linux-gnu".toList) = .ok (some "riscv64".toList) ∧
    emitCfg (hostEnv "x86_64-unknown-linux-gnu".toList) = .ok (some "x86_64".toList) := by decide +kernel

/-- **C106 refuted: hosts with other names.** On 32-bit Arm and on little-endian POWER and MIPS, whose architectures `aya` has bindings
    for, the value emitted is the name of the host's processor, for which there are none and no C types. -/
theorem C106_host_violated : ∀ host ∈ ["armv7-unknown-linux-gnueabihf".toList, "armv5te-unknown-linux-gnueabi".toList,
      "powerpc64le-unknown-linux-gnu".toList, "mipsel-unknown-linux-gnu".toList, "mips64el-unknown-linux-gnuabi64".toList],
    rustArch (host.takeWhile (· != '-')) ∈ checked ∧
    ∃ a, emitCfg (hostEnv host) = .ok (some a) ∧ a ∉ checked ∧ charSigned a = none := by
  intro host h
  simp only [List.mem_cons, List.not_mem_nil, or_false] at h
  rcases h with rfl | rfl | rfl | rfl | rfl
  · exact ⟨by decide +kernel, "armv7".toList, by decide +kernel⟩
  · exact ⟨by decide +kernel, "armv5te".toList, by decide +kernel⟩
  · exact ⟨by decide +kernel, "powerpc64le".toList, by decide +kernel⟩
  · exact ⟨by decide +kernel, "mipsel".toList, by decide +kernel⟩
  · exact ⟨by decide +kernel, "mips64el".toList, by decide +kernel⟩

/-- Within `build_ebpf` nothing is emitted: the flag given there is the only one. -/
theorem C106_one_flag (env : Env) (v : Os) (h : env "CARGO_CFG_BPF_TARGET_ARCH".toList = some v) : emitCfg env = .ok none := by
  simp only [emitCfg, h]

/-- **C106 refuted: characters on MIPS.** `c_char` is unsigned on 32-bit MIPS, where C has it signed. On the other eight architectures it
    is as in C. -/
theorem C106_char_violated : charSigned "mips".toList = some false ∧ cCharSigned "mips".toList = true ∧
    ∀ a ∈ checked, a ≠ "mips".toList → charSigned a = some (cCharSigned a) := by decide +kernel

/-! ## Names that collide -/

def outDir : Path := [['o']]

/-- A cargo that makes one binary for each package, the name of which is given by `name`, and whose contents are the name of the
    package. -/
def demoBins (name : Str → Str) (r : Request) (_ : List Str) : List (Str × List UInt8) :=
  [(name (r.package.getD []), (r.package.getD []).map (fun c => c.toNat.toUInt8))]

def demoExe (r : Request) : Path := outDir ++ ["aya-build".toList, "target".toList, r.package.getD [], ['x']]

def demoCargo (name : Str → Str) : Cargo := fun cmd fs =>
  match readWords cmd.words with
  | none => none
  | some r => some {
      msgs := [.other, .artifact ['l'] none, .artifact (name (r.package.getD [])) (some (demoExe r))]
      err := [some ['F']]
      success := true
      fs := fun q =>
        if q = demoExe r then some (.file ((r.package.getD []).map (fun c => c.toNat.toUInt8)))
        else if q = outDir ++ ["aya-build".toList] then some .dir
        else fs q }

theorem demoCargo_behaves (name : Str → Str) : Behaves (demoCargo name) outDir (demoBins name) := by
  have hlen : ∀ r m, demoExe r ≠ outDir ++ [m] := by
    intro r m hh
    have := congrArg List.length hh
    simp [demoExe, outDir] at this
  have key : ∀ cmd fs o, demoCargo name cmd fs = some o → ∃ r, readWords cmd.words = some r ∧
      o.msgs = [.other, .artifact ['l'] none, .artifact (name (r.package.getD [])) (some (demoExe r))] ∧ o.err = [some ['F']] ∧
      o.fs = fun q =>
        if q = demoExe r then some (.file ((r.package.getD []).map (fun c => c.toNat.toUInt8)))
        else if q = outDir ++ ["aya-build".toList] then some .dir
        else fs q := by
    intro cmd fs o h
    simp only [demoCargo] at h
    rcases e : readWords cmd.words with _ | r
    · rw [e] at h; cases h
    · rw [e] at h; cases h; exact ⟨r, rfl, rfl, rfl, rfl⟩
  refine ⟨?_, ?_, ?_, ?_, ?_, ?_⟩
  · intro cmd req fs o hr h _
    obtain ⟨r, h1, h2, h3, h4⟩ := key cmd fs o h
    rw [hr] at h1
    cases h1
    rw [h2, h4]
    simp only [reported, List.filterMap_cons, List.filterMap_nil, List.map_cons, List.map_nil, if_true, demoBins]
  · intro cmd fs o h x hx m
    obtain ⟨r, h1, h2, h3, h4⟩ := key cmd fs o h
    rw [h2] at hx
    simp only [reported, List.filterMap_cons, List.filterMap_nil, List.mem_singleton] at hx
    subst hx
    exact hlen r m
  · intro cmd fs o h ho
    obtain ⟨r, h1, h2, h3, h4⟩ := key cmd fs o h
    rw [h4]
    simp only
    rw [if_neg, if_neg]
    · exact ho
    · simp [outDir]
    · simp [outDir, demoExe]
  · intro cmd fs o h m hm
    obtain ⟨r, h1, h2, h3, h4⟩ := key cmd fs o h
    rw [h4]
    simp only
    rw [if_neg (fun hh => hlen r m hh.symm), if_neg]
    rw [append_inj]; exact hm
  · intro cmd fs o h
    obtain ⟨r, h1, h2, h3, h4⟩ := key cmd fs o h
    rw [h2]; simp
  · intro cmd fs o h
    obtain ⟨r, h1, h2, h3, h4⟩ := key cmd fs o h
    rw [h3]; simp

theorem demoCargo_succeeds (name : Str → Str) (cmd : Cmd) (fs : Fs) (r : Request) (h : readWords cmd.words = some r) :
    ∃ o, demoCargo name cmd fs = some o ∧ o.success = true := by
  simp only [demoCargo, h]
  exact ⟨_, rfl, rfl⟩

def demoWorld (name : Str → Str) : World where
  env n :=
    if n = "CARGO_CFG_TARGET_ENDIAN".toList then some (.text "little".toList)
    else if n = "CARGO_CFG_TARGET_ARCH".toList then some (.text "x86_64".toList)
    else none
  rustup := some "rustup".toList
  nightly := some true
  outDir := some outDir
  cargo := demoCargo name

theorem demoWorld_surroundings (name : Str → Str) : Surroundings (demoWorld name) outDir false "x86_64".toList true where
  skip s h := by
    have : (demoWorld name).env "AYA_BUILD_SKIP".toList = none := by
      simp only [demoWorld]
      rw [if_neg (by decide +kernel), if_neg (by decide +kernel)]
    rw [this] at h; cases h
  dir := rfl
  endian := by simp only [demoWorld, if_true]; decide +kernel
  told := by
    simp only [demoWorld]
    rw [if_neg (by decide +kernel), if_true]
  plain := by decide +kernel
  channel := rfl
  rustup r h := by simp only [demoWorld, Option.some.injEq] at h; subst h; decide +kernel

def demoFs : Fs := fun p => if p = outDir then some .dir else none

def demoPackages : List Package := [{ name := ['a'], features := [['f'], ['g', 'h']] }, { name := ['b'], noDefaultFeatures := true }]

/-- Two packages, each with a binary of its own name. -/
example : (buildEbpf (demoWorld id) demoPackages .nightly demoFs).1 = .ok ∧
    (buildEbpf (demoWorld id) demoPackages .nightly demoFs).2.1 [['o'], ['a']] = some (.file [97]) ∧
    (buildEbpf (demoWorld id) demoPackages .nightly demoFs).2.1 [['o'], ['b']] = some (.file [98]) ∧
    (buildEbpf (demoWorld id) demoPackages .nightly demoFs).2.2 = [['F'], ['F']] := by decide +kernel

example : ∃ fs' ws, buildEbpf (demoWorld id) demoPackages .nightly demoFs = (.ok, fs', ws) := by
  apply C106_succeeds_partial (demoWorld id) outDir false _ true (demoWorld_surroundings id) (demoBins id) (demoCargo_behaves id)
  · intro p hp x hx
    simp only [demoPackages, List.mem_cons, List.not_mem_nil, or_false] at hp
    rcases hp with rfl | rfl
    · simp only [List.mem_cons, List.not_mem_nil, or_false] at hx
      rcases hx with rfl | rfl <;> decide
    · cases hx
  · intro p hp cmd fs0 h
    exact demoCargo_succeeds id cmd fs0 _ h
  · rfl
  · intro p hp b hb
    simp only [demoPackages, List.mem_cons, List.not_mem_nil, or_false] at hp
    rcases hp with rfl | rfl <;> simp only [demoBins, requestOf, wanted, List.mem_singleton, Option.getD_some, id] at hb <;> subst hb <;>
      decide +kernel
  · intro p hp b hb
    simp only [demoPackages, List.mem_cons, List.not_mem_nil, or_false] at hp
    rcases hp with rfl | rfl <;> simp only [demoBins, requestOf, wanted, List.mem_singleton, Option.getD_some, id] at hb <;> subst hb <;>
      decide +kernel

/-- The hypotheses of `C106_built_partial` of names. -/
example : ((demoPackages.flatMap fun p => demoBins id (requestOf (demoWorld id) outDir false true .nightly p) []).map (·.1)) =
    [['a'], ['b']] := by decide +kernel

/-- **C106 refuted: binaries of the same name.** Two packages each have a binary called `m`. Building succeeds, and the binary of the first
    package is not in `OUT_DIR`: the second has been copied over it. -/
theorem C106_same_name_violated :
    ∃ (w : World) (ps : List Package) (bins : Request → List Str → List (Str × List UInt8)),
      Surroundings w outDir false "x86_64".toList true ∧ Behaves w.cargo outDir bins ∧
      (buildEbpf w ps .nightly demoFs).1 = .ok ∧
      ∃ p ∈ ps, ∃ b ∈ bins (requestOf w outDir false true .nightly p) (ebpfFlags "x86_64".toList),
        (buildEbpf w ps .nightly demoFs).2.1 (outDir ++ [b.1]) ≠ some (.file b.2) := by
  refine ⟨demoWorld (fun _ => ['m']), demoPackages, demoBins (fun _ => ['m']), demoWorld_surroundings _, demoCargo_behaves (fun _ => ['m']),
    by decide +kernel, { name := ['a'], features := [['f'], ['g', 'h']] }, by decide, (['m'], [97]), by decide +kernel, by decide +kernel⟩

/-- **C106 refuted: the reserved name.** A package has a binary called `aya-build`. cargo succeeds, and building fails. -/
theorem C106_reserved_name_violated :
    ∃ (w : World) (ps : List Package) (bins : Request → List Str → List (Str × List UInt8)),
      Surroundings w outDir false "x86_64".toList true ∧ Behaves w.cargo outDir bins ∧
      (∀ p ∈ ps, ∀ cmd fs, readWords cmd.words = some (requestOf w outDir false true .nightly p) →
        ∃ o, w.cargo cmd fs = some o ∧ o.success = true) ∧
      (buildEbpf w ps .nightly demoFs).1 = .err .copy := by
  refine ⟨demoWorld (fun _ => "aya-build".toList), [{ name := ['a'] }], demoBins (fun _ => "aya-build".toList), demoWorld_surroundings _,
    demoCargo_behaves (fun _ => "aya-build".toList), fun p hp cmd fs h => demoCargo_succeeds (fun _ => "aya-build".toList) cmd fs _ h, by decide +kernel⟩

/-- The hypotheses of `C106_not_utf8_violated`. -/
example : (onePackage outDir demoFs (some { msgs := [.other], err := [some ['a'], none], success := true, fs := demoFs })).1 = .panic :=
  C106_not_utf8_violated _ _ _ rfl (by decide) (by decide)

/-- Whoever is asked to skip builds nothing. -/
theorem C106_skips (w : World) (ps : List Package) (tc : Toolchain) (fs : Fs) (s : Str)
    (h : w.env "AYA_BUILD_SKIP".toList = some (.text s)) (hs : s = "1".toList ∨ s.map Char.toLower = "true".toList) :
    buildEbpf w ps tc fs = (.ok, fs, []) := by
  have : skips w.env = true := by
    simp only [skips, h, isTrue, Bool.or_eq_true, beq_iff_eq]
    exact hs
  simp only [buildEbpf, this, if_true]

example : ("TrUe".toList).map Char.toLower = "true".toList := by decide +kernel

end Verif.Build
