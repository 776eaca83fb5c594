import Verif.Core.Basic
/-! # C19: what a relocation does to the instructions -/
set_option linter.unusedSimpArgs false
set_option linter.unusedVariables false
namespace Verif.Core
open Verif.Btf Verif.Btf.Spec Verif.Core.Spec Verif.Bpf

theorem toI32_holds (v : Nat) : Holds32 (toI32 v) v := by
  unfold Holds32 toI32
  have h1 := Int.emod_nonneg ((v : Int) + 2 ^ 31) (b := 2 ^ 32) (by decide)
  have h2 := Int.emod_lt_of_pos ((v : Int) + 2 ^ 31) (b := 2 ^ 32) (by decide)
  simp only [Int.reducePow] at h1 h2 ⊢
  omega

/-- The recombined opcode keeps class and mode and gets the new width. -/
theorem code_bits : ∀ c : Fin 256, ∀ w ∈ [0, 8, 16, 24], ((c.1 &&& 0xE0) ||| w ||| (c.1 &&& 7)) % 8 = c.1 % 8 ∧
    ((c.1 &&& 0xE0) ||| w ||| (c.1 &&& 7)) / 32 = c.1 / 32 ∧ ((c.1 &&& 0xE0) ||| w ||| (c.1 &&& 7)) / 8 % 4 = w / 8 := by
  decide +kernel

theorem mayResize_ok {l t : BtfType} (h : mayResize l t = true) : Resizable l t := by
  unfold mayResize at h
  split at h
  · exact .inl ⟨_, _, _, _, _, _, rfl, rfl⟩
  · simp only [Bool.and_eq_true, intUnsigned, beq_iff_eq] at h
    exact .inr ⟨_, _, _, _, _, _, _, _, rfl, rfl, by simp only [isSigned]; omega, by simp only [isSigned]; omega⟩
  · cases h

theorem patchMem_ok {lb tb : Btf} {loc target : CVal} {ins ins' : Insn} (hc : ins.code < 256)
    (h : patchMem lb tb loc target ins = .ok ins') :
    target.value < 2 ^ 15 ∧ ins' = { ins with off := target.value, code := ins'.code } ∧
    (loc.size = target.size → ins'.code = ins.code) ∧
    (loc.size ≠ target.size → cls ins' = cls ins ∧ mode ins' = mode ins ∧ accessBytes ins' = target.size ∧
      ∃ l t lt tt, loc.tyId = some l ∧ target.tyId = some t ∧ lb.types[l]? = some lt ∧ tb.types[t]? = some tt ∧
        Resizable lt tt) := by
  unfold patchMem at h
  split at h
  · cases h
  · rename_i hv
    split at h
    · rename_i hs
      cases h
      exact ⟨by omega, rfl, fun _ => rfl, fun h => absurd hs h⟩
    · rename_i hs
      split at h
      · rename_i l t hl ht
        obtain ⟨lt, h1, h⟩ := bind_ok.mp h
        obtain ⟨tt, h2, h⟩ := bind_ok.mp h
        have h1 := typeById_ok.mp (lift_ok.mp h1)
        have h2 := typeById_ok.mp (lift_ok.mp h2)
        split at h
        · rename_i hr
          split at h
          · rename_i w hw
            cases h
            have hb := code_bits ⟨ins.code, hc⟩
            refine ⟨by omega, rfl, fun h => absurd h hs, fun _ => ?_⟩
            have hmem : w ∈ [0, 8, 16, 24] ∧ (match w / 8 with | 0 => 4 | 1 => 2 | 2 => 1 | _ => 8) = target.size := by
              unfold widthBits at hw
              split at hw <;> first | (rename_i hsz; cases hw; rw [hsz]; decide) | cases hw
            obtain ⟨g1, g2, g3⟩ := hb w hmem.1
            refine ⟨g1, g2, ?_, l, t, lt, tt, hl, ht, h1, h2, mayResize_ok hr⟩
            unfold accessBytes
            simp only at g3 ⊢
            rw [g3]
            exact hmem.2
          · cases h
        · cases h
      · cases h
      · obtain ⟨_, _, h⟩ := bind_ok.mp h
        cases h

/-- **C19.** If applying a relocation succeeds then there are as many instructions as before and only the relocated one
and the one after it may differ, the latter only when the relocated one is of class LD (`ld_imm64` takes two slots).

Without a target value the instruction is replaced by one the verifier rejects, as is the second half of an `ld_imm64`.
With a value: an arithmetic instruction has its immediate replaced by the value's low 32 bits; a load or store has its
offset replaced by the value, which fits, and keeps class and mode, also its width when the sizes of the field agree, while
otherwise it accesses as many bytes as the kernel's field has, which is only done between pointers or unsigned
integers; of an `ld_imm64` the two immediates are replaced by the two halves of the value. All other fields are kept, and
no other class is patched. -/
theorem C19_patch (lb tb : Btf) (c : Comp) (insns out : List Insn) (i : Nat) (hwf : ∀ x ∈ insns, x.code < 256)
    (h : apply lb tb c insns i = .ok out) :
    out.length = insns.length ∧ (∀ j, j ≠ i → j ≠ i + 1 → out[j]? = insns[j]?) ∧
    ∃ ins ins', insns[i]? = some ins ∧ out[i]? = some ins' ∧
      (cls ins ≠ 0 → out[i + 1]? = insns[i + 1]?) ∧
      (c.target = none → ins' = poisoned ∧ (ins.code = 0x18 → out[i + 1]? = some poisoned) ∧
        (ins.code ≠ 0x18 → out[i + 1]? = insns[i + 1]?)) ∧
      (∀ t, c.target = some t →
        (cls ins = 4 ∨ cls ins = 7 → ins.src = 0 ∧ ∃ imm, ins' = { ins with imm := imm } ∧ Holds32 imm t.value) ∧
        (cls ins = 1 ∨ cls ins = 2 ∨ cls ins = 3 →
          t.value < 2 ^ 15 ∧ ins' = { ins with off := t.value, code := ins'.code } ∧
          (c.loc.size = t.size → ins'.code = ins.code) ∧
          (c.loc.size ≠ t.size → cls ins' = cls ins ∧ mode ins' = mode ins ∧ accessBytes ins' = t.size ∧
            ∃ l k lt kt, c.loc.tyId = some l ∧ t.tyId = some k ∧ lb.types[l]? = some lt ∧ tb.types[k]? = some kt ∧
              Resizable lt kt)) ∧
        (cls ins = 0 → ∃ next lo hi, insns[i + 1]? = some next ∧ ins' = { ins with imm := lo } ∧
          out[i + 1]? = some { next with imm := hi } ∧ Holds32 lo t.value ∧ Holds32 hi (t.value / 2 ^ 32)) ∧
        cls ins ≠ 5 ∧ cls ins ≠ 6) := by
  unfold apply at h
  cases hi : insns[i]? with
  | none => rw [hi] at h; cases h
  | some ins =>
    rw [hi] at h
    simp only at h
    have hlt : i < insns.length := by
      have := List.getElem?_eq_some_iff.mp hi; exact this.1
    have hmem : ins ∈ insns := List.mem_of_getElem? hi
    have frame1 : ∀ (x : Insn) (j : Nat), j ≠ i → (insns.set i x)[j]? = insns[j]? := by
      intro x j hj; rw [List.getElem?_set_ne (by omega)]
    have frame2 : ∀ (x y : Insn) (j : Nat), j ≠ i → j ≠ i + 1 → ((insns.set i x).set (i + 1) y)[j]? = insns[j]? := by
      intro x y j h1 h2; rw [List.getElem?_set_ne (by omega), List.getElem?_set_ne (by omega)]
    have at1 : ∀ x : Insn, (insns.set i x)[i]? = some x := by
      intro x; rw [List.getElem?_set_self hlt]
    have at2 : ∀ x y : Insn, ((insns.set i x).set (i + 1) y)[i]? = some x := by
      intro x y; rw [List.getElem?_set_ne (by omega)]; exact at1 x
    cases ht : c.target with
    | none =>
      rw [ht] at h
      simp only at h
      split at h
      · rename_i h18
        split at h
        · rename_i hlen
          cases h
          refine ⟨by simp, frame2 _ _, ins, poison, rfl, at2 _ _, fun h => ?_, fun _ => ⟨rfl, fun _ => ?_, fun h => absurd h18 h⟩,
            fun t h => by cases h⟩
          · exact absurd (show cls ins = 0 by unfold cls; rw [h18]) h
          · rw [List.getElem?_set_self (by simpa using hlen)]; rfl
        · cases h
      · rename_i h18
        cases h
        refine ⟨by simp, fun j h1 _ => frame1 _ j h1, ins, poison, rfl, at1 _, fun _ => frame1 _ _ (by omega),
          fun _ => ⟨rfl, fun h => absurd h h18, fun _ => frame1 _ _ (by omega)⟩, fun t h => by cases h⟩
    | some t =>
      rw [ht] at h
      simp only at h
      have alu : ins.src = 0 → cls ins = 4 ∨ cls ins = 7 → out = insns.set i { ins with imm := toI32 t.value } →
          out.length = insns.length ∧ (∀ j, j ≠ i → j ≠ i + 1 → out[j]? = insns[j]?) ∧
          ∃ ins1 ins', some ins = some ins1 ∧ out[i]? = some ins' ∧
            (cls ins1 ≠ 0 → out[i + 1]? = insns[i + 1]?) ∧
            (some t = none → ins' = poisoned ∧ (ins1.code = 0x18 → out[i + 1]? = some poisoned) ∧
              (ins1.code ≠ 0x18 → out[i + 1]? = insns[i + 1]?)) ∧
            (∀ t', some t = some t' →
              (cls ins1 = 4 ∨ cls ins1 = 7 → ins1.src = 0 ∧ ∃ imm, ins' = { ins1 with imm := imm } ∧ Holds32 imm t'.value) ∧
              (cls ins1 = 1 ∨ cls ins1 = 2 ∨ cls ins1 = 3 →
                t'.value < 2 ^ 15 ∧ ins' = { ins1 with off := t'.value, code := ins'.code } ∧
                (c.loc.size = t'.size → ins'.code = ins1.code) ∧
                (c.loc.size ≠ t'.size → cls ins' = cls ins1 ∧ mode ins' = mode ins1 ∧ accessBytes ins' = t'.size ∧
                  ∃ l k lt kt, c.loc.tyId = some l ∧ t'.tyId = some k ∧ lb.types[l]? = some lt ∧ tb.types[k]? = some kt ∧
                    Resizable lt kt)) ∧
              (cls ins1 = 0 → ∃ next lo hi, insns[i + 1]? = some next ∧ ins' = { ins1 with imm := lo } ∧
                out[i + 1]? = some { next with imm := hi } ∧ Holds32 lo t'.value ∧ Holds32 hi (t'.value / 2 ^ 32)) ∧
              cls ins1 ≠ 5 ∧ cls ins1 ≠ 6) := by
        rintro hsrc hcls rfl
        refine ⟨by simp, fun j h1 _ => frame1 _ j h1, ins, _, rfl, at1 _, fun _ => frame1 _ _ (by omega), ?_, ?_⟩
        · intro h; cases h
        · intro t' h
          cases h
          exact ⟨fun _ => ⟨hsrc, _, rfl, toI32_holds _⟩, fun h => by omega, fun h => by omega, by omega, by omega⟩
      have mem : cls ins = 1 ∨ cls ins = 2 ∨ cls ins = 3 →
          (match patchMem lb tb c.loc t ins with
            | .error e => .error e
            | .ok ins' => .ok (insns.set i ins')) = (.ok out : Except RFail (List Insn)) →
          out.length = insns.length ∧ (∀ j, j ≠ i → j ≠ i + 1 → out[j]? = insns[j]?) ∧
          ∃ ins1 ins', some ins = some ins1 ∧ out[i]? = some ins' ∧
            (cls ins1 ≠ 0 → out[i + 1]? = insns[i + 1]?) ∧
            (some t = none → ins' = poisoned ∧ (ins1.code = 0x18 → out[i + 1]? = some poisoned) ∧
              (ins1.code ≠ 0x18 → out[i + 1]? = insns[i + 1]?)) ∧
            (∀ t', some t = some t' →
              (cls ins1 = 4 ∨ cls ins1 = 7 → ins1.src = 0 ∧ ∃ imm, ins' = { ins1 with imm := imm } ∧ Holds32 imm t'.value) ∧
              (cls ins1 = 1 ∨ cls ins1 = 2 ∨ cls ins1 = 3 →
                t'.value < 2 ^ 15 ∧ ins' = { ins1 with off := t'.value, code := ins'.code } ∧
                (c.loc.size = t'.size → ins'.code = ins1.code) ∧
                (c.loc.size ≠ t'.size → cls ins' = cls ins1 ∧ mode ins' = mode ins1 ∧ accessBytes ins' = t'.size ∧
                  ∃ l k lt kt, c.loc.tyId = some l ∧ t'.tyId = some k ∧ lb.types[l]? = some lt ∧ tb.types[k]? = some kt ∧
                    Resizable lt kt)) ∧
              (cls ins1 = 0 → ∃ next lo hi, insns[i + 1]? = some next ∧ ins' = { ins1 with imm := lo } ∧
                out[i + 1]? = some { next with imm := hi } ∧ Holds32 lo t'.value ∧ Holds32 hi (t'.value / 2 ^ 32)) ∧
              cls ins1 ≠ 5 ∧ cls ins1 ≠ 6) := by
        intro hcls h
        cases hp : patchMem lb tb c.loc t ins with
        | error e => rw [hp] at h; cases h
        | ok ins' =>
          rw [hp] at h
          cases h
          have hpm := patchMem_ok (hwf ins hmem) hp
          refine ⟨by simp, fun j h1 _ => frame1 _ j h1, ins, ins', rfl, at1 _, fun _ => frame1 _ _ (by omega), ?_, ?_⟩
          · intro h; cases h
          · intro t' h
            cases h
            exact ⟨fun h => by omega, fun _ => hpm, fun h => by omega, by omega, by omega⟩
      split at h
      · split at h
        · cases h
        · rename_i hc hs
          cases h
          exact alu (by simpa using hs) (.inl hc) rfl
      · split at h
        · cases h
        · rename_i hc hs
          cases h
          exact alu (by simpa using hs) (.inr hc) rfl
      · rename_i hc; exact mem (.inl hc) h
      · rename_i hc; exact mem (.inr (.inl hc)) h
      · rename_i hc; exact mem (.inr (.inr hc)) h
      · rename_i hc
        have hc : cls ins = 0 := hc
        cases hn : insns[i + 1]? with
        | none => rw [hn] at h; cases h
        | some next =>
          rw [hn] at h
          cases h
          have hlen : i + 1 < insns.length := (List.getElem?_eq_some_iff.mp hn).1
          refine ⟨by simp, frame2 _ _, ins, _, rfl, at2 _ _, fun h => absurd hc h, ?_, ?_⟩
          · intro h; cases h
          · intro t' h
            cases h
            refine ⟨fun h => by omega, fun h => by omega, fun _ => ⟨next, _, _, rfl, rfl, ?_, toI32_holds _, toI32_holds _⟩,
              by omega, by omega⟩
            rw [List.getElem?_set_self (by simpa using hlen)]
      · cases h

end Verif.Core
