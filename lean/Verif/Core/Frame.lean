import Verif.Core.Apply
/-! # C19 for the whole pass: only relocated instructions change -/
set_option linter.unusedSimpArgs false
set_option linter.unusedVariables false
namespace Verif.Core
open Verif.Btf Verif.Btf.Spec Verif.Core.Spec Verif.Bpf

/-- Instructions of 8-bit opcodes. -/
def CodesOk (insns : List Insn) : Prop := ∀ x ∈ insns, x.code < 256

theorem code_small : ∀ c : Fin 256, ∀ w ∈ [0, 8, 16, 24], ((c.1 &&& 0xE0) ||| w ||| (c.1 &&& 7)) < 256 := by
  decide +kernel

theorem patchMem_code {lb tb : Btf} {loc target : CVal} {ins ins' : Insn} (hc : ins.code < 256)
    (h : patchMem lb tb loc target ins = .ok ins') : ins'.code < 256 := by
  unfold patchMem at h
  split at h
  · cases h
  · split at h
    · cases h; exact hc
    · split at h
      · obtain ⟨lt, h1, h⟩ := bind_ok.mp h
        obtain ⟨tt, h2, h⟩ := bind_ok.mp h
        split at h
        · split at h
          · rename_i w hw
            cases h
            refine code_small ⟨ins.code, hc⟩ w ?_
            unfold widthBits at hw
            split at hw <;> first | (cases hw; decide) | cases hw
          · cases h
        · cases h
      · cases h
      · obtain ⟨_, _, h⟩ := bind_ok.mp h
        cases h

theorem codesOk_set {insns : List Insn} {i : Nat} {x : Insn} (h : CodesOk insns) (hx : x.code < 256) :
    CodesOk (insns.set i x) := by
  intro y hy
  rcases List.mem_or_eq_of_mem_set hy with hy | rfl
  · exact h y hy
  · exact hx

theorem apply_codes {lb tb : Btf} {c : Comp} {insns out : List Insn} {i : Nat} (hwf : CodesOk insns)
    (h : apply lb tb c insns i = .ok out) : CodesOk out := by
  unfold apply at h
  cases hi : insns[i]? with
  | none => rw [hi] at h; cases h
  | some ins =>
    have hins := hwf ins (List.mem_of_getElem? hi)
    rw [hi] at h
    simp only at h
    cases ht : c.target with
    | none =>
      rw [ht] at h
      simp only at h
      split at h
      · split at h
        · cases h; exact codesOk_set (codesOk_set hwf (by decide)) (by decide)
        · cases h
      · cases h; exact codesOk_set hwf (by decide)
    | some t =>
      rw [ht] at h
      simp only at h
      split at h
      · split at h
        · cases h
        · cases h; exact codesOk_set hwf hins
      · split at h
        · cases h
        · cases h; exact codesOk_set hwf hins
      · split at h
        · cases h
        · rename_i hp; cases h; exact codesOk_set hwf (patchMem_code hins hp)
      · split at h
        · cases h
        · rename_i hp; cases h; exact codesOk_set hwf (patchMem_code hins hp)
      · split at h
        · cases h
        · rename_i hp; cases h; exact codesOk_set hwf (patchMem_code hins hp)
      · cases hn : insns[i + 1]? with
        | none => rw [hn] at h; cases h
        | some next =>
          rw [hn] at h
          cases h
          exact codesOk_set (codesOk_set hwf hins) (hwf next (List.mem_of_getElem? hn))
      · cases h

/-- `out` differs from `insns` at most at the positions `hit` and, after a hit of class LD, at the next one; an
instruction not of class LD does not become one. -/
structure Frame (hit : Nat → Prop) (insns out : List Insn) : Prop where
  length : out.length = insns.length
  same : ∀ j, ¬ hit j → (∀ j', j = j' + 1 → hit j' → ∀ x, insns[j']? = some x → cls x ≠ 0) → out[j]? = insns[j]?
  notLd : ∀ (j : Nat) (x : Insn), insns[j]? = some x → cls x ≠ 0 → ∃ y, out[j]? = some y ∧ cls y ≠ 0
  codes : CodesOk insns → CodesOk out

theorem Frame.refl (insns : List Insn) (hit : Nat → Prop) : Frame hit insns insns :=
  ⟨rfl, fun _ _ _ => rfl, fun _ x h h' => ⟨x, h, h'⟩, id⟩

theorem Frame.trans {hit hit' : Nat → Prop} {a b c : List Insn} (h1 : Frame hit a b) (h2 : Frame hit' b c) :
    Frame (fun j => hit j ∨ hit' j) a c := by
  refine ⟨h2.length.trans h1.length, ?_, ?_, fun h => h2.codes (h1.codes h)⟩
  · intro j hj hld
    rw [h2.same j (fun h => hj (.inr h)) ?_, h1.same j (fun h => hj (.inl h)) ?_]
    · intro j' e h x hx; exact hld j' e (.inl h) x hx
    · intro j' e h y hy
      cases hx : a[j']? with
      | none =>
        have e1 := List.getElem?_eq_none_iff.mp hx
        have e2 := (List.getElem?_eq_some_iff.mp hy).1
        have := h1.length
        omega
      | some x =>
        obtain ⟨y', hy', hc⟩ := h1.notLd j' x hx (hld j' e (.inr h) x hx)
        rw [hy] at hy'; cases hy'; exact hc
  · intro j x hx hc
    obtain ⟨y, hy, hc'⟩ := h1.notLd j x hx hc
    exact h2.notLd j y hy hc'

theorem Frame.mono {hit hit' : Nat → Prop} {a b : List Insn} (h : Frame hit a b) (hh : ∀ j, hit j → hit' j) :
    Frame hit' a b :=
  ⟨h.length, fun j hj hld => h.same j (fun x => hj (hh j x)) (fun j' e x => hld j' e (hh j' x)), h.notLd, h.codes⟩

theorem apply_frame {lb tb : Btf} {c : Comp} {insns out : List Insn} {i : Nat} (hwf : CodesOk insns)
    (h : apply lb tb c insns i = .ok out) : Frame (· = i) insns out := by
  obtain ⟨hlen, hsame, ins, ins', h1, h2, h3, h4, h5⟩ := C19_patch lb tb c insns out i hwf h
  have hcls : cls ins ≠ 0 → cls ins' ≠ 0 := by
    intro hc
    cases ht : c.target with
    | none => rw [(h4 ht).1]; decide
    | some t =>
      obtain ⟨ga, gm, gl, g5, g6⟩ := h5 t ht
      have hb : cls ins < 8 := Nat.mod_lt _ (by omega)
      by_cases ha : cls ins = 4 ∨ cls ins = 7
      · obtain ⟨_, imm, e, _⟩ := ga ha
        rw [e]; exact hc
      · have hm : cls ins = 1 ∨ cls ins = 2 ∨ cls ins = 3 := by omega
        obtain ⟨_, _, e1, e2⟩ := gm hm
        by_cases hsz : c.loc.size = t.size
        · unfold cls; rw [e1 hsz]; exact hc
        · rw [(e2 hsz).1]; exact hc
  refine ⟨hlen, ?_, ?_, fun _ => apply_codes hwf h⟩
  · intro j hj hld
    by_cases e : j = i + 1
    · subst e
      exact h3 (hld i rfl rfl ins h1)
    · exact hsame j hj e
  · intro j x hx hc
    by_cases e : j = i
    · subst e
      rw [h1] at hx; cases hx
      exact ⟨ins', h2, hcls hc⟩
    · by_cases e' : j = i + 1
      · subst e'
        by_cases hc0 : cls ins = 0
        · cases ht : c.target with
          | none =>
            by_cases h18 : ins.code = 0x18
            · exact ⟨poisoned, (h4 ht).2.1 h18, by decide⟩
            · exact ⟨x, by rw [(h4 ht).2.2 h18]; exact hx, hc⟩
          | some t =>
            obtain ⟨_, _, gl, _, _⟩ := h5 t ht
            obtain ⟨next, lo, hi, g1, _, g3, _, _⟩ := gl hc0
            rw [hx] at g1; cases g1
            exact ⟨_, g3, hc⟩
        · exact ⟨x, by rw [h3 hc0]; exact hx, hc⟩
      · exact ⟨x, by rw [hsame j e e']; exact hx, hc⟩

/-- What one pass over relocations keeps: every function keeps everything but its instructions, and these are framed by
`hit`, which says which instructions of a function are relocated. -/
structure Kept (hit : Linker.Func → Nat → Prop) (fs out : List (Nat × Linker.Func)) : Prop where
  length : out.length = fs.length
  each : ∀ (k key : Nat) (f : Linker.Func), fs[k]? = some (key, f) → ∃ insns : List Insn, out[k]? = some (key, { f with insns := insns }) ∧
    Frame (hit f) f.insns insns

theorem Kept.refl (fs : List (Nat × Linker.Func)) (hit : Linker.Func → Nat → Prop) : Kept hit fs fs :=
  ⟨rfl, fun k key f h => ⟨f.insns, h, Frame.refl _ _⟩⟩

theorem Kept.trans {hit hit' hit'' : Linker.Func → Nat → Prop} {a b c : List (Nat × Linker.Func)}
    (h1 : Kept hit a b) (h2 : Kept hit' b c)
    (hh : ∀ f j insns, (hit f j → hit'' f j) ∧ (hit' { f with insns := insns } j → hit'' f j)) : Kept hit'' a c := by
  refine ⟨h2.length.trans h1.length, ?_⟩
  intro k key f hf
  obtain ⟨insns, hb, fr⟩ := h1.each k key f hf
  obtain ⟨insns', hc, fr'⟩ := h2.each k key _ hb
  refine ⟨insns', hc, (fr.trans fr').mono ?_⟩
  rintro j (h | h)
  · exact (hh f j f.insns).1 h
  · exact (hh f j insns).2 h

/-- Functions that fit into the address space, with 8-bit opcodes. -/
def FuncsOk (fs : List (Nat × Linker.Func)) : Prop :=
  ∀ p ∈ fs, CodesOk p.2.insns ∧ p.2.sectionOffset + 8 * p.2.insns.length ≤ 2 ^ 64

theorem kept_funcsOk {hit : Linker.Func → Nat → Prop} {a b : List (Nat × Linker.Func)} (h : Kept hit a b) (ha : FuncsOk a) :
    FuncsOk b := by
  intro p hp
  obtain ⟨k, hk, e⟩ := List.mem_iff_getElem.mp hp
  have hka : k < a.length := by have := h.length; omega
  rcases hp' : a[k] with ⟨key, f⟩
  have haf : a[k]? = some (key, f) := by rw [List.getElem?_eq_getElem hka, hp']
  obtain ⟨insns, hb, fr⟩ := h.each k key f haf
  rw [List.getElem?_eq_getElem hk, e] at hb
  cases hb
  obtain ⟨g1, g2⟩ := ha (key, f) (List.mem_of_getElem? haf)
  refine ⟨fr.codes g1, ?_⟩
  simp only
  rw [fr.length]; exact g2

theorem insIndex_in {f : Linker.Func} {r : Relo} {j : Nat} (hr : r.insOff < 2 ^ 32)
    (hf : f.sectionOffset + 8 * f.insns.length ≤ 2 ^ 64) (hj : insIndex f r = j) (hlt : j < f.insns.length) :
    InInsn f.sectionOffset r.insOff j := by
  unfold insIndex at hj
  unfold InInsn
  omega

theorem pick_inside {sec k : Nat} {fs : List (Nat × Linker.Func)} {last : Option Nat} {r : Relo} {p : Nat × Linker.Func}
    (h : pick sec fs last r = some k) (hk : fs[k]? = some p) : inside sec p.2 r = true := by
  have search : fs.findIdx? (fun f => f.1 == sec && inside sec f.2 r) = some k → inside sec p.2 r = true := by
    intro h
    obtain ⟨hlt, hp, _⟩ := List.findIdx?_eq_some_iff_getElem.mp h
    rw [List.getElem?_eq_getElem hlt] at hk
    cases hk
    simp only [Bool.and_eq_true] at hp
    exact hp.2
  unfold pick at h
  simp only at h
  split at h
  · split at h
    · rename_i i f hf
      split at h
      · rename_i hin
        cases h
        rw [hf] at hk; cases hk
        exact hin
      · exact search h
    · exact search h
  · exact search h

theorem one_kept {lb tb : Btf} {sec k : Nat} {r : Relo} {fs out : List (Nat × Linker.Func)} {last : Option Nat}
    (hf : FuncsOk fs) (hr : r.insOff < 2 ^ 32) (h : relocateOne lb tb sec r fs last = .ok (out, k)) :
    Kept (fun f j => f.sectionIndex = sec ∧ InInsn f.sectionOffset r.insOff j) fs out := by
  unfold relocateOne at h
  split at h
  · cases h
  · rename_i k' hpick
    split at h
    · cases h
    · rename_i key f hk
      split at h
      · cases h
      · rename_i hidx
        split at h
        · cases h
        · rename_i c hc
          split at h
          · cases h
          · rename_i insns ha
            cases h
            have hin := pick_inside hpick hk
            have hlt : k < fs.length := (List.getElem?_eq_some_iff.mp hk).1
            obtain ⟨g1, g2⟩ := hf (key, f) (List.mem_of_getElem? hk)
            refine ⟨by simp, ?_⟩
            intro k2 key2 f2 hf2
            by_cases e : k2 = k
            · subst e
              rw [hk] at hf2; cases hf2
              refine ⟨insns, by rw [List.getElem?_set_self hlt], (apply_frame g1 ha).mono ?_⟩
              rintro j rfl
              refine ⟨?_, insIndex_in hr g2 rfl (by omega)⟩
              simp only [inside, Bool.and_eq_true, beq_iff_eq] at hin
              exact hin.1.1.symm
            · exact ⟨f2.insns, by rw [List.getElem?_set_ne (by omega)]; exact hf2, Frame.refl _ _⟩

theorem section_kept {lb tb : Btf} {sec : Nat} : ∀ (rs : List Relo) (fs out : List (Nat × Linker.Func)) (last : Option Nat),
    FuncsOk fs → (∀ r ∈ rs, r.insOff < 2 ^ 32) → relocateSection lb tb sec rs fs last = .ok out →
    Kept (fun f j => f.sectionIndex = sec ∧ ∃ r ∈ rs, InInsn f.sectionOffset r.insOff j) fs out
  | [], fs, out, last, _, _, h => by cases h; exact Kept.refl _ _
  | r :: rs, fs, out, last, hf, hr, h => by
    rw [relocateSection] at h
    split at h
    · cases h
    · rename_i fs' k h1
      have k1 := one_kept hf (hr r (by simp)) h1
      have k2 := section_kept rs fs' out (some k) (kept_funcsOk k1 hf) (fun r' h' => hr r' (by simp [h'])) h
      refine k1.trans k2 ?_
      intro f j insns
      exact ⟨fun h => ⟨h.1, r, by simp, h.2⟩, fun h => by
        obtain ⟨h1, r', h2, h3⟩ := h
        exact ⟨h1, r', by simp [h2], h3⟩⟩

/-- **C19.** Relocating an object keeps every function and everything about it except instructions. An instruction is
changed only if a record of the function's section points into it, or if it follows an instruction of class LD (the first
half of an `ld_imm64`) that a record points into. -/
theorem C19_only_relocated (lb tb : Btf) (infos : List UInt8 → Option Nat) (secs : List (Nat × List Relo))
    (fs out : List (Nat × Linker.Func)) (hf : FuncsOk fs) (hr : ∀ s ∈ secs, ∀ r ∈ s.2, r.insOff < 2 ^ 32)
    (h : relocateBtf lb tb infos secs fs = .ok out) :
    out.length = fs.length ∧
    ∀ (k key : Nat) (f : Linker.Func), fs[k]? = some (key, f) → ∃ insns : List Insn, out[k]? = some (key, { f with insns := insns }) ∧
      insns.length = f.insns.length ∧
      ∀ j : Nat, insns[j]? ≠ f.insns[j]? →
        ∃ nameOff relos name r, (nameOff, relos) ∈ secs ∧ StringAt lb.strings nameOff name ∧
          infos name = some f.sectionIndex ∧ r ∈ relos ∧
          (InInsn f.sectionOffset r.insOff j ∨
            ∃ j' x, j = j' + 1 ∧ InInsn f.sectionOffset r.insOff j' ∧ f.insns[j']? = some x ∧ cls x = 0) := by
  have key : ∀ (secs : List (Nat × List Relo)) (fs : List (Nat × Linker.Func)), FuncsOk fs →
      (∀ s ∈ secs, ∀ r ∈ s.2, r.insOff < 2 ^ 32) → relocateBtf lb tb infos secs fs = .ok out →
      Kept (fun f j => ∃ nameOff relos name r, (nameOff, relos) ∈ secs ∧ StringAt lb.strings nameOff name ∧
        infos name = some f.sectionIndex ∧ r ∈ relos ∧ InInsn f.sectionOffset r.insOff j) fs out := by
    intro secs
    induction secs with
    | nil => intro fs _ _ h; cases h; exact Kept.refl _ _
    | cons s secs ih =>
      intro fs hf hr h
      obtain ⟨nameOff, relos⟩ := s
      rw [relocateBtf] at h
      split at h
      · cases h
      · rename_i name hname
        split at h
        · cases h
        · rename_i sec hsec
          split at h
          · cases h
          · rename_i fs' h1
            have k1 := section_kept relos fs fs' none hf (hr (nameOff, relos) (by simp)) h1
            have k2 := ih fs' (kept_funcsOk k1 hf) (fun s hs => hr s (by simp [hs])) h
            refine k1.trans k2 ?_
            intro f j insns
            refine ⟨?_, ?_⟩
            · rintro ⟨h1, r, h2, h3⟩
              exact ⟨nameOff, relos, name, r, by simp, C17_string lb nameOff name hname, by rw [h1]; exact hsec, h2, h3⟩
            · rintro ⟨o, rl, nm, r, h1, h2, h3, h4, h5⟩
              exact ⟨o, rl, nm, r, by simp [h1], h2, h3, h4, h5⟩
  have hk := key secs fs hf hr h
  refine ⟨hk.length, ?_⟩
  intro k key f hkf
  obtain ⟨insns, h1, fr⟩ := hk.each k key f hkf
  refine ⟨insns, h1, fr.length, ?_⟩
  intro j hne
  apply Classical.byContradiction
  intro hno
  apply hne
  refine fr.same j ?_ ?_
  · rintro ⟨o, rl, nm, r, g1, g2, g3, g4, g5⟩
    exact hno ⟨o, rl, nm, r, g1, g2, g3, g4, .inl g5⟩
  · rintro j' e ⟨o, rl, nm, r, g1, g2, g3, g4, g5⟩ x hx hc
    exact hno ⟨o, rl, nm, r, g1, g2, g3, g4, .inr ⟨j', x, e, g5, hx, hc⟩⟩

end Verif.Core
