import Verif.Obj.Props
/-!
# C55: functions and programs read from code sections
-/
set_option linter.unusedSimpArgs false
set_option linter.unusedVariables false
namespace Verif.Obj
open Verif.Bytes Verif.Bpf Spec

theorem slice_some {d x : List UInt8} {a b : Nat} (h : slice d a b = some x) :
    a ≤ b ∧ b ≤ d.length ∧ x = (d.drop a).take (b - a) ∧ x.length = b - a := by
  unfold slice at h
  split at h
  · rename_i hh
    simp only [Option.some.injEq] at h
    subst h
    exact ⟨hh.1, hh.2, rfl, by simp; omega⟩
  · simp at h

theorem copy_ok {d : List UInt8} {is : List Insn} (h : copyInstructions d = .ok is) :
    d.length % 8 = 0 ∧ encodeAll is = d := by
  by_cases h8 : d.length % 8 = 0
  · obtain ⟨js, h1, h2, -⟩ := (C24_decode d).2 h8
    rw [h] at h1
    simp only [Except.ok.injEq] at h1
    subst h1
    exact ⟨h8, h2⟩
  · rw [(C24_decode d).1 h8] at h; simp at h

theorem encodeAll_append (a b : List Insn) : encodeAll (a ++ b) = encodeAll a ++ encodeAll b := by
  simp [encodeAll]

theorem mem_textSymbols {syms : List Sym} {sec : Nat} {s : Sym} : s ∈ textSymbols syms sec ↔ IsFunction syms sec s := by
  simp [textSymbols, IsFunction, and_assoc]

/-- What the loop returns from `off` on. -/
theorem textLoop_ok (base : Nat) (data : List UInt8) (syms : List Sym) (hb : base + data.length < 2 ^ 64)
    (hsy : SymsU64 syms) (fuel off : Nat) (fs : List Func) (hf : data.length ≤ off + fuel) (hoff : off ≤ data.length)
    (h : textLoop base data syms fuel off = .ok fs) :
    encodeAll (fs.flatMap (·.instructions)) = data.drop off ∧
    ∀ (k : Nat) (f : Func), fs[k]? = some f →
      f.sectionOffset = off + 8 * ((fs.take k).flatMap (·.instructions)).length ∧ f.address = base + f.sectionOffset ∧
      ∃ s ∈ syms, s.address = f.address ∧ s.name = some f.name ∧ s.size = 8 * f.instructions.length ∧ 0 < s.size := by
  induction fuel generalizing off fs with
  | zero =>
    simp only [textLoop, Except.ok.injEq] at h
    subst h
    have : off = data.length := by omega
    subst this
    simp [encodeAll]
  | succ n ih =>
    unfold textLoop at h
    split at h
    · rename_i hlt
      have hmod : (base + off) % 2 ^ 64 = base + off := Nat.mod_eq_of_lt (by omega)
      simp only [hmod] at h
      split at h
      · simp at h
      · rename_i s hs
        split at h
        · simp at h
        · rename_i hsz
          split at h
          · simp at h
          · rename_i name hname
            split at h
            · simp at h
            · rename_i code hcode
              split at h
              · simp at h
              · rename_i is his
                split at h
                · simp at h
                · rename_i fs' hfs
                  simp only [Except.ok.injEq] at h
                  subst h
                  obtain ⟨c1, c2, c3, c4⟩ := slice_some hcode
                  have hmem : s ∈ syms := List.mem_of_find?_eq_some hs
                  have haddr : s.address = base + off := by
                    have := List.find?_some hs; simpa using this
                  obtain ⟨h8, henc⟩ := copy_ok his
                  have hlen := encodeAll_length is
                  rw [henc, c4] at hlen
                  have hu := (hsy s hmem).2
                  have hstop : (off + s.size) % 2 ^ 64 = off + s.size := by omega
                  rw [hstop] at c1 c2 c3 c4 hlen
                  obtain ⟨g1, g2⟩ := ih (off + s.size) fs' (by omega) c2 hfs
                  have hdrop : data.drop off = code ++ data.drop (off + s.size) := by
                    rw [c3, Nat.add_sub_cancel_left, ← List.drop_drop, List.take_append_drop]
                  refine ⟨?_, ?_⟩
                  · rw [List.flatMap_cons, encodeAll_append, henc, g1, hdrop]
                  · intro k f hk
                    cases k with
                    | zero =>
                      simp only [List.getElem?_cons_zero, Option.some.injEq] at hk
                      subst hk
                      exact ⟨by simp, rfl, s, hmem, haddr, hname, by simp; omega, by omega⟩
                    | succ k =>
                      simp only [List.getElem?_cons_succ] at hk
                      obtain ⟨e1, e2, e3⟩ := g2 k f hk
                      refine ⟨?_, e2, e3⟩
                      rw [e1, List.take_succ_cons, List.flatMap_cons, List.length_append]
                      simp only
                      omega
    · simp only [Except.ok.injEq] at h
      subst h
      have : off = data.length := by omega
      subst this
      simp [encodeAll]
theorem textSymbols_u64 {syms : List Sym} (h : SymsU64 syms) (sec : Nat) : SymsU64 (textSymbols syms sec) :=
  fun s hs => h s (mem_textSymbols.mp hs).1

/-- **C55.** When a code section is accepted, the functions read from it, in order and without gap or overlap, make up
exactly the section: their code concatenated is the section, each starts where the previous one ends, and each is named
by a function symbol of that section with that address and that size. -/
theorem C55_functions_tile (syms : List Sym) (hsy : SymsU64 syms) (sec base : Nat) (data : List UInt8)
    (hb : base + data.length < 2 ^ 64) (fs : List Func) (h : parseTextSection syms sec base data = .ok fs) :
    encodeAll (fs.flatMap (·.instructions)) = data ∧
    ∀ (k : Nat) (f : Func), fs[k]? = some f →
      f.sectionOffset = 8 * ((fs.take k).flatMap (·.instructions)).length ∧ f.address = base + f.sectionOffset ∧
      ∃ s, IsFunction syms sec s ∧ s.address = f.address ∧ s.name = some f.name ∧
        s.size = 8 * f.instructions.length ∧ 0 < s.size := by
  unfold parseTextSection at h
  split at h
  · simp at h
  · obtain ⟨h1, h2⟩ := textLoop_ok base data _ hb (textSymbols_u64 hsy sec) data.length 0 fs (by omega) (by omega) h
    refine ⟨by simpa using h1, fun k f hk => ?_⟩
    obtain ⟨a, b, s, c, d⟩ := h2 k f hk
    exact ⟨by simpa using a, b, s, mem_textSymbols.mp c, d⟩

theorem firstConflict_none (seen : List Nat) (l : List Sym) :
    firstConflict seen l = none ↔ (∀ s ∈ l, s.address ∉ seen) ∧ l.Pairwise (fun s s' => s.address ≠ s'.address) := by
  induction l generalizing seen with
  | nil => simp [firstConflict]
  | cons s l ih =>
    unfold firstConflict
    by_cases h : s.address ∈ seen
    · simp [h]
    · rw [if_neg h, ih]
      rw [List.forall_mem_cons]
      simp only [List.mem_cons, not_or, List.pairwise_cons, h, not_false_eq_true, true_and]
      constructor
      · rintro ⟨h1, h2⟩
        exact ⟨fun x hx => (h1 x hx).2, fun x hx he => (h1 x hx).1 he.symm, h2⟩
      · rintro ⟨h1, h2, h3⟩
        exact ⟨fun x hx => ⟨fun he => h2 x hx he.symm, h1 x hx⟩, h3⟩

theorem find_unique {l : List Sym} (hp : l.Pairwise (fun s s' => s.address ≠ s'.address)) {s : Sym} (hs : s ∈ l) :
    l.find? (fun x => x.address == s.address) = some s := by
  induction l with
  | nil => simp at hs
  | cons x l ih =>
    obtain ⟨h1, h2⟩ := List.pairwise_cons.mp hp
    rcases List.mem_cons.mp hs with rfl | hs
    · simp
    · rw [List.find?_cons_of_neg (by simpa using h1 s hs)]
      exact ih h2 hs

/-- **C55.** A section tiled by named functions of whole instructions is accepted. -/
theorem C55_accepts (syms : List Sym) (sec base : Nat) (data : List UInt8) (hb : base + data.length < 2 ^ 64)
    (hc : NoConflict syms sec) (ht : Tiles syms sec base data.length 0) :
    ∃ fs, parseTextSection syms sec base data = .ok fs := by
  have key : ∀ fuel off, Tiles syms sec base data.length off → off ≤ data.length →
      ∃ fs, textLoop base data (textSymbols syms sec) fuel off = .ok fs := by
    intro fuel
    induction fuel with
    | zero => intro off _ _; exact ⟨[], rfl⟩
    | succ n ih =>
      intro off ht hoff
      cases ht with
      | done => exact ⟨[], by simp [textLoop]⟩
      | next _ s hs ha hpos h8 hn hfit rest =>
        obtain ⟨fs, hfs⟩ := ih _ rest hfit
        obtain ⟨name, hname⟩ := Option.isSome_iff_exists.mp hn
        have hfind : (textSymbols syms sec).find? (fun x => x.address == base + off) = some s := by
          rw [← ha]; exact find_unique hc (mem_textSymbols.mpr hs)
        have hm1 : (base + off) % 2 ^ 64 = base + off := Nat.mod_eq_of_lt (by omega)
        have hm2 : (off + s.size) % 2 ^ 64 = off + s.size := Nat.mod_eq_of_lt (by omega)
        have hsl : slice data off (off + s.size) = some ((data.drop off).take s.size) := by
          unfold slice; rw [if_pos ⟨by omega, hfit⟩, Nat.add_sub_cancel_left]
        obtain ⟨is, his, -⟩ := (C24_decode ((data.drop off).take s.size)).2 (by simp; omega)
        unfold textLoop
        rw [if_pos (by omega)]
        simp only [hm1, hm2, hfind, hname, hsl, his, hfs, if_neg (Nat.ne_of_gt hpos)]
        exact ⟨_, rfl⟩
  have : firstConflict [] (textSymbols syms sec) = none := (firstConflict_none _ _).mpr ⟨by simp, hc⟩
  unfold parseTextSection
  rw [this]
  exact key _ 0 ht (by omega)

/-- **C55.** Reading a code section never panics if every function symbol of the section has a name and ends inside the
section. -/
theorem C55_no_panic_partial (syms : List Sym) (sec base : Nat) (data : List UInt8)
    (hb : base + data.length < 2 ^ 64) (hfit : ∀ s, IsFunction syms sec s → Fits base data.length s) :
    parseTextSection syms sec base data ≠ .error .panic := by
  have key : ∀ fuel off, off ≤ data.length → textLoop base data (textSymbols syms sec) fuel off ≠ .error .panic := by
    intro fuel
    induction fuel with
    | zero => intro off _; simp [textLoop]
    | succ n ih =>
      intro off hoff
      unfold textLoop
      split
      · rename_i hlt
        have hm1 : (base + off) % 2 ^ 64 = base + off := Nat.mod_eq_of_lt (by omega)
        simp only [hm1]
        split
        · simp
        · rename_i s hs
          have hmem := mem_textSymbols.mp (List.mem_of_find?_eq_some hs)
          have haddr : s.address = base + off := by have := List.find?_some hs; simpa using this
          obtain ⟨f1, f2, f3⟩ := hfit s hmem
          have hm2 : (off + s.size) % 2 ^ 64 = off + s.size := Nat.mod_eq_of_lt (by omega)
          split
          · simp
          · split
            · rename_i hn; rw [hn] at f1; simp at f1
            · split
              · rename_i hsl
                unfold slice at hsl
                rw [hm2, if_pos ⟨by omega, by omega⟩] at hsl
                simp at hsl
              · split
                · simp
                · split
                  · rename_i e he
                    intro hh
                    simp only [Except.error.injEq] at hh
                    subst hh
                    exact ih (off + s.size) (by omega) he
                  · simp
      · simp
  unfold parseTextSection
  split
  · simp
  · exact key _ 0 (by omega)

/-- **C55.** A program is exactly the code between its symbol's start and end. -/
theorem C55_program (data : List UInt8) (name : String) (s : Sym) (f : Func) (hs : s.address < 2 ^ 64 ∧ s.size < 2 ^ 64)
    (h : parseProgram data name s = .ok f) :
    f.name = name ∧ f.address = s.address ∧ s.address + s.size ≤ data.length ∧
    encodeAll f.instructions = (data.drop s.address).take s.size := by
  unfold parseProgram at h
  split at h
  · simp at h
  · rename_i code hcode
    split at h
    · simp at h
    · rename_i is his
      simp only [Except.ok.injEq] at h
      subst h
      obtain ⟨c1, c2, c3, c4⟩ := slice_some hcode
      obtain ⟨-, henc⟩ := copy_ok his
      have hm : (s.address + s.size) % 2 ^ 64 = s.address + s.size := by omega
      rw [hm, Nat.add_sub_cancel_left] at c3
      rw [hm] at c2
      exact ⟨rfl, rfl, c2, by rw [henc, c3]⟩

def longSym : Sym := { index := 1, sectionIndex := some 2, name := some "f", address := 0, size := 16, isText := true }

/-- A symbol that claims to be longer than its section makes the loader panic instead of reporting an error, for
functions of `.text` as well as for programs. -/
theorem C55_overlong_symbol_violated :
    parseTextSection [longSym] 2 0 [0x95, 0, 0, 0, 0, 0, 0, 0] = .error .panic ∧
    parseProgram [0x95, 0, 0, 0, 0, 0, 0, 0] "f" longSym = .error .panic := by decide +kernel

def okSyms : List Sym :=
  [{ index := 1, sectionIndex := some 2, name := some "g", address := 8, size := 8, isText := true },
   { index := 2, sectionIndex := some 2, name := some "f", address := 0, size := 8, isText := true }]

example : parseTextSection okSyms 2 0 [0x85, 0, 0, 0, 1, 0, 0, 0, 0x95, 0, 0, 0, 0, 0, 0, 0] =
    .ok [⟨"f", 0, 0, [⟨0x85, 0, 0, 0, 1⟩]⟩, ⟨"g", 8, 8, [⟨0x95, 0, 0, 0, 0⟩]⟩] := by decide +kernel
example : Tiles okSyms 2 0 16 0 :=
  .next 0 okSyms[1] (by unfold IsFunction; decide) (by decide) (by decide) (by decide) (by decide) (by decide)
    (.next 8 okSyms[0] (by unfold IsFunction; decide) (by decide) (by decide) (by decide) (by decide) (by decide) .done)
example : NoConflict okSyms 2 := by unfold NoConflict; decide
example : ∀ s ∈ okSyms, Fits 0 16 s := by unfold Fits; decide

end Verif.Obj
