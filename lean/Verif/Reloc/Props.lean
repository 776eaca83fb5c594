import Verif.Reloc.Patch
import Verif.Reloc.Spec
set_option linter.unusedSimpArgs false
set_option linter.unusedVariables false
/-!
# C10-C12: relocation of map and extern references
-/
namespace Verif.Reloc
open Verif.Bpf Verif.Reloc.Spec

/-! ### The two loops as instances of the common one -/

def writeAct (ins : Insn) (m : MapRef) (sym : Sym) : Insn × Option Int :=
  if m.hasData then ({ ins with src := 2, imm := m.fd }, some (toI32 (ins.imm + toI32 sym.address)))
  else ({ ins with src := 1, imm := m.fd }, none)

def mapAct (maps : List MapRef) (syms : Nat → Option Sym) (text : Nat → Bool) : Act := fun rel ins =>
  match syms rel.symbolIndex with
  | none => .error .unknownSymbol
  | some sym =>
    match sym.sectionIndex with
    | none => .ok none
    | some s =>
      if ins.isCall || text s then .ok none
      else
        match bySymbol maps rel.symbolIndex with
        | some m => .ok (some (writeAct ins m sym))
        | none =>
          match bySection maps s with
          | some m => .ok (some (writeAct ins m sym))
          | none => .error .sectionNotFound

theorem writeMap_eq (insns : List Insn) (idx : Nat) (ins : Insn) (m : MapRef) (sym : Sym) :
    writeMap insns idx ins m sym =
      match writeAct ins m sym with
      | (ins', none) => .ok (insns.set idx ins')
      | (ins', some imm) =>
        match insns[idx + 1]? with
        | none => .error .panicIndex
        | some next => .ok ((insns.set idx ins').set (idx + 1) { next with imm := imm }) := by
  unfold writeMap writeAct
  cases m.hasData
  · simp
  · simp only [if_true]
    cases insns[idx + 1]? <;> rfl

theorem mapStep_eq (maps : List MapRef) (syms : Nat → Option Sym) (text : Nat → Bool) (so : Nat)
    (insns : List Insn) (rel : Rel) :
    mapStep maps syms text so insns rel = step (mapAct maps syms text) .panicIndex so insns rel := by
  unfold mapStep step
  split
  · rfl
  · split
    · rfl
    · rename_i h1 h2
      have hlt : (rel.offset - so) / insSize < insns.length := by
        simp only [insSize] at h1 h2 ⊢; omega
      obtain ⟨ins, hi⟩ : ∃ ins, insns[(rel.offset - so) / insSize]? = some ins :=
        ⟨_, List.getElem?_eq_getElem hlt⟩
      simp only [hi, mapAct]
      cases syms rel.symbolIndex with
      | none => rfl
      | some sym =>
        simp only
        cases sym.sectionIndex with
        | none => rfl
        | some s =>
          simp only
          split
          · rfl
          · cases bySymbol maps rel.symbolIndex with
            | some m =>
              simp only [writeMap_eq]
              cases hw : writeAct ins m sym with
              | mk a b => cases b <;> rfl
            | none =>
              simp only
              cases bySection maps s with
              | some m =>
                simp only [writeMap_eq]
                cases hw : writeAct ins m sym with
                | mk a b => cases b <;> rfl
              | none => rfl

theorem relocateMaps_eq (maps : List MapRef) (syms : Nat → Option Sym) (text : Nat → Bool) (so : Nat)
    (rels : List Rel) : ∀ insns, relocateMaps maps syms text so rels insns =
      loop (mapAct maps syms text) .panicIndex so rels insns := by
  induction rels with
  | nil => intro insns; rfl
  | cons rel rels ih =>
    intro insns
    simp only [relocateMaps, loop, mapStep_eq]
    cases step (mapAct maps syms text) .panicIndex so insns rel with
    | error e => rfl
    | ok x => exact ih x

def externAct (externs : Name → Option Extern) (syms : Nat → Option Sym) : Act := fun rel ins =>
  match syms rel.symbolIndex with
  | none => .error .unknownSymbol
  | some sym =>
    if sym.isExtern = false then .ok none
    else
      match sym.name with
      | none => .error .externNotFound
      | some name =>
        match externs name with
        | none => .error .externNotFound
        | some e =>
          match externPatch e rel.symbolIndex ins with
          | .error e => .error e
          | .ok p => .ok (some p)

theorem externStep_eq (externs : Name → Option Extern) (syms : Nat → Option Sym) (so : Nat)
    (insns : List Insn) (rel : Rel) :
    externStep externs syms so insns rel = step (externAct externs syms) .invalidOffset so insns rel := by
  unfold externStep step
  split
  · rfl
  · split
    · rfl
    · rename_i h1 h2
      have hlt : (rel.offset - so) / insSize < insns.length := by
        simp only [insSize] at h1 h2 ⊢; omega
      obtain ⟨ins, hi⟩ : ∃ ins, insns[(rel.offset - so) / insSize]? = some ins :=
        ⟨_, List.getElem?_eq_getElem hlt⟩
      simp only [hi, externAct]
      cases syms rel.symbolIndex with
      | none => rfl
      | some sym =>
        simp only
        split
        · rfl
        · cases sym.name with
          | none => rfl
          | some name =>
            simp only
            cases externs name with
            | none => rfl
            | some e =>
              simp only
              cases externPatch e rel.symbolIndex ins with
              | error e => rfl
              | ok p =>
                obtain ⟨a, b⟩ := p
                cases b <;> rfl

theorem relocateExterns_eq (externs : Name → Option Extern) (syms : Nat → Option Sym) (so : Nat)
    (rels : List Rel) : ∀ insns, relocateExterns externs syms so rels insns =
      loop (externAct externs syms) .invalidOffset so rels insns := by
  induction rels with
  | nil => intro insns; rfl
  | cons rel rels ih =>
    intro insns
    simp only [relocateExterns, loop, externStep_eq]
    cases step (externAct externs syms) .invalidOffset so insns rel with
    | error e => rfl
    | ok x => exact ih x

theorem toI32_spec (v : Int) : IsI32 (toI32 v) v := by
  unfold IsI32 toI32
  refine ⟨by omega, by omega, -((v + 2 ^ 31) / 2 ^ 32), ?_⟩
  have := Int.emod_add_ediv_mul (v + 2 ^ 31) (2 ^ 32)
  omega

theorem Spec.IsI32.mod {x v w : Int} (h : IsI32 x v) (k : Int) (e : v = w + k * 2 ^ 32) : IsI32 x w := by
  obtain ⟨h1, h2, j, hj⟩ := h
  exact ⟨h1, h2, j + k, by rw [hj, e]; omega⟩

/-! ### C10 -/

theorem bySymbol_some {maps : List MapRef} {i : Nat} {m : MapRef} (h : bySymbol maps i = some m) (s : Nat) :
    NamesMap maps s i m := by
  have h1 := List.mem_of_find?_eq_some h
  have h2 := List.find?_some h
  exact .symbol (by simpa using h1) (by simpa using h2)

theorem bySymbol_none {maps : List MapRef} {i : Nat} (h : bySymbol maps i = none) :
    ∀ m ∈ maps, m.symbolIndex ≠ some i := by
  intro m hm he
  have := List.find?_eq_none.mp h m (by simpa using hm)
  simp [he] at this

theorem bySection_some {maps : List MapRef} {s i : Nat} {m : MapRef} (hn : bySymbol maps i = none)
    (h : bySection maps s = some m) : NamesMap maps s i m := by
  have h1 := List.mem_of_find?_eq_some h
  have h2 := List.find?_some h
  exact .data (bySymbol_none hn) (by simpa using h1) (by simpa using h2)

theorem mapAct_some {maps : List MapRef} {syms : Nat → Option Sym} {text : Nat → Bool} {rel : Rel}
    {ins a : Insn} {n : Option Int} (h : mapAct maps syms text rel ins = .ok (some (a, n))) :
    ∃ sym m, MapReference maps syms text rel ins sym m ∧ writeAct ins m sym = (a, n) := by
  unfold mapAct at h
  cases hs : syms rel.symbolIndex with
  | none => rw [hs] at h; cases h
  | some sym =>
    rw [hs] at h
    simp only at h
    cases hsec : sym.sectionIndex with
    | none => rw [hsec] at h; cases h
    | some s =>
      rw [hsec] at h
      simp only at h
      split at h
      · cases h
      · rename_i hc
        have hc : ins.isCall = false ∧ text s = false := by simpa using hc
        cases hb : bySymbol maps rel.symbolIndex with
        | some m =>
          rw [hb] at h
          simp at h
          exact ⟨sym, m, ⟨s, hs, hsec, hc.1, hc.2, bySymbol_some hb s⟩, h⟩
        | none =>
          rw [hb] at h
          simp only at h
          cases hb2 : bySection maps s with
          | none => rw [hb2] at h; cases h
          | some m =>
            rw [hb2] at h
            simp at h
            exact ⟨sym, m, ⟨s, hs, hsec, hc.1, hc.2, bySection_some hb hb2⟩, h⟩

theorem mapAct_ref {maps : List MapRef} {syms : Nat → Option Sym} {text : Nat → Bool} {rel : Rel}
    {ins : Insn} {sym : Sym} {m : MapRef} {rels : List Rel} (hu : Unambiguous maps syms rels) (hrel : rel ∈ rels)
    (h : MapReference maps syms text rel ins sym m) :
    mapAct maps syms text rel ins = .ok (some (writeAct ins m sym)) := by
  obtain ⟨s, h1, h2, h3, h4, h5⟩ := h
  unfold mapAct
  simp only [h1, h2, h3, h4, Bool.or_self, Bool.false_eq_true, if_false]
  cases hb : bySymbol maps rel.symbolIndex with
  | some m' =>
    have := hu rel hrel sym s h1 h2 m m' h5 (bySymbol_some hb s)
    subst this; rfl
  | none =>
    simp only
    cases hb2 : bySection maps s with
    | some m' =>
      have := hu rel hrel sym s h1 h2 m m' h5 (bySection_some hb hb2)
      subst this; rfl
    | none =>
      exfalso
      cases h5 with
      | symbol hm hi => exact bySymbol_none hb m hm hi
      | data hno hm hs =>
        have := List.find?_eq_none.mp hb2 m (by simpa using hm)
        simp [hs] at this

/-- C10 (for code in which no symbol referred to can name two maps; see `C10_wrong_map_violated`). After map
relocation every instruction that refers to a map holds the descriptor of that map, the second half of a
global-variable load holds the variable's offset, and every other instruction is unchanged. -/
theorem C10_maps_patched_partial {maps : List MapRef} {syms : Nat → Option Sym} {text : Nat → Bool}
    {so : Nat} {rels : List Rel} {orig out : List Insn} (hu : Unambiguous maps syms rels)
    (hoff : (rels.map Rel.offset).Nodup) (hp : PairsIntact maps syms text so rels orig)
    (h : relocateMaps maps syms text so rels orig = .ok out) :
    out.length = orig.length ∧
    ∀ i ins, orig[i]? = some ins → ∃ o, out[i]? = some o ∧ MapResult maps syms text so rels orig i ins o := by
  rw [relocateMaps_eq] at h
  have hno : NoOverlap (mapAct maps syms text) so orig rels := by
    rintro r1 hr1 r2 hr2 i a n ⟨hat, ins, hi, hact⟩
    obtain ⟨sym, m, hm, hw⟩ := mapAct_some hact
    have hd : m.hasData = true := by
      unfold writeAct at hw
      cases hd : m.hasData
      · simp [hd] at hw
      · rfl
    exact hp r1 hr1 i ins sym m hat hi hm hd r2 hr2
  obtain ⟨h1, h2⟩ := loop_spec _ _ so orig rels hoff hno rels [] orig out rfl rfl
    (fun i ins hi => ⟨ins, hi, Now.init _ _ _ _ _⟩) h
  refine ⟨h1, ?_⟩
  intro i ins hi
  obtain ⟨o, ho, hnow⟩ := h2 i ins hi
  refine ⟨o, ho, ?_⟩
  rcases hnow with ⟨rel, hr, n, hat, ins2, hi2, hact⟩ | ⟨hno1, hrest⟩
  · rw [hi] at hi2; cases hi2
    obtain ⟨sym, m, hm, hw⟩ := mapAct_some hact
    unfold writeAct at hw
    cases hd : m.hasData
    · simp [hd] at hw
      exact .reference rel sym m hr hat hm (by rw [← hw.1]) (by rw [← hw.1, hd]; rfl) (by rw [← hw.1]; simp)
    · simp [hd] at hw
      exact .reference rel sym m hr hat hm (by rw [← hw.1]) (by rw [← hw.1, hd]; rfl) (by rw [← hw.1]; simp)
  · rcases hrest with ⟨rel, hr, j, a, n, e, ⟨hat, prev, hprev, hact⟩, hout⟩ | ⟨hno2, hout⟩
    · obtain ⟨sym, m, hm, hw⟩ := mapAct_some hact
      unfold writeAct at hw
      cases hd : m.hasData
      · simp [hd] at hw
      · simp [hd] at hw
        refine .offset rel j prev sym m hr e hat hprev hm hd ?_ (by subst hout; simp)
        subst hout
        show IsI32 n _
        rw [← hw.2]
        obtain ⟨_, _, k, hk⟩ := toI32_spec (sym.address : Int)
        exact (toI32_spec _).mod k (by rw [hk]; omega)
    · refine .same ?_ ?_ hout
      · intro rel hr hat sym m hm
        have := mapAct_ref hu hr hm
        exact hno1 rel hr _ _ ⟨hat, ins, hi, this⟩
      · intro rel hr j prev e hat hprev sym m hm
        cases hd : m.hasData
        · rfl
        · exfalso
          have := mapAct_ref hu hr hm
          unfold writeAct at this
          simp [hd] at this
          exact hno2 rel hr j _ _ e ⟨hat, prev, hprev, this⟩

/-! A program with references to two maps of one section, a global variable load and a call. -/
private def exMaps : List MapRef := [⟨7, 5, some 1, false⟩, ⟨8, 6, none, true⟩, ⟨9, 5, some 4, false⟩]
private def exSyms : Nat → Option Sym := fun i =>
  if i = 1 then some ⟨some 5, some "m".toList, 0, true, .other⟩
  else if i = 2 then some ⟨some 6, some "v".toList, 24, true, .other⟩
  else if i = 3 then some ⟨some 3, some "f".toList, 0, true, .text⟩
  else if i = 4 then some ⟨some 5, some "n".toList, 32, true, .other⟩ else none
private def exText : Nat → Bool := fun s => s == 3
private def ld (imm : Int) : Insn := ⟨0x18, 1, 0, 0, imm⟩
private def nop2 : Insn := ⟨0, 0, 0, 0, 0⟩
private def exCall : Insn := ⟨0x85, 0, 1, 0, -1⟩
private def exCode : List Insn := [ld 0, nop2, ld 4, nop2, exCall, ld 0, nop2]
private def exRels : List Rel := [⟨80, 2⟩, ⟨64, 1⟩, ⟨96, 3⟩, ⟨104, 4⟩, ⟨200, 9⟩]

private theorem ex_maps_unambiguous : Unambiguous exMaps exSyms exRels := by
  intro rel hr sym s h1 h2 m1 m2 n1 n2
  have key : ∀ m, NamesMap exMaps s rel.symbolIndex m → m.symbolIndex = some rel.symbolIndex ∨
      (m = ⟨8, 6, none, true⟩ ∧ rel.symbolIndex ≠ 1 ∧ rel.symbolIndex ≠ 4) ∨
      (s = 5 ∧ rel.symbolIndex ≠ 1 ∧ rel.symbolIndex ≠ 4) := by
    intro m h
    cases h with
    | symbol hm hi => exact .inl hi
    | data hno hm hs =>
      have ha : rel.symbolIndex ≠ 1 := fun e => hno ⟨7, 5, some 1, false⟩ (by simp [exMaps]) (by rw [e])
      have hb : rel.symbolIndex ≠ 4 := fun e => hno ⟨9, 5, some 4, false⟩ (by simp [exMaps]) (by rw [e])
      simp only [exMaps, List.mem_cons, List.not_mem_nil, or_false] at hm
      rcases hm with rfl | rfl | rfl
      · exact .inr (.inr ⟨hs.symm, ha, hb⟩)
      · exact .inr (.inl ⟨rfl, ha, hb⟩)
      · exact .inr (.inr ⟨hs.symm, ha, hb⟩)
  have hin : ∀ m, NamesMap exMaps s rel.symbolIndex m → m ∈ exMaps := by
    intro m h
    cases h <;> assumption
  have i1 := hin m1 n1
  have i2 := hin m2 n2
  have k1 := key m1 n1
  have k2 := key m2 n2
  simp only [exMaps, List.mem_cons, List.not_mem_nil, or_false] at i1 i2
  simp only [exRels, List.mem_cons, List.not_mem_nil, or_false] at hr
  rcases hr with rfl | rfl | rfl | rfl | rfl <;> simp [exSyms] at h1 <;> subst h1 <;> simp at h2 <;> subst h2 <;>
    rcases i1 with rfl | rfl | rfl <;> rcases i2 with rfl | rfl | rfl <;> simp_all

/-- The hypotheses hold of a concrete program, and what comes out. -/
example : Unambiguous exMaps exSyms exRels ∧ (exRels.map Rel.offset).Nodup ∧
    PairsIntact exMaps exSyms exText 64 exRels exCode ∧
    relocateMaps exMaps exSyms exText 64 exRels exCode =
      .ok [⟨0x18, 1, 1, 0, 7⟩, nop2, ⟨0x18, 1, 2, 0, 8⟩, { nop2 with imm := 28 }, exCall, ⟨0x18, 1, 1, 0, 9⟩, nop2] := by
  refine ⟨ex_maps_unambiguous, by decide, ?_, by decide +kernel⟩
  intro r1 hr1 i ins sym m hat hi hm hd r2 hr2 hat2
  simp only [exRels, List.mem_cons, List.not_mem_nil, or_false] at hr1 hr2
  unfold Spec.At at hat hat2
  obtain ⟨s, h1, h2, _⟩ := hm
  have hl := (List.getElem?_eq_some_iff.mp hi).1
  have hl' : i < 7 := hl
  rcases hr1 with rfl | rfl | rfl | rfl | rfl <;> rcases hr2 with rfl | rfl | rfl | rfl | rfl <;> simp at hat hat2 <;> first | omega | skip
  -- the call at 96 is no map reference
  rename_i hr
  obtain rfl : i = 4 := by omega
  cases hi
  exact absurd hr.1 (by decide)

/-- C10 is false in general: a relocation whose symbol is not the symbol of a map (say the section symbol
of `.maps`, as emitted for `static` maps) falls back to "the map of the section", and when several maps
are defined in that section one of them is taken arbitrarily (the check is a `debug_assert`). Here the
same reference is patched to the descriptor of the first or of the second map, depending only on the
order in which the maps are listed, that is, the iteration order of a hash map. -/
theorem C10_wrong_map_violated :
    ∃ (m1 m2 : MapRef) (syms : Nat → Option Sym) (text : Nat → Bool) (rels : List Rel) (code out out' : List Insn),
      m1.fd ≠ m2.fd ∧ m1.symbolIndex ≠ m2.symbolIndex ∧
      relocateMaps [m1, m2] syms text 0 rels code = .ok out ∧
      relocateMaps [m2, m1] syms text 0 rels code = .ok out' ∧
      out.map Insn.imm = [m2.fd, 0] ∧ out'.map Insn.imm = [m1.fd, 0] :=
  ⟨⟨7, 5, some 1, false⟩, ⟨8, 5, some 2, false⟩, fun _ => some ⟨some 5, none, 0, true, .section⟩, fun _ => false,
    [⟨0, 3⟩], [ld 0, nop2], [⟨0x18, 1, 1, 0, 8⟩, nop2], [⟨0x18, 1, 1, 0, 7⟩, nop2],
    by decide, by decide, by decide +kernel, by decide +kernel, by decide, by decide⟩

/-! ### C12 -/

/-- C12 (for code in which a load of a global variable is never the last instruction of its function; see
`C12_last_instruction_violated`): map relocation does not panic, whatever the relocations and symbols. -/
theorem C12_no_panic_partial {maps : List MapRef} {syms : Nat → Option Sym} {text : Nat → Bool}
    {so : Nat} {rels : List Rel} {orig : List Insn}
    (hlast : ∀ rel ∈ rels, ∀ sym s, syms rel.symbolIndex = some sym → sym.sectionIndex = some s →
      ∀ m, NamesMap maps s rel.symbolIndex m → m.hasData = true → ¬ At so rel (orig.length - 1)) :
    relocateMaps maps syms text so rels orig ≠ .error .panicIndex := by
  have main : ∀ (rels : List Rel) (insns : List Insn), insns.length = orig.length →
      (∀ rel ∈ rels, ∀ sym s, syms rel.symbolIndex = some sym → sym.sectionIndex = some s →
        ∀ m, NamesMap maps s rel.symbolIndex m → m.hasData = true → ¬ At so rel (orig.length - 1)) →
      relocateMaps maps syms text so rels insns ≠ .error .panicIndex := by
    intro rels
    induction rels with
    | nil => intro insns _ _ h; simp [relocateMaps] at h
    | cons rel rels ih =>
      intro insns hlen hlast h
      simp only [relocateMaps] at h
      cases hs : mapStep maps syms text so insns rel with
      | ok insns1 =>
        rw [hs] at h
        refine ih insns1 ?_ (fun r hr => hlast r (List.mem_cons_of_mem _ hr)) h
        rw [← hlen]
        rw [mapStep_eq] at hs
        simp only [step] at hs
        repeat' split at hs
        all_goals first
          | (cases hs; done)
          | (cases hs; rfl)
          | (cases hs; simp only [List.length_set])
      | error e =>
        rw [hs] at h
        cases h
        rw [mapStep_eq] at hs
        simp only [step] at hs
        split at hs
        · cases hs
        · split at hs
          · cases hs
          · rename_i h1 h2
            split at hs
            · rename_i hn
              rw [List.getElem?_eq_none_iff] at hn
              simp only [insSize] at h1 h2 hn
              omega
            · rename_i ins hi
              cases ha : mapAct maps syms text rel ins with
              | error e2 =>
                rw [ha] at hs; cases hs
                unfold mapAct at ha
                repeat' split at ha
                all_goals cases ha
              | ok r =>
                rw [ha] at hs
                match r, hs, ha with
                | none, hs, _ => cases hs
                | some (_, none), hs, _ => cases hs
                | some (a, some n), hs, ha =>
                  simp only at hs
                  split at hs
                  · rename_i hn
                    obtain ⟨sym, m, ⟨s, k1, k2, _, _, k5⟩, hw⟩ := mapAct_some ha
                    have hd : m.hasData = true := by
                      unfold writeAct at hw
                      cases hd : m.hasData
                      · simp [hd] at hw
                      · rfl
                    apply hlast rel List.mem_cons_self sym s k1 k2 m k5 hd
                    rw [List.getElem?_eq_none_iff] at hn
                    have hl := (List.getElem?_eq_some_iff.mp hi).1
                    unfold Spec.At
                    simp only [insSize] at h1 h2 hn hl
                    omega
                  · cases hs
  exact main rels orig rfl hlast

example : ∀ rel ∈ exRels, ∀ sym s, exSyms rel.symbolIndex = some sym → sym.sectionIndex = some s →
    ∀ m, NamesMap exMaps s rel.symbolIndex m → m.hasData = true → ¬ At 64 rel (exCode.length - 1) := by
  intro rel hr sym s h1 h2 m hm hd hat
  simp only [exRels, List.mem_cons, List.not_mem_nil, or_false] at hr
  unfold Spec.At at hat
  rcases hr with rfl | rfl | rfl | rfl | rfl <;> simp [exCode] at hat

/-- C12 is false in general: a relocation against a global data section on the last instruction of a
function makes the write of the offset go out of bounds, a panic while loading. -/
theorem C12_last_instruction_violated :
    ∃ (maps : List MapRef) (syms : Nat → Option Sym) (rels : List Rel) (code : List Insn),
      relocateMaps maps syms (fun _ => false) 0 rels code = .error .panicIndex :=
  ⟨[⟨8, 6, none, true⟩], fun _ => some ⟨some 6, some "v".toList, 0, true, .other⟩, [⟨8, 2⟩], [ld 0, ld 0], by decide +kernel⟩

/-! ### C11 -/

theorem externPatch_form {e : Extern} {k : Nat} {ins a : Insn} {n : Option Int}
    (h : externPatch e k ins = .ok (a, n)) : ExternForm e k ins a n := by
  unfold externPatch at h
  split at h
  · rename_i hc
    split at h
    · rename_i hr
      cases hid : e.btfId with
      | none => rw [hid] at h; cases h
      | some id =>
        rw [hid] at h
        simp at h
        obtain ⟨rfl, rfl⟩ := h
        exact .kfunc id hc hr hid ⟨hc, rfl, rfl, rfl, toI32_spec _⟩
    · rename_i hr
      have hr : e.isResolved = false := by simpa using hr
      split at h
      · rename_i hw
        simp at h
        obtain ⟨rfl, rfl⟩ := h
        refine .poison hc hr hw ⟨rfl, rfl, rfl, rfl, ?_⟩
        obtain ⟨_, _, j, hj⟩ := toI32_spec (k : Int)
        exact (toI32_spec _).mod j (by rw [hj]; omega)
      · cases h
  · split at h
    · cases h
    · rename_i hc0 hc
      have hc : ins.code = 0x18 := by simpa using hc
      cases hid : e.btfId with
      | some id =>
        simp [hid] at h
        obtain ⟨rfl, rfl⟩ := h
        exact .typed id hc hid ⟨hc, rfl, rfl, rfl, toI32_spec _⟩
      | none =>
        cases ha : e.ksymAddr with
        | some addr =>
          simp only [hid, ha] at h
          simp at h
          obtain ⟨rfl, rfl⟩ := h
          exact .address addr _ _ hc hid ha (toI32_spec _) (toI32_spec _) ⟨hc, rfl, rfl, rfl, rfl⟩
        | none =>
          simp only [hid, ha] at h
          split at h
          · rename_i hw
            simp at h
            obtain ⟨rfl, rfl⟩ := h
            exact .null hc hid ha hw ⟨hc, rfl, rfl, rfl, rfl⟩
          · cases h

theorem isExtern_iff {sym : Sym} : sym.isExtern = true ↔
    sym.sectionIndex = none ∧ sym.name.isSome = true ∧ sym.isDefinition = false ∧ sym.kind = .unknown := by
  unfold Sym.isExtern
  simp [and_assoc]

theorem externAct_some {externs : Name → Option Extern} {syms : Nat → Option Sym} {rel : Rel}
    {ins : Insn} {p : Insn × Option Int} (h : externAct externs syms rel ins = .ok (some p)) :
    ∃ e, AgainstExtern externs syms rel e ∧ externPatch e rel.symbolIndex ins = .ok p := by
  unfold externAct at h
  cases hs : syms rel.symbolIndex with
  | none => rw [hs] at h; cases h
  | some sym =>
    rw [hs] at h
    simp only at h
    split at h
    · cases h
    · rename_i hx
      have hx := isExtern_iff.mp (by simpa using hx)
      cases hn : sym.name with
      | none => rw [hn] at h; cases h
      | some name =>
        rw [hn] at h
        simp only at h
        cases he : externs name with
        | none => rw [he] at h; cases h
        | some e =>
          rw [he] at h
          simp only at h
          cases hp : externPatch e rel.symbolIndex ins with
          | error e2 => rw [hp] at h; cases h
          | ok q =>
            rw [hp] at h
            simp at h
            subst h
            exact ⟨e, ⟨sym, name, hs, hx.1, hx.2.2.1, hx.2.2.2, hn, he⟩, hp⟩

theorem externAct_ref {externs : Name → Option Extern} {syms : Nat → Option Sym} {rel : Rel}
    {ins : Insn} {e : Extern} (h : AgainstExtern externs syms rel e) :
    externAct externs syms rel ins =
      match externPatch e rel.symbolIndex ins with
      | .error e => .error e
      | .ok p => .ok (some p) := by
  obtain ⟨sym, name, h1, h2, h3, h4, h5, h6⟩ := h
  have hx : sym.isExtern = true := isExtern_iff.mpr ⟨h2, by rw [h5]; rfl, h3, h4⟩
  unfold externAct
  simp only [h1, hx, Bool.true_eq_false, if_false, h5, h6]

/-- No error is produced by instruction `i` if the whole run succeeds. -/
theorem loop_ok_act (act : Act) (missing : Err) (so : Nat) (orig : List Insn) (all : List Rel)
    (hdist : (all.map Rel.offset).Nodup) (hno : NoOverlap act so orig all) (rels : List Rel) :
    ∀ (done : List Rel) (insns insns' : List Insn), all = done ++ rels → insns.length = orig.length →
      (∀ i ins, orig[i]? = some ins → ∃ out, insns[i]? = some out ∧ Now act so orig done i ins out) →
      loop act missing so rels insns = .ok insns' →
      ∀ rel ∈ rels, ∀ i ins, At so rel i → orig[i]? = some ins → ∃ r, act rel ins = .ok r := by
  induction rels with
  | nil => intro _ _ _ _ _ _ _ rel h; cases h
  | cons rel rels ih =>
    intro done insns insns' hall hlen h hl r hr i ins hat hi
    have hl0 := hl
    simp only [loop] at hl
    cases hs : step act missing so insns rel with
    | error e => rw [hs] at hl; cases hl
    | ok insns1 =>
      rw [hs] at hl
      have hrel : rel ∈ all := by rw [hall]; simp
      have hdone : ∀ r ∈ done, r ∈ all := fun r hr => by rw [hall]; simp [hr]
      rcases List.mem_cons.mp hr with rfl | hr
      · -- the instruction is still the original one
        obtain ⟨cur, hcur, hnow⟩ := h i ins hi
        have hne : ∀ r' ∈ done, r'.offset ≠ r.offset := by
          intro r' hr' heq
          rw [hall, List.map_append, List.map_cons] at hdist
          have := (List.nodup_append.mp hdist).2.2 r'.offset (List.mem_map_of_mem hr') r.offset (by simp)
          exact this heq
        have hcur0 : cur = ins := by
          rcases hnow with ⟨r', hr', n, hh⟩ | ⟨_, h2⟩
          · exfalso
            apply hne r' hr'
            have := hh.1
            unfold Spec.At at this
            unfold Spec.At at hat
            omega
          · rcases h2 with ⟨r', hr', j, a, n, e, hh, _⟩ | ⟨_, ho⟩
            · exact absurd (show Spec.At so r (j + 1) by rw [← e]; exact hat) (hno r' (hdone r' hr') r hrel j a n hh)
            · exact ho
        subst hcur0
        simp only [step] at hs
        have hlt := (List.getElem?_eq_some_iff.mp hcur).1
        unfold Spec.At at hat
        rw [if_neg (by simp only [insSize]; omega), if_neg (by simp only [insSize]; omega)] at hs
        have hk : (r.offset - so) / insSize = i := by simp only [insSize]; omega
        rw [hk, hcur] at hs
        cases ha : act r cur with
        | ok x => exact ⟨x, rfl⟩
        | error e => simp [ha] at hs
      · have hspec := loop_spec act missing so orig (done ++ [rel])
          (by
            rw [hall] at hdist
            have e : done ++ rel :: rels = (done ++ [rel]) ++ rels := by simp
            rw [e, List.map_append] at hdist
            exact (List.nodup_append.mp hdist).1)
          (by
            intro r1 h1 r2 h2
            have hsub : ∀ r ∈ done ++ [rel], r ∈ all := by
              intro r hr
              rcases List.mem_append.mp hr with hr | hr
              · exact hdone r hr
              · have : r = rel := by simpa using hr
                subst this; exact hrel
            exact hno r1 (hsub r1 h1) r2 (hsub r2 h2))
          [rel] done insns insns1 rfl hlen h (by simp [loop, hs])
        exact ih (done ++ [rel]) insns1 insns' (by rw [hall]; simp) hspec.1 hspec.2 hl r hr i ins hat hi

/-- No relocation is for the second half of a 64-bit load relocated by another one. -/
def LoadsIntact (so : Nat) (rels : List Rel) (orig : List Insn) : Prop :=
  ∀ r1 ∈ rels, ∀ i ins, At so r1 i → orig[i]? = some ins → ins.code = 0x18 → ∀ r2 ∈ rels, ¬ At so r2 (i + 1)

theorem extern_noOverlap {externs : Name → Option Extern} {syms : Nat → Option Sym} {so : Nat}
    {rels : List Rel} {orig : List Insn} (hp : LoadsIntact so rels orig) :
    NoOverlap (externAct externs syms) so orig rels := by
  rintro r1 hr1 r2 hr2 i a n ⟨hat, ins, hi, hact⟩
  obtain ⟨e, _, hpatch⟩ := externAct_some hact
  have hf := externPatch_form hpatch
  have hc : ins.code = 0x18 := by cases hf <;> assumption
  exact hp r1 hr1 i ins hat hi hc r2 hr2

/-- C11: after a successful extern relocation every instruction that refers to an extern symbol has the
form prescribed by what is known of that symbol, and every other instruction is unchanged. -/
theorem C11_externs_patched {externs : Name → Option Extern} {syms : Nat → Option Sym}
    {so : Nat} {rels : List Rel} {orig out : List Insn}
    (hoff : (rels.map Rel.offset).Nodup) (hp : LoadsIntact so rels orig)
    (h : relocateExterns externs syms so rels orig = .ok out) :
    out.length = orig.length ∧
    ∀ i ins, orig[i]? = some ins → ∃ o, out[i]? = some o ∧ ExternResult externs syms so rels orig i ins o := by
  rw [relocateExterns_eq] at h
  have hno := extern_noOverlap (externs := externs) (syms := syms) hp
  obtain ⟨h1, h2⟩ := loop_spec _ _ so orig rels hoff hno rels [] orig out rfl rfl
    (fun i ins hi => ⟨ins, hi, Now.init _ _ _ _ _⟩) h
  have h3 := loop_ok_act _ _ so orig rels hoff hno rels [] orig out rfl rfl
    (fun i ins hi => ⟨ins, hi, Now.init _ _ _ _ _⟩) h
  refine ⟨h1, ?_⟩
  intro i ins hi
  obtain ⟨o, ho, hnow⟩ := h2 i ins hi
  refine ⟨o, ho, ?_⟩
  rcases hnow with ⟨rel, hr, n, hat, ins2, hi2, hact⟩ | ⟨hno1, hrest⟩
  · rw [hi] at hi2; cases hi2
    obtain ⟨e, he, hpatch⟩ := externAct_some hact
    exact .reference rel e n hr hat he (externPatch_form hpatch)
  · rcases hrest with ⟨rel, hr, j, a, n, e, ⟨hat, prev, hprev, hact⟩, hout⟩ | ⟨hno2, hout⟩
    · obtain ⟨x, hx, hpatch⟩ := externAct_some hact
      exact .second rel x j prev a n hr e hat hprev hx (externPatch_form hpatch) hout
    · have hit : ∀ rel ∈ rels, ∀ j ins, At so rel j → orig[j]? = some ins → ∀ e, AgainstExtern externs syms rel e →
          ∃ p, externAct externs syms rel ins = .ok (some p) ∧ externPatch e rel.symbolIndex ins = .ok p := by
        intro rel hr j ins hat hj e he
        obtain ⟨r, hact⟩ := h3 rel hr j ins hat hj
        have hx := externAct_ref (ins := ins) he
        rw [hact] at hx
        cases hp : externPatch e rel.symbolIndex ins with
        | error e2 => rw [hp] at hx; cases hx
        | ok p => rw [hp] at hx; simp at hx; exact ⟨p, by rw [hact, hx], rfl⟩
      refine .same ?_ ?_ hout
      · intro rel hr hat e he
        obtain ⟨⟨a, n⟩, hact, _⟩ := hit rel hr i ins hat hi e he
        exact hno1 rel hr a n ⟨hat, ins, hi, hact⟩
      · intro rel hr j prev e hat hprev x hx
        obtain ⟨⟨a, n⟩, hact, hpatch⟩ := hit rel hr j prev hat hprev x hx
        cases n with
        | none =>
          have hf := externPatch_form hpatch
          cases hf <;> assumption
        | some n => exact absurd ⟨hat, prev, hprev, hact⟩ (hno2 rel hr j a n e)

/-- C11: a reference to a strong symbol that was not found makes the relocation fail. -/
theorem C11_missing_strong_fails {externs : Name → Option Extern} {syms : Nat → Option Sym}
    {so : Nat} {rels : List Rel} {orig : List Insn}
    (hoff : (rels.map Rel.offset).Nodup) (hp : LoadsIntact so rels orig)
    {rel : Rel} {i : Nat} {ins : Insn} {e : Extern} (hr : rel ∈ rels) (hat : At so rel i)
    (hi : orig[i]? = some ins) (he : AgainstExtern externs syms rel e) (hm : Missing e ins) (out : List Insn) :
    relocateExterns externs syms so rels orig ≠ .ok out := by
  intro h
  rw [relocateExterns_eq] at h
  have hno := extern_noOverlap (externs := externs) (syms := syms) hp
  obtain ⟨r, hact⟩ := loop_ok_act _ _ so orig rels hoff hno rels [] orig out rfl rfl
    (fun i ins hi => ⟨ins, hi, Now.init _ _ _ _ _⟩) h rel hr i ins hat hi
  rw [externAct_ref he] at hact
  obtain ⟨hw, hm⟩ := hm
  rcases hm with ⟨hc, hres⟩ | ⟨hc, hb, hk⟩
  · simp [externPatch, hc, hres, hw] at hact
  · simp [externPatch, hc, hb, hk, hw] at hact

/-- C11: the poisoned call stands for no helper: its number is that of the symbol above 2002000000 (any
object with less than 145483648 symbols), far above the kernel's helpers. -/
theorem C11_poison_number {x : Int} {k : Nat} (hk : k < 145483648) (h : IsI32 x (2002000000 + k)) :
    x = 2002000000 + k := by
  obtain ⟨h1, h2, j, hj⟩ := h
  omega

/-- C11: extern relocation does not panic on objects that call only functions, that is, when every extern
that is called and resolved was resolved to a BTF id (see `C11_call_of_variable_violated`). -/
theorem C11_no_panic_partial {externs : Name → Option Extern} {syms : Nat → Option Sym}
    {so : Nat} {rels : List Rel} {orig : List Insn}
    (hres : ∀ rel ∈ rels, ∀ i ins e, At so rel i → orig[i]? = some ins → ins.code = 0x85 →
      AgainstExtern externs syms rel e → e.isResolved = true → ∃ id, e.btfId = some id) :
    relocateExterns externs syms so rels orig ≠ .error .panicIndex ∧
    relocateExterns externs syms so rels orig ≠ .error .panicNoBtfId := by
  rw [relocateExterns_eq]
  have main : ∀ (rels : List Rel) (insns : List Insn),
      (∀ rel ∈ rels, ∀ i ins e, At so rel i → insns[i]? = some ins → ins.code = 0x85 →
        AgainstExtern externs syms rel e → e.isResolved = true → ∃ id, e.btfId = some id) →
      loop (externAct externs syms) .invalidOffset so rels insns ≠ .error .panicIndex ∧
      loop (externAct externs syms) .invalidOffset so rels insns ≠ .error .panicNoBtfId := by
    intro rels
    induction rels with
    | nil => intro insns _; simp [loop]
    | cons rel rels ih =>
      intro insns hres
      have key : ∀ i ins, At so rel i → insns[i]? = some ins →
          externAct externs syms rel ins ≠ .error .panicIndex ∧
          externAct externs syms rel ins ≠ .error .panicNoBtfId := by
        intro i ins hat hi
        unfold externAct
        cases hs : syms rel.symbolIndex with
        | none => simp
        | some sym =>
          simp only
          split
          · simp
          · rename_i hx
            have hx := isExtern_iff.mp (by simpa using hx)
            cases hn : sym.name with
            | none => simp
            | some name =>
              simp only
              cases he : externs name with
              | none => simp
              | some e =>
                simp only
                have hag : AgainstExtern externs syms rel e :=
                  ⟨sym, name, hs, hx.1, hx.2.2.1, hx.2.2.2, hn, he⟩
                have hp : externPatch e rel.symbolIndex ins ≠ .error .panicIndex ∧
                    externPatch e rel.symbolIndex ins ≠ .error .panicNoBtfId := by
                  by_cases hc : ins.code = 0x85
                  · have := hres rel List.mem_cons_self i ins e hat hi hc hag
                    unfold externPatch
                    simp only [hc, if_true]
                    cases hr : e.isResolved
                    · simp only [Bool.false_eq_true, if_false]
                      split <;> simp
                    · obtain ⟨id, hid⟩ := this hr
                      simp [hid]
                  · unfold externPatch
                    simp only [hc, if_false]
                    repeat' split
                    all_goals simp
                cases hx : externPatch e rel.symbolIndex ins with
                | error e2 =>
                  rw [hx] at hp
                  refine ⟨fun h => hp.1 ?_, fun h => hp.2 ?_⟩ <;> (cases h; rfl)
                | ok p => simp
      -- instructions keep their code
      have hcode : ∀ insns1, step (externAct externs syms) .invalidOffset so insns rel = .ok insns1 →
          ∀ (i : Nat) (ins : Insn), insns1[i]? = some ins → ∃ ins0 : Insn, insns[i]? = some ins0 ∧ ins0.code = ins.code := by
        intro insns1 hs i ins hi
        have hset : ∀ (l : List Insn) (k : Nat) (x y : Insn), l[k]? = some x → y.code = x.code →
            ∀ ins : Insn, (l.set k y)[i]? = some ins → ∃ ins0 : Insn, l[i]? = some ins0 ∧ ins0.code = ins.code := by
          intro l k x y hx hc ins hi
          by_cases hk : k = i
          · subst hk
            have hlt := (List.getElem?_eq_some_iff.mp hx).1
            rw [List.getElem?_set_self hlt] at hi
            cases hi
            exact ⟨x, hx, hc.symm⟩
          · rw [List.getElem?_set_ne hk] at hi
            exact ⟨ins, hi, rfl⟩
        simp only [step] at hs
        split at hs
        · cases hs; exact ⟨ins, hi, rfl⟩
        · split at hs
          · cases hs
          · split at hs
            · cases hs
            · rename_i ins1 hi1
              cases ha : externAct externs syms rel ins1 with
              | error e => rw [ha] at hs; cases hs
              | ok r =>
                rw [ha] at hs
                have hform : ∀ a n, r = some (a, n) → a.code = ins1.code := by
                  intro a n hr
                  subst hr
                  obtain ⟨e, _, hp⟩ := externAct_some ha
                  have := externPatch_form hp
                  cases this with
                  | kfunc _ hc _ _ h => rw [h.1, hc]
                  | poison hc _ _ h => rw [h.1, hc]
                  | typed _ hc _ h => rw [h.1, hc]
                  | address _ _ _ hc _ _ _ _ h => rw [h.1, hc]
                  | null hc _ _ _ h => rw [h.1, hc]
                match r, hs, hform with
                | none, hs, _ => cases hs; exact ⟨ins, hi, rfl⟩
                | some (a, none), hs, hform =>
                  cases hs
                  exact hset _ _ _ _ hi1 (hform a none rfl) ins hi
                | some (a, some n), hs, hform =>
                  simp only at hs
                  split at hs
                  · cases hs
                  · rename_i next hnext
                    cases hs
                    have hk : (insns.set ((rel.offset - so) / insSize) a)[(rel.offset - so) / insSize + 1]? = some next := by
                      rw [List.getElem?_set_ne (by omega)]; exact hnext
                    obtain ⟨x, hx, hxc⟩ := hset _ _ next { next with imm := n } hk rfl ins hi
                    obtain ⟨y, hy, hyc⟩ := hset _ _ _ _ hi1 (hform a _ rfl) x hx
                    exact ⟨y, hy, by rw [hyc, hxc]⟩
      simp only [loop]
      cases hs : step (externAct externs syms) .invalidOffset so insns rel with
      | ok insns1 =>
        refine ih insns1 ?_
        intro r hr i ins e hat hi hc hag
        obtain ⟨ins0, h0, hc0⟩ := hcode insns1 hs i ins hi
        exact hres r (List.mem_cons_of_mem _ hr) i ins0 e hat h0 (by rw [hc0, hc]) hag
      | error e =>
        simp only
        have : e ≠ .panicIndex ∧ e ≠ .panicNoBtfId := by
          simp only [step] at hs
          split at hs
          · cases hs
          · split at hs
            · cases hs; simp
            · rename_i h1 h2
              split at hs
              · rename_i hn
                rw [List.getElem?_eq_none_iff] at hn
                simp only [insSize] at h1 h2 hn
                omega
              · rename_i ins1 hi1
                have hk := key _ ins1 (by unfold Spec.At; simp only [insSize] at h1 h2 ⊢; omega) hi1
                cases ha : externAct externs syms rel ins1 with
                | error e2 =>
                  rw [ha] at hs hk
                  cases hs
                  exact ⟨fun h => hk.1 (by rw [h]), fun h => hk.2 (by rw [h])⟩
                | ok r =>
                  rw [ha] at hs
                  match r, hs with
                  | none, hs => cases hs
                  | some (_, none), hs => cases hs
                  | some (_, some _), hs =>
                    simp only at hs
                    split at hs
                    · cases hs; simp
                    · cases hs
        simpa using this
  exact main rels orig hres

/-- C11: an object that calls an extern declared as untyped variable, found by address, makes loading
panic (`expect`) instead of failing. -/
theorem C11_call_of_variable_violated :
    ∃ (externs : Name → Option Extern) (syms : Nat → Option Sym) (rels : List Rel) (code : List Insn),
      relocateExterns externs syms 0 rels code = .error .panicNoBtfId :=
  ⟨fun _ => some ⟨true, false, none, some 0xffffffff81000000⟩, fun _ => some ⟨none, some "jiffies".toList, 0, false, .unknown⟩,
    [⟨0, 1⟩], [exCall], by decide +kernel⟩

private def exExterns : Name → Option Extern := fun n =>
  if n = "found".toList then some ⟨true, false, some 77, none⟩
  else if n = "gone".toList then some ⟨false, true, none, none⟩
  else if n = "addr".toList then some ⟨true, false, none, some 0xffffffff81000000⟩ else none
private def exXSyms : Nat → Option Sym := fun i =>
  if i = 1 then some ⟨none, some "found".toList, 0, false, .unknown⟩
  else if i = 2 then some ⟨none, some "gone".toList, 0, false, .unknown⟩
  else if i = 3 then some ⟨none, some "addr".toList, 0, false, .unknown⟩ else none
private def exXCode : List Insn := [exCall, exCall, ld 0, nop2, ld 0, nop2]
private def exXRels : List Rel := [⟨32, 2⟩, ⟨8, 2⟩, ⟨0, 1⟩, ⟨16, 3⟩]

example : (exXRels.map Rel.offset).Nodup ∧ LoadsIntact 0 exXRels exXCode ∧
    relocateExterns exExterns exXSyms 0 exXRels exXCode =
      .ok [⟨0x85, 0, 2, 0, 77⟩, ⟨0x85, 0, 0, 0, 2002000002⟩, ⟨0x18, 1, 0, 0, -2130706432⟩, { nop2 with imm := -1 },
        ⟨0x18, 1, 0, 0, 0⟩, nop2] := by
  refine ⟨by decide, ?_, by decide +kernel⟩
  intro r1 hr1 i ins hat hi hc r2 hr2 hat2
  simp only [exXRels, List.mem_cons, List.not_mem_nil, or_false] at hr1 hr2
  unfold Spec.At at hat hat2
  rcases hr1 with rfl | rfl | rfl | rfl <;> rcases hr2 with rfl | rfl | rfl | rfl <;> simp at hat hat2 <;>
    first
    | omega
    | (have : i = 0 := by omega
       subst this; simp [exXCode] at hi; subst hi; simp [exCall] at hc)
    | (have : i = 1 := by omega
       subst this; simp [exXCode] at hi; subst hi; simp [exCall] at hc)

/-- The hypothesis of `C11_no_panic_partial` holds of the same program. -/
example : ∀ rel ∈ exXRels, ∀ i ins e, At 0 rel i → exXCode[i]? = some ins → ins.code = 0x85 →
    AgainstExtern exExterns exXSyms rel e → e.isResolved = true → ∃ id, e.btfId = some id := by
  intro rel hr i ins e hat hi hc ⟨sym, name, h1, _, _, _, h5, h6⟩ hres
  simp only [exXRels, List.mem_cons, List.not_mem_nil, or_false] at hr
  unfold Spec.At at hat
  rcases hr with rfl | rfl | rfl | rfl
  · have : i = 4 := by simp at hat; omega
    subst this; simp [exXCode] at hi; subst hi; simp [ld] at hc
  · simp [exXSyms] at h1; subst h1; simp at h5; subst h5
    simp [exExterns] at h6; subst h6; simp at hres
  · simp [exXSyms] at h1; subst h1; simp at h5; subst h5
    simp [exExterns] at h6; subst h6; exact ⟨77, rfl⟩
  · have : i = 2 := by simp at hat; omega
    subst this; simp [exXCode] at hi; subst hi; simp [ld] at hc

end Verif.Reloc
