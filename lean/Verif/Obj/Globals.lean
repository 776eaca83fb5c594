import Verif.Obj.Spec
/-!
# C23: overriding global variables
-/
set_option linter.unusedSimpArgs false
set_option linter.unusedVariables false
namespace Verif.Obj
open Verif.Bytes Spec

theorem symbolByName_some {syms : List Sym} {name : String} {s : Sym} (h : symbolByName syms name = some s) :
    s ∈ syms ∧ s.name = some name := by
  have := List.mem_of_getLast? h
  simp at this
  exact this

theorem symbolByName_none {syms : List Sym} {name : String} (h : symbolByName syms name = none) :
    ∀ s ∈ syms, s.name ≠ some name := by
  intro s hs hn
  have : syms.filter (fun s => s.name == some name) = [] := List.getLast?_eq_none_iff.mp h
  have hm : s ∈ syms.filter (fun s => s.name == some name) := by simp [hs, hn]
  rw [this] at hm
  simp at hm

theorem splice_get (d new : List UInt8) (a b : Nat) (hab : a ≤ b) (hb : b ≤ d.length) (hn : new.length = b - a) :
    (splice d a b new).length = d.length ∧
    (∀ i, a ≤ i → i < b → (splice d a b new)[i]? = new[i - a]?) ∧
    (∀ i, ¬ (a ≤ i ∧ i < b) → (splice d a b new)[i]? = d[i]?) := by
  have hta : (d.take a).length = a := by simp; omega
  have hl1 : (d.take a ++ new).length = b := by simp [hn]; omega
  refine ⟨by simp [splice, hn]; omega, ?_, ?_⟩
  · intro i h1 h2
    unfold splice
    rw [List.getElem?_append_left (by omega), List.getElem?_append_right (by omega), hta]
  · intro i h
    unfold splice
    by_cases h1 : i < a
    · rw [List.getElem?_append_left (by omega), List.getElem?_append_left (by omega), List.getElem?_take]
      simp [h1]
    · rw [List.getElem?_append_right (by omega), hl1, List.getElem?_drop]
      congr 1; omega

/-- What one successful patch does. -/
structure Patched (maps maps' : List DataMap) (g : Global) (s : Sym) (k : Nat) (m : DataMap) : Prop where
  get : maps[k]? = some m
  sec : s.sectionIndex = some m.sectionIndex
  inside : s.address + s.size ≤ m.data.length
  eq : maps' = maps.set k { m with data := splice m.data s.address (s.address + s.size) g.data }

theorem patchFirst_ok {g : Global} {s : Sym} {maps maps' : List DataMap} (ha : s.address < 2 ^ 64) (hs : s.size < 2 ^ 64)
    (h : patchFirst g s maps = some (.ok maps')) : ∃ k m, Patched maps maps' g s k m := by
  induction maps generalizing maps' with
  | nil => simp [patchFirst] at h
  | cons m ms ih =>
    unfold patchFirst at h
    split at h
    · rename_i hsec
      simp only at h
      split at h
      · simp at h
      · rename_i hb
        have hstop : (s.address + s.size) % 2 ^ 64 = s.address + s.size := by omega
        rw [hstop] at hb h
        simp only [Option.some.injEq, Except.ok.injEq] at h
        subst h
        exact ⟨0, m, rfl, hsec, by omega, rfl⟩
    · split at h
      · rename_i ms' hms
        simp only [Option.some.injEq, Except.ok.injEq] at h
        subst h
        obtain ⟨k, m', h1, h2, h3, h4⟩ := ih hms
        exact ⟨k + 1, m', by simpa using h1, h2, h3, by simp [h4]⟩
      · rename_i hother
        exact absurd h (hother maps')

theorem patchOne_ok {syms : List Sym} (hsy : SymsU64 syms) {maps maps' : List DataMap} {g : Global}
    (h : patchOne syms maps g = .ok maps') :
    (symbolByName syms g.name = none ∧ g.mustExist = false ∧ maps' = maps) ∨
    ∃ s k m, symbolByName syms g.name = some s ∧ g.data.length = s.size ∧ Patched maps maps' g s k m := by
  unfold patchOne at h
  split at h
  · rename_i s hs
    right
    split at h
    · simp at h
    · rename_i hlen
      have hsz := hsy s (symbolByName_some hs).1
      split at h
      · rename_i r hr
        subst h
        obtain ⟨k, m, hp⟩ := patchFirst_ok hsz.1 hsz.2 hr
        exact ⟨s, k, m, hs, by omega, hp⟩
      · simp at h
  · rename_i hn
    left
    split at h
    · simp at h
    · rename_i hm
      simp only [Except.ok.injEq] at h
      exact ⟨hn, by simpa using hm, h.symm⟩

/-- Same maps, same sections, same sizes. -/
def SameShape (maps maps' : List DataMap) : Prop :=
  maps'.length = maps.length ∧ ∀ (k : Nat) (m : DataMap), maps[k]? = some m → ∃ m', maps'[k]? = some m' ∧ m'.name = m.name ∧
    m'.sectionIndex = m.sectionIndex ∧ m'.data.length = m.data.length

theorem Patched.at {maps maps' : List DataMap} {g : Global} {s : Sym} {k : Nat} {m : DataMap}
    (p : Patched maps maps' g s k m) : maps'[k]? = some { m with data := splice m.data s.address (s.address + s.size) g.data } := by
  have hk : k < maps.length := by
    rcases Nat.lt_or_ge k maps.length with h | h
    · exact h
    · have := p.get; rw [List.getElem?_eq_none h] at this; simp at this
  rw [p.eq, List.getElem?_set_self hk]

theorem Patched.other {maps maps' : List DataMap} {g : Global} {s : Sym} {k : Nat} {m : DataMap}
    (p : Patched maps maps' g s k m) (j : Nat) (h : j ≠ k) : maps'[j]? = maps[j]? := by
  rw [p.eq, List.getElem?_set_ne (by omega)]

theorem Patched.shape {maps maps' : List DataMap} {g : Global} {s : Sym} {k : Nat} {m : DataMap}
    (p : Patched maps maps' g s k m) (hl : g.data.length = s.size) : SameShape maps maps' := by
  refine ⟨by rw [p.eq]; simp, ?_⟩
  intro j mj hj
  by_cases h : j = k
  · subst h
    have := p.get
    rw [hj] at this
    simp only [Option.some.injEq] at this
    subst this
    exact ⟨_, p.at, rfl, rfl, (splice_get _ _ _ _ (by omega) p.inside (by omega)).1⟩
  · exact ⟨mj, by rw [p.other j h, hj], rfl, rfl, rfl⟩

theorem SameShape.trans {a b c : List DataMap} (h1 : SameShape a b) (h2 : SameShape b c) : SameShape a c := by
  refine ⟨by rw [h2.1, h1.1], ?_⟩
  intro k m hk
  obtain ⟨m', hk', e1, e2, e3⟩ := h1.2 k m hk
  obtain ⟨m'', hk'', f1, f2, f3⟩ := h2.2 k m' hk'
  exact ⟨m'', hk'', by rw [f1, e1], by rw [f2, e2], by rw [f3, e3]⟩

theorem SameShape.refl (a : List DataMap) : SameShape a a := ⟨rfl, fun k m h => ⟨m, h, rfl, rfl, rfl⟩⟩

theorem SameShape.back {a b : List DataMap} (h : SameShape a b) {k : Nat} {m' : DataMap} (hk : b[k]? = some m') :
    ∃ m, a[k]? = some m ∧ m'.sectionIndex = m.sectionIndex ∧ m'.data.length = m.data.length := by
  have hlt : k < a.length := by
    rcases Nat.lt_or_ge k a.length with h' | h'
    · exact h'
    · rw [List.getElem?_eq_none (by rw [h.1]; exact h')] at hk; simp at hk
  obtain ⟨m'', e0, -, e2, e3⟩ := h.2 k a[k] (List.getElem?_eq_getElem hlt)
  rw [hk] at e0
  simp only [Option.some.injEq] at e0
  subst e0
  exact ⟨_, List.getElem?_eq_getElem hlt, e2, e3⟩

theorem SameShape.one {a b : List DataMap} (h : SameShape a b) (ho : OneMapPerSection a) : OneMapPerSection b := by
  intro j k m m' hj hk hs
  obtain ⟨n, h1, h2, -⟩ := h.back hj
  obtain ⟨n', h1', h2', -⟩ := h.back hk
  exact ho j k n n' h1 h1' (by rw [← h2, ← h2', hs])

theorem patchMapData_cons {syms : List Sym} {maps maps' : List DataMap} {g : Global} {gs : List Global}
    (h : patchMapData syms maps (g :: gs) = .ok maps') :
    ∃ mid, patchOne syms maps g = .ok mid ∧ patchMapData syms mid gs = .ok maps' := by
  unfold patchMapData at h
  split at h
  · rename_i mid hm; exact ⟨mid, hm, h⟩
  · simp at h

/-- **C23.** Whatever the symbols and overrides: after a successful override there are the same maps with the
same names, sections and sizes, and every byte that belongs to no overridden variable has kept its value. -/
theorem C23_frame (syms : List Sym) (hsy : SymsU64 syms) (maps maps' : List DataMap) (gs : List Global)
    (h : patchMapData syms maps gs = .ok maps') :
    maps'.length = maps.length ∧
    ∀ (k : Nat) (m : DataMap), maps[k]? = some m → ∃ m', maps'[k]? = some m' ∧ m'.name = m.name ∧
      m'.sectionIndex = m.sectionIndex ∧ m'.data.length = m.data.length ∧
      ∀ i, (∀ g ∈ gs, ∀ s, IsVar syms g s → ¬ Covers s m.sectionIndex i) → m'.data[i]? = m.data[i]? := by
  induction gs generalizing maps with
  | nil =>
    simp only [patchMapData, Except.ok.injEq] at h
    subst h
    exact ⟨rfl, fun k m hk => ⟨m, hk, rfl, rfl, rfl, fun _ _ => rfl⟩⟩
  | cons g gs ih =>
    obtain ⟨mid, h1, h2⟩ := patchMapData_cons h
    obtain ⟨hl, hrest⟩ := ih mid h2
    rcases patchOne_ok hsy h1 with ⟨-, -, rfl⟩ | ⟨s, k0, m0, hs, hlen, p⟩
    · refine ⟨hl, fun k m hk => ?_⟩
      obtain ⟨m', a, b, c, d, e⟩ := hrest k m hk
      exact ⟨m', a, b, c, d, fun i hi => e i (fun g' hg' => hi g' (by simp [hg']))⟩
    · have sh := p.shape hlen
      refine ⟨by rw [hl, sh.1], fun k m hk => ?_⟩
      obtain ⟨mm, hmm, b, c, d⟩ := sh.2 k m hk
      obtain ⟨m', a', b', c', d', e'⟩ := hrest k mm hmm
      refine ⟨m', a', by rw [b', b], by rw [c', c], by rw [d', d], fun i hi => ?_⟩
      rw [e' i (fun g' hg' s' hs' => by rw [c]; exact hi g' (by simp [hg']) s' hs')]
      by_cases hk0 : k = k0
      · subst hk0
        have e0 := p.get
        rw [hk] at e0
        simp only [Option.some.injEq] at e0
        subst e0
        rw [p.at] at hmm
        simp only [Option.some.injEq] at hmm
        subst hmm
        have hnc := hi g (by simp) s (symbolByName_some hs)
        refine (splice_get _ _ _ _ (by omega) p.inside (by omega)).2.2 i ?_
        intro hh
        exact hnc ⟨p.sec, hh.1, hh.2⟩
      · rw [p.other k hk0, hk] at hmm
        simp only [Option.some.injEq] at hmm
        rw [← hmm]

/-- **C23.** After a successful override each overridden variable holds exactly the given bytes, which are as many
as the variable has, provided names are unique, the variables do not overlap and no two maps share a section. -/
theorem C23_written_partial (syms : List Sym) (hsy : SymsU64 syms) (maps maps' : List DataMap) (gs : List Global)
    (hone : OneMapPerSection maps) (hnames : gs.Pairwise (fun g g' => g.name ≠ g'.name))
    (huniq : UniqueVars syms gs) (hdisj : DisjointVars syms gs) (h : patchMapData syms maps gs = .ok maps') :
    ∀ g ∈ gs, ∀ s, IsVar syms g s → g.data.length = s.size ∧
      ∃ m' ∈ maps', Inside s m' ∧ (m'.data.drop s.address).take s.size = g.data := by
  induction gs generalizing maps with
  | nil => simp
  | cons g gs ih =>
    obtain ⟨mid, h1, h2⟩ := patchMapData_cons h
    have hp := patchOne_ok hsy h1
    have sh : SameShape maps mid := by
      rcases hp with ⟨-, -, rfl⟩ | ⟨s, k0, m0, hs, hlen, p⟩
      · exact SameShape.refl _
      · exact p.shape hlen
    obtain ⟨hn1, hn2⟩ := List.pairwise_cons.mp hnames
    have ih' := ih mid (sh.one hone) hn2 (fun g' hg' => huniq g' (by simp [hg']))
      (fun a ha b hb => hdisj a (by simp [ha]) b (by simp [hb])) h2
    intro g' hg' s' hs'
    rcases List.mem_cons.mp hg' with rfl | hg'
    · rcases hp with ⟨hnone, -, -⟩ | ⟨s, k0, m0, hs, hlen, p⟩
      · exact absurd hs'.2 (symbolByName_none hnone s' hs'.1)
      · have : s' = s := huniq g' (by simp) s' s hs' (symbolByName_some hs)
        subst this
        refine ⟨hlen, ?_⟩
        obtain ⟨-, hfr⟩ := C23_frame syms hsy mid maps' gs h2
        obtain ⟨m', hm', hn', hsec', hlen', hkeep⟩ := hfr k0 _ p.at
        obtain ⟨sl, sin, -⟩ := splice_get m0.data g'.data s'.address (s'.address + s'.size) (by omega) p.inside (by omega)
        refine ⟨m', List.mem_of_getElem? hm', ⟨by rw [hsec']; exact p.sec, ?_⟩, ?_⟩
        · rw [hlen']; simp only [sl]; exact p.inside
        · apply List.ext_getElem?
          intro i
          by_cases hi : i < s'.size
          · rw [List.getElem?_take_of_lt hi, List.getElem?_drop]
            rw [hkeep (s'.address + i) ?_, sin _ (by omega) (by omega)]
            · congr 1; omega
            · intro g2 hg2 s2 hs2 hc
              refine hdisj g' (by simp) g2 (by simp [hg2]) (hn1 g2 hg2) s' s2 hs' hs2 _ _ ⟨?_, hc⟩
              exact ⟨p.sec, by omega, by omega⟩
          · rw [List.getElem?_eq_none (by simp; omega), List.getElem?_eq_none (by omega)]
    · exact ih' g' hg' s' hs'

/-- **C23.** If an override has the wrong size for its variable, or names a variable that must exist and does not,
the whole operation fails. -/
theorem C23_errors (syms : List Sym) (maps : List DataMap) (gs : List Global)
    (hbad : ∃ g ∈ gs, (∃ s, IsVar syms g s) ∧ (∀ s, IsVar syms g s → g.data.length ≠ s.size) ∨
      g.mustExist = true ∧ ¬ ∃ s, IsVar syms g s) :
    ∃ e, patchMapData syms maps gs = .error e := by
  induction gs generalizing maps with
  | nil => obtain ⟨g, hg, -⟩ := hbad; simp at hg
  | cons g0 gs ih =>
    unfold patchMapData
    cases h0 : patchOne syms maps g0 with
    | error e => exact ⟨e, rfl⟩
    | ok mid =>
      simp only
      apply ih
      obtain ⟨g, hg, hb⟩ := hbad
      rcases List.mem_cons.mp hg with rfl | hg
      · exfalso
        unfold patchOne at h0
        rcases hb with ⟨⟨s, hs⟩, hne⟩ | ⟨hme, hno⟩
        · split at h0
          · rename_i s2 hs2
            split at h0
            · simp at h0
            · rename_i hh
              exact hh (hne s2 (symbolByName_some hs2))
          · rename_i hn
            exact symbolByName_none hn s hs.1 hs.2
        · split at h0
          · rename_i s2 hs2
            exact hno ⟨s2, symbolByName_some hs2⟩
          · simp [hme] at h0
      · exact ⟨g, hg, hb⟩

theorem patchFirst_inside {g : Global} {s : Sym} {maps : List DataMap} (hb : s.address + s.size < 2 ^ 64)
    (hin : ∀ m ∈ maps, s.sectionIndex = some m.sectionIndex → Inside s m)
    (hex : ∃ m ∈ maps, s.sectionIndex = some m.sectionIndex) : ∃ maps', patchFirst g s maps = some (.ok maps') := by
  induction maps with
  | nil => obtain ⟨m, hm, -⟩ := hex; simp at hm
  | cons m ms ih =>
    unfold patchFirst
    split
    · rename_i hsec
      have := (hin m (by simp) hsec).2
      simp only [Nat.mod_eq_of_lt hb]
      rw [if_neg (by omega)]
      exact ⟨_, rfl⟩
    · rename_i hsec
      obtain ⟨m2, hm2, h2⟩ := hex
      rcases List.mem_cons.mp hm2 with rfl | hm2
      · exact absurd h2 hsec
      · obtain ⟨ms', hms⟩ := ih (fun m hm => hin m (by simp [hm])) ⟨m2, hm2, h2⟩
        rw [hms]
        exact ⟨_, rfl⟩

/-- **C23.** If every override either names no variable and is optional, or has the size of its variable, which lies
inside the data of its section, the operation succeeds. -/
theorem C23_succeeds (syms : List Sym) (hsy : SymsU64 syms) (maps : List DataMap) (gs : List Global)
    (hbound : ∀ m ∈ maps, m.data.length < 2 ^ 64)
    (hgood : ∀ g ∈ gs, (g.mustExist = false ∨ ∃ s, IsVar syms g s) ∧ ∀ s, IsVar syms g s → g.data.length = s.size ∧
      (∃ m ∈ maps, s.sectionIndex = some m.sectionIndex) ∧
      ∀ m ∈ maps, s.sectionIndex = some m.sectionIndex → Inside s m) :
    ∃ maps', patchMapData syms maps gs = .ok maps' := by
  induction gs generalizing maps with
  | nil => exact ⟨maps, rfl⟩
  | cons g gs ih =>
    have hstep : ∃ mid, patchOne syms maps g = .ok mid := by
      obtain ⟨h1, h2⟩ := hgood g (by simp)
      unfold patchOne
      cases hs : symbolByName syms g.name with
      | some s =>
        obtain ⟨hl, ⟨m, hm, hsec⟩, hin⟩ := h2 s (symbolByName_some hs)
        have := (hin m hm hsec).2
        have := hbound m hm
        obtain ⟨maps', hp⟩ := patchFirst_inside (g := g) (by omega) hin ⟨m, hm, hsec⟩
        simp only [hp, hl, ne_eq, not_true, if_false]
        exact ⟨maps', rfl⟩
      | none =>
        rcases h1 with h1 | ⟨s, hs'⟩
        · simp only [h1, Bool.false_eq_true, if_false]
          exact ⟨maps, rfl⟩
        · exact absurd hs'.2 (symbolByName_none hs s hs'.1)
    obtain ⟨mid, hmid⟩ := hstep
    have sh : SameShape maps mid := by
      rcases patchOne_ok hsy hmid with ⟨-, -, rfl⟩ | ⟨s, k0, m0, hs, hlen, p⟩
      · exact SameShape.refl _
      · exact p.shape hlen
    unfold patchMapData
    rw [hmid]
    have hback : ∀ m' ∈ mid, ∃ m ∈ maps, m'.sectionIndex = m.sectionIndex ∧ m'.data.length = m.data.length := by
      intro m' hm'
      obtain ⟨k, hk⟩ := List.mem_iff_getElem?.mp hm'
      obtain ⟨m, h1, h2, h3⟩ := sh.back hk
      exact ⟨m, List.mem_of_getElem? h1, h2, h3⟩
    refine ih mid ?_ ?_
    · intro m' hm'
      obtain ⟨m, hm, -, hl⟩ := hback m' hm'
      rw [hl]; exact hbound m hm
    · intro g' hg'
      obtain ⟨h1, h2⟩ := hgood g' (by simp [hg'])
      refine ⟨h1, fun s hs => ?_⟩
      obtain ⟨hl, ⟨m, hm, hsec⟩, hin⟩ := h2 s hs
      obtain ⟨k, hk⟩ := List.mem_iff_getElem?.mp hm
      obtain ⟨m2, hm2, -, e2, -⟩ := sh.2 k m hk
      refine ⟨hl, ⟨m2, List.mem_of_getElem? hm2, by rw [e2]; exact hsec⟩, ?_⟩
      intro m' hm' hsec'
      obtain ⟨m3, hm3, e3, l3⟩ := hback m' hm'
      have := hin m3 hm3 (by rw [← e3]; exact hsec')
      exact ⟨hsec', by rw [l3]; exact this.2⟩

/-- Two variables of the same name (for instance `static` variables of different modules, one in section 3, one in
section 4). -/
def dupA : Sym := { index := 1, sectionIndex := some 3, name := some "LEVEL", address := 0, size := 1 }
def dupB : Sym := { index := 2, sectionIndex := some 4, name := some "LEVEL", address := 0, size := 1 }
def dupMaps : List DataMap := [⟨".rodata", 3, [0]⟩, ⟨".data", 4, [0]⟩]

/-- With two variables of the same name only one of them is written, and which one depends on the iteration order of
the symbol table, a hash map. -/
theorem C23_duplicate_name_violated :
    patchMapData [dupA, dupB] dupMaps [⟨"LEVEL", [7], true⟩] = .ok [⟨".rodata", 3, [0]⟩, ⟨".data", 4, [7]⟩] ∧
    patchMapData [dupB, dupA] dupMaps [⟨"LEVEL", [7], true⟩] = .ok [⟨".rodata", 3, [7]⟩, ⟨".data", 4, [0]⟩] := by
  decide +kernel

/-! Two variables in `.rodata`, one in `.bss`, one optional override without a variable. -/
def exSyms : List Sym :=
  [{ index := 1, sectionIndex := some 3, name := some "A", address := 0, size := 2 },
   { index := 2, sectionIndex := some 3, name := some "B", address := 4, size := 1 },
   { index := 3, sectionIndex := some 4, name := some "C", address := 1, size := 1 }]
def exMaps : List DataMap := [⟨".rodata", 3, [1, 2, 3, 4, 5]⟩, ⟨".bss", 4, [0, 0]⟩]
def exGlobals : List Global := [⟨"B", [9], true⟩, ⟨"A", [7, 8], true⟩, ⟨"none", [1], false⟩, ⟨"C", [6], false⟩]

example : patchMapData exSyms exMaps exGlobals = .ok [⟨".rodata", 3, [7, 8, 3, 4, 9]⟩, ⟨".bss", 4, [0, 6]⟩] := by
  decide +kernel
example : patchMapData exSyms exMaps [⟨"A", [7], true⟩] = .error (.invalidGlobalData "A") ∧
    patchMapData exSyms exMaps [⟨"nope", [7], true⟩] = .error (.symbolNotFound "nope") := by decide +kernel
example : SymsU64 exSyms := by unfold SymsU64 exSyms; decide
example : exGlobals.Pairwise (fun g g' => g.name ≠ g'.name) := by decide
example : UniqueVars exSyms exGlobals := by
  have h : ∀ g ∈ exGlobals, ∀ s ∈ exSyms, ∀ s' ∈ exSyms, s.name = some g.name → s'.name = some g.name → s = s' := by
    decide +kernel
  exact fun g hg s s' hs hs' => h g hg s hs.1 s' hs'.1 hs.2 hs'.2
example : DisjointVars exSyms exGlobals := by
  have h : ∀ g ∈ exGlobals, ∀ g' ∈ exGlobals, g.name ≠ g'.name → ∀ s ∈ exSyms, ∀ s' ∈ exSyms, s.name = some g.name →
      s'.name = some g'.name → s.sectionIndex ≠ s'.sectionIndex ∨ s.address + s.size ≤ s'.address ∨
        s'.address + s'.size ≤ s.address := by decide +kernel
  intro g hg g' hg' hne s s' hs hs' sec i ⟨⟨a, b, c⟩, ⟨d, e, f⟩⟩
  rcases h g hg g' hg' hne s hs.1 s' hs'.1 hs.2 hs'.2 with h | h | h
  · exact h (by rw [a, d])
  · omega
  · omega

end Verif.Obj
