import Verif.UProbe.SymSpec
import Verif.Common.Except
/-!
# C46, C47: file offsets of attach points
-/
set_option linter.unusedSimpArgs false
set_option linter.unusedVariables false
namespace Verif.UProbe
open Verif.UProbe.Spec

/-! ## One symbol -/

theorem findSymbol_some {o : Obj} {n : Text} {sym : Symbol} : findSymbol o n = some sym ↔ First o n sym := by
  unfold findSymbol First
  constructor
  · intro h
    obtain ⟨hp, before, after, e, hb⟩ := List.find?_eq_some_iff_append.mp h
    exact ⟨before, after, e, by simpa using hp, fun b hbm => by simpa using hb b hbm⟩
  · rintro ⟨before, after, e, hn, hb⟩
    exact List.find?_eq_some_iff_append.mpr ⟨by simpa using hn, before, after, e, fun b hbm => by simpa using hb b hbm⟩

theorem findSymbol_none {o : Obj} {n : Text} : findSymbol o n = none ↔ Absent o n := by
  unfold findSymbol Absent
  rw [List.find?_eq_none]
  simp

theorem rebase_int (a b c : Nat) (ha : a < 2 ^ 64) (hb : b < 2 ^ 64) :
    ((rebase a b c : Nat) : Int) = ((a : Int) - b + c) % 2 ^ 64 := by
  unfold rebase
  simp only [Nat.reducePow, Int.reducePow] at *
  omega

/-- Addresses and offsets are 64-bit numbers. -/
def Fits64 (o : Obj) : Prop :=
  (∀ s ∈ o.sections, s.addr < 2 ^ 64 ∧ s.off < 2 ^ 64) ∧ ∀ s ∈ o.dynsyms ++ o.syms, s.addr < 2 ^ 64

theorem translate_iff {o : Obj} {sym : Symbol} {n : Text} {off : Nat} (hf : Fits64 o) (hs : sym ∈ o.dynsyms ++ o.syms) :
    translate o sym n = .ok off ↔ At o sym off := by
  have ha := hf.2 sym hs
  unfold translate At Loadable
  by_cases hk : o.kind = .dynamic ∨ o.kind = .executable
  · rw [if_pos hk]
    have hk' : o.kind = .executable ∨ o.kind = .dynamic := hk.symm
    constructor
    · intro h
      refine ⟨fun _ => ?_, fun hn => absurd hk' hn⟩
      cases hi : sym.sect with
      | none => rw [hi] at h; cases h
      | some i =>
        rw [hi] at h
        simp only at h
        cases hsec : o.sections[i]? with
        | none => rw [hsec] at h; cases h
        | some s =>
          rw [hsec] at h
          simp only at h
          cases hnb : s.nobits with
          | true => rw [hnb] at h; cases h
          | false =>
            rw [hnb] at h
            simp at h
            have := (hf.1 s (List.mem_of_getElem? hsec))
            exact ⟨i, s, rfl, hsec, hnb, by rw [← h]; exact rebase_int _ _ _ ha this.1⟩
    · rintro ⟨h1, _⟩
      obtain ⟨i, s, hi, hsec, hnb, e⟩ := h1 hk'
      have := (hf.1 s (List.mem_of_getElem? hsec))
      rw [hi]
      simp only [hsec, hnb]
      have e2 := rebase_int sym.addr s.addr s.off ha this.1
      rw [← e] at e2
      have : rebase sym.addr s.addr s.off = off := by exact_mod_cast e2
      rw [this]
      rfl
  · rw [if_neg hk]
    have hk' : ¬ (o.kind = .executable ∨ o.kind = .dynamic) := fun h => hk h.symm
    constructor
    · intro h
      cases h
      exact ⟨fun h => absurd h hk', fun _ => rfl⟩
    · rintro ⟨_, h2⟩
      rw [h2 hk']

theorem first_mem {o : Obj} {n : Text} {sym : Symbol} (h : First o n sym) : sym ∈ o.dynsyms ++ o.syms := by
  obtain ⟨b, a, e, _⟩ := h
  rw [e]; simp

theorem openMain_ok {fs : Fs} {path : Text} {o : Obj} : openMain fs path = .ok o ↔ fs.file path = .ok o := by
  unfold openMain
  cases fs.file path with
  | ok o => simp
  | error e => cases e <;> simp

theorem debugPath_iff {fs : Fs} {main f p : Text} : RefersTo fs main f p ↔ p = debugPath fs main f := by
  have hh : f.head? = some '/' ↔ ∃ r, f = '/' :: r := by
    cases f with
    | nil => simp
    | cons c cs => simp
  have hl : ∀ d : Text, d.getLast? = some '/' ↔ ∃ e, d = e ++ ['/'] := fun d => List.getLast?_eq_some_iff
  unfold RefersTo debugPath
  rw [← hh]
  by_cases h1 : f.head? = some '/'
  · simp [h1]
  · rw [if_neg h1]
    cases hp : fs.parent main with
    | none => simp [h1]
    | some d =>
      by_cases h2 : d = []
      · simp [h1, h2]
      · have h3 := hl d
        by_cases h4 : d.getLast? = some '/'
        · obtain ⟨e, he⟩ := h3.mp h4
          simp [h1, h2, h4, h3.mp h4]
          intro h
          exact absurd he (h e)
        · have h5 : ∀ e, ¬ d = e ++ ['/'] := fun e he => h4 (h3.mpr ⟨e, he⟩)
          simp [h1, h2, h4, h5]

theorem openDebug_ok {fs : Fs} {o dbg : Obj} {path s : Text} : openDebug fs o path s = .ok dbg ↔ DebugOf fs path o dbg := by
  unfold openDebug findDebugPath DebugOf
  cases hl : o.debuglink with
  | none => simp
  | some l =>
    cases l with
    | none => simp
    | some f =>
      simp only
      cases hfile : fs.file (debugPath fs path f) with
      | error e => cases e <;> simp [hfile, debugPath_iff]
      | ok d =>
        simp only
        unfold verifyBuildIds
        constructor
        · intro h
          refine ⟨f, debugPath fs path f, rfl, debugPath_iff.mpr rfl, ?_⟩
          rw [hfile]
          cases hd : d.buildId with
          | none =>
            rw [hd] at h
            cases h
            exact ⟨rfl, by simp [hd]⟩
          | some x =>
            cases hm : o.buildId with
            | none =>
              rw [hd, hm] at h
              cases h
              exact ⟨rfl, by simp⟩
            | some y =>
              rw [hd, hm] at h
              simp only at h
              by_cases hxy : x ≠ y
              · rw [if_pos hxy] at h; cases h
              · rw [if_neg hxy] at h
                cases h
                refine ⟨rfl, ?_⟩
                rintro a b rfl' hb
                rw [hd] at hb
                cases hb
                cases rfl'
                exact (Classical.not_not.mp hxy).symm
        · rintro ⟨f', p, hf', hp, h1, h2⟩
          cases hf'
          rw [debugPath_iff.mp hp, hfile] at h1
          obtain rfl := Except.ok.inj h1
          cases hd : d.buildId with
          | none => rfl
          | some x =>
            cases hm : o.buildId with
            | none => rfl
            | some y =>
              simp only
              rw [if_neg (by simp [h2 y x hm hd])]

/-- The file system's files have 64-bit addresses and offsets. -/
def AllFit (fs : Fs) : Prop := ∀ p o, fs.file p = .ok o → Fits64 o

theorem debugOf_fits {fs : Fs} {path : Text} {o dbg : Obj} (hf : AllFit fs) (h : DebugOf fs path o dbg) : Fits64 dbg := by
  obtain ⟨f, p, _, _, h, _⟩ := h
  exact hf _ _ h

/-- The search in a file for one symbol. -/
theorem resolveSymbol_iff {fs : Fs} {path n : Text} {off : Nat} (hf : AllFit fs) :
    resolveSymbol fs path n = .ok off ↔ SymbolAt fs path n off := by
  unfold resolveSymbol SymbolAt
  cases hm : openMain fs path with
  | error e =>
    simp only
    constructor
    · intro h; cases h
    · rintro ⟨o, ho, _⟩
      rw [openMain_ok.mpr ho] at hm
      cases hm
  | ok o =>
    have ho := openMain_ok.mp hm
    have hfo := hf _ _ ho
    simp only
    cases hs : findSymbol o n with
    | some sym =>
      have hfirst := findSymbol_some.mp hs
      simp only
      rw [translate_iff hfo (first_mem hfirst)]
      constructor
      · intro h
        exact ⟨o, ho, Or.inl ⟨sym, hfirst, h⟩⟩
      · rintro ⟨o', ho', h⟩
        rw [ho] at ho'
        cases ho'
        rcases h with ⟨sym', h1, h2⟩ | ⟨h1, _⟩
        · rw [findSymbol_some.mpr h1] at hs
          cases hs
          exact h2
        · rw [findSymbol_none.mpr h1] at hs
          cases hs
    | none =>
      have habs := findSymbol_none.mp hs
      simp only
      cases hd : openDebug fs o path n with
      | error e =>
        simp only
        constructor
        · intro h; cases h
        · rintro ⟨o', ho', h⟩
          rw [ho] at ho'
          cases ho'
          rcases h with ⟨sym', h1, h2⟩ | ⟨_, dbg, h1, _⟩
          · rw [findSymbol_some.mpr h1] at hs; cases hs
          · rw [(openDebug_ok (s := n)).mpr h1] at hd; cases hd
      | ok dbg =>
        have hdbg := openDebug_ok.mp hd
        have hfd := debugOf_fits hf hdbg
        simp only
        constructor
        · intro h
          cases hs' : findSymbol dbg n with
          | none => rw [hs'] at h; cases h
          | some sym =>
            rw [hs'] at h
            simp only at h
            have hfirst := findSymbol_some.mp hs'
            exact ⟨o, ho, Or.inr ⟨habs, dbg, hdbg, sym, hfirst, (translate_iff hfd (first_mem hfirst)).mp h⟩⟩
        · rintro ⟨o', ho', h⟩
          rw [ho] at ho'
          cases ho'
          rcases h with ⟨sym', h1, h2⟩ | ⟨_, dbg', h1, sym, h2, h3⟩
          · rw [findSymbol_some.mpr h1] at hs; cases hs
          · rw [(openDebug_ok (s := n)).mpr h1] at hd
            cases hd
            rw [findSymbol_some.mpr h2]
            exact (translate_iff hfd (first_mem h2)).mpr h3

/-- **C46 (partial)** A function that has a symbol in the program or library itself resolves to the offset of the byte
that the loader maps at the symbol's address, and no other byte is mapped there. (Partial: this fails for symbols taken
from a separate debug file, see `C46_debug_file_violated` and `C46_debug_file_fails`.) -/
theorem C46_mapped_partial (fs : Fs) (path name : Text) (o : Obj) (sym : Symbol) (i : Nat) (s : Sect) (segs : List Segment)
    (hfile : fs.file path = .ok o) (hl : Loadable o) (hfirst : First o name sym) (hi : sym.sect = some i)
    (hs : o.sections[i]? = some s) (hlaid : Laid segs s) (hin : s.addr ≤ sym.addr ∧ sym.addr < s.addr + s.size)
    (hdis : Disjoint segs) :
    ∃ off, resolveSymbol fs path name = .ok off ∧ ∀ b, Mapped segs sym.addr b ↔ b = off := by
  obtain ⟨hnb, g, hg, h1, h2, h3, h4⟩ := hlaid
  refine ⟨s.off + (sym.addr - s.addr), ?_, ?_⟩
  · unfold resolveSymbol
    rw [openMain_ok.mpr hfile]
    simp only
    rw [findSymbol_some.mpr hfirst]
    simp only
    unfold translate
    rw [if_pos hl.symm, hi]
    simp only [hs, hnb]
    have : rebase sym.addr s.addr s.off = s.off + (sym.addr - s.addr) := by
      unfold rebase
      simp only [Nat.reducePow] at *
      omega
    rw [this]
    rfl
  · intro b
    constructor
    · rintro ⟨g', hg', h1', h2', rfl⟩
      have := hdis g hg g' hg' sym.addr (by omega) (by omega) h1' h2'
      subst this
      omega
    · rintro rfl
      exact ⟨g, hg, by omega, by omega, by omega⟩

/-- **C46 (both files)** What is resolved is the offset given by the section of the first symbol with that name, dynamic
symbols first, in the target or — only if it has no such symbol — in its debug file; and it is resolved whenever
there is such a symbol in a section that is in the file. -/
theorem C46_resolved (fs : Fs) (path name : Text) (off : Nat) (hf : AllFit fs) :
    resolveSymbol fs path name = .ok off ↔ SymbolAt fs path name off := resolveSymbol_iff hf

/-- **C46** An instruction address with its section's address and offset is translated exactly, or refused. -/
theorem C46_virtual_address (a base off : Nat) :
    fromVirtualAddress a base off =
      (if a < base then .error .notInSection
       else if 2 ^ 64 ≤ off + (a - base) then .error .overflow else .ok (.absolute (off + (a - base)))) := by
  unfold fromVirtualAddress
  by_cases h1 : a < base
  · rw [if_pos h1, if_pos h1]
  · rw [if_neg h1, if_neg h1]
    by_cases h2 : a - base + off < 2 ^ 64
    · rw [if_pos h2, if_neg (by omega), Nat.add_comm]
    · rw [if_neg h2, if_pos (by omega)]

/-! ## Many points -/

theorem get_cons (e : Text × Option Nat) (t : Tbl) (k : Text) :
    Tbl.get (e :: t) k = if e.1 = k then some e.2 else Tbl.get t k := by
  unfold Tbl.get
  rw [List.find?_cons]
  by_cases h : e.1 = k <;> simp [h]

theorem get_set (t : Tbl) (k k' : Text) (v : Nat) :
    (t.set k v).get k' = if k' = k then (t.get k).map (fun _ => some v) else t.get k' := by
  induction t with
  | nil => simp [Tbl.set, Tbl.get]
  | cons e t ih =>
    have hs : Tbl.set (e :: t) k v = (if e.1 = k then (k, some v) else e) :: Tbl.set t k v := rfl
    rw [hs, get_cons, get_cons, get_cons, ih]
    by_cases h1 : e.1 = k
    · rw [if_pos h1, if_pos h1]
      by_cases h2 : k' = k
      · simp [h2]
      · simp only [h2]
        have : ¬ k = k' := fun h => h2 h.symm
        simp [this, h1]
    · rw [if_neg h1, if_neg h1]
      by_cases h2 : k' = k
      · subst h2; simp [h1]
      · simp [h2]

/-- Names occur once. -/
def Uniq (t : Tbl) : Prop := (t.map (·.1)).Nodup

theorem uniq_set {t : Tbl} (k : Text) (v : Nat) (h : Uniq t) : Uniq (t.set k v) := by
  have : (t.set k v).map (·.1) = t.map (·.1) := by
    unfold Tbl.set
    rw [List.map_map]
    apply List.map_congr_left
    intro e _
    simp only [Function.comp]
    split
    · rename_i h; exact h.symm
    · rfl
  unfold Uniq
  rw [this]
  exact h

theorem get_none_of_not_mem {t : Tbl} {k : Text} : Tbl.get t k = none ↔ k ∉ t.map (·.1) := by
  induction t with
  | nil => simp [Tbl.get]
  | cons e t ih =>
    rw [get_cons]
    by_cases h : e.1 = k
    · simp [h]
    · have : ¬ k = e.1 := fun h' => h h'.symm
      simp [h, ih, this]

theorem set_id {t : Tbl} {k : Text} {v : Nat} (h : k ∉ t.map (·.1)) : t.set k v = t := by
  unfold Tbl.set
  rw [List.map_congr_left (g := id)]
  · simp
  · intro e he
    have : ¬ e.1 = k := fun h' => h (by rw [← h']; exact List.mem_map_of_mem he)
    simp [this]

theorem remaining_cons (e : Text × Option Nat) (t : Tbl) :
    Tbl.remaining (e :: t) = (if e.2.isNone then 1 else 0) + Tbl.remaining t := by
  unfold Tbl.remaining
  rw [List.filter_cons]
  split <;> simp [Nat.add_comm]

theorem remaining_set {t : Tbl} {k : Text} {v : Nat} (hu : Uniq t) (h : t.get k = some none) :
    (t.set k v).remaining + 1 = t.remaining := by
  induction t with
  | nil => simp [Tbl.get] at h
  | cons e t ih =>
    have hs : Tbl.set (e :: t) k v = (if e.1 = k then (k, some v) else e) :: Tbl.set t k v := rfl
    rw [get_cons] at h
    unfold Uniq at hu
    rw [List.map_cons, List.nodup_cons] at hu
    rw [hs, remaining_cons, remaining_cons]
    by_cases h1 : e.1 = k
    · rw [if_pos h1] at h
      have : Tbl.set t k v = t := set_id (h1 ▸ hu.1)
      rw [if_pos h1, this, Option.some.inj h]
      simp
      omega
    · rw [if_neg h1] at h
      rw [if_neg h1]
      have := ih hu.2 h
      omega

theorem remaining_zero {t : Tbl} : t.remaining = 0 → ∀ k, t.get k ≠ some none := by
  induction t with
  | nil => simp [Tbl.get]
  | cons e t ih =>
    intro h k
    rw [remaining_cons] at h
    rw [get_cons]
    split
    · intro h'
      rw [Option.some.inj h'] at h
      simp at h
    · exact ih (by omega) k

/-- What the search among `ss` finds for a name. -/
def want (o : Obj) (ss : List Symbol) (k : Text) : Except SymErr (Option Nat) :=
  match ss.find? (fun s => s.name = some k) with
  | none => .ok none
  | some s =>
    match translate o s k with
    | .error e => .error e
    | .ok v => .ok (some v)

theorem want_cons_other {o : Obj} {s : Symbol} {ss : List Symbol} {k : Text} (h : s.name ≠ some k) :
    want o (s :: ss) k = want o ss k := by
  unfold want
  rw [List.find?_cons]
  simp [h]

/-- The table after a successful search. -/
def Filled (o : Obj) (ss : List Symbol) (t t' : Tbl) : Prop :=
  Uniq t' ∧ ∀ k, (t.get k = none → t'.get k = none) ∧ (∀ v, t.get k = some (some v) → t'.get k = some (some v)) ∧
    (t.get k = some none → ∃ w, want o ss k = .ok w ∧ t'.get k = some w)

theorem resolveLoop_spec (o : Obj) : ∀ (ss : List Symbol) (t : Tbl) (rem : Nat), Uniq t → rem = t.remaining → rem ≠ 0 →
    (∀ t', resolveLoop o ss t rem = .ok t' → Filled o ss t t') ∧
    (∀ e, resolveLoop o ss t rem = .error e → ∃ k e', t.get k = some none ∧ want o ss k = .error e')
  | [], t, rem, hu, hrem, hr0 => by
    rw [resolveLoop]
    refine ⟨?_, by intro e h; cases h⟩
    intro t' h
    cases h
    refine ⟨hu, fun k => ⟨id, fun _ h => h, fun h => ⟨none, rfl, h⟩⟩⟩
  | s :: ss, t, rem, hu, hrem, hr0 => by
    have ih := resolveLoop_spec o ss
    rw [resolveLoop]
    -- a symbol that is passed over
    have skip : (∀ k, s.name = some k → t.get k ≠ some none) →
        (∀ t', resolveLoop o ss t rem = .ok t' → Filled o (s :: ss) t t') ∧
        (∀ e, resolveLoop o ss t rem = .error e → ∃ k e', t.get k = some none ∧ want o (s :: ss) k = .error e') := by
      intro hskip
      obtain ⟨h1, h2⟩ := ih t rem hu hrem hr0
      refine ⟨?_, ?_⟩
      · intro t' ht'
        obtain ⟨hu', hk⟩ := h1 t' ht'
        refine ⟨hu', fun k => ⟨(hk k).1, (hk k).2.1, fun hn => ?_⟩⟩
        rw [want_cons_other (fun h => hskip k h hn)]
        exact (hk k).2.2 hn
      · intro e he
        obtain ⟨k, e', hn, hw⟩ := h2 e he
        exact ⟨k, e', hn, by rw [want_cons_other (fun h => hskip k h hn)]; exact hw⟩
    cases hn : s.name with
    | none =>
      simp only
      exact skip (by simp [hn])
    | some n =>
      simp only
      cases hg : t.get n with
      | none =>
        simp only
        exact skip (by rw [hn]; rintro k h; cases h; simp [hg])
      | some v =>
        cases v with
        | some v =>
          simp only
          exact skip (by rw [hn]; rintro k h; cases h; simp [hg])
        | none =>
          simp only
          have hw : want o (s :: ss) n = match translate o s n with
              | .error e => .error e
              | .ok v => .ok (some v) := by
            unfold want
            rw [List.find?_cons]
            simp [hn]
          cases ht : translate o s n with
          | error e =>
            rw [ht] at hw
            simp only
            refine ⟨fun t' h => by simp at h, fun e' h => ⟨n, e, hg, hw⟩⟩
          | ok off =>
            rw [ht] at hw
            simp only
            rw [if_neg hr0]
            have hrs := remaining_set (v := off) hu hg
            -- what holds of the table after this step carries over
            have carry : ∀ t', Filled o ss (t.set n off) t' → Filled o (s :: ss) t t' := by
              rintro t' ⟨hu', hk⟩
              refine ⟨hu', fun k => ?_⟩
              by_cases hkn : k = n
              · subst hkn
                have hgs : (t.set k off).get k = some (some off) := by rw [get_set, if_pos rfl, hg]; rfl
                refine ⟨fun (h : t.get k = none) => ?_, fun v (h : t.get k = some (some v)) => ?_,
                  fun _ => ⟨some off, hw, (hk k).2.1 off hgs⟩⟩
                · rw [hg] at h; cases h
                · rw [hg] at h; simp at h
              · have hgs : (t.set n off).get k = t.get k := by rw [get_set, if_neg hkn]
                have := hk k
                rw [hgs] at this
                have hne : s.name ≠ some k := by rw [hn]; intro h; cases h; exact hkn rfl
                rw [want_cons_other hne]
                exact this
            by_cases hz : rem - 1 = 0
            · rw [if_pos hz]
              refine ⟨?_, fun e h => by cases h⟩
              intro t' h
              cases h
              apply carry
              have hzero := remaining_zero (t := t.set n off) (by omega)
              exact ⟨uniq_set n off hu, fun k => ⟨id, fun _ h => h, fun h => absurd h (hzero k)⟩⟩
            · rw [if_neg hz]
              obtain ⟨h1, h2⟩ := ih (t.set n off) (rem - 1) (uniq_set n off hu) (by omega) hz
              refine ⟨fun t' h => carry t' (h1 t' h), ?_⟩
              intro e he
              obtain ⟨k, e', hk, hwk⟩ := h2 e he
              have hkn : k ≠ n := by
                rintro rfl
                rw [get_set, if_pos rfl, hg] at hk
                simp at hk
              rw [get_set, if_neg hkn] at hk
              have hne : s.name ≠ some k := by rw [hn]; intro h; cases h; exact hkn rfl
              exact ⟨k, e', hk, by rw [want_cons_other hne]; exact hwk⟩

theorem resolveSymbolsIn_spec (o : Obj) (t : Tbl) (hu : Uniq t) (hn : ∃ k, t.get k = some none) :
    (∀ t', resolveSymbolsIn o t = .ok t' → Filled o (o.dynsyms ++ o.syms) t t') ∧
    (∀ e, resolveSymbolsIn o t = .error e → ∃ k e', t.get k = some none ∧ want o (o.dynsyms ++ o.syms) k = .error e') := by
  obtain ⟨k, hk⟩ := hn
  unfold resolveSymbolsIn
  rw [if_neg (by rintro rfl; simp [Tbl.get] at hk)]
  exact resolveLoop_spec o _ t _ hu rfl (fun h => remaining_zero h k hk)

/-! ### The table of names -/

theorem collect_uniq : ∀ ps : List Pending, Uniq (Tbl.collect ps)
  | [] => by simp [Tbl.collect, Uniq]
  | .absolute _ :: ps => by rw [Tbl.collect]; exact collect_uniq ps
  | .symbol s _ :: ps => by
    rw [Tbl.collect]
    have ih := collect_uniq ps
    split
    · exact ih
    · rename_i h
      unfold Uniq at *
      rw [List.map_cons, List.nodup_cons]
      refine ⟨?_, ih⟩
      intro hm
      apply h
      obtain ⟨e, he, h'⟩ := List.mem_map.mp hm
      exact List.any_eq_true.mpr ⟨e, he, by simpa using h'⟩

open Classical in
theorem collect_get (k : Text) : ∀ ps : List Pending,
    Tbl.get (Tbl.collect ps) k = if ∃ a, Pending.symbol k a ∈ ps then some none else none
  | [] => by simp [Tbl.collect, Tbl.get]
  | .absolute n :: ps => by
    rw [Tbl.collect, collect_get k ps]
    simp
  | .symbol s a :: ps => by
    have ih := collect_get k ps
    have hc : (∃ b, Pending.symbol k b ∈ Pending.symbol s a :: ps) ↔ k = s ∨ ∃ b, Pending.symbol k b ∈ ps := by
      simp
      constructor
      · rintro ⟨b, ⟨h, _⟩ | h⟩
        · exact Or.inl h
        · exact Or.inr ⟨b, h⟩
      · rintro (h | ⟨b, h⟩)
        · exact ⟨a, Or.inl ⟨h, rfl⟩⟩
        · exact ⟨b, Or.inr h⟩
    rw [Tbl.collect]
    split
    · rename_i h
      rw [ih]
      by_cases hex : ∃ b, Pending.symbol k b ∈ ps
      · rw [if_pos hex, if_pos (hc.mpr (Or.inr hex))]
      · rw [if_neg hex, if_neg]
        intro h'
        rcases hc.mp h' with rfl | h'
        · rw [if_neg hex] at ih
          have := get_none_of_not_mem.mp ih
          obtain ⟨e, he, hek⟩ := List.any_eq_true.mp h
          simp at hek
          exact this (by rw [← hek]; exact List.mem_map_of_mem he)
        · exact hex h'
    · rw [get_cons, ih]
      simp only
      by_cases hks : s = k
      · rw [if_pos hks, if_pos (hc.mpr (Or.inl hks.symm))]
      · rw [if_neg hks]
        by_cases hex : ∃ b, Pending.symbol k b ∈ ps
        · rw [if_pos hex, if_pos (hc.mpr (Or.inr hex))]
        · rw [if_neg hex, if_neg]
          intro h'
          rcases hc.mp h' with h | h
          · exact hks h.symm
          · exact hex h

theorem firstSymbol_none : ∀ ps : List Pending, firstSymbol ps = none ↔ ∀ s a, Pending.symbol s a ∉ ps
  | [] => by simp [firstSymbol]
  | .absolute n :: ps => by rw [firstSymbol, firstSymbol_none ps]; simp
  | .symbol s a :: ps => by
    rw [firstSymbol]
    simp only [reduceCtorEq, false_iff]
    intro h
    exact h s a (by simp)

theorem firstSymbol_some : ∀ (ps : List Pending) (s : Text), firstSymbol ps = some s → ∃ a, Pending.symbol s a ∈ ps
  | [], s, h => by simp [firstSymbol] at h
  | .absolute n :: ps, s, h => by
    rw [firstSymbol] at h
    obtain ⟨a, ha⟩ := firstSymbol_some ps s h
    exact ⟨a, by simp [ha]⟩
  | .symbol s' a :: ps, s, h => by
    rw [firstSymbol] at h
    cases h
    exact ⟨a, by simp⟩

theorem firstUnresolved_none (t : Tbl) : ∀ ps : List Pending, firstUnresolved t ps = none →
    ∀ s a, Pending.symbol s a ∈ ps → t.get s ≠ some none
  | [], _ => by simp
  | .absolute n :: ps, h => by
    rw [firstUnresolved] at h
    intro s a hm
    simp at hm
    exact firstUnresolved_none t ps h s a hm
  | .symbol s' a' :: ps, h => by
    rw [firstUnresolved] at h
    split at h
    · cases h
    · rename_i hne
      intro s a hm
      simp at hm
      rcases hm with ⟨rfl, _⟩ | hm
      · exact hne
      · exact firstUnresolved_none t ps h s a hm

theorem firstUnresolved_some (t : Tbl) : ∀ (ps : List Pending) (u : Text), firstUnresolved t ps = some u →
    t.get u = some none ∧ ∃ a, Pending.symbol u a ∈ ps
  | [], u, h => by simp [firstUnresolved] at h
  | .absolute n :: ps, u, h => by
    rw [firstUnresolved] at h
    obtain ⟨h1, a, ha⟩ := firstUnresolved_some t ps u h
    exact ⟨h1, a, by simp [ha]⟩
  | .symbol s' a' :: ps, u, h => by
    rw [firstUnresolved] at h
    split at h
    · rename_i hn
      cases h
      exact ⟨hn, a', by simp⟩
    · obtain ⟨h1, a, ha⟩ := firstUnresolved_some t ps u h
      exact ⟨h1, a, by simp [ha]⟩

theorem want_iff {o : Obj} {k : Text} :
    want o (o.dynsyms ++ o.syms) k = match findSymbol o k with
      | none => .ok none
      | some s => match translate o s k with
        | .error e => .error e
        | .ok v => .ok (some v) := rfl

/-- A symbol looked for alone. -/
theorem resolveSymbol_main {fs : Fs} {path k : Text} {o : Obj} (ho : openMain fs path = .ok o) :
    resolveSymbol fs path k = match want o (o.dynsyms ++ o.syms) k with
      | .error e => .error e
      | .ok (some v) => .ok v
      | .ok none => match openDebug fs o path k with
        | .error e => .error e
        | .ok dbg => match want dbg (dbg.dynsyms ++ dbg.syms) k with
          | .error e => .error e
          | .ok (some v) => .ok v
          | .ok none => .error (.unknown k) := by
  unfold resolveSymbol
  rw [ho, want_iff]
  simp only
  cases findSymbol o k with
  | some s => simp only; cases translate o s k <;> rfl
  | none =>
    simp only
    cases openDebug fs o path k with
    | error e => rfl
    | ok dbg =>
      simp only
      rw [want_iff]
      cases findSymbol dbg k with
      | none => rfl
      | some s => simp only; cases translate dbg s k <;> rfl

theorem openDebug_same {fs : Fs} {o : Obj} {path s s' : Text} :
    (∃ d, openDebug fs o path s = .ok d) → openDebug fs o path s' = openDebug fs o path s := by
  rintro ⟨d, h⟩
  rw [h]
  exact openDebug_ok.mpr (openDebug_ok.mp h)

/-- The table filled for a batch agrees with looking for each name alone. -/
theorem fillTable_spec (fs : Fs) (path : Text) (ps : List Pending) :
    (∀ t, fillTable fs path ps = .ok t → ∀ s a, Pending.symbol s a ∈ ps → ∀ v,
      (t.get s = some (some v) ↔ resolveSymbol fs path s = .ok v)) ∧
    (∀ e, fillTable fs path ps = .error e → ∃ s a e', Pending.symbol s a ∈ ps ∧ resolveSymbol fs path s = .error e') := by
  unfold fillTable
  cases hfs : firstSymbol ps with
  | none =>
    simp only
    refine ⟨fun t _ s a hm => absurd hm ((firstSymbol_none ps).mp hfs s a), fun e h => by cases h⟩
  | some first =>
    obtain ⟨fa, hfa⟩ := firstSymbol_some ps first hfs
    simp only
    cases hm : openMain fs path with
    | error e =>
      simp only
      refine ⟨fun t h => by simp at h, fun e' h => ⟨first, fa, e, hfa, ?_⟩⟩
      unfold resolveSymbol
      rw [hm]
    | ok o =>
      simp only
      have hget : ∀ s a, Pending.symbol s a ∈ ps → (Tbl.collect ps).get s = some none := by
        intro s a h
        rw [collect_get, if_pos ⟨a, h⟩]
      have hback : ∀ k, (Tbl.collect ps).get k = some none → ∃ a, Pending.symbol k a ∈ ps := by
        intro k h
        rw [collect_get] at h
        split at h
        · assumption
        · cases h
      obtain ⟨hok, herr⟩ := resolveSymbolsIn_spec o (Tbl.collect ps) (collect_uniq ps) ⟨first, hget first fa hfa⟩
      cases hr : resolveSymbolsIn o (Tbl.collect ps) with
      | error e =>
        simp only
        refine ⟨fun t h => by simp at h, fun e' h => ?_⟩
        obtain ⟨k, e'', hk, hw⟩ := herr e hr
        obtain ⟨a, ha⟩ := hback k hk
        refine ⟨k, a, e'', ha, ?_⟩
        rw [resolveSymbol_main hm, hw]
      | ok t =>
        obtain ⟨hu, hfill⟩ := hok t hr
        simp only
        cases hun : firstUnresolved t ps with
        | none =>
          simp only
          refine ⟨?_, fun e h => by cases h⟩
          intro t' h s a hmem v
          cases h
          obtain ⟨w, hw, hgw⟩ := (hfill s).2.2 (hget s a hmem)
          have hne := firstUnresolved_none t ps hun s a hmem
          rw [hgw] at hne ⊢
          rw [resolveSymbol_main hm, hw]
          cases w with
          | none => exact absurd rfl hne
          | some w => simp
        | some u =>
          obtain ⟨hgu, ua, hua⟩ := firstUnresolved_some t ps u hun
          have hwant : ∀ s a, Pending.symbol s a ∈ ps → ∃ w, want o (o.dynsyms ++ o.syms) s = .ok w ∧ t.get s = some w :=
            fun s a h => (hfill s).2.2 (hget s a h)
          obtain ⟨wu, hwu, hgwu⟩ := hwant u ua hua
          rw [hgu] at hgwu
          cases hgwu
          simp only
          cases hd : openDebug fs o path u with
          | error e =>
            simp only
            refine ⟨fun t h => by simp at h, fun e' h => ⟨u, ua, e, hua, ?_⟩⟩
            rw [resolveSymbol_main hm, hwu]
            simp only
            rw [hd]
          | ok dbg =>
            simp only
            have hdk : ∀ k, openDebug fs o path k = .ok dbg := fun k => openDebug_ok.mpr (openDebug_ok.mp hd)
            obtain ⟨hok', herr'⟩ := resolveSymbolsIn_spec dbg t hu ⟨u, hgu⟩
            cases hr' : resolveSymbolsIn dbg t with
            | error e =>
              simp only
              refine ⟨fun t h => by simp at h, fun e' h => ?_⟩
              obtain ⟨k, e'', hk, hw⟩ := herr' e hr'
              -- the name was asked for, as it is in the table
              have hkc : (Tbl.collect ps).get k = some none := by
                cases hc : (Tbl.collect ps).get k with
                | none => rw [(hfill k).1 hc] at hk; cases hk
                | some v =>
                  cases v with
                  | none => rfl
                  | some v => rw [(hfill k).2.1 v hc] at hk; simp at hk
              obtain ⟨a, ha⟩ := hback k hkc
              obtain ⟨w, hw1, hw2⟩ := hwant k a ha
              rw [hk] at hw2
              cases hw2
              refine ⟨k, a, e'', ha, ?_⟩
              rw [resolveSymbol_main hm, hw1]
              simp only
              rw [hdk k]
              simp only
              rw [hw]
            | ok t' =>
              obtain ⟨_, hfill'⟩ := hok' t' hr'
              simp only
              refine ⟨?_, fun e h => by cases h⟩
              intro t'' h s a hmem v
              cases h
              obtain ⟨w, hw1, hw2⟩ := hwant s a hmem
              rw [resolveSymbol_main hm, hw1]
              cases w with
              | some w =>
                rw [(hfill' s).2.1 w hw2]
                simp
              | none =>
                obtain ⟨w', hw1', hw2'⟩ := (hfill' s).2.2 hw2
                simp only
                rw [hdk s]
                simp only
                rw [hw1', hw2']
                cases w' <;> simp

/-- The offset of one point, as for a single point. -/
def offsetAlone (fs : Fs) (path : Text) : Pending → Except PointErr Nat
  | .absolute n => .ok n
  | .symbol s a =>
    match resolveSymbol fs path s with
    | .error e => .error ⟨s, e⟩
    | .ok off => .ok ((off + a) % 2 ^ 64)

theorem finishAll_spec (fs : Fs) (path : Text) (t : Tbl) (ps : List Pending)
    (h : ∀ s a, Pending.symbol s a ∈ ps → ∀ v, (t.get s = some (some v) ↔ resolveSymbol fs path s = .ok v)) (offs : List Nat) :
    finishAll t ps = .ok offs ↔ Each (fun p o => offsetAlone fs path p = .ok o) ps offs := by
  induction ps generalizing offs with
  | nil =>
    rw [finishAll]
    constructor
    · intro h; cases h; exact .nil
    · intro h; cases h; rfl
  | cons p ps ih =>
    have ih := fun os => ih (fun s a hm => h s a (by simp [hm])) os
    have hp : ∀ o, finish t p = .ok o ↔ offsetAlone fs path p = .ok o := by
      intro o
      cases p with
      | absolute n => rfl
      | symbol s a =>
        have hs := h s a (by simp)
        rw [finish, offsetAlone]
        cases hr : resolveSymbol fs path s with
        | ok v =>
          rw [(hs v).mpr hr]
        | error e =>
          simp only
          constructor
          · intro hf
            split at hf
            · rename_i off hg
              rw [(hs off).mp hg] at hr; cases hr
            · cases hf
          · intro hf; cases hf
    rw [finishAll]
    constructor
    · intro h'
      cases hf : finish t p with
      | error e => rw [hf] at h'; cases h'
      | ok o =>
        rw [hf] at h'
        simp only at h'
        cases ha : finishAll t ps with
        | error e => rw [ha] at h'; cases h'
        | ok os =>
          rw [ha] at h'
          cases h'
          exact .cons ((hp o).mp hf) ((ih os).mp ha)
    · intro h'
      cases h' with
      | cons h1 h2 =>
        rw [(hp _).mpr h1]
        simp only
        rw [(ih _).mpr h2]

theorem forall2_mem_left {α β : Type} {R : α → β → Prop} {l : List α} {l' : List β} (h : Each R l l') :
    ∀ a ∈ l, ∃ b, R a b := by
  induction h with
  | nil => simp
  | cons h1 _ ih =>
    intro a ha
    rcases List.mem_cons.mp ha with rfl | ha
    · exact ⟨_, h1⟩
    · exact ih a ha

theorem resolvePending_iff (fs : Fs) (path : Text) (ps : List Pending) (offs : List Nat) :
    resolvePending fs path ps = .ok offs ↔ Each (fun p o => offsetAlone fs path p = .ok o) ps offs := by
  obtain ⟨hok, herr⟩ := fillTable_spec fs path ps
  unfold resolvePending
  cases hf : fillTable fs path ps with
  | ok t =>
    simp only
    exact finishAll_spec fs path t ps (hok t hf) offs
  | error e =>
    simp only
    constructor
    · intro h; cases h
    · intro h
      obtain ⟨s, a, e', hm, hr⟩ := herr e hf
      obtain ⟨b, hb⟩ := forall2_mem_left h _ hm
      simp only [offsetAlone] at hb
      rw [hr] at hb
      cases hb

theorem offsetAlone_iff {fs : Fs} {path : Text} {l : Location} {off : Nat} (hf : AllFit fs) (hb : ∀ s v, SymbolAt fs path s v → v < 2 ^ 64) :
    offsetAlone fs path (pendingOf l) = .ok off ↔ OffsetOf fs path l off := by
  cases l with
  | absolute n =>
    simp only [pendingOf, offsetAlone, OffsetOf]
    constructor
    · intro h; cases h; rfl
    · intro h; rw [h]
  | symbol s =>
    simp only [pendingOf, offsetAlone, OffsetOf, Nat.add_zero]
    rw [← resolveSymbol_iff hf]
    have hb := fun v hv => hb s v ((resolveSymbol_iff hf).mp hv)
    cases hr : resolveSymbol fs path s with
    | error e => simp
    | ok v =>
      simp only
      rw [Nat.mod_eq_of_lt (hb v hr)]
      simp
  | symbolOffset s a =>
    simp only [pendingOf, offsetAlone, OffsetOf]
    cases hr : resolveSymbol fs path s with
    | error e =>
      simp only
      constructor
      · intro h; cases h
      · rintro ⟨v, hv, _⟩
        rw [(resolveSymbol_iff hf).mpr hv] at hr; cases hr
    | ok v =>
      simp only
      have hv := (resolveSymbol_iff hf).mp hr
      constructor
      · intro h; cases h; exact ⟨v, hv, rfl⟩
      · rintro ⟨v', hv', rfl⟩
        have := (resolveSymbol_iff hf).mpr hv'
        rw [hr] at this
        cases this
        rfl

theorem symbolAt_lt {fs : Fs} {path s : Text} {v : Nat} (hf : AllFit fs) (h : SymbolAt fs path s v) : v < 2 ^ 64 := by
  have key : ∀ o sym, Fits64 o → sym ∈ o.dynsyms ++ o.syms → At o sym v → v < 2 ^ 64 := by
    intro o sym hfo hm hat
    by_cases hl : Loadable o
    · obtain ⟨i, s, _, _, _, e⟩ := hat.1 hl
      simp only [Nat.reducePow, Int.reducePow] at *
      omega
    · rw [hat.2 hl]
      exact hfo.2 sym hm
  obtain ⟨o, ho, ⟨sym, h1, h2⟩ | ⟨_, dbg, hd, sym, h1, h2⟩⟩ := h
  · exact key o sym (hf _ _ ho) (first_mem h1) h2
  · exact key dbg sym (debugOf_fits hf hd) (first_mem h1) h2

/-! ### Cookies -/

theorem collectPoints_spec (ps : List Point) (done : List Point) :
    collectPoints ps (done.map (fun p => pendingOf p.loc)) (cookiesOf done) =
      ((done ++ ps).map (fun p => pendingOf p.loc), cookiesOf (done ++ ps)) := by
  induction ps generalizing done with
  | nil => simp [collectPoints]
  | cons p ps ih =>
    rw [collectPoints]
    have h1 : done.map (fun p => pendingOf p.loc) ++ [pendingOf p.loc] = (done ++ [p]).map (fun p => pendingOf p.loc) := by simp
    have h2 : pushCookie (cookiesOf done) (done.map (fun p => pendingOf p.loc)).length p.cookie = cookiesOf (done ++ [p]) := by
      unfold cookiesOf pushCookie
      rw [List.length_map]
      by_cases hd : (done.any (fun p => p.cookie.isSome)) = true
      · rw [if_pos hd, if_pos (by rw [List.any_append, hd]; rfl)]
        cases hc : p.cookie <;> simp [hc]
      · rw [if_neg hd]
        have hz : done.map (fun p => p.cookie.getD 0) = List.replicate done.length 0 := by
          apply List.eq_replicate_iff.mpr
          refine ⟨by simp, ?_⟩
          intro b hb
          obtain ⟨q, hq, rfl⟩ := List.mem_map.mp hb
          have : q.cookie.isSome = false := by
            have := mt (List.any_eq_true (l := done) (p := fun p => p.cookie.isSome)).mpr hd
            cases hqs : q.cookie.isSome with
            | false => rfl
            | true => exact absurd ⟨q, hq, hqs⟩ this
          cases hqc : q.cookie with
          | none => rfl
          | some c => rw [hqc] at this; cases this
        cases hc : p.cookie with
        | none => simp [hc, hd]
        | some c => simp [hc, hz]
    rw [h1, h2, ih]
    simp

/-- **C47 (resolving)** A list of points resolves if and only if each of them has an offset, and then to those offsets in
the order of the points, with the cookies: none if no point has one, otherwise one for each point and 0 for those
without. In particular a point gets the same offset whatever points are attached with it. -/
theorem C47_resolved (fs : Fs) (path : Text) (p : Point) (ps : List Point) (offs : List Nat) (cs : Option (List Nat))
    (hf : AllFit fs) :
    (∃ r, resolvePoints fs path p ps = .ok r ∧ r.offsets = offs ∧ r.cookies = cs) ↔
      (Each (fun q o => OffsetOf fs path q.loc o) (p :: ps) offs ∧ cs = cookiesOf (p :: ps)) := by
  have hb : ∀ s v, SymbolAt fs path s v → v < 2 ^ 64 := fun s v h => symbolAt_lt hf h
  cases ps with
  | nil =>
    rw [resolvePoints]
    have hone : resolveOne fs path p = match offsetAlone fs path (pendingOf p.loc) with
        | .error e => .error e
        | .ok o => .ok (.one o p.cookie) := by
      unfold resolveOne
      cases pendingOf p.loc with
      | absolute n => rfl
      | symbol s a =>
        simp only [offsetAlone]
        cases resolveSymbol fs path s <;> rfl
    have hck : p.cookie.map ([·]) = cookiesOf [p] := by
      unfold cookiesOf
      cases hc : p.cookie <;> simp [hc]
    rw [hone]
    constructor
    · rintro ⟨r, hr, rfl, rfl⟩
      cases ho : offsetAlone fs path (pendingOf p.loc) with
      | error e => rw [ho] at hr; cases hr
      | ok o =>
        rw [ho] at hr
        cases hr
        exact ⟨.cons ((offsetAlone_iff hf hb).mp ho) .nil, hck⟩
    · rintro ⟨h, rfl⟩
      cases h with
      | cons h1 h2 =>
        cases h2
        rw [(offsetAlone_iff hf hb).mpr h1]
        exact ⟨_, rfl, rfl, hck⟩
  | cons q ps =>
    have hcol := collectPoints_spec (p :: q :: ps) []
    rw [show cookiesOf [] = none from rfl] at hcol
    simp only [List.map_nil, List.nil_append] at hcol
    rw [resolvePoints]
    simp only
    rw [hcol]
    simp only
    have hiff : ∀ os, resolvePending fs path ((p :: q :: ps).map (fun p => pendingOf p.loc)) = .ok os ↔
        Each (fun q o => OffsetOf fs path q.loc o) (p :: q :: ps) os := by
      intro os
      rw [resolvePending_iff]
      generalize p :: q :: ps = l
      constructor
      · intro h
        induction l generalizing os with
        | nil => cases h; exact .nil
        | cons x l ih =>
          rw [List.map_cons] at h
          cases h with
          | cons h1 h2 => exact .cons ((offsetAlone_iff hf hb).mp h1) (ih _ h2)
      · intro h
        induction h with
        | nil => exact .nil
        | cons h1 _ ih => rw [List.map_cons]; exact .cons ((offsetAlone_iff hf hb).mpr h1) ih
    constructor
    · rintro ⟨r, hr, rfl, rfl⟩
      cases hp : resolvePending fs path ((p :: q :: ps).map (fun p => pendingOf p.loc)) with
      | error e => rw [hp] at hr; cases hr
      | ok os =>
        rw [hp] at hr
        cases hr
        exact ⟨(hiff os).mp hp, rfl⟩
    · rintro ⟨h, rfl⟩
      rw [(hiff offs).mpr h]
      exact ⟨_, rfl, rfl, rfl⟩

/-! ## Cases -/

/-- A library with `.text` at address 0x2000, offset 0x1000, with one dynamic symbol and one local one, and its debug file. -/
def exLib : Obj := ⟨.dynamic, [⟨0, 0, 0, true⟩, ⟨0x2000, 0x1000, 0x500, false⟩],
  [⟨some "puts".toList, 0, none⟩, ⟨some "open".toList, 0x2040, some 1⟩], [⟨none, 0x2000, some 1⟩, ⟨some "helper".toList, 0x2100, some 1⟩],
  some (some "lib.debug".toList), some [1, 2]⟩
def exDebug : Obj := ⟨.dynamic, [⟨0, 0, 0, true⟩, ⟨0x2000, 0x800, 0x500, false⟩],
  [], [⟨some "helper".toList, 0x2100, some 1⟩, ⟨some "hidden".toList, 0x2200, some 1⟩], some none, some [1, 2]⟩
/-- What `objcopy --only-keep-debug` leaves: sections that take no space in the file. -/
def exOnlyDebug : Obj := { exDebug with sections := [⟨0, 0, 0, true⟩, ⟨0x2000, 0x800, 0x500, true⟩] }
/-- Where the loader puts the library. -/
def exSegs : List Segment := [⟨0, 0, 0x800⟩, ⟨0x2000, 0x1000, 0x600⟩]
def exFs (debug : Obj) : Fs :=
  ⟨fun p => if p = "/lib/lib.so".toList then .ok exLib else if p = "/lib/lib.debug".toList then .ok debug else .error .io,
   fun p => if p = "/lib/lib.so".toList then some "/lib".toList else none⟩

example : resolveSymbol (exFs exDebug) "/lib/lib.so".toList "open".toList = .ok 0x1040 ∧
    resolveSymbol (exFs exDebug) "/lib/lib.so".toList "helper".toList = .ok 0x1100 ∧
    resolveSymbol (exFs exDebug) "/lib/lib.so".toList "puts".toList = .error (.notInSection "puts".toList) := by
  decide +kernel

example : Laid exSegs ⟨0x2000, 0x1000, 0x500, false⟩ :=
  ⟨rfl, ⟨0x2000, 0x1000, 0x600⟩, by simp [exSegs], by decide, by decide, by decide, by decide⟩

example : First exLib "helper".toList ⟨some "helper".toList, 0x2100, some 1⟩ :=
  findSymbol_some.mp (by decide +kernel)

example : Disjoint exSegs := by
  intro g hg h hh a h1 h2 h3 h4
  simp only [exSegs, List.mem_cons, List.not_mem_nil, or_false] at hg hh
  rcases hg with rfl | rfl <;> rcases hh with rfl | rfl <;> simp only at h1 h2 h3 h4 <;> first | rfl | omega

example : AllFit (exFs exDebug) := by
  intro p o h
  simp only [exFs] at h
  split at h
  · cases h; unfold Fits64; decide +kernel
  · split at h
    · cases h; unfold Fits64; decide +kernel
    · cases h

/-- Five points: an absolute offset, a dynamic symbol, a symbol of the debug file, and one of them again. -/
def exPoints : List Point :=
  [⟨.absolute 0x10, none⟩, ⟨.symbol "open".toList, some 7⟩, ⟨.symbolOffset "hidden".toList 4, none⟩, ⟨.symbol "helper".toList, some 0⟩,
   ⟨.symbolOffset "open".toList 8, some 9⟩]

example : resolvePoints (exFs exDebug) "/lib/lib.so".toList ⟨.symbol "open".toList, none⟩ exPoints =
    .ok (.many [0x1040, 0x10, 0x1040, 0xa04, 0x1100, 0x1048] (some [0, 0, 7, 0, 0, 9])) := by decide +kernel

/-- **C46 (refuted in general)** A function whose symbol is only in the debug file gets its offset from the section table
of the debug file. Where that differs from the library's, the probe goes to another place: `hidden` is mapped from
offset 0x1200 and resolves to 0xa00. -/
theorem C46_debug_file_violated :
    resolveSymbol (exFs exDebug) "/lib/lib.so".toList "hidden".toList = .ok 0xa00 ∧
    Mapped exSegs 0x2200 0x1200 ∧ ¬ Mapped exSegs 0x2200 0xa00 := by
  refine ⟨by decide +kernel, ⟨⟨0x2000, 0x1000, 0x600⟩, by simp [exSegs], by decide, by decide, by decide⟩, ?_⟩
  rintro ⟨g, hg, h1, h2, h3⟩
  simp only [exSegs, List.mem_cons, List.not_mem_nil, or_false] at hg
  rcases hg with rfl | rfl <;> simp only at h1 h2 h3 <;> omega

/-- **C46 (refuted in general)** A debug file without the contents of the code, which is what debug files usually are, never
resolves a function: whatever the files, if the symbol is only in a debug file in whose section table the
symbol's section takes no space, resolving fails. -/
theorem C46_debug_file_fails (fs : Fs) (path name : Text) (o dbg : Obj) (sym : Symbol) (i : Nat) (s : Sect)
    (hfile : fs.file path = .ok o) (habs : Absent o name) (hd : DebugOf fs path o dbg) (hl : Loadable dbg)
    (hfirst : First dbg name sym) (hi : sym.sect = some i) (hs : dbg.sections[i]? = some s) (hnb : s.nobits = true) :
    resolveSymbol fs path name = .error (.noFileRange name) := by
  unfold resolveSymbol
  rw [openMain_ok.mpr hfile]
  simp only
  rw [findSymbol_none.mpr habs]
  simp only
  rw [openDebug_ok.mpr hd]
  simp only
  rw [findSymbol_some.mpr hfirst]
  simp only
  unfold translate
  rw [if_pos hl.symm, hi]
  simp only [hs, hnb]
  rfl

example : resolveSymbol (exFs exOnlyDebug) "/lib/lib.so".toList "hidden".toList = .error (.noFileRange "hidden".toList) := by
  decide +kernel

end Verif.UProbe
