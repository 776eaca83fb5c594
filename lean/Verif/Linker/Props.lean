import Verif.Linker.Total
set_option linter.unusedSimpArgs false
set_option linter.unusedVariables false
/-!
# C06-C09: linking of functions into programs
-/
namespace Verif.Linker
open Verif.Bpf Verif.Linker.Spec

theorem OKm.rendered {o : Obj} {cs : List (Func × Nat)} {f : Func} {i n : Nat} {ins out : Insn}
    (h : OKm o cs f i n ins out) : Rendered o cs f i n ins out := by
  rcases h with ⟨h1, h2⟩ | ⟨key, g, t, h1, h2, h3, rfl⟩
  · exact Or.inl ⟨resolve_none o f i ins h1, h2⟩
  · refine Or.inr ⟨key, g, t, (resolve_names o f i ins key).mp h1, h2, h3, ?_, rfl, rfl, rfl, rfl⟩
    simp only [patch]; omega

theorem nodup_of_map {α β : Type} (f : α → β) (l : List α) (h : (l.map f).Nodup) : l.Nodup := by
  induction l with
  | nil => exact List.nodup_nil
  | cons a l ih =>
    simp only [List.map_cons, List.nodup_cons] at h ⊢
    exact ⟨fun ha => h.1 (List.mem_map_of_mem ha), ih h.2⟩

theorem link_spec {o : Obj} {f f' : Func} (hd : AddressesDistinct o f) (h : link o f = .ok f') :
    ∃ fs, LinkedAs o f fs f' ∧
      f'.funcInfo = f.funcInfo ++ (layout f.insns.length fs).flatMap (fun p => rebaseFunc p.1 p.2) ∧
      f'.lineInfo = f.lineInfo ++ (layout f.insns.length fs).flatMap (fun p => rebaseLine p.1 p.2) := by
  simp only [link] at h
  cases hr : relocate o (o.funcs.length + 1) ⟨f.insns, f.funcInfo, f.lineInfo, []⟩ f with
  | error e => rw [hr] at h; cases h
  | ok st =>
    rw [hr] at h
    cases h
    have hl : Lay o f f.funcInfo f.lineInfo ⟨f.insns, f.funcInfo, f.lineInfo, []⟩ ([] ++ [f]) :=
      ⟨by simp, by intro a t h; simp [St.find] at h, by intro g t h; simp [copies, layout] at h,
        by simp, by simp, by simp [copies, layout], by simp [copies, layout]⟩
    obtain ⟨fs, hp⟩ := relocate_post hd _ _ _ _ _ (Or.inl rfl) hl (by simp) hr
    have hc : copies ([] ++ [f] ++ fs) = layout f.insns.length fs := by
      simp [copies, layout]
    have hself := hp.self
    have hoth := hp.others
    rw [hc] at hself hoth
    have hgood : ∀ g s, (g, s) ∈ layout 0 (f :: fs) → Good o (layout f.insns.length fs) st.insns g s := by
      intro g s hg
      simp only [layout, List.mem_cons, Prod.mk.injEq] at hg
      rcases hg with ⟨rfl, rfl⟩ | hg
      · simpa using hself
      · apply hoth
        simpa using hg
    have hclosed : ∀ g, (g = f ∨ g ∈ fs) → ∀ h', Calls o g h' → h' ∈ fs := by
      intro g hg h' hcall
      obtain ⟨i, ins, key, h1, h2, h3⟩ := hcall
      obtain ⟨s, hs⟩ : ∃ s, (g, s) ∈ layout 0 (f :: fs) := by
        have : g ∈ (layout 0 (f :: fs)).map Prod.fst := by
          rw [layout_map_fst]
          rcases hg with rfl | hg
          · simp
          · simp [hg]
        obtain ⟨⟨a, b⟩, hm, rfl⟩ := List.mem_map.mp this
        exact ⟨b, hm⟩
      obtain ⟨out, ho, hok⟩ := hgood g s hs i ins h1
      have h2' := (resolve_names o g i ins key).mpr h2
      rcases hok with ⟨hn, _⟩ | ⟨key', g', t, hk, hg', hmem, _⟩
      · rw [h2'] at hn; cases hn
      · rw [h2'] at hk; cases hk
        rw [h3] at hg'; cases hg'
        have := List.mem_map_of_mem (f := Prod.fst) hmem
        rwa [layout_map_fst] at this
    refine ⟨fs, ⟨?_, ?_, ?_, ?_⟩, ?_, ?_⟩
    · intro g
      constructor
      · exact hp.reach g
      · intro hre
        induction hre with
        | one g hc => exact hclosed f (Or.inl rfl) g hc
        | more g h' _ hc ih => exact hclosed g (Or.inr ih) h' hc
    · have := hp.lay.nodup
      exact nodup_of_map _ _ (by simpa using this)
    · have := hp.lay.len
      simp [total] at this
      exact this
    · intro g s hg i ins hi
      obtain ⟨out, ho, hok⟩ := hgood g s hg i ins hi
      exact ⟨out, ho, hok.rendered⟩
    · have := hp.lay.finfo
      rw [hc] at this; exact this
    · have := hp.lay.linfo
      rw [hc] at this; exact this

/-! ### C06 / C07 -/

/-- C06 (restricted to objects in which the functions reachable from the program have distinct
addresses; see `C06_two_text_sections_violated` for what happens otherwise). Whenever linking succeeds,
the linked program consists of the program followed by one copy of every function reachable from it,
and every instruction is the original one, redirected to the copy of the function it names. -/
theorem C06_calls_right_partial {o : Obj} {f f' : Func} (hd : AddressesDistinct o f)
    (h : link o f = .ok f') : ∃ fs, LinkedAs o f fs f' := by
  obtain ⟨fs, h1, _⟩ := link_spec hd h
  exact ⟨fs, h1⟩

/-- C06: the program still starts with its own entry function. -/
theorem C06_entry_first_partial {o : Obj} {f f' : Func} (hd : AddressesDistinct o f)
    (h : link o f = .ok f') : f'.address = f.address ∧ f'.sectionIndex = f.sectionIndex ∧
      ∀ (i : Nat) (ins : Insn), f.insns[i]? = some ins → ∃ out : Insn, f'.insns[i]? = some out ∧ out.code = ins.code ∧
        out.dst = ins.dst ∧ out.off = ins.off := by
  obtain ⟨fs, h1⟩ := C06_calls_right_partial hd h
  refine ⟨?_, ?_, ?_⟩
  · simp only [link] at h
    split at h
    · cases h
    · cases h; rfl
  · simp only [link] at h
    split at h
    · cases h
    · cases h; rfl
  · intro i ins hi
    obtain ⟨out, ho, hr⟩ := h1.code f 0 (by simp [layout]) i ins hi
    refine ⟨out, by simpa using ho, ?_⟩
    rcases hr with ⟨_, rfl⟩ | ⟨_, _, _, _, _, _, _, _, h2, h3, h4⟩
    · exact ⟨rfl, rfl, rfl⟩
    · exact ⟨h2, h3, h4⟩

/-- C07: linking terminates on every object, whatever its call graph: with a recursion depth of at most
one more than the number of functions it always comes to an end, and it never indexes the instructions
out of bounds. No hypothesis. -/
theorem C07_terminates (o : Obj) (f : Func) : link o f ≠ .error .fuel ∧ link o f ≠ .error .oob := by
  have h := relocate_safe o (o.funcs.length + 1) ⟨f.insns, f.funcInfo, f.lineInfo, []⟩ f (by simp)
    (by have := unlinked_le o ⟨f.insns, f.funcInfo, f.lineInfo, []⟩; omega)
  simp only [link]
  cases hr : relocate o (o.funcs.length + 1) ⟨f.insns, f.funcInfo, f.lineInfo, []⟩ f with
  | ok st => simp
  | error e =>
    rw [hr] at h
    have h : e ≠ .fuel ∧ e ≠ .oob := h
    simp [h.1, h.2]

/-- C07: if every reference made by the program and the functions reachable from it names a known
function (and every relocation is of a supported form), linking succeeds. -/
theorem C07_succeeds (o : Obj) (f : Func)
    (hsup : ∀ g, (g = f ∨ Reaches o f g) → ∀ i rel sym, TextReloc o g i rel sym →
      (∃ s, sym.sectionIndex = some s) ∧
      (sym.kind = .text ∨ (sym.kind = .section ∧ (rel.size = 32 ∨ rel.size = 64))))
    (hknown : ∀ g, (g = f ∨ Reaches o f g) → ∀ i ins key, g.insns[i]? = some ins →
      Names o g i ins key → ∃ h, o.get key = some h) :
    ∃ f', link o f = .ok f' := by
  simp only [link]
  cases hr : relocate o (o.funcs.length + 1) ⟨f.insns, f.funcInfo, f.lineInfo, []⟩ f with
  | ok st => exact ⟨_, rfl⟩
  | error e =>
    exfalso
    obtain ⟨g, hg, i, ins, hi, hbad⟩ := relocate_error o _ _ f e (by simp)
      (by have := unlinked_le o ⟨f.insns, f.funcInfo, f.lineInfo, []⟩; omega) (by simp) hr
    rcases hbad with hbad | ⟨_, key, h1, h2⟩
    · simp only [resolve] at hbad
      cases ht : textRel o g i with
      | none => rw [ht] at hbad; simp only at hbad; split at hbad <;> cases hbad
      | some p =>
        obtain ⟨rel, sym⟩ := p
        rw [ht] at hbad
        obtain ⟨⟨s, hs⟩, hk⟩ := hsup g hg i rel sym ((textRel_some o g i rel sym).mp ht)
        rcases hk with hk | ⟨hk, hsz | hsz⟩
        · simp [hk, hs] at hbad
        · simp [hk, hs, hsz] at hbad
        · simp [hk, hs, hsz] at hbad
    · obtain ⟨h', hh⟩ := hknown g hg i ins key hi ((resolve_names o g i ins key).mp h1)
      rw [h2] at hh; cases hh

/-- C07: exactly one copy of each reachable function and nothing else (same restriction as C06). -/
theorem C07_each_once_partial {o : Obj} {f f' : Func} (hd : AddressesDistinct o f)
    (h : link o f = .ok f') : ∃ fs : List Func, fs.Nodup ∧ (∀ g, g ∈ fs ↔ Reaches o f g) ∧
      f'.insns.length = f.insns.length + (fs.map (fun g => g.insns.length)).sum := by
  obtain ⟨fs, h1, _⟩ := link_spec hd h
  exact ⟨fs, h1.once, h1.reachable, h1.size⟩

/-! A concrete object: `main` (section 1) calls `f` (section 2, address 0) and takes the address of `g`
(section 2, address 16); `f` calls `g`, `g` calls itself. -/

private def call (imm : Int) : Insn := ⟨0x85, 0, 1, 0, imm⟩
private def exit : Insn := ⟨0x95, 0, 0, 0, 0⟩
private def ldfn (imm : Int) : Insn := ⟨0x18, 2, 0, 0, imm⟩
private def exMain : Func := ⟨0, 1, 0, [call (-1), ldfn 16, exit, exit], [⟨0, 9⟩], [⟨0, 1, 1, 1⟩]⟩
private def exF : Func := ⟨0, 2, 0, [call 0, exit], [⟨0, 7⟩], [⟨0, 2, 2, 2⟩, ⟨1, 2, 3, 3⟩]⟩
private def exG : Func := ⟨8 * 2, 2, 16, [exit, call (-2), exit], [⟨2, 8⟩], [⟨2, 4, 4, 4⟩, ⟨4, 4, 5, 5⟩]⟩
private def exObj : Obj where
  funcs := [((1, 0), exMain), ((2, 0), exF), ((2, 16), exG)]
  relocs := fun s off => if s = 1 ∧ off = 0 then some ⟨32, 5⟩ else if s = 1 ∧ off = 8 then some ⟨64, 5⟩
    else none
  syms := fun i => if i = 5 then some ⟨some 2, true, 0, true, .section⟩ else none
  textSections := fun s => s == 2
-- f's `call 0` at offset 0 names offset 0 + 8 + 0 = 8: make it name g at 16
private def exObj' : Obj :=
  { exObj with funcs := [((1, 0), exMain), ((2, 0), { exF with insns := [call 1, exit] }), ((2, 16), exG)] }

private def exOut : Func :=
  { exMain with
    insns := [call 3, { ldfn 16 with src := 4, imm := 4 }, exit, exit, call 1, exit, exit, call (-2), exit]
    funcInfo := [⟨0, 9⟩, ⟨4, 7⟩, ⟨6, 8⟩]
    lineInfo := [⟨0, 1, 1, 1⟩, ⟨4, 2, 2, 2⟩, ⟨5, 2, 3, 3⟩, ⟨6, 4, 4, 4⟩, ⟨8, 4, 5, 5⟩] }

example : (link exObj' exMain).toOption = some exOut := by decide +kernel

private theorem ex_get {k : Nat × Nat} {g : Func} (h : exObj'.get k = some g) :
    g = exMain ∨ g = { exF with insns := [call 1, exit] } ∨ g = exG := by
  have := get_mem h
  simp only [exObj', List.mem_cons, Prod.mk.injEq, List.not_mem_nil, or_false] at this
  rcases this with ⟨_, h⟩ | ⟨_, h⟩ | ⟨_, h⟩ <;> simp [h]

private theorem ex_calls {k : Func} {g : Func} (h : Calls exObj' k g) :
    k.sectionIndex ≠ 1 ∨ k = exMain → g ≠ exMain := by
  rintro hk rfl
  obtain ⟨i, ins, key, h1, h2, h3⟩ := h
  have hkey : key = (1, 0) := by
    have := get_mem h3
    simp only [exObj', List.mem_cons, Prod.mk.injEq, List.not_mem_nil, or_false] at this
    rcases this with ⟨h, _⟩ | ⟨h, h'⟩ | ⟨h, h'⟩
    · exact h
    · exact absurd h' (by decide)
    · exact absurd h' (by decide)
  subst hkey
  have hsym : ∀ rel sym, TextReloc exObj' k i rel sym → sym.sectionIndex = some 2 := by
    intro rel sym ht
    have := ht.2.1
    simp only [exObj', exObj] at this
    split at this
    · cases this; rfl
    · cases this
  generalize hkk : ((1, 0) : Nat × Nat) = key at h2
  cases h2 with
  | function rel sym s h hk hs => rw [hsym _ _ h] at hs; cases hs; simp at hkk
  | sectionCall rel sym s a h hk hs => rw [hsym _ _ h] at hs; cases hs; simp at hkk
  | sectionRef rel sym s a h hk hs => rw [hsym _ _ h] at hs; cases hs; simp at hkk
  | relative a h hc ha hv =>
    rcases hk with hk | rfl
    · simp only [Prod.mk.injEq] at hkk; omega
    · have hi : i < 4 := (List.getElem?_eq_some_iff.mp h1).1
      have : i = 0 ∨ i = 1 ∨ i = 2 ∨ i = 3 := by omega
      rcases this with rfl | rfl | rfl | rfl
      · exact h ⟨32, 5⟩ ⟨some 2, true, 0, true, .section⟩ ((textRel_some _ _ _ _ _).mp (by decide +kernel))
      · exact h ⟨64, 5⟩ ⟨some 2, true, 0, true, .section⟩ ((textRel_some _ _ _ _ _).mp (by decide +kernel))
      · have : ins = exit := by simpa [exMain] using h1.symm
        subst this; exact absurd hc (by decide)
      · have : ins = exit := by simpa [exMain] using h1.symm
        subst this; exact absurd hc (by decide)

private theorem ex_distinct : AddressesDistinct exObj' exMain := by
  have hno : ∀ g, Reaches exObj' exMain g → g = { exF with insns := [call 1, exit] } ∨ g = exG := by
    intro g h
    induction h with
    | one g h =>
      have hne := ex_calls h (Or.inr rfl)
      obtain ⟨_, _, _, _, _, h3⟩ := h
      rcases ex_get h3 with h | h | h
      · exact absurd h hne
      · exact Or.inl h
      · exact Or.inr h
    | more g h' _ h ih =>
      have hs : g.sectionIndex ≠ 1 := by rcases ih with rfl | rfl <;> decide
      have hne := ex_calls h (Or.inl hs)
      obtain ⟨_, _, _, _, _, h3⟩ := h
      rcases ex_get h3 with h | h | h
      · exact absurd h hne
      · exact Or.inl h
      · exact Or.inr h
  intro g1 g2 h1 h2 ha
  rcases hno g1 h1 with rfl | rfl <;> rcases hno g2 h2 with rfl | rfl
  · rfl
  · exact absurd ha (by decide)
  · exact absurd ha (by decide)
  · rfl

/-- The hypotheses of C06/C07/C09 hold of a program that calls, takes function addresses and recurses. -/
example : AddressesDistinct exObj' exMain ∧ link exObj' exMain = .ok exOut := by
  refine ⟨ex_distinct, ?_⟩
  have h : (link exObj' exMain).toOption = some exOut := by decide +kernel
  cases hl : link exObj' exMain with
  | error e => rw [hl] at h; cases h
  | ok x => rw [hl] at h; simp [Except.toOption] at h; rw [h]

/-! Two text sections, a function at address 0 in each, both called by the program. -/

private def vMain : Func := ⟨0, 1, 0, [call (-1), call (-1), exit], [], []⟩
private def vA : Func := ⟨0, 2, 0, [exit], [], []⟩
private def vB : Func := ⟨0, 3, 0, [exit, exit], [], []⟩
private def vObj : Obj where
  funcs := [((1, 0), vMain), ((2, 0), vA), ((3, 0), vB)]
  relocs := fun s off => if s = 1 ∧ off = 0 then some ⟨32, 5⟩ else if s = 1 ∧ off = 8 then some ⟨32, 6⟩
    else none
  syms := fun i => if i = 5 then some ⟨some 2, true, 0, true, .text⟩
    else if i = 6 then some ⟨some 3, true, 0, true, .text⟩ else none
  textSections := fun s => s == 2 || s == 3

/-- C06 is false in general: `linked_functions` is keyed by address alone, and addresses are relative to
their section. With two text sections that both have a function at address 0, both called, the second
call is redirected to the first function and the second function is not in the program at all: the
program that calls A then B is loaded as one that calls A twice. -/
theorem C06_two_text_sections_violated :
    ∃ (o : Obj) (f f' a b : Func), link o f = .ok f' ∧ a ≠ b ∧ Calls o f a ∧ Calls o f b ∧
      ¬ ∃ fs, LinkedAs o f fs f' := by
  let out : Func := { vMain with insns := [call 2, call 1, exit, exit] }
  have hlink : link vObj vMain = .ok out := by
    have h : (link vObj vMain).toOption = some out := by decide +kernel
    cases hl : link vObj vMain with
    | error e => rw [hl] at h; cases h
    | ok x => rw [hl] at h; simp [Except.toOption] at h; rw [h]
  have ha : Calls vObj vMain vA :=
    ⟨0, call (-1), (2, 0), rfl, (resolve_names _ _ _ _ _).mp rfl, rfl⟩
  have hb : Calls vObj vMain vB :=
    ⟨1, call (-1), (3, 0), rfl, (resolve_names _ _ _ _ _).mp rfl, rfl⟩
  refine ⟨vObj, vMain, out, vA, vB, hlink, by decide, ha, hb, ?_⟩
  rintro ⟨fs, hl⟩
  have h1 : vA ∈ fs := (hl.reachable vA).mpr (.one _ _ ha)
  have h2 : vB ∈ fs := (hl.reachable vB).mpr (.one _ _ hb)
  have hsz := hl.size
  have hge : ∀ (l : List Func) (x : Func), x ∈ l → x.insns.length ≤ (l.map (fun g => g.insns.length)).sum := by
    intro l
    induction l with
    | nil => intro x hx; cases hx
    | cons y l ih =>
      intro x hx
      simp only [List.map_cons, List.sum_cons]
      rcases List.mem_cons.mp hx with rfl | hx
      · omega
      · have := ih x hx; omega
  have := hge fs vB h2
  have e1 : out.insns.length = 4 := rfl
  have e2 : vMain.insns.length = 3 := rfl
  have e3 : vB.insns.length = 2 := rfl
  omega

/-! ### C08 -/

theorem insert_get (o : Obj) (key k : Nat × Nat) (f : Func) (h : ∃ g, o.get key = some g) :
    (o.insert key f).get k = if k = key then some f else o.get k := by
  obtain ⟨g, hg⟩ := h
  simp only [Obj.get, Obj.insert] at hg ⊢
  generalize o.funcs = l at hg
  induction l with
  | nil => simp at hg
  | cons p l ih =>
    simp only [List.map_cons, List.find?_cons] at hg ⊢
    by_cases hpk : p.1 = key
    · simp only [hpk, if_true]
      by_cases hk : k = key
      · simp [hk]
      · have e1 : (key == k) = false := by simpa using (fun h => hk h.symm)
        have e2 : (p.1 == k) = false := by rw [hpk]; exact e1
        simp only [e1, e2, hk, if_false]
        clear ih hg
        induction l with
        | nil => rfl
        | cons q l ih2 =>
          simp only [List.map_cons, List.find?_cons]
          by_cases hqk : q.1 = key
          · simp only [hqk, if_true, e1]
            exact ih2
          · simp only [hqk, if_false]
            cases hq : (q.1 == k)
            · exact ih2
            · rfl
    · have e1 : (p.1 == key) = false := by simpa using hpk
      simp only [e1] at hg
      simp only [hpk, if_false]
      cases hq : (p.1 == k)
      · exact ih hg
      · have : p.1 = k := by simpa using hq
        have hne : k ≠ key := fun h => hpk (this.trans h)
        simp [hne]

/-- What linking the programs `ks` one after the other does when no function names a program. -/
theorem relocateCalls_spec {P : Nat × Nat → Prop} {o : Obj}
    (havoid : ∀ key g, o.get key = some g → Avoids o P g) (ks : List (Nat × Nat)) :
    ∀ (oc : Obj), Agree P o oc → oc.funcs.length = o.funcs.length → ks.Nodup → (∀ k ∈ ks, P k) →
      (∀ k ∈ ks, oc.get k = o.get k) →
      ((∀ k ∈ ks, ∃ f f', o.get k = some f ∧ link o f = .ok f') → ∃ o', relocateCalls ks oc = .ok o') ∧
      (∀ o', relocateCalls ks oc = .ok o' →
        (∀ k ∈ ks, ∃ f f', o.get k = some f ∧ link o f = .ok f' ∧ o'.get k = some f') ∧
        (∀ k, k ∉ ks → o'.get k = oc.get k)) := by
  induction ks with
  | nil =>
    intro oc _ _ _ _ _
    refine ⟨fun _ => ⟨oc, rfl⟩, ?_⟩
    intro o' h
    cases h
    exact ⟨by simp, fun _ _ => rfl⟩
  | cons key ks ih =>
    intro oc ha hlen hnd hP hget
    have hkey := hget key List.mem_cons_self
    have hnd' := List.nodup_cons.mp hnd
    simp only [relocateCalls, hkey]
    cases hg : o.get key with
    | none =>
      refine ⟨?_, fun o' h => by cases h⟩
      intro h
      obtain ⟨f, f', h1, _⟩ := h key List.mem_cons_self
      rw [hg] at h1; cases h1
    | some f =>
      simp only
      rw [link_congr ha hlen (fun k g _ h => havoid k g h) f (havoid key f hg)]
      cases hl : link o f with
      | error e =>
        refine ⟨?_, fun o' h => by cases h⟩
        intro h
        obtain ⟨f1, f', h1, h2⟩ := h key List.mem_cons_self
        rw [hg] at h1; cases h1
        rw [hl] at h2; cases h2
      | ok f' =>
        simp only
        have hins : ∀ k, (oc.insert key f').get k = if k = key then some f' else oc.get k := fun k =>
          insert_get oc key k f' ⟨f, by rw [hkey, hg]⟩
        have ha' : Agree P o (oc.insert key f') := by
          refine ⟨ha.relocs, ha.syms, ha.text, ?_⟩
          intro k hk
          rw [hins k]
          have : k ≠ key := by rintro rfl; exact hk (hP _ List.mem_cons_self)
          rw [if_neg this, ha.get k hk]
        obtain ⟨ih1, ih2⟩ := ih (oc.insert key f') ha' (by simp [Obj.insert, hlen]) hnd'.2
          (fun k hk => hP k (List.mem_cons_of_mem _ hk))
          (by
            intro k hk
            have : k ≠ key := by rintro rfl; exact hnd'.1 hk
            rw [hins k, if_neg this]
            exact hget k (List.mem_cons_of_mem _ hk))
        refine ⟨fun h => ih1 (fun k hk => h k (List.mem_cons_of_mem _ hk)), ?_⟩
        intro o' ho'
        obtain ⟨h1, h2⟩ := ih2 o' ho'
        refine ⟨?_, ?_⟩
        · intro k hk
          rcases List.mem_cons.mp hk with rfl | hk
          · exact ⟨f, f', hg, hl, by rw [h2 k hnd'.1, hins k, if_pos rfl]⟩
          · exact h1 k hk
        · intro k hk
          have hne : k ≠ key := fun h => hk (by rw [h]; exact List.mem_cons_self)
          rw [h2 k (fun h => hk (List.mem_cons_of_mem _ h)), hins k, if_neg hne]

/-- C08 (restricted to objects in which no function refers to a program; see
`C08_program_calls_program_violated`): the programs can be linked in any order; every order succeeds if
one does and gives every function the same instructions and debug info. -/
theorem C08_order_independent_partial {o o1 : Obj} {keys keys' : List (Nat × Nat)}
    (hsep : ∀ k g, o.get k = some g → ∀ i ins key, g.insns[i]? = some ins → Names o g i ins key → key ∉ keys)
    (hnd : keys.Nodup) (hperm : keys.Perm keys') (h : relocateCalls keys o = .ok o1) :
    ∃ o2, relocateCalls keys' o = .ok o2 ∧ ∀ k, o2.get k = o1.get k := by
  have havoid : ∀ key g, o.get key = some g → Avoids o (fun k => k ∈ keys) g := by
    intro k g hg i ins key hi hr
    exact hsep k g hg i ins key hi ((resolve_names o g i ins key).mp hr)
  have ha : Agree (fun k => k ∈ keys) o o := ⟨rfl, rfl, rfl, fun _ _ => rfl⟩
  have s1 := relocateCalls_spec havoid keys o ha rfl hnd (fun _ h => h) (fun _ _ => rfl)
  have s2 := relocateCalls_spec havoid keys' o ha rfl (hperm.nodup_iff.mp hnd)
    (fun k hk => hperm.mem_iff.mpr hk) (fun _ _ => rfl)
  obtain ⟨a1, a2⟩ := s1.2 o1 h
  obtain ⟨o2, ho2⟩ := s2.1 (by
    intro k hk
    obtain ⟨f, f', h1, h2, _⟩ := a1 k (hperm.mem_iff.mpr hk)
    exact ⟨f, f', h1, h2⟩)
  obtain ⟨b1, b2⟩ := s2.2 o2 ho2
  refine ⟨o2, ho2, ?_⟩
  intro k
  by_cases hk : k ∈ keys
  · obtain ⟨f, f', h1, h2, h3⟩ := a1 k hk
    obtain ⟨g, g', k1, k2, k3⟩ := b1 k (hperm.mem_iff.mp hk)
    rw [h1] at k1; cases k1
    rw [h2] at k2; cases k2
    rw [h3, k3]
  · rw [a2 k hk, b2 k (fun h => hk (hperm.mem_iff.mpr h))]

/-- C08: and each program is the result of linking it alone in the object as parsed, so C06, C07 and C09
apply to every program of the object (same restriction). -/
theorem C08_as_if_alone_partial {o o1 : Obj} {keys : List (Nat × Nat)}
    (hsep : ∀ k g, o.get k = some g → ∀ i ins key, g.insns[i]? = some ins → Names o g i ins key → key ∉ keys)
    (hnd : keys.Nodup) (h : relocateCalls keys o = .ok o1) :
    (∀ k ∈ keys, ∃ f f', o.get k = some f ∧ link o f = .ok f' ∧ o1.get k = some f') ∧
    (∀ k, k ∉ keys → o1.get k = o.get k) := by
  have havoid : ∀ key g, o.get key = some g → Avoids o (fun k => k ∈ keys) g := by
    intro k g hg i ins key hi hr
    exact hsep k g hg i ins key hi ((resolve_names o g i ins key).mp hr)
  exact (relocateCalls_spec havoid keys o ⟨rfl, rfl, rfl, fun _ _ => rfl⟩ rfl hnd (fun _ h => h)
    (fun _ _ => rfl)).2 o1 h

/-! Programs A (section 1) and B (section 2); A calls B, B calls C in the text section 3. -/
private def wA : Func := ⟨0, 1, 0, [call (-1), exit], [], []⟩
private def wB : Func := ⟨0, 2, 0, [call (-1), exit], [], []⟩
private def wC : Func := ⟨8, 3, 8, [exit], [], []⟩
private def wObj : Obj where
  funcs := [((1, 0), wA), ((2, 0), wB), ((3, 8), wC)]
  relocs := fun s off => if s = 1 ∧ off = 0 then some ⟨32, 5⟩ else if s = 2 ∧ off = 0 then some ⟨32, 6⟩
    else none
  syms := fun i => if i = 5 then some ⟨some 2, true, 0, true, .text⟩
    else if i = 6 then some ⟨some 3, true, 8, true, .text⟩ else none
  textSections := fun s => s == 3

private def insnsOf (r : Except Err Obj) (k : Nat × Nat) : Option (List Insn) :=
  (r.toOption.bind (fun o => o.get k)).map Func.insns

/-- C08 is false in general: if program A calls program B, A is copied from B's already linked form when
B comes first, and from its original form otherwise. Same object, two orders, different code for A. -/
theorem C08_program_calls_program_violated :
    ∃ (o o1 o2 : Obj) (ks ks' : List (Nat × Nat)) (k : Nat × Nat), ks.Nodup ∧ ks.Perm ks' ∧ k ∈ ks ∧
      relocateCalls ks o = .ok o1 ∧ relocateCalls ks' o = .ok o2 ∧
      (o1.get k).map Func.insns ≠ (o2.get k).map Func.insns := by
  have h1 : insnsOf (relocateCalls [(1, 0), (2, 0)] wObj) (1, 0) =
      some [call 1, exit, call 1, exit, exit] := by decide +kernel
  have h2 : insnsOf (relocateCalls [(2, 0), (1, 0)] wObj) (1, 0) =
      some [call 1, exit, call 2, exit, exit, exit] := by decide +kernel
  cases e1 : relocateCalls [(1, 0), (2, 0)] wObj with
  | error e => rw [e1] at h1; cases h1
  | ok o1 =>
    cases e2 : relocateCalls [(2, 0), (1, 0)] wObj with
    | error e => rw [e2] at h2; cases h2
    | ok o2 =>
      rw [e1] at h1
      rw [e2] at h2
      refine ⟨wObj, o1, o2, _, _, (1, 0), by decide, List.Perm.swap _ _ _, by simp, e1, e2, ?_⟩
      have h1' : (o1.get (1, 0)).map Func.insns = _ := h1
      have h2' : (o2.get (1, 0)).map Func.insns = _ := h2
      rw [h1', h2']
      decide

/-- The hypotheses of the C08 theorems hold of the first object (its program is not called). -/
example : (∀ k g, exObj'.get k = some g → ∀ i ins key, g.insns[i]? = some ins → Names exObj' g i ins key →
    key ∉ [((1, 0) : Nat × Nat)]) ∧ ∃ o1, relocateCalls [(1, 0)] exObj' = .ok o1 := by
  constructor
  · intro k g hg i ins key hi hn hk
    have : key = (1, 0) := by simpa using hk
    subst this
    have hc : Calls exObj' g exMain := ⟨i, ins, (1, 0), hi, hn, rfl⟩
    refine ex_calls hc ?_ rfl
    rcases ex_get hg with rfl | rfl | rfl
    · exact Or.inr rfl
    · exact Or.inl (by decide)
    · exact Or.inl (by decide)
  · have h : (insnsOf (relocateCalls [(1, 0)] exObj') (1, 0)).isSome := by decide +kernel
    cases e : relocateCalls [(1, 0)] exObj' with
    | error e' => rw [e] at h; cases h
    | ok o => exact ⟨o, rfl⟩

/-! ### C09 -/

theorem rebaseLine_eq (g : Func) (s : Nat) (hw : LinesWellFormed g) (hs : s + g.insns.length < 2 ^ 32) :
    rebaseLine g s = g.lineInfo.map (fun l => { l with insnOff := s + (l.insnOff - g.sectionOffset / 8) }) := by
  unfold rebaseLine
  cases hl : g.lineInfo with
  | nil => rfl
  | cons first rest =>
    simp only
    have h1 := hw.entry first (by rw [hl]; simp)
    apply List.map_congr_left
    intro l hm
    have h2 := hw.inside l (by rw [hl]; exact hm)
    have : rebaseLine.wrap32 ((s : Int) + ((l.insnOff : Int) - first.insnOff)) =
        s + (l.insnOff - g.sectionOffset / 8) := by
      unfold rebaseLine.wrap32
      rw [h1]
      omega
    rw [this]

theorem flatMap_congr' {α β : Type} (f g : α → List β) (l : List α) (h : ∀ x ∈ l, f x = g x) :
    l.flatMap f = l.flatMap g := by
  induction l with
  | nil => rfl
  | cons a l ih =>
    simp only [List.flatMap_cons]
    rw [h a List.mem_cons_self, ih (fun x hx => h x (List.mem_cons_of_mem _ hx))]

/-- C09 (restricted as C06, to functions whose line info starts at their first instruction, and to
programs of less than 2^32 instructions): with `fs` the functions copied into the program, the func info
of the result is that of the program followed by that of each copy, pointing at the start of the copy;
the line info is that of the program followed by that of each copy, where the record for instruction `j`
of a function points at instruction `j` of its copy. -/
theorem C09_info_follows_code_partial {o : Obj} {f f' : Func} (hd : AddressesDistinct o f)
    (hw : ∀ g, Reaches o f g → LinesWellFormed g) (h : link o f = .ok f')
    (hsize : f'.insns.length < 2 ^ 32) :
    ∃ fs, LinkedAs o f fs f' ∧
      f'.funcInfo = f.funcInfo ++ (layout f.insns.length fs).flatMap (fun p =>
        p.1.funcInfo.map (fun r => { r with insnOff := p.2 })) ∧
      f'.lineInfo = f.lineInfo ++ (layout f.insns.length fs).flatMap (fun p =>
        p.1.lineInfo.map (fun l => { l with insnOff := p.2 + (l.insnOff - p.1.sectionOffset / 8) })) := by
  obtain ⟨fs, h1, h2, h3⟩ := link_spec hd h
  refine ⟨fs, h1, h2, ?_⟩
  rw [h3]
  congr 1
  apply flatMap_congr'
  rintro ⟨g, s⟩ hm
  have hb := layout_bounds _ _ _ _ hm
  have hsz := h1.size
  have hg : g ∈ fs := by
    have := List.mem_map_of_mem (f := Prod.fst) hm
    rwa [layout_map_fst] at this
  refine rebaseLine_eq g s (hw g ((h1.reachable g).mp hg)) ?_
  simp only [total] at hb
  omega

theorem pairwise_layout {fs : List Func} : ∀ (base : Nat), (∀ g ∈ fs, LinesWellFormed g) →
    (∀ g ∈ fs, g.lineInfo.Pairwise (fun a b => a.insnOff < b.insnOff)) →
    (((layout base fs).flatMap (fun p =>
        p.1.lineInfo.map (fun l => { l with insnOff := p.2 + (l.insnOff - p.1.sectionOffset / 8) }))).Pairwise
      (fun a b => a.insnOff < b.insnOff)) ∧
    ∀ l ∈ (layout base fs).flatMap (fun p =>
        p.1.lineInfo.map (fun l => { l with insnOff := p.2 + (l.insnOff - p.1.sectionOffset / 8) })),
      base ≤ l.insnOff ∧ l.insnOff < base + total fs := by
  induction fs with
  | nil => intro base _ _; simp [layout]
  | cons g fs ih =>
    intro base hw hs
    obtain ⟨i1, i2⟩ := ih (base + g.insns.length) (fun x hx => hw x (List.mem_cons_of_mem _ hx))
      (fun x hx => hs x (List.mem_cons_of_mem _ hx))
    have hg := hw g List.mem_cons_self
    have hp := hs g List.mem_cons_self
    have hrange : ∀ l ∈ g.lineInfo.map (fun l => { l with insnOff := base + (l.insnOff - g.sectionOffset / 8) }),
        base ≤ l.insnOff ∧ l.insnOff < base + g.insns.length := by
      intro l hl
      obtain ⟨r, hr, rfl⟩ := List.mem_map.mp hl
      have := hg.inside r hr
      simp only
      omega
    simp only [layout, List.flatMap_cons]
    refine ⟨?_, ?_⟩
    · rw [List.pairwise_append]
      refine ⟨?_, i1, ?_⟩
      · rw [List.pairwise_map]
        refine List.Pairwise.imp_of_mem ?_ hp
        intro a b ha hb hab
        have h1 := hg.inside a ha
        have h2 := hg.inside b hb
        simp only
        omega
      · intro a ha b hb
        have h1 := hrange a ha
        have h2 := i2 b hb
        omega
    · intro l hl
      rcases List.mem_append.mp hl with hl | hl
      · have := hrange l hl
        simp; omega
      · have := i2 l hl
        simp; omega

/-- C09: the kernel accepts line info only in strictly increasing order and inside the program. If the
info of each function was like that, so is that of the linked program. -/
theorem C09_line_info_increasing_partial {o : Obj} {f f' : Func} (hd : AddressesDistinct o f)
    (hw : ∀ g, Reaches o f g → LinesWellFormed g)
    (hinc : ∀ g, Reaches o f g → g.lineInfo.Pairwise (fun a b => a.insnOff < b.insnOff))
    (hf : f.lineInfo.Pairwise (fun a b => a.insnOff < b.insnOff))
    (hfin : ∀ l ∈ f.lineInfo, l.insnOff < f.insns.length)
    (h : link o f = .ok f') (hsize : f'.insns.length < 2 ^ 32) :
    f'.lineInfo.Pairwise (fun a b => a.insnOff < b.insnOff) ∧
      ∀ l ∈ f'.lineInfo, l.insnOff < f'.insns.length := by
  obtain ⟨fs, h1, _, h3⟩ := C09_info_follows_code_partial hd hw h hsize
  obtain ⟨p1, p2⟩ := pairwise_layout (fs := fs) f.insns.length
    (fun g hg => hw g ((h1.reachable g).mp hg)) (fun g hg => hinc g ((h1.reachable g).mp hg))
  have hsz := h1.size
  simp only [total] at p2
  rw [h3]
  refine ⟨?_, ?_⟩
  · rw [List.pairwise_append]
    refine ⟨hf, p1, ?_⟩
    intro a ha b hb
    have := hfin a ha
    have := p2 b hb
    omega
  · intro l hl
    rcases List.mem_append.mp hl with hl | hl
    · have := hfin l hl
      omega
    · have := p2 l hl
      omega

example : LinesWellFormed exG ∧ exG.lineInfo.Pairwise (fun a b => a.insnOff < b.insnOff) := by
  refine ⟨⟨?_, ?_⟩, by decide⟩ <;> decide

/-- C09: which records a function gets. A line record of the section belongs to the function whose symbol
covers its instruction; for a program the offsets are made relative to the start of the program, for
other functions they are left as they are. `off` and `size` are multiples of 8 here. -/
theorem C09_records_of_function (recs : List LineInfo) (k n : Nat) :
    (∀ l, l ∈ extractLine recs (8 * k) (8 * n) false ↔ l ∈ recs ∧ k ≤ l.insnOff ∧ l.insnOff < k + n) ∧
    (∀ l, l ∈ extractLine recs (8 * k) (8 * n) true ↔
      ∃ r ∈ recs, k ≤ r.insnOff ∧ r.insnOff < k + n ∧ l = { r with insnOff := r.insnOff - k }) := by
  have e1 : 8 * k / insSize = k := by simp [insSize]
  have e2 : 8 * n / insSize = n := by simp [insSize]
  constructor
  · intro l
    simp only [extractLine, e1, e2, List.mem_filterMap]
    constructor
    · rintro ⟨r, hr, h⟩
      split at h
      · cases h
      · split at h
        · simp at h; subst h
          exact ⟨hr, by omega, by omega⟩
        · cases h
    · rintro ⟨h1, h2, h3⟩
      exact ⟨l, h1, by rw [if_neg (by omega), if_pos (by omega)]; simp⟩
  · intro l
    simp only [extractLine, e1, e2, List.mem_filterMap]
    constructor
    · rintro ⟨r, hr, h⟩
      split at h
      · cases h
      · split at h
        · simp at h; subst h
          exact ⟨r, hr, by omega, by omega, rfl⟩
        · cases h
    · rintro ⟨r, h1, h2, h3, rfl⟩
      exact ⟨r, h1, by rw [if_neg (by omega), if_pos (by omega)]; simp⟩

/-- C09: a function gets exactly the func-info records for its first instruction. -/
theorem C09_func_records_of_function (recs : List FuncInfo) (k : Nat) :
    (∀ r, r ∈ extractFunc recs (8 * k) false ↔ r ∈ recs ∧ r.insnOff = k) ∧
    (∀ r, r ∈ extractFunc recs (8 * k) true ↔ r.insnOff = 0 ∧ ⟨k, r.typeId⟩ ∈ recs) := by
  have e1 : 8 * k / insSize = k := by simp [insSize]
  constructor
  · intro r
    simp only [extractFunc, e1, List.mem_filterMap]
    constructor
    · rintro ⟨x, hx, h⟩
      split at h
      · simp at h; subst h; exact ⟨hx, by assumption⟩
      · cases h
    · rintro ⟨h1, h2⟩
      exact ⟨r, h1, by simp [h2]⟩
  · intro r
    simp only [extractFunc, e1, List.mem_filterMap]
    constructor
    · rintro ⟨x, hx, h⟩
      split at h
      · rename_i hk
        simp at h; subst h
        refine ⟨rfl, ?_⟩
        simp only
        rw [← hk]; exact hx
      · cases h
    · rintro ⟨h1, h2⟩
      refine ⟨_, h2, ?_⟩
      simp only [if_true]
      cases r
      simp at h1 ⊢
      exact h1.symm

example : extractLine [⟨0, 1, 1, 1⟩, ⟨2, 1, 2, 1⟩, ⟨3, 1, 3, 1⟩, ⟨5, 1, 4, 1⟩] 16 24 true =
    [⟨0, 1, 2, 1⟩, ⟨1, 1, 3, 1⟩] := by decide

end Verif.Linker
