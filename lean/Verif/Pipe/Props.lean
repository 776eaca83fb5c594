import Verif.Pipe.Spec
import Verif.Linker.Props
import Verif.Reloc.Props
import Verif.Obj.Props
/-!
# The code of loaded programs: all stages together
-/
set_option linter.unusedSimpArgs false
set_option linter.unusedVariables false
namespace Verif.Pipe
open Verif.Bpf Verif.Pipe.Spec
open Verif.Linker (Func)
open Verif.Linker.Spec (layout)
open Verif.Reloc (Name Sym MapRef Extern)

/-! ### One function -/

/-- What instruction `i` of `f` is after the map and extern stages. -/
inductive Patched (o : Object) (maps : List MapRef) (f : Func) (i : Nat) (ins out : Insn) : Prop
  | map (sym m) (h : MapRefers o maps f i ins sym m)
      (hout : out = { ins with imm := m.fd, src := if m.hasData then 2 else 1 })
  | offset (j prev sym m) (hj : i = j + 1) (hp : f.insns[j]? = some prev) (h : MapRefers o maps f j prev sym m)
      (hd : m.hasData = true) (himm : Reloc.Spec.IsI32 out.imm (prev.imm + sym.address))
      (hrest : out.code = ins.code ∧ out.dst = ins.dst ∧ out.src = ins.src ∧ out.off = ins.off)
  | extern (rel e k) (h : ExternRef o f i rel e) (hf : Reloc.Spec.ExternForm e rel.symbolIndex ins out k)
  | externSecond (rel e j prev out1) (k : Int) (hj : i = j + 1) (hp : f.insns[j]? = some prev)
      (h : ExternRef o f j rel e) (hf : Reloc.Spec.ExternForm e rel.symbolIndex prev out1 (some k))
      (hout : out = { ins with imm := k })
  | same (h2 : ∀ sym m, ¬ MapRefers o maps f i ins sym m) (h3 : ∀ rel e, ¬ ExternRef o f i rel e) (hout : out = ins)

theorem mem_plain {o : Object} {f : Func} {i : Nat} {r : Reloc.Rel} (hr : r ∈ (o.rels f.sectionIndex).map Rel.plain)
    (ha : Reloc.Spec.At f.sectionOffset r i) : ∃ rel, At o f i rel ∧ r = rel.plain := by
  obtain ⟨rel, hm, rfl⟩ := List.mem_map.mp hr
  exact ⟨rel, ⟨hm, ha⟩, rfl⟩

theorem plain_mem {o : Object} {f : Func} {i : Nat} {rel : Rel} (h : At o f i rel) :
    rel.plain ∈ (o.rels f.sectionIndex).map Rel.plain ∧ Reloc.Spec.At f.sectionOffset rel.plain i :=
  ⟨List.mem_map_of_mem h.1, h.2⟩

theorem plain_nodup {o : Object} (h : WellFormed o) (s : Nat) :
    (((o.rels s).map Rel.plain).map Reloc.Rel.offset).Nodup := by
  have := h.offsets s
  simpa [List.map_map, Function.comp_def, Rel.plain] using this

/-- One relocation per instruction. -/
theorem at_unique {o : Object} (h : WellFormed o) {f : Func} {i : Nat} {r1 r2 : Rel} (h1 : At o f i r1) (h2 : At o f i r2) :
    r1 = r2 := by
  have hn := List.pairwise_iff_getElem.mp (h.offsets f.sectionIndex)
  obtain ⟨a, ha, rfl⟩ := List.getElem_of_mem h1.1
  obtain ⟨b, hb, rfl⟩ := List.getElem_of_mem h2.1
  rcases Nat.lt_trichotomy a b with hab | hab | hab
  · have := hn a b (by simpa using ha) (by simpa using hb) hab
    simp only [List.getElem_map] at this
    rw [h1.2, h2.2] at this
    exact absurd rfl this
  · subst hab; rfl
  · have := hn b a (by simpa using hb) (by simpa using ha) hab
    simp only [List.getElem_map] at this
    rw [h1.2, h2.2] at this
    exact absurd rfl this

theorem mapRefers_load {o : Object} (h : WellFormed o) {maps : List MapRef} {k : Nat × Nat} {f : Func}
    (hk : get o.funcs k = some f) {i : Nat} {ins : Insn} (hi : f.insns[i]? = some ins) {sym : Sym} {m : MapRef}
    (hm : MapRefers o maps f i ins sym m) : ins.code = 0x18 := by
  obtain ⟨rel, hat, s, h1, h2, h3, h4, -⟩ := hm
  exact h.loads k f hk i ins hi rel sym s hat h1 h2 h4 h3

theorem mapRefers_not_extern {o : Object} (h : WellFormed o) {maps : List MapRef} {f : Func} {i : Nat} {ins : Insn}
    {sym : Sym} {m : MapRef} (hm : MapRefers o maps f i ins sym m) {rel : Rel} {e : Extern} : ¬ ExternRef o f i rel e := by
  rintro ⟨hat, sym', name, x, hs, hu, -⟩
  obtain ⟨rel', hat', s, h1, h2, -⟩ := hm
  have := at_unique h hat hat'
  subst this
  have h1 : o.syms rel.symbolIndex = some sym := h1
  rw [hs] at h1
  simp only [Option.some.injEq] at h1
  subst h1
  rw [hu.1] at h2
  simp at h2

theorem form_code {e : Extern} {k : Nat} {ins out : Insn} {n : Int} (h : Reloc.Spec.ExternForm e k ins out (some n)) :
    ins.code = 0x18 := by cases h <;> assumption

theorem externRef_iff {o : Object} {f : Func} {i : Nat} {rel : Rel} {e : Extern} (x : Name → Option Extern)
    (hx : o.externs = some x) (hat : At o f i rel) :
    ExternRef o f i rel e ↔ Reloc.Spec.AgainstExtern x o.syms rel.plain e := by
  constructor
  · rintro ⟨-, sym, name, x', hs, hu, hn, hx', he⟩
    rw [hx] at hx'
    simp only [Option.some.injEq] at hx'
    subst hx'
    exact ⟨sym, name, hs, hu.1, hu.2.1, hu.2.2.1, hn, he⟩
  · rintro ⟨sym, name, hs, h1, h2, h3, hn, he⟩
    exact ⟨hat, sym, name, x, hs, ⟨h1, h2, h3, by rw [hn]; simp⟩, hn, hx, he⟩

/-- Both stages on one function. -/
def stages (o : Object) (maps : List MapRef) (f : Func) : Except Reloc.Err (List Insn) :=
  match mapStage o maps f with
  | .error e => .error e
  | .ok is => externStage o { f with insns := is }

theorem stages_spec {o : Object} (h : WellFormed o) {maps : List MapRef} (hu : Unambiguous o maps)
    {k : Nat × Nat} {f : Func} (hk : get o.funcs k = some f) {out : List Insn} (hr : stages o maps f = .ok out) :
    out.length = f.insns.length ∧
    ∀ (i : Nat) ins, f.insns[i]? = some ins → ∃ b, out[i]? = some b ∧ Patched o maps f i ins b := by
  unfold stages at hr
  cases hm : mapStage o maps f with
  | error e => simp [hm] at hr
  | ok is =>
    rw [hm] at hr
    simp only at hr
    unfold mapStage at hm
    have hpairs : Reloc.Spec.PairsIntact maps o.syms o.text f.sectionOffset ((o.rels f.sectionIndex).map Rel.plain) f.insns := by
      intro r1 hr1 i ins sym m hat hi hmr hd r2 hr2 hat2
      obtain ⟨rel1, ha1, rfl⟩ := mem_plain hr1 hat
      obtain ⟨rel2, ha2, rfl⟩ := mem_plain hr2 hat2
      have hc := mapRefers_load h hk hi ⟨rel1, ha1, hmr⟩
      obtain ⟨next, -, -, hno⟩ := h.pairs k f hk i ins hi hc
      exact hno rel2 ha2
    obtain ⟨hl1, hm1⟩ := Reloc.C10_maps_patched_partial (hu _) (plain_nodup h _) hpairs hm
    -- the map stage, on the object
    have hmap : ∀ (i : Nat) ins, f.insns[i]? = some ins → ∃ a, is[i]? = some a ∧ a.code = ins.code ∧
        ((∃ sym m, MapRefers o maps f i ins sym m ∧ a = { ins with imm := m.fd, src := if m.hasData then 2 else 1 }) ∨
         (∃ j prev sym m, i = j + 1 ∧ f.insns[j]? = some prev ∧ MapRefers o maps f j prev sym m ∧ m.hasData = true ∧
            Reloc.Spec.IsI32 a.imm (prev.imm + sym.address) ∧
            (a.code = ins.code ∧ a.dst = ins.dst ∧ a.src = ins.src ∧ a.off = ins.off)) ∨
         ((∀ sym m, ¬ MapRefers o maps f i ins sym m) ∧ a = ins)) := by
      intro i ins hi
      obtain ⟨a, ha, hres⟩ := hm1 i ins hi
      refine ⟨a, ha, ?_⟩
      cases hres with
      | reference rel sym m hr hat hmr himm hsrc hrest =>
        obtain ⟨rel', hat', rfl⟩ := mem_plain hr hat
        refine ⟨hrest.1, .inl ⟨sym, m, ⟨rel', hat', hmr⟩, ?_⟩⟩
        obtain ⟨hc, hd, ho⟩ := hrest
        cases a
        simp_all
      | offset rel j prev sym m hr hj hat hp hmr hd himm hrest =>
        obtain ⟨rel', hat', rfl⟩ := mem_plain hr hat
        exact ⟨hrest.1, .inr (.inl ⟨j, prev, sym, m, hj, hp, ⟨rel', hat', hmr⟩, hd, himm, hrest⟩)⟩
      | same hno hno' ho =>
        refine ⟨by rw [ho], .inr (.inr ⟨?_, ho⟩)⟩
        rintro sym m ⟨rel, hat, hmr⟩
        exact hno _ (plain_mem hat).1 (plain_mem hat).2 sym m hmr
    -- an instruction relocated against an extern, or after such a load, is untouched by the map stage
    have hkeep : ∀ (i : Nat) ins, f.insns[i]? = some ins → ∀ rel e, ExternRef o f i rel e → is[i]? = some ins := by
      intro i ins hi rel e he
      obtain ⟨a, ha, -, h1 | h1 | h1⟩ := hmap i ins hi
      · obtain ⟨sym, m, hmr, -⟩ := h1
        exact absurd he (mapRefers_not_extern h hmr)
      · obtain ⟨j, prev, sym, m, rfl, hp, hmr, -⟩ := h1
        obtain ⟨next, -, -, hno⟩ := h.pairs k f hk j prev hp (mapRefers_load h hk hp hmr)
        exact absurd he.1 (hno rel)
      · rw [ha, h1.2]
    cases hx : o.externs with
    | none =>
      simp only [externStage, hx, Except.ok.injEq] at hr
      subst hr
      refine ⟨hl1, ?_⟩
      intro i ins hi
      obtain ⟨a, ha, -, h1 | h1 | h1⟩ := hmap i ins hi
      · obtain ⟨sym, m, hmr, h2⟩ := h1
        exact ⟨a, ha, .map sym m hmr h2⟩
      · obtain ⟨j, prev, sym, m, hj, hp, hmr, hd, himm, hrest⟩ := h1
        exact ⟨a, ha, .offset j prev sym m hj hp hmr hd himm hrest⟩
      · refine ⟨a, ha, .same h1.1 ?_ h1.2⟩
        rintro rel e ⟨-, sym, name, x, -, -, -, hx', -⟩
        rw [hx] at hx'
        simp at hx'
    | some x =>
      simp only [externStage, hx] at hr
      have hcode : ∀ (i : Nat) a, is[i]? = some a → ∃ ins, f.insns[i]? = some ins ∧ a.code = ins.code := by
        intro i a ha
        have hlt : i < f.insns.length := by
          rw [← hl1]
          exact (List.getElem?_eq_some_iff.mp ha).1
        obtain ⟨a', ha', hc, -⟩ := hmap i _ (List.getElem?_eq_getElem hlt)
        rw [ha] at ha'
        simp only [Option.some.injEq] at ha'
        subst ha'
        exact ⟨_, List.getElem?_eq_getElem hlt, hc⟩
      have hloads : Reloc.LoadsIntact f.sectionOffset ((o.rels f.sectionIndex).map Rel.plain) is := by
        intro r1 hr1 i a hat ha hc r2 hr2 hat2
        obtain ⟨ins, hi, hce⟩ := hcode i a ha
        obtain ⟨rel2, ha2, rfl⟩ := mem_plain hr2 hat2
        obtain ⟨next, -, -, hno⟩ := h.pairs k f hk i ins hi (hce ▸ hc)
        exact hno rel2 ha2
      obtain ⟨hl2, hx2⟩ := Reloc.C11_externs_patched (plain_nodup h _) hloads hr
      refine ⟨hl2.trans hl1, ?_⟩
      intro i ins hi
      obtain ⟨a, ha, hac, hcases⟩ := hmap i ins hi
      obtain ⟨b, hb, hres⟩ := hx2 i a ha
      refine ⟨b, hb, ?_⟩
      cases hres with
      | reference rel e n hr hat he hf =>
        obtain ⟨rel', hat', rfl⟩ := mem_plain hr hat
        have hex : ExternRef o f i rel' e := (externRef_iff x hx hat').mpr he
        have := hkeep i ins hi rel' e hex
        rw [ha] at this
        simp only [Option.some.injEq] at this
        subst this
        exact .extern rel' e n hex hf
      | second rel e j prev out1 n hr hj hat hp he hf hout =>
        obtain ⟨rel', hat', rfl⟩ := mem_plain hr hat
        have hex : ExternRef o f j rel' e := (externRef_iff x hx hat').mpr he
        obtain ⟨pins, hpi, -⟩ := hcode j prev hp
        have hk2 := hkeep j pins hpi rel' e hex
        rw [hp] at hk2
        simp only [Option.some.injEq] at hk2
        subst hk2
        have hpc := form_code hf
        obtain ⟨next, -, -, hno⟩ := h.pairs k f hk j prev hpi hpc
        rcases hcases with h1 | h1 | h1
        · obtain ⟨sym, m, ⟨rel2, hat2, -⟩, -⟩ := h1
          rw [hj] at hat2
          exact absurd hat2 (hno rel2)
        · obtain ⟨j', prev', sym, m, hj', hp', hmr, -⟩ := h1
          have : j' = j := by omega
          subst this
          exact absurd hex (mapRefers_not_extern h hmr)
        · rw [h1.2] at hout
          exact .externSecond rel' e j prev out1 n hj hpi hex hf hout
      | same hno hno' hout =>
        subst hout
        have hnoext : ∀ rel e, ¬ ExternRef o f i rel e := by
          intro rel e hex
          exact hno _ (plain_mem hex.1).1 (plain_mem hex.1).2 e ((externRef_iff x hx hex.1).mp hex)
        rcases hcases with h1 | h1 | h1
        · obtain ⟨sym, m, hmr, h2⟩ := h1
          exact .map sym m hmr h2
        · obtain ⟨j, prev, sym, m, hj, hp, hmr, hd, himm, hrest⟩ := h1
          exact .offset j prev sym m hj hp hmr hd himm hrest
        · exact .same h1.1 hnoext h1.2

/-! ### References to functions -/

/-- The linker's view of the object, with other code. -/
abbrev view (o : Object) (fs : List ((Nat × Nat) × Func)) : Linker.Obj := { o.linker with funcs := fs }

theorem extern_iff (s : Sym) : (linkSym s).isExtern = true ↔ Undefined s := by
  obtain ⟨sec, name, addr, isDef, kind⟩ := s
  cases sec <;> cases name <;> cases isDef <;> cases kind <;>
    simp [linkSym, Linker.Sym.isExtern, Undefined]

theorem kind_text (s : Sym) : (linkSym s).kind = .text ↔ s.kind = .text := by
  obtain ⟨sec, name, addr, isDef, kind⟩ := s
  cases kind <;> simp [linkSym]

theorem textReloc_iff {o : Object} (h : WellFormed o) (fs : List ((Nat × Nat) × Func)) (f : Func) (i : Nat)
    (rel : Linker.Rel) (sym : Linker.Sym) :
    Linker.Spec.TextReloc (view o fs) f i rel sym ↔ ∃ r s, At o f i r ∧ rel = ⟨r.size, r.symbolIndex⟩ ∧
      o.syms r.symbolIndex = some s ∧ sym = linkSym s ∧ ¬ Undefined s ∧
      (s.kind = .text ∨ ∃ x, s.sectionIndex = some x ∧ o.text x = true) := by
  unfold Linker.Spec.TextReloc
  simp only [Object.linker, Option.map_eq_some_iff]
  constructor
  · rintro ⟨⟨r, hr, rfl⟩, ⟨s, hs, rfl⟩, hne, hk⟩
    refine ⟨r, s, ⟨List.mem_of_find?_eq_some hr, ?_⟩, rfl, hs, rfl, fun hu => hne ((extern_iff s).mpr hu), ?_⟩
    · simpa using List.find?_some hr
    · rcases hk with hk | ⟨x, hx, ht⟩
      · exact .inl ((kind_text s).mp hk)
      · exact .inr ⟨x, hx, ht⟩
  · rintro ⟨r, s, hat, rfl, hs, rfl, hu, hk⟩
    refine ⟨⟨r, ?_, rfl⟩, ⟨s, hs, rfl⟩, fun he => hu ((extern_iff s).mp he), ?_⟩
    · cases hf : (o.rels f.sectionIndex).find? (fun r => r.offset == f.sectionOffset + 8 * i) with
      | none =>
        have := List.find?_eq_none.mp hf r hat.1
        simp [hat.2] at this
      | some r' =>
        have ha' : At o f i r' := ⟨List.mem_of_find?_eq_some hf, by simpa using List.find?_some hf⟩
        rw [at_unique h hat ha']
    · rcases hk with hk | ⟨x, hx, ht⟩
      · exact .inl ((kind_text s).mpr hk)
      · exact .inr ⟨x, hx, ht⟩

/-- What an instruction names depends only on where it is, whether it is a call, and, for references to sections, on its
immediate. -/
theorem names_congr {o : Object} (fs fs' : List ((Nat × Nat) × Func)) {f f' : Func} (hs : f'.sectionIndex = f.sectionIndex)
    (ho : f'.sectionOffset = f.sectionOffset) {i : Nat} {a b : Insn} (hc : b.isCall = a.isCall)
    (himm : b.imm = a.imm ∨ (a.isCall = false ∧
      ∀ rel sym, Linker.Spec.TextReloc (view o fs) f i rel sym → sym.kind = .text)) (key : Nat × Nat)
    (hn : Linker.Spec.Names (view o fs) f i a key) : Linker.Spec.Names (view o fs') f' i b key := by
  have htr : ∀ rel sym, Linker.Spec.TextReloc (view o fs') f' i rel sym ↔ Linker.Spec.TextReloc (view o fs) f i rel sym := by
    intro rel sym
    unfold Linker.Spec.TextReloc
    rw [hs, ho]
  cases hn with
  | function rel sym s h hk hsi => exact .function rel sym s ((htr _ _).mpr h) hk hsi
  | sectionCall rel sym s x h hk hsi hsz ha hv =>
    rcases himm with himm | ⟨-, himm⟩
    · exact .sectionCall rel sym s x ((htr _ _).mpr h) hk hsi hsz ha (by rw [himm]; exact hv)
    · rw [himm rel sym h] at hk; cases hk
  | sectionRef rel sym s x h hk hsi hsz ha hv =>
    rcases himm with himm | ⟨-, himm⟩
    · exact .sectionRef rel sym s x ((htr _ _).mpr h) hk hsi hsz ha (by rw [himm]; exact hv)
    · rw [himm rel sym h] at hk; cases hk
  | relative x h hcall ha hv =>
    rcases himm with himm | ⟨himm, -⟩
    · rw [← hs]
      refine .relative x (fun rel sym ht => h rel sym ((htr _ _).mp ht)) (by rw [hc]; exact hcall) ha ?_
      rw [ho, himm]; exact hv
    · rw [himm] at hcall; cases hcall

theorem not_call {a : Insn} (h : a.code = 0x18 ∨ a.code = 0 ∨ (a.code = 0x85 ∧ (a.src = 0 ∨ a.src = 2))) : a.isCall = false := by
  rcases h with h | h | ⟨h, h2 | h2⟩ <;> simp [Insn.isCall, h] <;> simp [h2]

/-- No relocation, no call: no function is named. -/
theorem names_nothing {o : Object} (h : WellFormed o) {fs : List ((Nat × Nat) × Func)} {f : Func} {i : Nat} {a : Insn}
    (hno : ∀ rel sym, At o f i rel → o.syms rel.symbolIndex = some sym → Undefined sym) (hc : a.isCall = false)
    (key : Nat × Nat) : ¬ Linker.Spec.Names (view o fs) f i a key := by
  have htr : ∀ rel sym, ¬ Linker.Spec.TextReloc (view o fs) f i rel sym := by
    intro rel sym ht
    obtain ⟨r, s, hat, -, hs, -, hu, -⟩ := (textReloc_iff h fs f i rel sym).mp ht
    exact hu (hno r s hat hs)
  intro hn
  cases hn with
  | function rel sym s ht => exact htr _ _ ht
  | sectionCall rel sym s x ht => exact htr _ _ ht
  | sectionRef rel sym s x ht => exact htr _ _ ht
  | relative x _ hcall => rw [hc] at hcall; cases hcall

theorem form_not_call {e : Extern} {k : Nat} {ins out : Insn} {n : Option Int}
    (h : Reloc.Spec.ExternForm e k ins out n) : out.isCall = false := by
  apply not_call
  cases h with
  | kfunc id hc hr hid h => exact .inr (.inr ⟨h.1, .inr h.2.2.1⟩)
  | poison hc hr hw h => exact .inr (.inr ⟨h.1, .inl h.2.2.1⟩)
  | typed id hc hid h => exact .inl h.1
  | address a lo hi hc hid ha hlo hhi h => exact .inl h.1
  | null hc hid ha hw h => exact .inl h.1

/-- The stages before linking do not change what functions an instruction names. -/
theorem names_patched {o : Object} (h : WellFormed o) (hx : ExternsKnown o) {maps : List MapRef}
    {fs : List ((Nat × Nat) × Func)} {k : Nat × Nat} {f f' : Func} (hk : get o.funcs k = some f)
    (hs : f'.sectionIndex = f.sectionIndex) (ho : f'.sectionOffset = f.sectionOffset) {i : Nat} {ins b : Insn}
    (hi : f.insns[i]? = some ins) (hp : Patched o maps f i ins b) (key : Nat × Nat) :
    Linker.Spec.Names (view o fs) f' i b key ↔ Refers o f i ins key := by
  have hat' : ∀ rel, At o f' i rel ↔ At o f i rel := by intro rel; unfold At; rw [hs, ho]
  -- second halves
  have nothing : (∀ rel, ¬ At o f i rel) → ins.code = 0 → b.code = 0 →
      (Linker.Spec.Names (view o fs) f' i b key ↔ Refers o f i ins key) := by
    intro hno h1 h2
    constructor
    · intro hn
      exact absurd hn (names_nothing h (fun rel sym hat _ => absurd ((hat' rel).mp hat) (hno rel)) (not_call (.inr (.inl h2))) key)
    · intro hn
      exact absurd hn.1 (names_nothing (fs := o.funcs) h (fun rel sym hat _ => absurd hat (hno rel))
        (not_call (.inr (.inl h1))) key)
  cases hp with
  | map sym m hm hout =>
    have hc := mapRefers_load h hk hi hm
    have hb : b.code = 0x18 := by rw [hout]; exact hc
    have hext := fun rel e => mapRefers_not_extern h hm (rel := rel) (e := e)
    obtain ⟨rel, hat, s, h1, h2, h3, h4, -⟩ := hm
    have h1 : o.syms rel.symbolIndex = some sym := h1
    have hkind : ∀ (fs : List ((Nat × Nat) × Func)) (f2 : Func), f2.sectionIndex = f.sectionIndex →
        f2.sectionOffset = f.sectionOffset → ∀ r y, Linker.Spec.TextReloc (view o fs) f2 i r y → y.kind = .text := by
      intro fs f2 hs2 ho2 r y ht
      obtain ⟨r', s', ha, -, hs', rfl, -, hk'⟩ := (textReloc_iff h fs f2 i r y).mp ht
      have ha : At o f i r' := by unfold At at ha ⊢; rw [← hs2, ← ho2]; exact ha
      have := at_unique h hat ha
      subst this
      rw [h1] at hs'
      simp only [Option.some.injEq] at hs'
      subst hs'
      rcases hk' with hk' | ⟨x, hx', ht'⟩
      · exact (kind_text _).mpr hk'
      · rw [h2] at hx'
        simp only [Option.some.injEq] at hx'
        subst hx'
        rw [h4] at ht'
        cases ht'
    have ca : ins.isCall = false := not_call (.inl hc)
    have cb : b.isCall = false := not_call (.inl hb)
    constructor
    · intro hn
      refine ⟨names_congr (o := o) fs o.funcs hs.symm ho.symm (by rw [ca, cb]) (.inr ⟨cb, hkind fs f' hs ho⟩) key hn, ?_⟩
      intro r y ha hy
      have := at_unique h hat ha
      subst this
      rw [h1] at hy
      simp only [Option.some.injEq] at hy
      subst hy
      intro hu
      rw [hu.1] at h2
      cases h2
    · intro hn
      exact names_congr (o := o) o.funcs fs hs ho (by rw [ca, cb]) (.inr ⟨ca, hkind o.funcs f rfl rfl⟩) key hn.1
  | offset j prev sym m hj hp hm hd himm hrest =>
    obtain ⟨next, hn1, hn2, hno⟩ := h.pairs k f hk j prev hp (mapRefers_load h hk hp hm)
    rw [← hj, hi] at hn1
    simp only [Option.some.injEq] at hn1
    subst hn1
    exact nothing (by rw [hj]; exact hno) hn2 (by rw [hrest.1]; exact hn2)
  | extern rel e n he hf =>
    constructor
    · intro hn
      refine absurd hn (names_nothing h ?_ (form_not_call hf) key)
      intro r y ha hy
      have := at_unique h he.1 ((hat' r).mp ha)
      subst this
      obtain ⟨-, s2, name, x, hs2, hu, -⟩ := he
      rw [hy] at hs2
      simp only [Option.some.injEq] at hs2
      subst hs2
      exact hu
    · intro hn
      obtain ⟨hat, s2, name, x, hs2, hu, -⟩ := he
      exact absurd hu (hn.2 rel s2 hat hs2)
  | externSecond rel e j prev out1 n hj hp he hf hout =>
    obtain ⟨next, hn1, hn2, hno⟩ := h.pairs k f hk j prev hp (form_code hf)
    rw [← hj, hi] at hn1
    simp only [Option.some.injEq] at hn1
    subst hn1
    exact nothing (by rw [hj]; exact hno) hn2 (by rw [hout]; exact hn2)
  | same h2 h3 hout =>
    subst hout
    constructor
    · intro hn
      refine ⟨names_congr (o := o) fs o.funcs hs.symm ho.symm rfl (.inl rfl) key hn, ?_⟩
      intro r y ha hy hu
      obtain ⟨x, name, e, hx1, hx2, hx3⟩ := hx _ r y ha.1 hy hu
      exact h3 r e ⟨ha, y, name, x, hy, hu, hx2, hx1, hx3⟩
    · intro hn
      exact names_congr (o := o) o.funcs fs hs ho rfl (.inl rfl) key hn.1

/-- An instruction that refers to a function of the object is not touched before linking. -/
theorem refers_same {o : Object} (h : WellFormed o) {maps : List MapRef} {k : Nat × Nat} {f : Func}
    (hk : get o.funcs k = some f) {i : Nat} {ins b : Insn} (hi : f.insns[i]? = some ins) (hp : Patched o maps f i ins b)
    {key : Nat × Nat} {g : Func} (hr : Refers o f i ins key) (hg : get o.funcs key = some g) : b = ins := by
  have htext : o.text key.1 = true := by
    unfold get at hg
    simp only [Option.map_eq_some_iff] at hg
    obtain ⟨p, hp, -⟩ := hg
    unfold Object.text
    rw [List.any_eq_true]
    refine ⟨p, List.mem_of_find?_eq_some hp, ?_⟩
    have := List.find?_some hp
    simp only [beq_iff_eq] at this ⊢
    rw [this]
  cases hp with
  | map sym m hm hout =>
    exfalso
    have hc := mapRefers_load h hk hi hm
    obtain ⟨rel, hat, s, h1, h2, h3, h4, -⟩ := hm
    have h1 : o.syms rel.symbolIndex = some sym := h1
    have hsec : ∀ r y x, Linker.Spec.TextReloc o.linker f i r y → y.sectionIndex = some x → x = s := by
      intro r y x ht hx
      obtain ⟨r', s', ha, -, hs', rfl, -, -⟩ := (textReloc_iff h o.funcs f i r y).mp ht
      have := at_unique h hat ha
      subst this
      rw [h1] at hs'
      simp only [Option.some.injEq] at hs'
      subst hs'
      have hx : sym.sectionIndex = some x := hx
      rw [h2] at hx
      simpa using hx.symm
    cases hr.1 with
    | function r y x ht hkd hs => rw [hsec r y x ht hs, h4] at htext; cases htext
    | sectionCall r y x a ht hkd hs => rw [hsec r y x ht hs, h4] at htext; cases htext
    | sectionRef r y x a ht hkd hs => rw [hsec r y x ht hs, h4] at htext; cases htext
    | relative a hno hcall => rw [not_call (.inl hc)] at hcall; cases hcall
  | offset j prev sym m hj hp hm hd himm hrest =>
    exfalso
    obtain ⟨next, hn1, hn2, hno⟩ := h.pairs k f hk j prev hp (mapRefers_load h hk hp hm)
    rw [← hj, hi] at hn1
    simp only [Option.some.injEq] at hn1
    subst hn1
    exact names_nothing (fs := o.funcs) h (fun rel sym hat _ => absurd (hj ▸ hat) (hno rel)) (not_call (.inr (.inl hn2))) key hr.1
  | extern rel e n he hf =>
    obtain ⟨hat, s2, name, x, hs2, hu, -⟩ := he
    exact absurd hu (hr.2 rel s2 hat hs2)
  | externSecond rel e j prev out1 n hj hp he hf hout =>
    exfalso
    obtain ⟨next, hn1, hn2, hno⟩ := h.pairs k f hk j prev hp (form_code hf)
    rw [← hj, hi] at hn1
    simp only [Option.some.injEq] at hn1
    subst hn1
    exact names_nothing (fs := o.funcs) h (fun rel sym hat _ => absurd (hj ▸ hat) (hno rel)) (not_call (.inr (.inl hn2))) key hr.1
  | same h2 h3 hout => exact hout

/-! ### The object -/

theorem eachFunc_get {stage : Func → Except Reloc.Err (List Insn)} {fs fs' : List ((Nat × Nat) × Func)}
    (h : eachFunc stage fs = .ok fs') (k : Nat × Nat) :
    (get fs k = none → get fs' k = none) ∧
    ∀ f, get fs k = some f → ∃ is, stage f = .ok is ∧ get fs' k = some { f with insns := is } := by
  induction fs generalizing fs' with
  | nil => simp only [eachFunc, Except.ok.injEq] at h; subst h; simp [get]
  | cons p fs ih =>
    obtain ⟨k0, f0⟩ := p
    simp only [eachFunc] at h
    split at h
    · cases h
    · rename_i is his
      split at h
      · cases h
      · rename_i rest' hrest
        simp only [Except.ok.injEq] at h
        subst h
        have := ih hrest
        by_cases hk : k0 = k
        · subst hk
          simp only [get, List.find?_cons, beq_self_eq_true, if_true, Option.map_some, reduceCtorEq, false_implies, true_and,
            Option.some.injEq]
          rintro f rfl
          exact ⟨is, his, rfl⟩
        · have hb : (k0 == k) = false := by simpa using hk
          simp only [get, List.find?_cons, hb] at this ⊢
          exact this

/-- A function after the map and extern stages. -/
def relocated (o : Object) (maps : List MapRef) (f : Func) : Func :=
  { f with insns := match stages o maps f with | .ok is => is | .error _ => f.insns }

theorem stages_get {o : Object} {maps : List MapRef} {fs1 fs2 : List ((Nat × Nat) × Func)}
    (h1 : eachFunc (mapStage o maps) o.funcs = .ok fs1) (h2 : eachFunc (externStage o) fs1 = .ok fs2) (k : Nat × Nat) :
    (get o.funcs k = none → get fs2 k = none) ∧
    ∀ f, get o.funcs k = some f → stages o maps f = .ok (relocated o maps f).insns ∧
      get fs2 k = some (relocated o maps f) := by
  have a := eachFunc_get h1 k
  have b := eachFunc_get h2 k
  refine ⟨fun h => b.1 (a.1 h), ?_⟩
  intro f hf
  obtain ⟨is, hs, hg⟩ := a.2 f hf
  obtain ⟨is2, hs2, hg2⟩ := b.2 _ hg
  have : stages o maps f = .ok is2 := by unfold stages; rw [hs]; exact hs2
  have hr : relocated o maps f = { f with insns := is2 } := by unfold relocated; rw [this]
  rw [hr]
  exact ⟨this, hg2⟩

theorem get_back {o : Object} {maps : List MapRef} {fs1 fs2 : List ((Nat × Nat) × Func)}
    (h1 : eachFunc (mapStage o maps) o.funcs = .ok fs1) (h2 : eachFunc (externStage o) fs1 = .ok fs2) {k : Nat × Nat}
    {g1 : Func} (hg : get fs2 k = some g1) : ∃ g, get o.funcs k = some g ∧ g1 = relocated o maps g := by
  have := stages_get h1 h2 k
  cases hf : get o.funcs k with
  | none => rw [this.1 hf] at hg; cases hg
  | some g =>
    refine ⟨g, rfl, ?_⟩
    rw [(this.2 g hf).2] at hg
    simpa using hg.symm

theorem sanitizeAll_get (supported : Bool) (fs : List ((Nat × Nat) × Func)) (k : Nat × Nat) :
    get (sanitizeAll supported fs) k =
      (get fs k).map (fun f => { f with insns := f.insns.map (Obj.sanitized supported) }) := by
  unfold sanitizeAll
  rw [(Obj.sanitizeFunctions_eq supported ⟨none, 0⟩ _ (.inl rfl)).1]
  induction fs with
  | nil => rfl
  | cons p fs ih =>
    simp only [List.map_cons, List.zipWith_cons_cons, get, List.find?_cons] at ih ⊢
    by_cases hk : (p.1 == k) = true
    · simp [hk]
    · have hk : (p.1 == k) = false := by simpa using hk
      simp only [hk]
      exact ih

theorem layout_map (R : Func → Func) (fs : List Func) (b : Nat) (h : ∀ g ∈ fs, (R g).insns.length = g.insns.length) :
    layout b (fs.map R) = (layout b fs).map (fun p => (R p.1, p.2)) := by
  induction fs generalizing b with
  | nil => rfl
  | cons f fs ih =>
    simp only [List.map_cons, layout]
    rw [h f (by simp), ih _ (fun g hg => h g (by simp [hg]))]

theorem sanitized_id {supported : Bool} {a : Insn} (h : a.code = 0x18 ∨ a.code = 0 ∨ a.src ≠ 0) :
    Obj.sanitized supported a = a := by
  have : Obj.insnIsHelperCall a = false := by
    rcases h with h | h | h <;> simp [Obj.insnIsHelperCall, h]
  simp [Obj.sanitized, this]

theorem sanitized_form {supported : Bool} {e : Extern} {k : Nat} {ins out : Insn} {n : Option Int} (hk : k < 100000000)
    (h : Reloc.Spec.ExternForm e k ins out n) : Obj.sanitized supported out = out := by
  cases h with
  | kfunc id hc hr hid h => exact sanitized_id (.inr (.inr (by rw [h.2.2.1]; decide)))
  | poison hc hr hw h =>
    have hi := Reloc.C11_poison_number (by omega) h.2.2.2.2
    have : Obj.fallback out.imm = none := by
      unfold Obj.fallback
      rw [if_neg (by omega), if_neg (by omega)]
    unfold Obj.sanitized
    rw [this]
    simp
  | typed id hc hid h => exact sanitized_id (.inl h.1)
  | address a lo hi hc hid ha hlo hhi h => exact sanitized_id (.inl h.1)
  | null hc hid ha hw h => exact sanitized_id (.inl h.1)

section
variable {o : Object} (hwf : WellFormed o) (hx : ExternsKnown o) {maps : List MapRef} (hu : Unambiguous o maps)
  {fs1 fs2 : List ((Nat × Nat) × Func)}
  (h1 : eachFunc (mapStage o maps) o.funcs = .ok fs1) (h2 : eachFunc (externStage o) fs1 = .ok fs2)
include hwf hu h1 h2

theorem relocated_spec {k : Nat × Nat} {f : Func} (hk : get o.funcs k = some f) :
    (relocated o maps f).insns.length = f.insns.length ∧
    ∀ (i : Nat) ins, f.insns[i]? = some ins → ∃ b, (relocated o maps f).insns[i]? = some b ∧ Patched o maps f i ins b :=
  stages_spec hwf hu hk ((stages_get h1 h2 k).2 f hk).1

include hx

theorem calls_iff {k : Nat × Nat} {f : Func} (hk : get o.funcs k = some f) (g1 : Func) :
    Linker.Spec.Calls (view o fs2) (relocated o maps f) g1 ↔
      ∃ g key, get o.funcs key = some g ∧ g1 = relocated o maps g ∧ Calls o f g := by
  obtain ⟨hl, hp⟩ := relocated_spec hwf hu h1 h2 hk
  constructor
  · rintro ⟨i, b, key, hb, hn, hg⟩
    have hlt : i < f.insns.length := by
      rw [← hl]
      exact (List.getElem?_eq_some_iff.mp hb).1
    obtain ⟨b', hb', hpat⟩ := hp i _ (List.getElem?_eq_getElem hlt)
    rw [hb] at hb'
    simp only [Option.some.injEq] at hb'
    subst hb'
    have hr := (names_patched (fs := fs2) (f' := relocated o maps f) hwf hx hk rfl rfl (List.getElem?_eq_getElem hlt)
      hpat key).mp hn
    obtain ⟨g, hgo, he⟩ := get_back h1 h2 hg
    exact ⟨g, key, hgo, he, i, _, key, List.getElem?_eq_getElem hlt, hr, hgo⟩
  · rintro ⟨g, -, -, rfl, i, ins, key, hi, hr, hg⟩
    obtain ⟨b, hb, hpat⟩ := hp i ins hi
    exact ⟨i, b, key, hb, (names_patched (fs := fs2) (f' := relocated o maps f) hwf hx hk rfl rfl hi hpat key).mpr hr,
      ((stages_get h1 h2 key).2 g hg).2⟩

theorem reaches_iff {k : Nat × Nat} {f : Func} (hk : get o.funcs k = some f) (g1 : Func) :
    Linker.Spec.Reaches (view o fs2) (relocated o maps f) g1 ↔
      ∃ g key, get o.funcs key = some g ∧ g1 = relocated o maps g ∧ Reaches o f g := by
  constructor
  · intro h
    generalize hF : relocated o maps f = F at h
    induction h with
    | one g1 hc =>
      subst hF
      obtain ⟨g, key, a, b, c⟩ := (calls_iff hwf hx hu h1 h2 hk g1).mp hc
      exact ⟨g, key, a, b, .one _ _ c⟩
    | more g1 g2 _ hc ih =>
      subst hF
      obtain ⟨g, key, a, rfl, c⟩ := ih
      obtain ⟨g', key', a', b', c'⟩ := (calls_iff hwf hx hu h1 h2 a g2).mp hc
      exact ⟨g', key', a', b', .more _ _ _ c c'⟩
  · rintro ⟨g, key, hg, rfl, hr⟩
    have : ∀ f g, Reaches o f g → ∀ k, get o.funcs k = some f → ∃ key, get o.funcs key = some g ∧
        Linker.Spec.Reaches (view o fs2) (relocated o maps f) (relocated o maps g) := by
      intro f g hr
      induction hr with
      | one g hc =>
        intro k hk
        obtain ⟨i, ins, key, hi, hrf, hg⟩ := hc
        exact ⟨key, hg, .one _ _ ((calls_iff hwf hx hu h1 h2 hk _).mpr ⟨g, key, hg, rfl, i, ins, key, hi, hrf, hg⟩)⟩
      | more g g' hr hc ih =>
        intro k hk
        obtain ⟨key, hg, hre⟩ := ih k hk
        obtain ⟨i, ins, key', hi, hrf, hg'⟩ := hc
        exact ⟨key', hg', .more _ _ _ hre
          ((calls_iff hwf hx hu h1 h2 hg _).mpr ⟨g', key', hg', rfl, i, ins, key', hi, hrf, hg'⟩)⟩
    obtain ⟨-, -, h⟩ := this f g hr k hk
    exact h

end

/-- **C72, partial.** If preparing the code succeeds, the code handed to the kernel for each program is the program's
followed by one copy of every function it reaches, and every instruction is what the object says: references to
functions lead to their copies, references to maps carry the descriptor of the map, references to variables also their
offset, references to kernel symbols what is known of them, calls of helpers the kernel lacks are calls of the older ones,
and everything else is unchanged. For objects as compilers emit them; each symbol names one map (see C10), functions
reached from a program have distinct addresses (see C06) and programs are not called (see C08). -/
theorem C72_code_partial {o : Object} (hwf : WellFormed o) (hx : ExternsKnown o) (hsep : Separate o) {maps : List MapRef}
    (hu : Unambiguous o maps) {supported : Bool} {out : List ((Nat × Nat) × Func)}
    (h : code maps supported o = .ok out) {k : Nat × Nat} (hk : k ∈ o.programs) :
    ∃ f f' fs, get o.funcs k = some f ∧ get out k = some f' ∧ Loaded o maps supported f fs f' := by
  unfold code at h
  split at h
  · cases h
  · rename_i fs1 h1
    split at h
    · cases h
    · rename_i fs2 h2
      split at h
      · cases h
      · rename_i l hl
        simp only [Except.ok.injEq] at h
        subst h
        have hsep' : ∀ k g, (view o fs2).get k = some g → ∀ (i : Nat) ins key, g.insns[i]? = some ins →
            Linker.Spec.Names (view o fs2) g i ins key → key ∉ o.programs := by
          intro k g1 hg i b key hb hn
          obtain ⟨g, hgo, rfl⟩ := get_back h1 h2 hg
          obtain ⟨hlen, hp⟩ := relocated_spec hwf hu h1 h2 hgo
          have hlt : i < g.insns.length := by
            rw [← hlen]
            exact (List.getElem?_eq_some_iff.mp hb).1
          obtain ⟨b', hb', hpat⟩ := hp i _ (List.getElem?_eq_getElem hlt)
          rw [hb] at hb'
          simp only [Option.some.injEq] at hb'
          subst hb'
          exact hsep.programs k g hgo i _ key (List.getElem?_eq_getElem hlt)
            ((names_patched (fs := fs2) (f' := relocated o maps g) hwf hx hgo rfl rfl (List.getElem?_eq_getElem hlt)
              hpat key).mp hn)
        obtain ⟨F, F', hF, hlink, hF'⟩ := (Linker.C08_as_if_alone_partial hsep' hsep.once hl).1 k hk
        obtain ⟨f, hf, rfl⟩ := get_back h1 h2 hF
        have hreach := reaches_iff hwf hx hu h1 h2 hf
        have hdist : Linker.Spec.AddressesDistinct (view o fs2) (relocated o maps f) := by
          intro g1 g2 r1 r2 ha
          obtain ⟨a, ka, ga, rfl, ra⟩ := (hreach g1).mp r1
          obtain ⟨b, kb, gb, rfl, rb⟩ := (hreach g2).mp r2
          rw [hsep.addresses k f hk hf a b ra rb ha]
        obtain ⟨gs1, hL⟩ := Linker.C06_calls_right_partial hdist hlink
        let back : Func → Func := fun g1 => (get o.funcs (g1.sectionIndex, g1.address)).getD g1
        have hback : ∀ g key, get o.funcs key = some g → back (relocated o maps g) = g := by
          intro g key hg
          have := hwf.keys key g hg
          subst this
          show (get o.funcs (g.sectionIndex, g.address)).getD _ = g
          rw [hg]; rfl
        have hmem : ∀ g1 ∈ gs1, ∃ g key, get o.funcs key = some g ∧ g1 = relocated o maps g ∧ Reaches o f g :=
          fun g1 hg1 => (hreach g1).mp ((hL.reachable g1).mp hg1)
        have hgs : gs1 = (gs1.map back).map (relocated o maps) := by
          rw [List.map_map]
          conv => lhs; rw [← List.map_id gs1]
          apply List.map_congr_left
          intro g1 hg1
          obtain ⟨g, key, hg, rfl, -⟩ := hmem g1 hg1
          simp only [id, Function.comp]
          rw [hback g key hg]
        have hin : ∀ g, g ∈ gs1.map back ↔ Reaches o f g := by
          intro g
          rw [List.mem_map]
          constructor
          · rintro ⟨g1, hg1, rfl⟩
            obtain ⟨g, key, hg, rfl, hr⟩ := hmem g1 hg1
            rw [hback g key hg]
            exact hr
          · intro hr
            have hgo : ∃ key, get o.funcs key = some g := by
              cases hr with
              | one _ hc => obtain ⟨_, _, key, -, -, hg⟩ := hc; exact ⟨key, hg⟩
              | more _ _ _ hc => obtain ⟨_, _, key, -, -, hg⟩ := hc; exact ⟨key, hg⟩
            obtain ⟨key, hg⟩ := hgo
            exact ⟨relocated o maps g, (hL.reachable _).mpr ((hreach _).mpr ⟨g, key, hg, rfl, hr⟩), hback g key hg⟩
        have hgo : ∀ g ∈ gs1.map back, ∃ key, get o.funcs key = some g := by
          intro g hg
          rw [List.mem_map] at hg
          obtain ⟨g1, hg1, rfl⟩ := hg
          obtain ⟨g, key, hg, rfl, -⟩ := hmem g1 hg1
          exact ⟨key, by rw [hback g key hg]; exact hg⟩
        have hlen : ∀ g ∈ gs1.map back, (relocated o maps g).insns.length = g.insns.length := by
          intro g hg
          obtain ⟨key, hg⟩ := hgo g hg
          exact (relocated_spec hwf hu h1 h2 hg).1
        have hflen := (relocated_spec hwf hu h1 h2 hf).1
        refine ⟨f, { F' with insns := F'.insns.map (Obj.sanitized supported) }, gs1.map back, hf, ?_, hin, ?_, ?_, ?_⟩
        · rw [sanitizeAll_get]
          have : get l.funcs k = some F' := hF'
          rw [this]; rfl
        · have hn := hL.once
          rw [hgs] at hn
          rw [List.Nodup, List.pairwise_map] at hn
          exact hn.imp (fun hne he => hne (by rw [he]))
        · have hs := hL.size
          simp only [List.length_map]
          rw [hs, hflen, hgs, List.map_map]
          congr 2
          rw [← hgs]
          apply List.map_congr_left
          intro g hg
          exact hlen g hg
        · intro g s hgs' i ins hi
          have hgo' : ∃ key, get o.funcs key = some g := by
            have hg : g ∈ f :: gs1.map back := by
              have := List.mem_map_of_mem (f := Prod.fst) hgs'
              rwa [Linker.layout_map_fst] at this
            rcases List.mem_cons.mp hg with rfl | hg
            · exact ⟨k, hf⟩
            · exact hgo g hg
          obtain ⟨kg, hkg⟩ := hgo'
          obtain ⟨b, hb, hpat⟩ := (relocated_spec hwf hu h1 h2 hkg).2 i ins hi
          have hlay : (relocated o maps g, s) ∈ layout 0 (relocated o maps f :: gs1) := by
            have : relocated o maps f :: gs1 = (f :: gs1.map back).map (relocated o maps) := by
              rw [List.map_cons, ← hgs]
            rw [this, layout_map _ _ _ (by
              intro g hg
              rcases List.mem_cons.mp hg with rfl | hg
              · exact hflen
              · exact hlen g hg)]
            exact List.mem_map.mpr ⟨(g, s), hgs', rfl⟩
          obtain ⟨c, hc, hren⟩ := hL.code _ s hlay i b hb
          refine ⟨Obj.sanitized supported c, by rw [List.getElem?_map, hc]; rfl, ?_⟩
          have hnames := fun key => names_patched (fs := fs2) (f' := relocated o maps g) hwf hx hkg rfl rfl hi hpat key
          rcases hren with ⟨hno, rfl⟩ | ⟨key, h1', t, hn, hg1, hcop, himm, hsrc, hcode, hdst, hoff⟩
          · have hnor : ∀ key, ¬ Refers o g i ins key := fun key hr => hno key ((hnames key).mpr hr)
            cases hpat with
            | map sym m hm hout =>
              have hcd := mapRefers_load hwf hkg hi hm
              rw [sanitized_id (.inl (by rw [hout]; exact hcd))]
              exact .map sym m hm hout
            | offset j prev sym m hj hp hm hd himm hrest =>
              obtain ⟨next, hn1, hn2, -⟩ := hwf.pairs kg g hkg j prev hp (mapRefers_load hwf hkg hp hm)
              rw [← hj, hi] at hn1
              simp only [Option.some.injEq] at hn1
              subst hn1
              rw [sanitized_id (.inr (.inl (by rw [hrest.1]; exact hn2)))]
              exact .offset j prev sym m hj hp hm hd himm hrest
            | extern rel e n he hform =>
              rw [sanitized_form (hwf.symbols _ rel he.1.1) hform]
              exact .extern rel e n he hform
            | externSecond rel e j prev out1 n hj hp he hform hout =>
              obtain ⟨next, hn1, hn2, -⟩ := hwf.pairs kg g hkg j prev hp (form_code hform)
              rw [← hj, hi] at hn1
              simp only [Option.some.injEq] at hn1
              subst hn1
              rw [sanitized_id (.inr (.inl (by rw [hout]; exact hn2)))]
              exact .externSecond rel e j prev out1 n hj hp he hform hout
            | same hm hxn hout =>
              subst hout
              have hw := hwf.insns kg g hkg _ (List.mem_of_getElem? hi)
              by_cases hnew : Obj.Spec.CallsNew c
              · cases hsup : supported with
                | true =>
                  have : Obj.sanitized true c = c := by
                    unfold Obj.sanitized
                    split
                    · split <;> rfl
                    · rfl
                  rw [this]
                  exact .same hnor hm hxn (fun _ => rfl) rfl
                | false =>
                  obtain ⟨a, z, hd, hcall⟩ := hnew
                  refine .helper a z rfl hd hcall ?_
                  have e1 := (Obj.helper_call_iff c hw).mpr ⟨hcall.1, hcall.2.1, hcall.2.2.1⟩
                  have e2 := (Obj.fallback_some c.imm z).mpr (hcall.2.2.2 ▸ hd)
                  simp [Obj.sanitized, e1, e2]
              · have : Obj.sanitized supported c = c := by
                  unfold Obj.sanitized
                  split
                  · rename_i hcall
                    split
                    · rename_i z hz
                      obtain ⟨e1, e2, e3⟩ := (Obj.helper_call_iff c hw).mp hcall
                      exact absurd ⟨_, _, (Obj.fallback_some _ _).mp hz, e1, e2, e3, rfl⟩ hnew
                    · rfl
                  · rfl
                rw [this]
                exact .same hnor hm hxn (fun hc => absurd hc hnew) rfl
          · have hr := (hnames key).mp hn
            obtain ⟨h', hgo'', rfl⟩ := get_back h1 h2 hg1
            have hsame := refers_same hwf hkg hi hpat hr hgo''
            subst hsame
            have hne : c.src ≠ 0 := by
              rw [hsrc]
              split
              · rename_i hcall
                unfold Insn.isCall at hcall
                simp only [Bool.and_eq_true, beq_iff_eq] at hcall
                omega
              · decide
            rw [sanitized_id (.inr (.inr hne))]
            refine .function key h' t hr hgo'' ?_ himm hsrc ⟨hcode, hdst, hoff⟩
            rw [hflen, hgs, layout_map _ _ _ hlen, List.mem_map] at hcop
            obtain ⟨⟨g', t'⟩, hm', he⟩ := hcop
            simp only [Prod.mk.injEq] at he
            obtain ⟨he, rfl⟩ := he
            have hg' : g' ∈ gs1.map back := by
              have := List.mem_map_of_mem (f := Prod.fst) hm'
              rwa [Linker.layout_map_fst] at this
            obtain ⟨key', hgk⟩ := hgo g' hg'
            have : g' = h' := by
              rw [← hback g' key' hgk, he, hback h' key hgo'']
            rw [← this]
            exact hm'

/-! An object as compilers emit them: a program (section 1) that loads a map (symbol 1), a global variable at offset 8
(symbol 2), calls a function of the text section (symbol 3) and helper 113, and loads the address of a kernel variable
(symbol 4). -/

/-- An instruction without offset. -/
def ins (code dst src : Nat) (imm : Int) : Insn := ⟨code, dst, src, 0, imm⟩
/-- The program. -/
def exP : Func :=
  ⟨0, 1, 0, [ins 0x18 1 0 0, ins 0 0 0 0, ins 0x18 2 0 0, ins 0 0 0 0, ins 0x85 0 1 (-1), ins 0x85 0 0 113,
    ins 0x18 3 0 0, ins 0 0 0 0, ins 0x95 0 0 0], [], []⟩
/-- The function. -/
def exF : Func := ⟨0, 2, 0, [ins 0xb7 0 0 7, ins 0x95 0 0 0], [], []⟩
/-- Relocations of the program. -/
def exRels : List Rel := [⟨48, 64, 4⟩, ⟨0, 64, 1⟩, ⟨32, 32, 3⟩, ⟨16, 64, 2⟩]
/-- Symbols. -/
def exSym : Nat → Option Sym
  | 1 => some ⟨some 3, some ['m'], 0, true, .other⟩
  | 2 => some ⟨some 4, some ['v'], 8, true, .other⟩
  | 3 => some ⟨some 2, some ['f'], 0, true, .text⟩
  | 4 => some ⟨none, some ['k'], 0, false, .unknown⟩
  | _ => none
/-- The object. -/
def exO : Object where
  funcs := [((1, 0), exP), ((2, 0), exF)]
  programs := [(1, 0)]
  rels := fun s => if s = 1 then exRels else []
  syms := exSym
  externs := some (fun n => if n = ['k'] then some ⟨true, false, none, some 0x100000002⟩ else none)
/-- The maps. -/
def exMaps : List MapRef := [⟨10, 3, some 1, false⟩, ⟨11, 4, none, true⟩, ⟨12, 3, some 9, false⟩]
/-- The code that is loaded. -/
def exOut : List Insn :=
  [ins 0x18 1 1 10, ins 0 0 0 0, ins 0x18 2 2 11, ins 0 0 0 8, ins 0x85 0 1 4, ins 0x85 0 0 4, ins 0x18 3 0 2, ins 0 0 0 1,
    ins 0x95 0 0 0, ins 0xb7 0 0 7, ins 0x95 0 0 0]

theorem ex_get {k : Nat × Nat} {f : Func} (h : get exO.funcs k = some f) :
    (k = (1, 0) ∧ f = exP) ∨ (k = (2, 0) ∧ f = exF) := by
  simp only [get, exO, List.find?_cons, List.find?_nil] at h
  split at h
  · rename_i hk
    simp only [beq_iff_eq] at hk
    simp only [Option.map_some, Option.some.injEq] at h
    exact .inl ⟨hk.symm, h.symm⟩
  · split at h
    · rename_i hk
      simp only [beq_iff_eq] at hk
      simp only [Option.map_some, Option.some.injEq] at h
      exact .inr ⟨hk.symm, h.symm⟩
    · cases h

theorem ex_refers {k : Nat × Nat} {f : Func} (h : get exO.funcs k = some f) {i : Nat} {a : Insn}
    {key : Nat × Nat} (ha : f.insns[i]? = some a) (hr : Refers exO f i a key) : f = exP ∧ key = (2, 0) := by
  have hn := (Linker.resolve_names _ _ _ _ _).mpr hr.1
  have hlt := (List.getElem?_eq_some_iff.mp ha).1
  have e : ∀ f, (f = exP ∨ f = exF) → ∀ i < f.insns.length,
      ((f.insns[i]?).bind (fun a => (Linker.resolve exO.linker f i a).toOption.join)) =
        if f = exP ∧ i = 4 then some (2, 0) else none := by
    rintro f (rfl | rfl)
    · show ∀ i < 9, _
      decide +kernel
    · show ∀ i < 2, _
      decide +kernel
  have := e f (by rcases ex_get h with ⟨-, h⟩ | ⟨-, h⟩ <;> simp [h]) i hlt
  rw [ha, Option.bind_some, hn] at this
  simp only [Except.toOption, Option.join] at this
  split at this
  · rename_i hc
    simp at this
    exact ⟨hc.1, this⟩
  · simp at this

theorem ex_reaches {g : Func} (h : Reaches exO exP g) : g = exF := by
  induction h with
  | one g hc =>
    obtain ⟨i, a, key, ha, hr, hg⟩ := hc
    obtain ⟨-, rfl⟩ := ex_refers (k := (1, 0)) rfl ha hr
    have hg : some exF = some g := hg
    simpa using hg.symm
  | more g g' _ hc ih =>
    subst ih
    obtain ⟨i, a, key, ha, hr, hg⟩ := hc
    obtain ⟨h, -⟩ := ex_refers (k := (2, 0)) rfl ha hr
    exact absurd h (by decide)

theorem ex_rel {s : Nat} {rel : Rel} (h : rel ∈ exO.rels s) : s = 1 ∧ rel ∈ exRels := by
  have h : rel ∈ (if s = 1 then exRels else []) := h
  split at h
  · exact ⟨by assumption, h⟩
  · cases h

/-- The hypotheses of C72 hold of it, and its program is loaded as expected. -/
theorem ex_meets : WellFormed exO ∧ ExternsKnown exO ∧ Separate exO ∧ Unambiguous exO exMaps ∧
    ((code exMaps false exO).toOption.bind (fun fs => get fs (1, 0))).map Func.insns = some exOut := by
  refine ⟨⟨?_, ?_, ?_, ?_, ?_, ?_⟩, ?_, ⟨?_, by decide, ?_⟩, ?_, by decide +kernel⟩
  · intro s
    show ((if s = 1 then exRels else []).map Rel.offset).Nodup
    split <;> decide
  · intro k f h
    rcases ex_get h with ⟨rfl, rfl⟩ | ⟨rfl, rfl⟩ <;> rfl
  · intro k f h
    rcases ex_get h with ⟨rfl, rfl⟩ | ⟨rfl, rfl⟩ <;> simp [exP, exF, ins, Insn.WF]
  · intro k f h i a ha hc
    rcases ex_get h with ⟨rfl, rfl⟩ | ⟨rfl, rfl⟩
    · have hlt : i < 9 := (List.getElem?_eq_some_iff.mp ha).1
      have e : ∀ i < 9, ∀ a ∈ exP.insns[i]?, a.code = 0x18 → (i = 0 ∨ i = 2 ∨ i = 6) := by decide +kernel
      have hrel : ∀ j, j = 1 ∨ j = 3 ∨ j = 7 → ∀ rel, ¬ At exO exP j rel := by
        rintro j hj rel ⟨h1, h2⟩
        have h1 := (ex_rel h1).2
        have h2 : rel.offset = 0 + 8 * j := h2
        simp only [exRels, List.mem_cons, List.not_mem_nil, or_false] at h1
        rcases h1 with rfl | rfl | rfl | rfl <;> simp only at h2 <;> omega
      rcases e i hlt a ha hc with rfl | rfl | rfl
      · exact ⟨_, rfl, rfl, hrel 1 (by simp)⟩
      · exact ⟨_, rfl, rfl, hrel 3 (by simp)⟩
      · exact ⟨_, rfl, rfl, hrel 7 (by simp)⟩
    · exfalso
      have hlt : i < 2 := (List.getElem?_eq_some_iff.mp ha).1
      have e : ∀ i < 2, ∀ a ∈ exF.insns[i]?, a.code ≠ 0x18 := by decide +kernel
      exact e i hlt a ha hc
  · intro k f h i a ha rel sym s hat hs hsec ht hcall
    obtain ⟨h1, h2⟩ := hat
    obtain ⟨h0, h1⟩ := ex_rel h1
    rcases ex_get h with ⟨rfl, rfl⟩ | ⟨rfl, rfl⟩
    · have h2 : rel.offset = 0 + 8 * i := h2
      change rel ∈ exRels at h1
      simp only [exRels, List.mem_cons, List.not_mem_nil, or_false] at h1
      rcases h1 with rfl | rfl | rfl | rfl <;> dsimp only at h2
      · obtain rfl : i = 6 := by omega
        cases ha; rfl
      · obtain rfl : i = 0 := by omega
        cases ha; rfl
      · obtain rfl : i = 4 := by omega
        cases ha; cases hcall
      · obtain rfl : i = 2 := by omega
        cases ha; rfl
    · cases h0
  · intro s rel h
    have h := (ex_rel h).2
    simp only [exRels, List.mem_cons, List.not_mem_nil, or_false] at h
    rcases h with rfl | rfl | rfl | rfl <;> decide
  · intro s rel sym h hs hu
    have h := (ex_rel h).2
    simp only [exRels, List.mem_cons, List.not_mem_nil, or_false] at h
    rcases h with rfl | rfl | rfl | rfl
    · cases hs
      exact ⟨_, ['k'], _, rfl, rfl, rfl⟩
    · cases hs; cases hu.1
    · cases hs; cases hu.1
    · cases hs; cases hu.1
  · intro k g hg i a key ha hr
    rw [(ex_refers hg ha hr).2]
    decide
  · intro k f hk hf g1 g2 r1 r2 _
    have hk : k ∈ [((1, 0) : Nat × Nat)] := hk
    simp only [List.mem_singleton] at hk
    subst hk
    have hf : some exP = some f := hf
    simp only [Option.some.injEq] at hf
    subst hf
    rw [ex_reaches r1, ex_reaches r2]
  · intro s rel hrel sym sec hs hsec m1 m2 n1 n2
    obtain ⟨r, hr, rfl⟩ := List.mem_map.mp hrel
    have hr := (ex_rel hr).2
    have hin : ∀ m, Reloc.Spec.NamesMap exMaps sec (Rel.plain r).symbolIndex m →
        m ∈ exMaps ∧ (m.symbolIndex = some (Rel.plain r).symbolIndex ∨
          ((Rel.plain r).symbolIndex ≠ 1 ∧ m.sectionIndex = sec)) := by
      intro m h
      cases h with
      | symbol hm hi => exact ⟨hm, .inl hi⟩
      | data hno hm hs =>
        exact ⟨hm, .inr ⟨fun e => hno ⟨10, 3, some 1, false⟩ (by simp [exMaps]) (by rw [e]), hs⟩⟩
    obtain ⟨i1, k1⟩ := hin m1 n1
    obtain ⟨i2, k2⟩ := hin m2 n2
    simp only [exMaps, List.mem_cons, List.not_mem_nil, or_false] at i1 i2
    simp only [exRels, List.mem_cons, List.not_mem_nil, or_false] at hr
    rcases hr with rfl | rfl | rfl | rfl <;> cases hs <;> cases hsec <;>
      rcases i1 with rfl | rfl | rfl <;> rcases i2 with rfl | rfl | rfl <;> simp_all [Rel.plain]

/-- C72 is false in general: in an object without BTF kernel symbols are not looked up. A load of the address of a kernel
variable that is not weak, relocated against an undefined symbol, stays a load of 0, and there is no error. -/
theorem C72_extern_without_btf_violated :
    ∃ (o : Object) (maps : List MapRef) (f f' : Func) (out : List ((Nat × Nat) × Func)) (rel : Rel) (sym : Sym),
      o.externs = none ∧ code maps true o = .ok out ∧ (1, 0) ∈ o.programs ∧ get o.funcs (1, 0) = some f ∧
      get out (1, 0) = some f' ∧ At o f 0 rel ∧ o.syms rel.symbolIndex = some sym ∧ Undefined sym ∧
      f'.insns[0]? = some ⟨0x18, 3, 0, 0, 0⟩ := by
  let f : Func := ⟨0, 1, 0, [ins 0x18 3 0 0, ins 0 0 0 0, ins 0x95 0 0 0], [], []⟩
  let o : Object := ⟨[((1, 0), f)], [(1, 0)], fun _ => [⟨0, 64, 4⟩], exSym, none⟩
  exact ⟨o, [], f, f, [((1, 0), f)], ⟨0, 64, 4⟩, ⟨none, some ['k'], 0, false, .unknown⟩, rfl, by decide +kernel, by decide, rfl,
    rfl, ⟨by decide, rfl⟩, rfl, ⟨rfl, rfl, rfl, by decide⟩, rfl⟩

end Verif.Pipe
