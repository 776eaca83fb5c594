import Verif.Linker.Lemmas
set_option linter.unusedSimpArgs false
set_option linter.unusedVariables false
/-! Frame, termination and congruence of `relocate` (no hypothesis on addresses). -/
namespace Verif.Linker
open Verif.Bpf Verif.Linker.Spec

/-- Number of functions of the object that are not linked yet. -/
def unlinked (o : Obj) (st : St) : Nat :=
  (o.funcs.filter (fun p => (st.find p.2.address).isNone)).length

theorem length_filter_le_of_imp {α : Type} (p q : α → Bool) (l : List α) (h : ∀ x ∈ l, p x = true → q x = true) :
    (l.filter p).length ≤ (l.filter q).length := by
  induction l with
  | nil => simp
  | cons a l ih =>
    have ih := ih (fun x hx => h x (List.mem_cons_of_mem _ hx))
    have ha := h a List.mem_cons_self
    simp only [List.filter_cons]
    cases hp : p a <;> cases hq : q a <;> simp_all <;> omega

theorem length_filter_lt_of_imp {α : Type} (p q : α → Bool) (l : List α) (h : ∀ x ∈ l, p x = true → q x = true)
    (x : α) (hx : x ∈ l) (hpx : p x = false) (hqx : q x = true) :
    (l.filter p).length < (l.filter q).length := by
  induction l with
  | nil => cases hx
  | cons a l ih =>
    have hle := length_filter_le_of_imp p q l (fun y hy => h y (List.mem_cons_of_mem _ hy))
    have ha := h a List.mem_cons_self
    rcases List.mem_cons.mp hx with rfl | hx
    · simp [List.filter_cons, hpx, hqx]; omega
    · have ih := ih (fun y hy => h y (List.mem_cons_of_mem _ hy)) hx
      simp only [List.filter_cons]
      cases hp : p a <;> cases hq : q a <;> simp_all <;> omega

theorem append_find (st : St) (g : Func) (a : Nat) :
    (st.append g).find a = if g.address = a then some st.insns.length else st.find a := by
  simp only [St.find, St.append, List.find?_cons]
  by_cases hga : g.address = a
  · simp [hga]
  · have : (g.address == a) = false := by simpa using hga
    simp [hga, this]

theorem get_mem {o : Obj} {key : Nat × Nat} {g : Func} (h : o.get key = some g) : (key, g) ∈ o.funcs := by
  simp only [Obj.get, Option.map_eq_some_iff] at h
  obtain ⟨p, hp, rfl⟩ := h
  have h1 := List.mem_of_find?_eq_some hp
  have h2 := List.find?_some hp
  have : p.1 = key := by simpa using h2
  rw [← this]; exact h1

theorem unlinked_append {o : Obj} {key : Nat × Nat} {g : Func} {st : St} (h : o.get key = some g)
    (hn : st.find g.address = none) : unlinked o (st.append g) < unlinked o st := by
  apply length_filter_lt_of_imp _ _ _ _ (key, g) (get_mem h)
  · simp [append_find]
  · simp [hn]
  · intro x _ hx
    rw [append_find] at hx
    split at hx
    · simp at hx
    · exact hx

/-- What every successful step preserves. -/
structure Frame (start : Nat) (keep : Nat → Prop) (st st' : St) : Prop where
  len : st.insns.length ≤ st'.insns.length
  same : ∀ j, j < st.insns.length → keep j → st'.insns[j]? = st.insns[j]?
  linked : ∀ a, st'.find a = none → st.find a = none

theorem Frame.unlinked {start : Nat} {keep : Nat → Prop} {st st' : St} (h : Frame start keep st st') (o : Obj) :
    unlinked o st' ≤ unlinked o st := by
  apply length_filter_le_of_imp
  intro x _ hx
  have := h.linked x.2.address (by simpa using hx)
  simp [this]

/-- The outcomes a run can have: success with a frame, or an error that is not the model's own. -/
def Safe (start : Nat) (keep : Nat → Prop) (st : St) : Except Err St → Prop
  | .ok st' => Frame start keep st st'
  | .error e => e ≠ .fuel ∧ e ≠ .oob

theorem resolve_error {o : Obj} {f : Func} {i : Nat} {ins : Insn} {e : Err}
    (h : resolve o f i ins = .error e) : e = .todoPanic ∨ e = .unwrapPanic := by
  simp only [resolve] at h
  split at h
  · split at h
    · cases h; exact Or.inl rfl
    · split at h
      · cases h; exact Or.inr rfl
      · cases h
  · split at h <;> cases h

theorem relocInsn_safe {o : Obj} (rec : St → Func → Except Err St) (m : Nat)
    (hrec : ∀ (st : St) (f : Func), f.insns.length ≤ st.insns.length → unlinked o st < m →
      Safe 0 (fun j => j < st.insns.length - f.insns.length) st (rec st f))
    (f : Func) (start : Nat) (st : St) (i : Nat) (hi : start + i < st.insns.length)
    (hm : unlinked o st < m + 1) :
    Safe 0 (fun j => j ≠ start + i) st (relocInsn o rec f start st i) := by
  obtain ⟨ins, hcur⟩ : ∃ ins, st.insns[start + i]? = some ins := ⟨_, List.getElem?_eq_getElem hi⟩
  simp only [relocInsn, hcur]
  cases hr : resolve o f i ins with
  | error e =>
    rcases resolve_error hr with rfl | rfl <;> exact ⟨by decide, by decide⟩
  | ok r =>
    cases r with
    | none => exact ⟨Nat.le_refl _, fun _ _ _ => rfl, fun _ h => h⟩
    | some key =>
      simp only
      cases hg : o.get key with
      | none => exact ⟨by decide, by decide⟩
      | some callee =>
        simp only
        cases hfind : st.find callee.address with
        | some idx =>
          simp only [linkFunction, hfind]
          refine ⟨by simp, ?_, fun _ h => h⟩
          intro j _ hj
          exact getElem?_modify_ne _ _ _ _ hj
        | none =>
          simp only [linkFunction, hfind]
          have hs := hrec (st.append callee) callee (by simp [St.append])
            (by have := unlinked_append hg hfind; omega)
          cases hre : rec (st.append callee) callee with
          | error e => rw [hre] at hs; exact hs
          | ok st2 =>
            rw [hre] at hs
            have hs : Frame 0 _ (st.append callee) st2 := hs
            have hl := hs.len
            simp [St.append] at hl
            refine ⟨by simp; omega, ?_, ?_⟩
            · intro j hj hne
              show (st2.insns.modify _ _)[j]? = _
              rw [getElem?_modify_ne _ _ _ _ hne, hs.same j (by simp [St.append]; omega) (by simp [St.append]; omega)]
              simp only [St.append]
              rw [List.getElem?_append_left hj]
            · intro a ha
              have := hs.linked a ha
              rw [append_find] at this
              split at this
              · cases this
              · exact this

theorem relocLoop_safe {o : Obj} (rec : St → Func → Except Err St) (m : Nat)
    (hrec : ∀ (st : St) (f : Func), f.insns.length ≤ st.insns.length → unlinked o st < m →
      Safe 0 (fun j => j < st.insns.length - f.insns.length) st (rec st f))
    (f : Func) (start : Nat) (is : List Nat) : ∀ (st : St), (∀ i ∈ is, start + i < st.insns.length) →
    unlinked o st < m + 1 →
    Safe 0 (fun j => j < start) st (relocLoop o rec f start is st) := by
  induction is with
  | nil => intro st _ _; exact ⟨Nat.le_refl _, fun _ _ _ => rfl, fun _ h => h⟩
  | cons i is ih =>
    intro st hlt hm
    simp only [relocLoop]
    have h1 := relocInsn_safe rec m hrec f start st i (hlt i List.mem_cons_self) hm
    cases hr : relocInsn o rec f start st i with
    | error e => rw [hr] at h1; exact h1
    | ok st1 =>
      rw [hr] at h1
      have h1 : Frame 0 _ st st1 := h1
      have hlen := h1.len
      have hun := h1.unlinked o
      have h2 := ih st1 (fun j hj => by have := hlt j (List.mem_cons_of_mem _ hj); omega) (by omega)
      simp only
      cases hr2 : relocLoop o rec f start is st1 with
      | error e => rw [hr2] at h2; exact h2
      | ok st2 =>
        rw [hr2] at h2
        have h2 : Frame 0 _ st1 st2 := h2
        refine ⟨Nat.le_trans hlen h2.len, ?_, fun a ha => h1.linked a (h2.linked a ha)⟩
        intro j hj hjs
        rw [h2.same j (by omega) hjs, h1.same j hj (by omega)]

theorem relocate_safe (o : Obj) (fuel : Nat) : ∀ (st : St) (f : Func),
    f.insns.length ≤ st.insns.length → unlinked o st < fuel →
    Safe 0 (fun j => j < st.insns.length - f.insns.length) st (relocate o fuel st f) := by
  induction fuel with
  | zero => intro st f _ h; omega
  | succ fuel ih =>
    intro st f hl hu
    simp only [relocate]
    apply relocLoop_safe (relocate o fuel) fuel ih
    · intro i hi
      have := List.mem_range.mp hi
      omega
    · exact hu

/-! ### Errors come from unresolvable references -/

/-- Instruction `ins` (index `i` of `g`) cannot be linked. -/
def Unresolvable (o : Obj) (g : Func) (e : Err) : Prop :=
  ∃ i ins, g.insns[i]? = some ins ∧ (resolve o g i ins = .error e ∨
    (e = .unknownFunction ∧ ∃ key, resolve o g i ins = .ok (some key) ∧ o.get key = none))

theorem relocLoop_error {o : Obj} (rec : St → Func → Except Err St) (m : Nat)
    (hrec : ∀ (st : St) (f : Func), f.insns.length ≤ st.insns.length → unlinked o st < m →
      Safe 0 (fun j => j < st.insns.length - f.insns.length) st (rec st f))
    (herr : ∀ (st : St) (f : Func) (e : Err), f.insns.length ≤ st.insns.length → unlinked o st < m →
      st.insns.drop (st.insns.length - f.insns.length) = f.insns → rec st f = .error e →
      ∃ g, (g = f ∨ Reaches o f g) ∧ Unresolvable o g e)
    (f : Func) (start : Nat) (e : Err) (k : Nat) : ∀ (i : Nat) (st : St), i + k = f.insns.length →
    start + f.insns.length ≤ st.insns.length →
    (∀ j, i ≤ j → j < f.insns.length → st.insns[start + j]? = f.insns[j]?) →
    unlinked o st < m + 1 → relocLoop o rec f start (List.range' i k) st = .error e →
    ∃ g, (g = f ∨ Reaches o f g) ∧ Unresolvable o g e := by
  induction k with
  | zero => intro i st _ _ _ _ h; simp [relocLoop] at h
  | succ k ih =>
    intro i st hik hlen htodo hu hs
    rw [List.range'_succ] at hs
    simp only [relocLoop] at hs
    have hlt : i < f.insns.length := by omega
    obtain ⟨ins, hi⟩ : ∃ ins, f.insns[i]? = some ins := ⟨_, List.getElem?_eq_getElem hlt⟩
    have hcur : st.insns[start + i]? = some ins := by rw [htodo i (Nat.le_refl _) hlt, hi]
    cases h1 : relocInsn o rec f start st i with
    | ok st1 =>
      rw [h1] at hs
      have hf := relocInsn_safe rec m hrec f start st i (by omega) hu
      rw [h1] at hf
      have hf : Frame 0 _ st st1 := hf
      have hlen1 := hf.len
      have hun := hf.unlinked o
      refine ih (i + 1) st1 (by omega) (by omega) ?_ (by omega) hs
      intro j hj hjl
      rw [hf.same _ (by omega) (by omega)]
      exact htodo j (by omega) hjl
    | error e' =>
      rw [h1] at hs
      cases hs
      simp only [relocInsn, hcur] at h1
      cases hr : resolve o f i ins with
      | error e2 =>
        rw [hr] at h1; cases h1
        exact ⟨f, Or.inl rfl, i, ins, hi, Or.inl hr⟩
      | ok r =>
        rw [hr] at h1
        cases r with
        | none => cases h1
        | some key =>
          simp only at h1
          cases hg : o.get key with
          | none =>
            rw [hg] at h1; cases h1
            exact ⟨f, Or.inl rfl, i, ins, hi, Or.inr ⟨rfl, key, hr, hg⟩⟩
          | some callee =>
            rw [hg] at h1
            simp only at h1
            cases hfind : st.find callee.address with
            | some idx => simp only [linkFunction, hfind] at h1; cases h1
            | none =>
              simp only [linkFunction, hfind] at h1
              cases hre : rec (st.append callee) callee with
              | ok st2 => rw [hre] at h1; cases h1
              | error e2 =>
                rw [hre] at h1; cases h1
                obtain ⟨g, hg1, hg2⟩ := herr _ _ _ (by simp [St.append])
                  (by have := unlinked_append hg hfind; omega) (by simp [St.append]) hre
                have hc : Reaches o f callee :=
                  .one _ _ ⟨i, ins, key, hi, (resolve_names o f i ins key).mp hr, hg⟩
                refine ⟨g, Or.inr ?_, hg2⟩
                rcases hg1 with rfl | hg1
                · exact hc
                · exact hc.trans hg1

theorem relocate_error (o : Obj) (fuel : Nat) : ∀ (st : St) (f : Func) (e : Err),
    f.insns.length ≤ st.insns.length → unlinked o st < fuel →
    st.insns.drop (st.insns.length - f.insns.length) = f.insns → relocate o fuel st f = .error e →
    ∃ g, (g = f ∨ Reaches o f g) ∧ Unresolvable o g e := by
  induction fuel with
  | zero => intro st f e _ h; omega
  | succ fuel ih =>
    intro st f e hl hu hd hs
    simp only [relocate] at hs
    rw [List.range_eq_range'] at hs
    refine relocLoop_error (relocate o fuel) fuel (relocate_safe o fuel) ih f _ e _ 0 st (by omega)
      (by omega) ?_ hu hs
    intro j _ _
    rw [← List.getElem?_drop, hd]

/-! ### The result depends only on the functions that are named -/

/-- Two objects that agree outside `P`. -/
structure Agree (P : Nat × Nat → Prop) (o o' : Obj) : Prop where
  relocs : o'.relocs = o.relocs
  syms : o'.syms = o.syms
  text : o'.textSections = o.textSections
  get : ∀ key, ¬ P key → o'.get key = o.get key

theorem Agree.resolve {P : Nat × Nat → Prop} {o o' : Obj} (h : Agree P o o') (f : Func) (i : Nat) (ins : Insn) :
    resolve o' f i ins = resolve o f i ins := by
  simp only [Linker.resolve, textRel, h.relocs, h.syms, h.text]

/-- No instruction of `f` names a key in `P`. -/
def Avoids (o : Obj) (P : Nat × Nat → Prop) (f : Func) : Prop :=
  ∀ i ins key, f.insns[i]? = some ins → resolve o f i ins = .ok (some key) → ¬ P key

theorem relocLoop_congr {P : Nat × Nat → Prop} {o o' : Obj} (ha : Agree P o o')
    (havoid : ∀ key g, ¬ P key → o.get key = some g → Avoids o P g)
    (rec rec' : St → Func → Except Err St) (m : Nat)
    (hrec : ∀ (st : St) (f : Func), f.insns.length ≤ st.insns.length → unlinked o st < m →
      Safe 0 (fun j => j < st.insns.length - f.insns.length) st (rec st f))
    (hcongr : ∀ (st : St) (f : Func), f.insns.length ≤ st.insns.length → unlinked o st < m →
      Avoids o P f →
      st.insns.drop (st.insns.length - f.insns.length) = f.insns → rec' st f = rec st f)
    (f : Func) (hf : Avoids o P f) (start : Nat) (k : Nat) : ∀ (i : Nat) (st : St), i + k = f.insns.length →
    start + f.insns.length ≤ st.insns.length →
    (∀ j, i ≤ j → j < f.insns.length → st.insns[start + j]? = f.insns[j]?) →
    unlinked o st < m + 1 →
    relocLoop o' rec' f start (List.range' i k) st = relocLoop o rec f start (List.range' i k) st := by
  induction k with
  | zero => intro i st _ _ _ _; simp [relocLoop]
  | succ k ih =>
    intro i st hik hlen htodo hu
    rw [List.range'_succ]
    simp only [relocLoop]
    have hlt : i < f.insns.length := by omega
    obtain ⟨ins, hi⟩ : ∃ ins, f.insns[i]? = some ins := ⟨_, List.getElem?_eq_getElem hlt⟩
    have hcur : st.insns[start + i]? = some ins := by rw [htodo i (Nat.le_refl _) hlt, hi]
    have hstep : relocInsn o' rec' f start st i = relocInsn o rec f start st i := by
      simp only [relocInsn, hcur, ha.resolve]
      cases hr : resolve o f i ins with
      | error e => rfl
      | ok r =>
        cases r with
        | none => rfl
        | some key =>
          have hk := hf i ins key hi hr
          simp only [ha.get key hk]
          cases hg : o.get key with
          | none => rfl
          | some callee =>
            simp only
            cases hfind : st.find callee.address with
            | some idx => simp only [linkFunction, hfind]
            | none =>
              simp only [linkFunction, hfind]
              rw [hcongr (st.append callee) callee (by simp [St.append])
                (by have := unlinked_append hg hfind; omega) (havoid key callee hk hg) (by simp [St.append])]
    rw [hstep]
    cases h1 : relocInsn o rec f start st i with
    | error e => rfl
    | ok st1 =>
      simp only
      have hfr := relocInsn_safe rec m hrec f start st i (by omega) hu
      rw [h1] at hfr
      have hfr : Frame 0 _ st st1 := hfr
      have hlen1 := hfr.len
      have hun := hfr.unlinked o
      refine ih (i + 1) st1 (by omega) (by omega) ?_ (by omega)
      intro j hj hjl
      rw [hfr.same _ (by omega) (by omega)]
      exact htodo j (by omega) hjl

theorem relocate_congr {P : Nat × Nat → Prop} {o o' : Obj} (ha : Agree P o o')
    (havoid : ∀ key g, ¬ P key → o.get key = some g → Avoids o P g) (fuel : Nat) :
    ∀ (st : St) (f : Func), f.insns.length ≤ st.insns.length → unlinked o st < fuel → Avoids o P f →
      st.insns.drop (st.insns.length - f.insns.length) = f.insns →
      relocate o' fuel st f = relocate o fuel st f := by
  induction fuel with
  | zero => intro st f _ h; omega
  | succ fuel ih =>
    intro st f hl hu hf hd
    simp only [relocate]
    rw [List.range_eq_range']
    refine relocLoop_congr ha havoid _ _ fuel (relocate_safe o fuel) ih f hf _ _ 0 st (by omega)
      (by omega) ?_ hu
    intro j _ _
    rw [← List.getElem?_drop, hd]

theorem unlinked_le (o : Obj) (st : St) : unlinked o st ≤ o.funcs.length := List.length_filter_le _ _

theorem link_congr {P : Nat × Nat → Prop} {o o' : Obj} (ha : Agree P o o')
    (hlen : o'.funcs.length = o.funcs.length)
    (havoid : ∀ key g, ¬ P key → o.get key = some g → Avoids o P g) (f : Func) (hf : Avoids o P f) :
    link o' f = link o f := by
  simp only [link, hlen]
  rw [relocate_congr ha havoid _ _ f (by simp) (by have := unlinked_le o ⟨f.insns, f.funcInfo, f.lineInfo, []⟩; omega) hf (by simp)]

end Verif.Linker
