import Verif.Linker.Spec
set_option linter.unusedSimpArgs false
set_option linter.unusedVariables false
namespace Verif.Linker
open Verif.Bpf Verif.Linker.Spec

/-! ### `resolve` and the naming rules -/

theorem textRel_some (o : Obj) (f : Func) (i : Nat) (rel : Rel) (sym : Sym) :
    textRel o f i = some (rel, sym) ↔ TextReloc o f i rel sym := by
  have h8 : f.sectionOffset + i * insSize = f.sectionOffset + 8 * i := by simp [insSize]; omega
  simp only [textRel, TextReloc, h8]
  cases hr : o.relocs f.sectionIndex (f.sectionOffset + 8 * i) with
  | none => simp
  | some r =>
    simp only
    cases hs : o.syms r.symbolIndex with
    | none =>
      simp only [reduceCtorEq, false_iff]
      rintro ⟨h1, h2, _⟩
      cases h1; rw [hs] at h2; cases h2
    | some s =>
      simp only
      have hany : (s.sectionIndex.any o.textSections = true) ↔ ∃ x, s.sectionIndex = some x ∧ o.textSections x = true := by
        cases s.sectionIndex <;> simp
      constructor
      · intro h
        split at h
        · cases h
        · rename_i he
          split at h
          · rename_i ht
            cases h
            exact ⟨rfl, hs, by simpa using he, by rwa [hany] at ht⟩
          · cases h
      · rintro ⟨h1, h2, h3, h4⟩
        cases h1
        rw [hs] at h2; cases h2
        rw [if_neg (by simpa using h3), if_pos (by rwa [hany])]

theorem wrap64_lt (x : Int) : wrap64 x < 2 ^ 64 := by
  unfold wrap64; omega

theorem wrap64_eq (x : Int) : (wrap64 x : Int) = x % 2 ^ 64 := by
  unfold wrap64; omega

theorem wrap64_unique (x : Int) (a : Nat) (h : (a : Int) = x % 2 ^ 64) : a = wrap64 x := by
  have := wrap64_eq x; omega

theorem resolve_names (o : Obj) (f : Func) (i : Nat) (ins : Insn) (key : Nat × Nat) :
    resolve o f i ins = .ok (some key) ↔ Names o f i ins key := by
  simp only [resolve]
  cases ht : textRel o f i with
  | none =>
    have hno : ∀ rel sym, ¬ TextReloc o f i rel sym := by
      intro rel sym h
      rw [← textRel_some, ht] at h; cases h
    simp only
    constructor
    · intro h
      split at h
      · rename_i hc
        cases h
        refine .relative _ hno hc (wrap64_lt _) ?_
        rw [wrap64_eq]; simp [insSize, Int.mul_comm]
      · cases h
    · intro h
      cases h with
      | function rel sym s h => exact absurd h (hno _ _)
      | sectionCall rel sym s a h => exact absurd h (hno _ _)
      | sectionRef rel sym s a h => exact absurd h (hno _ _)
      | relative a h hc ha hv =>
        rw [if_pos hc]
        congr 3
        symm
        apply wrap64_unique
        rw [hv]; simp [insSize, Int.mul_comm]
  | some p =>
    obtain ⟨rel, sym⟩ := p
    have hyes := (textRel_some o f i rel sym).mp ht
    have huniq : ∀ rel' sym', TextReloc o f i rel' sym' → rel' = rel ∧ sym' = sym := by
      intro rel' sym' h
      rw [← textRel_some, ht] at h
      cases h; exact ⟨rfl, rfl⟩
    simp only
    constructor
    · intro h
      cases hk : sym.kind with
      | text =>
        simp only [hk] at h
        cases hs : sym.sectionIndex with
        | none => rw [hs] at h; cases h
        | some s =>
          rw [hs] at h; cases h
          exact .function rel sym s hyes hk hs
      | «section» =>
        simp only [hk] at h
        by_cases h32 : rel.size = 32
        · simp only [h32, if_true] at h
          cases hs : sym.sectionIndex with
          | none => rw [hs] at h; cases h
          | some s =>
            rw [hs] at h; cases h
            refine .sectionCall rel sym s _ hyes hk hs h32 (wrap64_lt _) ?_
            rw [wrap64_eq]; simp [insSize, Int.mul_comm]
        · by_cases h64 : rel.size = 64
          · simp only [h64, if_true] at h
            cases hs : sym.sectionIndex with
            | none => rw [hs] at h; simp at h
            | some s =>
              rw [hs] at h
              simp at h
              subst h
              exact .sectionRef rel sym s _ hyes hk hs h64 (wrap64_lt _) (wrap64_eq _)
          · simp [h32, h64] at h
      | unknown => simp [hk] at h
      | other => simp [hk] at h
    · intro h
      cases h with
      | function rel' sym' s h hk hs =>
        obtain ⟨rfl, rfl⟩ := huniq _ _ h
        simp [hk, hs]
      | sectionCall rel' sym' s a h hk hs hsz ha hv =>
        obtain ⟨rfl, rfl⟩ := huniq _ _ h
        simp only [hk, hs, hsz, if_true]
        congr 3
        symm
        apply wrap64_unique
        rw [hv]; simp [insSize, Int.mul_comm]
      | sectionRef rel' sym' s a h hk hs hsz ha hv =>
        obtain ⟨rfl, rfl⟩ := huniq _ _ h
        simp only [hk, hs, hsz]
        simp
        exact (wrap64_unique _ _ hv).symm
      | relative a h => exact absurd hyes (h _ _)

theorem resolve_none (o : Obj) (f : Func) (i : Nat) (ins : Insn) (h : resolve o f i ins = .ok none) :
    ∀ key, ¬ Names o f i ins key := by
  intro key hk
  rw [← resolve_names, h] at hk
  cases hk

/-! ### Layout -/

def total (fs : List Func) : Nat := (fs.map (fun f => f.insns.length)).sum

@[simp] theorem total_nil : total [] = 0 := rfl
@[simp] theorem total_cons (f : Func) (fs : List Func) : total (f :: fs) = f.insns.length + total fs := by
  simp [total]
@[simp] theorem total_append (a b : List Func) : total (a ++ b) = total a + total b := by
  simp [total]

theorem layout_append (base : Nat) (a b : List Func) :
    layout base (a ++ b) = layout base a ++ layout (base + total a) b := by
  induction a generalizing base with
  | nil => simp [layout]
  | cons f fs ih => simp [layout, ih, Nat.add_assoc]

theorem layout_map_fst (base : Nat) (fs : List Func) : (layout base fs).map Prod.fst = fs := by
  induction fs generalizing base with
  | nil => rfl
  | cons f fs ih => simp [layout, ih]

theorem layout_bounds (base : Nat) (fs : List Func) (g : Func) (s : Nat) (h : (g, s) ∈ layout base fs) :
    base ≤ s ∧ s + g.insns.length ≤ base + total fs := by
  induction fs generalizing base with
  | nil => cases h
  | cons f fs ih =>
    simp only [layout, List.mem_cons, Prod.mk.injEq] at h
    rcases h with ⟨rfl, rfl⟩ | h
    · simp
    · have := ih _ h
      simp; omega

/-- Copies: the layout without the entry function. -/
def copies (fs : List Func) : List (Func × Nat) := (layout 0 fs).tail

theorem copies_append (a b : List Func) (h : a ≠ []) :
    copies (a ++ b) = copies a ++ layout (total a) b := by
  simp only [copies, layout_append, Nat.zero_add]
  cases a with
  | nil => exact absurd rfl h
  | cons f fs => simp [layout]

theorem copies_map (fs : List Func) : (copies fs).map Prod.fst = fs.tail := by
  simp only [copies, List.map_tail, layout_map_fst]

/-! ### Invariant -/

/-- The state matches the list of functions appended so far. -/
structure Lay (o : Obj) (root : Func) (F0 : List FuncInfo) (L0 : List LineInfo) (st : St) (fs : List Func) : Prop where
  len : st.insns.length = total fs
  found : ∀ a t, st.find a = some t → ∃ g, (g, t) ∈ copies fs ∧ g.address = a
  listed : ∀ g t, (g, t) ∈ copies fs → st.find g.address = some t
  nodup : (fs.tail.map Func.address).Nodup
  known : ∀ g ∈ fs.tail, Reaches o root g
  finfo : st.funcInfo = F0 ++ (copies fs).flatMap (fun p => rebaseFunc p.1 p.2)
  linfo : st.lineInfo = L0 ++ (copies fs).flatMap (fun p => rebaseLine p.1 p.2)

/-- `out` is what instruction `i` of `f` must become at index `n`. -/
def OKm (o : Obj) (cs : List (Func × Nat)) (f : Func) (i n : Nat) (ins out : Insn) : Prop :=
  (resolve o f i ins = .ok none ∧ out = ins) ∨
  ∃ key g t, resolve o f i ins = .ok (some key) ∧ o.get key = some g ∧ (g, t) ∈ cs ∧
    out = patch ins ins.isCall t n

def Good (o : Obj) (cs : List (Func × Nat)) (insns : List Insn) (f : Func) (s : Nat) : Prop :=
  ∀ i ins, f.insns[i]? = some ins → ∃ out, insns[s + i]? = some out ∧ OKm o cs f i (s + i) ins out

theorem OKm.mono {o : Obj} {cs cs' : List (Func × Nat)} {f : Func} {i n : Nat} {ins out : Insn}
    (h : OKm o cs f i n ins out) (hsub : ∀ p ∈ cs, p ∈ cs') : OKm o cs' f i n ins out := by
  rcases h with h | ⟨key, g, t, h1, h2, h3, h4⟩
  · exact Or.inl h
  · exact Or.inr ⟨key, g, t, h1, h2, hsub _ h3, h4⟩

theorem Good.mono {o : Obj} {cs cs' : List (Func × Nat)} {insns insns' : List Insn} {f : Func} {s : Nat}
    (h : Good o cs insns f s) (hsub : ∀ p ∈ cs, p ∈ cs')
    (hsame : ∀ j, s ≤ j → j < s + f.insns.length → insns'[j]? = insns[j]?) :
    Good o cs' insns' f s := by
  intro i ins hi
  obtain ⟨out, h1, h2⟩ := h i ins hi
  have hlt : i < f.insns.length := (List.getElem?_eq_some_iff.mp hi).1
  exact ⟨out, by rw [hsame (s + i) (by omega) (by omega)]; exact h1, h2.mono hsub⟩

/-- Appending a function that is not linked yet. -/
theorem Lay.append {o : Obj} {root : Func} {F0 : List FuncInfo} {L0 : List LineInfo} {st : St} {fs : List Func}
    (h : Lay o root F0 L0 st fs) (hne : fs ≠ []) (g : Func) (hk : Reaches o root g)
    (hnew : st.find g.address = none) : Lay o root F0 L0 (st.append g) (fs ++ [g]) := by
  have hc : copies (fs ++ [g]) = copies fs ++ [(g, total fs)] := by
    rw [copies_append _ _ hne]; rfl
  have ht : (fs ++ [g]).tail = fs.tail ++ [g] := by
    cases fs with
    | nil => exact absurd rfl hne
    | cons a as => rfl
  have hfind : ∀ a, (st.append g).find a = if g.address = a then some st.insns.length else st.find a := by
    intro a
    simp only [St.find, St.append, List.find?_cons]
    by_cases hga : g.address = a
    · simp [hga]
    · have : (g.address == a) = false := by simpa using hga
      simp [hga, this]
  refine ⟨?_, ?_, ?_, ?_, ?_, ?_, ?_⟩
  · simp [St.append, h.len]
  · intro a t hf
    rw [hfind] at hf
    split at hf
    · rename_i hga
      cases hf
      exact ⟨g, by rw [hc, h.len]; simp, hga⟩
    · obtain ⟨g', h1, h2⟩ := h.found a t hf
      exact ⟨g', by rw [hc]; simp [h1], h2⟩
  · intro g' t hg'
    rw [hc] at hg'
    rw [hfind]
    rcases List.mem_append.mp hg' with hg' | hg'
    · have := h.listed g' t hg'
      split
      · rename_i hga
        rw [hga, this] at hnew; cases hnew
      · exact this
    · have : g' = g ∧ t = total fs := by simpa using hg'
      obtain ⟨rfl, rfl⟩ := this
      rw [if_pos rfl, h.len]
  · rw [ht, List.map_append, List.nodup_append]
    refine ⟨h.nodup, by simp, ?_⟩
    intro a ha b hb
    have hb : b = g.address := by simpa using hb
    subst hb
    intro hab
    subst hab
    obtain ⟨x, hx, hxa⟩ := List.mem_map.mp ha
    rw [← copies_map] at hx
    obtain ⟨⟨y, t⟩, hy, hyx⟩ := List.mem_map.mp hx
    have hyx : y = x := hyx
    subst hyx
    have := h.listed y t hy
    rw [hxa, hnew] at this
    cases this
  · intro x hx
    rw [ht] at hx
    rcases List.mem_append.mp hx with hx | hx
    · exact h.known x hx
    · have : x = g := by simpa using hx
      subst this; exact hk
  · rw [hc, List.flatMap_append, ← List.append_assoc, ← h.finfo]
    simp [St.append, h.len]
  · rw [hc, List.flatMap_append, ← List.append_assoc, ← h.linfo]
    simp [St.append, h.len]

theorem Lay.modify {o : Obj} {root : Func} {F0 : List FuncInfo} {L0 : List LineInfo} {st : St} {fs : List Func}
    (h : Lay o root F0 L0 st fs) (n : Nat) (u : Insn → Insn) :
    Lay o root F0 L0 { st with insns := st.insns.modify n u } fs :=
  ⟨by simpa using h.len, h.found, h.listed, h.nodup, h.known, h.finfo, h.linfo⟩

/-- What a call of `relocate` achieves. -/
structure Post (o : Obj) (root : Func) (F0 : List FuncInfo) (L0 : List LineInfo) (pre : List Func) (f : Func)
    (st st' : St) (new : List Func) : Prop where
  lay : Lay o root F0 L0 st' (pre ++ [f] ++ new)
  before : ∀ j, j < total pre → st'.insns[j]? = st.insns[j]?
  self : Good o (copies (pre ++ [f] ++ new)) st'.insns f (total pre)
  others : ∀ g s, (g, s) ∈ layout (total (pre ++ [f])) new →
    Good o (copies (pre ++ [f] ++ new)) st'.insns g s
  reach : ∀ g ∈ new, Reaches o f g

/-- The loop invariant of `relocate` after `i` instructions. -/
structure Mid (o : Obj) (root : Func) (F0 : List FuncInfo) (L0 : List LineInfo) (pre : List Func) (f : Func)
    (st0 st : St) (new : List Func) (i : Nat) : Prop where
  lay : Lay o root F0 L0 st (pre ++ [f] ++ new)
  before : ∀ j, j < total pre → st.insns[j]? = st0.insns[j]?
  done : ∀ j ins, j < i → f.insns[j]? = some ins → ∃ out, st.insns[total pre + j]? = some out ∧
    OKm o (copies (pre ++ [f] ++ new)) f j (total pre + j) ins out
  todo : ∀ j, i ≤ j → j < f.insns.length → st.insns[total pre + j]? = f.insns[j]?
  others : ∀ g s, (g, s) ∈ layout (total (pre ++ [f])) new →
    Good o (copies (pre ++ [f] ++ new)) st.insns g s
  reach : ∀ g ∈ new, Reaches o f g

theorem Spec.Reaches.trans {o : Obj} {f g h : Func} (h1 : Reaches o f g) (h2 : Reaches o g h) :
    Reaches o f h := by
  induction h2 with
  | one h hc => exact .more _ _ _ h1 hc
  | more x h _ hc ih => exact .more _ _ _ ih hc

theorem getElem?_modify_ne (l : List Insn) (n j : Nat) (u : Insn → Insn) (h : j ≠ n) :
    (l.modify n u)[j]? = l[j]? := by
  rw [List.getElem?_modify]
  have : ¬ n = j := fun hh => h hh.symm
  simp [this]

theorem getElem?_modify_eq (l : List Insn) (n : Nat) (u : Insn → Insn) (x : Insn) (h : l[n]? = some x) :
    (l.modify n u)[n]? = some (u x) := by
  rw [List.getElem?_modify]
  simp [h]

/-- Patching instruction `i` of `f` once the callee's copy is known. -/
theorem Mid.patch {o : Obj} {root : Func} {F0 : List FuncInfo} {L0 : List LineInfo} {pre : List Func} {f : Func}
    {st0 st : St} {new : List Func} {i : Nat} (h : Mid o root F0 L0 pre f st0 st new i)
    (ins : Insn) (hi : f.insns[i]? = some ins) (key : Nat × Nat) (g : Func) (t : Nat)
    (hr : resolve o f i ins = .ok (some key)) (hg : o.get key = some g)
    (ht : (g, t) ∈ copies (pre ++ [f] ++ new)) :
    Mid o root F0 L0 pre f st0
      { st with insns := st.insns.modify (total pre + i) (fun cur => Linker.patch cur ins.isCall t (total pre + i)) }
      new (i + 1) := by
  have hlt : i < f.insns.length := (List.getElem?_eq_some_iff.mp hi).1
  have hcur : st.insns[total pre + i]? = some ins := by rw [h.todo i (Nat.le_refl _) hlt, hi]
  refine ⟨h.lay.modify _ _, ?_, ?_, ?_, ?_, h.reach⟩
  · intro j hj
    rw [getElem?_modify_ne _ _ _ _ (by omega)]
    exact h.before j hj
  · intro j ins' hj hins'
    by_cases hji : j = i
    · subst hji
      rw [hi] at hins'; cases hins'
      exact ⟨_, getElem?_modify_eq _ _ _ _ hcur, Or.inr ⟨key, g, t, hr, hg, ht, rfl⟩⟩
    · obtain ⟨out, h1, h2⟩ := h.done j ins' (by omega) hins'
      exact ⟨out, by rw [getElem?_modify_ne _ _ _ _ (by omega)]; exact h1, h2⟩
  · intro j hj hjl
    rw [getElem?_modify_ne _ _ _ _ (by omega)]
    exact h.todo j (by omega) hjl
  · intro g' s hs
    have hb := layout_bounds _ _ _ _ hs
    refine (h.others g' s hs).mono (fun _ hp => hp) ?_
    intro j hj1 hj2
    rw [getElem?_modify_ne _ _ _ _ (by simp at hb; omega)]

/-- One iteration keeps the invariant. -/
theorem relocInsn_mid {o : Obj} {root : Func} (hdist : AddressesDistinct o root) {F0 : List FuncInfo} {L0 : List LineInfo}
    (rec : St → Func → Except Err St)
    (hrec : ∀ (st st' : St) (pre : List Func) (f : Func), (f = root ∨ Reaches o root f) → Lay o root F0 L0 st (pre ++ [f]) →
      st.insns.drop (total pre) = f.insns → rec st f = .ok st' → ∃ new, Post o root F0 L0 pre f st st' new)
    {pre : List Func} {f : Func} {st0 st st' : St} {new : List Func} {i : Nat}
    (h : Mid o root F0 L0 pre f st0 st new i) (hlt : i < f.insns.length)
    (hroot : f = root ∨ Reaches o root f)
    (hs : relocInsn o rec f (total pre) st i = .ok st') :
    ∃ new', Mid o root F0 L0 pre f st0 st' new' (i + 1) := by
  obtain ⟨ins, hi⟩ : ∃ ins, f.insns[i]? = some ins := ⟨_, List.getElem?_eq_getElem hlt⟩
  have hcur : st.insns[total pre + i]? = some ins := by rw [h.todo i (Nat.le_refl _) hlt, hi]
  simp only [relocInsn, hcur] at hs
  cases hr : resolve o f i ins with
  | error e => rw [hr] at hs; cases hs
  | ok r =>
    rw [hr] at hs
    cases r with
    | none =>
      cases hs
      refine ⟨new, h.lay, h.before, ?_, fun j hj hl => h.todo j (by omega) hl, h.others, h.reach⟩
      intro j ins' hj hins'
      by_cases hji : j = i
      · subst hji
        rw [hi] at hins'; cases hins'
        exact ⟨_, hcur, Or.inl ⟨hr, rfl⟩⟩
      · exact h.done j ins' (by omega) hins'
    | some key =>
      simp only at hs
      cases hg : o.get key with
      | none => rw [hg] at hs; cases hs
      | some callee =>
        rw [hg] at hs
        simp only at hs
        have hcalls : Calls o f callee := ⟨i, ins, key, hi, (resolve_names o f i ins key).mp hr, hg⟩
        have hrc : Reaches o root callee := by
          rcases hroot with rfl | hroot
          · exact .one _ _ hcalls
          · exact .more _ _ _ hroot hcalls
        cases hfind : st.find callee.address with
        | some idx =>
          simp only [linkFunction, hfind] at hs
          cases hs
          obtain ⟨g, hg1, hg2⟩ := h.lay.found _ _ hfind
          have hgt : g ∈ (pre ++ [f] ++ new).tail := by
            rw [← copies_map]; exact List.mem_map_of_mem hg1
          have : g = callee := hdist g callee (h.lay.known g hgt) hrc hg2
          subst this
          exact ⟨new, h.patch ins hi key g idx hr hg hg1⟩
        | none =>
          simp only [linkFunction, hfind] at hs
          cases hre : rec (st.append callee) callee with
          | error e => rw [hre] at hs; cases hs
          | ok st2 =>
            rw [hre] at hs
            cases hs
            have hne : pre ++ [f] ++ new ≠ [] := by simp
            have hlay1 := h.lay.append hne callee hrc hfind
            have hdrop : (st.append callee).insns.drop (total (pre ++ [f] ++ new)) = callee.insns := by
              rw [← h.lay.len]; simp [St.append]
            obtain ⟨new2, hp⟩ := hrec _ _ _ _ (Or.inr hrc) hlay1 hdrop hre
            have hbefore : ∀ j, j < total (pre ++ [f] ++ new) → st2.insns[j]? = st.insns[j]? := by
              intro j hj
              rw [hp.before j hj]
              simp only [St.append]
              rw [List.getElem?_append_left (by rw [h.lay.len]; exact hj)]
            have hassoc : pre ++ [f] ++ new ++ [callee] ++ new2 = pre ++ [f] ++ (new ++ [callee] ++ new2) := by
              simp
            have hsub : ∀ p ∈ copies (pre ++ [f] ++ new), p ∈ copies (pre ++ [f] ++ (new ++ [callee] ++ new2)) := by
              intro p hp
              rw [← hassoc, List.append_assoc (pre ++ [f] ++ new), copies_append _ _ hne]
              exact List.mem_append_left _ hp
            have htot : total (pre ++ [f] ++ new) = total pre + f.insns.length + total new := by simp; omega
            have hmid : Mid o root F0 L0 pre f st0 st2 (new ++ [callee] ++ new2) i := by
              refine ⟨by rw [← hassoc]; exact hp.lay, ?_, ?_, ?_, ?_, ?_⟩
              · intro j hj
                rw [hbefore j (by omega)]
                exact h.before j hj
              · intro j ins' hj hins'
                have hjl : j < f.insns.length := (List.getElem?_eq_some_iff.mp hins').1
                obtain ⟨out, h1, h2⟩ := h.done j ins' hj hins'
                exact ⟨out, by rw [hbefore _ (by omega)]; exact h1, h2.mono hsub⟩
              · intro j hj hjl
                rw [hbefore _ (by omega)]
                exact h.todo j hj hjl
              · intro g s hgs
                rw [List.append_assoc, layout_append, List.mem_append] at hgs
                rcases hgs with hgs | hgs
                · have hb := layout_bounds _ _ _ _ hgs
                  refine (h.others g s hgs).mono hsub ?_
                  intro j hj1 hj2
                  apply hbefore
                  simp at hb ⊢
                  omega
                · rw [← hassoc]
                  rw [layout_append, List.mem_append] at hgs
                  have e : total (pre ++ [f]) + total new = total (pre ++ [f] ++ new) := by simp; omega
                  rcases hgs with hgs | hgs
                  · simp only [layout, List.mem_cons, Prod.mk.injEq, List.not_mem_nil, or_false] at hgs
                    obtain ⟨rfl, rfl⟩ := hgs
                    rw [e]
                    exact hp.self
                  · apply hp.others
                    rw [e] at hgs
                    simpa [Nat.add_assoc] using hgs
              · intro g hgm
                have hc1 : Reaches o f callee := .one _ _ hcalls
                simp only [List.mem_append, List.mem_singleton] at hgm
                rcases hgm with (hgm | hgm) | hgm
                · exact h.reach g hgm
                · subst hgm; exact hc1
                · exact hc1.trans (hp.reach g hgm)
            refine ⟨_, hmid.patch ins hi key callee _ hr hg ?_⟩
            rw [← hassoc, List.append_assoc (pre ++ [f] ++ new), copies_append _ _ hne, h.lay.len]
            simp [layout]

theorem relocLoop_mid {o : Obj} {root : Func} (hdist : AddressesDistinct o root) {F0 : List FuncInfo} {L0 : List LineInfo}
    (rec : St → Func → Except Err St)
    (hrec : ∀ (st st' : St) (pre : List Func) (f : Func), (f = root ∨ Reaches o root f) → Lay o root F0 L0 st (pre ++ [f]) →
      st.insns.drop (total pre) = f.insns → rec st f = .ok st' → ∃ new, Post o root F0 L0 pre f st st' new)
    {pre : List Func} {f : Func} {st0 : St} (hroot : f = root ∨ Reaches o root f) (k : Nat) :
    ∀ (i : Nat) (st st' : St) (new : List Func), i + k = f.insns.length →
      Mid o root F0 L0 pre f st0 st new i →
      relocLoop o rec f (total pre) (List.range' i k) st = .ok st' →
      ∃ new', Mid o root F0 L0 pre f st0 st' new' f.insns.length := by
  induction k with
  | zero =>
    intro i st st' new hik h hs
    simp [relocLoop] at hs
    subst hs
    have : i = f.insns.length := by omega
    subst this
    exact ⟨new, h⟩
  | succ k ih =>
    intro i st st' new hik h hs
    rw [List.range'_succ] at hs
    simp only [relocLoop] at hs
    cases h1 : relocInsn o rec f (total pre) st i with
    | error e => rw [h1] at hs; cases hs
    | ok st1 =>
      rw [h1] at hs
      obtain ⟨new1, hm⟩ := relocInsn_mid hdist rec hrec h (by omega) hroot h1
      exact ih (i + 1) st1 st' new1 (by omega) hm hs

theorem relocate_post {o : Obj} {root : Func} (hdist : AddressesDistinct o root) {F0 : List FuncInfo} {L0 : List LineInfo}
    (fuel : Nat) : ∀ (st st' : St) (pre : List Func) (f : Func), (f = root ∨ Reaches o root f) → Lay o root F0 L0 st (pre ++ [f]) →
      st.insns.drop (total pre) = f.insns → relocate o fuel st f = .ok st' →
      ∃ new, Post o root F0 L0 pre f st st' new := by
  induction fuel with
  | zero => intro st st' pre f _ _ _ hs; simp [relocate] at hs
  | succ fuel ih =>
    intro st st' pre f hroot hl hd hs
    simp only [relocate] at hs
    have hstart : st.insns.length - f.insns.length = total pre := by
      rw [hl.len]; simp
    rw [hstart, List.range_eq_range'] at hs
    have hmid : Mid o root F0 L0 pre f st st [] 0 := by
      refine ⟨by simpa using hl, fun _ _ => rfl, fun j _ hj => by omega, ?_, ?_, ?_⟩
      · intro j _ _
        rw [← hd, List.getElem?_drop]
      · intro g s h; simp [layout] at h
      · intro g h; cases h
    obtain ⟨new, hm⟩ := relocLoop_mid hdist _ ih hroot _ 0 st st' [] (by omega) hmid hs
    refine ⟨new, hm.lay, hm.before, ?_, hm.others, hm.reach⟩
    intro i ins hi
    exact hm.done i ins (List.getElem?_eq_some_iff.mp hi).1 hi

end Verif.Linker
