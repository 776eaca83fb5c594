import Verif.Reloc.Spec
set_option linter.unusedSimpArgs false
set_option linter.unusedVariables false
/-!
The common shape of both loops: each relocation that applies replaces an instruction, and possibly the
immediate of the following one.
-/
namespace Verif.Reloc
open Verif.Bpf Verif.Reloc.Spec

/-- What a relocation does to its instruction: nothing, or replace it and set the next immediate. -/
abbrev Act := Rel → Insn → Except Err (Option (Insn × Option Int))

def step (act : Act) (missing : Err) (so : Nat) (insns : List Insn) (rel : Rel) : Except Err (List Insn) :=
  if rel.offset < so ∨ so + insns.length * insSize ≤ rel.offset then .ok insns
  else if (rel.offset - so) % insSize ≠ 0 then .error .invalidOffset
  else
    match insns[(rel.offset - so) / insSize]? with
    | none => .error .panicIndex
    | some ins =>
      match act rel ins with
      | .error e => .error e
      | .ok none => .ok insns
      | .ok (some (ins', none)) => .ok (insns.set ((rel.offset - so) / insSize) ins')
      | .ok (some (ins', some imm)) =>
        match insns[(rel.offset - so) / insSize + 1]? with
        | none => .error missing
        | some next => .ok ((insns.set ((rel.offset - so) / insSize) ins').set
            ((rel.offset - so) / insSize + 1) { next with imm := imm })

def loop (act : Act) (missing : Err) (so : Nat) : List Rel → List Insn → Except Err (List Insn)
  | [], insns => .ok insns
  | rel :: rels, insns =>
    match step act missing so insns rel with
    | .error e => .error e
    | .ok insns => loop act missing so rels insns

/-- `rel` rewrites instruction `i` of the original code. -/
def Hits (act : Act) (so : Nat) (orig : List Insn) (rel : Rel) (i : Nat) (ins' : Insn) (n : Option Int) : Prop :=
  At so rel i ∧ ∃ ins, orig[i]? = some ins ∧ act rel ins = .ok (some (ins', n))

/-- No relocation sits on the second half of an instruction pair rewritten by another one. -/
def NoOverlap (act : Act) (so : Nat) (orig : List Insn) (rels : List Rel) : Prop :=
  ∀ r1 ∈ rels, ∀ r2 ∈ rels, ∀ i a n, Hits act so orig r1 i a (some n) → ¬ At so r2 (i + 1)

/-- The content of instruction `i` once the relocations in `done` have been applied. -/
def Now (act : Act) (so : Nat) (orig : List Insn) (done : List Rel) (i : Nat) (ins out : Insn) : Prop :=
  (∃ rel ∈ done, ∃ n, Hits act so orig rel i out n) ∨
  ((∀ rel ∈ done, ∀ a n, ¬ Hits act so orig rel i a n) ∧
    ((∃ rel ∈ done, ∃ j a n, i = j + 1 ∧ Hits act so orig rel j a (some n) ∧ out = { ins with imm := n }) ∨
     ((∀ rel ∈ done, ∀ j a n, i = j + 1 → ¬ Hits act so orig rel j a (some n)) ∧ out = ins)))

theorem Spec.At.inj {so : Nat} {rel : Rel} {i j : Nat} (h1 : At so rel i) (h2 : At so rel j) : i = j := by
  unfold At at *; omega

theorem loop_spec (act : Act) (missing : Err) (so : Nat) (orig : List Insn) (all : List Rel)
    (hdist : (all.map Rel.offset).Nodup) (hno : NoOverlap act so orig all)
    (rels : List Rel) : ∀ (done : List Rel) (insns insns' : List Insn), all = done ++ rels →
      insns.length = orig.length →
      (∀ i ins, orig[i]? = some ins → ∃ out, insns[i]? = some out ∧ Now act so orig done i ins out) →
      loop act missing so rels insns = .ok insns' →
      insns'.length = orig.length ∧
      ∀ i ins, orig[i]? = some ins → ∃ out, insns'[i]? = some out ∧ Now act so orig all i ins out := by
  induction rels with
  | nil =>
    intro done insns insns' hall hlen h hl
    simp [loop] at hl
    subst hl
    have : all = done := by simpa using hall
    subst this
    exact ⟨hlen, h⟩
  | cons rel rels ih =>
    intro done insns insns' hall hlen h hl
    simp only [loop] at hl
    cases hs : step act missing so insns rel with
    | error e => rw [hs] at hl; cases hl
    | ok insns1 =>
      rw [hs] at hl
      have hrel : rel ∈ all := by rw [hall]; simp
      have hdone : ∀ r ∈ done, r ∈ all := fun r hr => by rw [hall]; simp [hr]
      have hne : ∀ r ∈ done, r.offset ≠ rel.offset := by
        intro r hr heq
        rw [hall, List.map_append, List.map_cons] at hdist
        have := (List.nodup_append.mp hdist).2.2 r.offset (List.mem_map_of_mem hr) rel.offset (by simp)
        exact this heq
      -- a relocation that changes nothing
      have hskip : (∀ i a n, ¬ Hits act so orig rel i a n) →
          ∀ i ins out, Now act so orig done i ins out → Now act so orig (done ++ [rel]) i ins out := by
        intro hnone i ins out hn
        rcases hn with ⟨r, hr, n, hh⟩ | ⟨h1, h2⟩
        · exact Or.inl ⟨r, by simp [hr], n, hh⟩
        · refine Or.inr ⟨?_, ?_⟩
          · intro r hr a n
            rcases List.mem_append.mp hr with hr | hr
            · exact h1 r hr a n
            · have : r = rel := by simpa using hr
              subst this; exact hnone i a n
          · rcases h2 with ⟨r, hr, j, a, n, e, hh, ho⟩ | ⟨h2, ho⟩
            · exact Or.inl ⟨r, by simp [hr], j, a, n, e, hh, ho⟩
            · refine Or.inr ⟨?_, ho⟩
              intro r hr j a n e
              rcases List.mem_append.mp hr with hr | hr
              · exact h2 r hr j a n e
              · have : r = rel := by simpa using hr
                subst this; exact hnone j a (some n)
      refine ih (done ++ [rel]) insns1 insns' (by rw [hall]; simp) ?_ ?_ hl
      · simp only [step] at hs
        repeat' split at hs
        all_goals first
          | (cases hs; done)
          | (cases hs; exact hlen)
          | (cases hs; simp only [List.length_set]; exact hlen)
      · simp only [step] at hs
        by_cases hrange : rel.offset < so ∨ so + insns.length * insSize ≤ rel.offset
        · rw [if_pos hrange] at hs
          cases hs
          intro i ins hi
          obtain ⟨out, h1, h2⟩ := h i ins hi
          refine ⟨out, h1, hskip ?_ i ins out h2⟩
          rintro j a n ⟨hat, ins2, hj, _⟩
          have := (List.getElem?_eq_some_iff.mp hj).1
          unfold At at hat
          simp only [insSize] at hrange
          omega
        · rw [if_neg hrange] at hs
          by_cases hmod : (rel.offset - so) % insSize ≠ 0
          · rw [if_pos hmod] at hs; cases hs
          · rw [if_neg hmod] at hs
            obtain ⟨k, hk⟩ : ∃ k, (rel.offset - so) / insSize = k := ⟨_, rfl⟩
            rw [hk] at hs
            have hat : At so rel k := by
              unfold At
              simp only [insSize] at hmod hk hrange
              omega
            have hkl : k < orig.length := by
              simp only [insSize] at hrange
              unfold At at hat
              omega
            obtain ⟨ins0, hk0⟩ : ∃ x, orig[k]? = some x := ⟨_, List.getElem?_eq_getElem hkl⟩
            obtain ⟨cur, hcur, hnow⟩ := h k ins0 hk0
            rw [hcur] at hs
            -- nothing done so far hits `k`
            have hnohit : ∀ r ∈ done, ∀ a n, ¬ Hits act so orig r k a n := by
              rintro r hr a n ⟨hr1, _⟩
              apply hne r hr
              unfold At at hr1 hat
              omega
            simp only at hs
            have hcur0 : cur = ins0 := by
              rcases hnow with ⟨r, hr, n, hh⟩ | ⟨_, h2⟩
              · exact absurd hh (hnohit r hr _ _)
              · rcases h2 with ⟨r, hr, j, a, n, e, hh, _⟩ | ⟨_, ho⟩
                · exact absurd (e ▸ hat) (hno r (hdone r hr) rel hrel j a n hh)
                · exact ho
            subst hcur0
            cases ha : act rel cur with
            | error e => rw [ha] at hs; cases hs
            | ok r =>
              rw [ha] at hs
              have hunique : ∀ i a n, Hits act so orig rel i a n → i = k ∧ r = some (a, n) := by
                rintro i a n ⟨h1, x, hx, hax⟩
                have := At.inj h1 hat
                subst this
                rw [hk0] at hx; cases hx
                rw [ha] at hax
                exact ⟨rfl, by simpa using hax⟩
              cases r with
              | none =>
                cases hs
                intro i ins hi
                obtain ⟨out, h1, h2⟩ := h i ins hi
                refine ⟨out, h1, hskip ?_ i ins out h2⟩
                intro j a n hh
                have := (hunique j a n hh).2
                cases this
              | some p =>
                obtain ⟨ins', nx⟩ := p
                have hit : Hits act so orig rel k ins' nx := ⟨hat, cur, hk0, ha⟩
                have hkeep : ∀ i ins out, i ≠ k → (i = k + 1 → nx = none) → Now act so orig done i ins out →
                    Now act so orig (done ++ [rel]) i ins out := by
                  intro i ins out hik hik1 hn
                  rcases hn with ⟨r, hr, n, hh⟩ | ⟨h1, h2⟩
                  · exact Or.inl ⟨r, by simp [hr], n, hh⟩
                  · refine Or.inr ⟨?_, ?_⟩
                    · intro r hr a n
                      rcases List.mem_append.mp hr with hr | hr
                      · exact h1 r hr a n
                      · have : r = rel := by simpa using hr
                        subst this
                        intro hh
                        exact hik (hunique i a n hh).1
                    · rcases h2 with ⟨r, hr, j, a, n, e, hh, ho⟩ | ⟨h2, ho⟩
                      · exact Or.inl ⟨r, by simp [hr], j, a, n, e, hh, ho⟩
                      · refine Or.inr ⟨?_, ho⟩
                        intro r hr j a n e
                        rcases List.mem_append.mp hr with hr | hr
                        · exact h2 r hr j a n e
                        · have : r = rel := by simpa using hr
                          subst this
                          intro hh
                          obtain ⟨e1, e2⟩ := hunique j a (some n) hh
                          subst e1
                          have e3 := hik1 e
                          rw [e3] at e2
                          cases e2
                cases nx with
                | none =>
                  cases hs
                  intro i ins hi
                  by_cases hik : i = k
                  · subst hik
                    have hl : i < insns.length := by omega
                    exact ⟨ins', by simp [List.getElem?_set, hl], Or.inl ⟨rel, by simp, none, hit⟩⟩
                  · obtain ⟨out, h1, h2⟩ := h i ins hi
                    refine ⟨out, ?_, hkeep i ins out hik (fun _ => rfl) h2⟩
                    rw [List.getElem?_set_ne (fun h => hik h.symm)]
                    exact h1
                | some imm =>
                  simp only at hs
                  cases hnext : insns[k + 1]? with
                  | none => rw [hnext] at hs; cases hs
                  | some next =>
                    rw [hnext] at hs
                    cases hs
                    have hl1 : k + 1 < insns.length := (List.getElem?_eq_some_iff.mp hnext).1
                    intro i ins hi
                    by_cases hik : i = k
                    · subst hik
                      refine ⟨ins', ?_, Or.inl ⟨rel, by simp, some imm, hit⟩⟩
                      rw [List.getElem?_set_ne (by omega)]
                      simp [List.getElem?_set]; omega
                    · by_cases hik1 : i = k + 1
                      · subst hik1
                        obtain ⟨out, h1, h2⟩ := h (k + 1) ins hi
                        rw [hnext] at h1
                        cases h1
                        have hnohit1 : ∀ r ∈ all, ∀ a n, ¬ Hits act so orig r (k + 1) a n :=
                          fun r hr a n hh => hno rel hrel r hr k ins' imm hit hh.1
                        have hout : next = ins := by
                          rcases h2 with ⟨r, hr, n, hh⟩ | ⟨_, h2⟩
                          · exact absurd hh (hnohit1 r (hdone r hr) _ _)
                          · rcases h2 with ⟨r, hr, j, a, n, e, hh, _⟩ | ⟨_, ho⟩
                            · have : j = k := by omega
                              subst this
                              exact absurd hh (hnohit r hr _ _)
                            · exact ho
                        subst hout
                        refine ⟨{ next with imm := imm }, ?_, Or.inr ⟨?_, Or.inl ⟨rel, by simp, k, ins', imm, rfl, hit, rfl⟩⟩⟩
                        · simp [List.getElem?_set]; omega
                        · intro r hr a n
                          refine hnohit1 r ?_ a n
                          rcases List.mem_append.mp hr with hr | hr
                          · exact hdone r hr
                          · have : r = rel := by simpa using hr
                            subst this; exact hrel
                      · obtain ⟨out, h1, h2⟩ := h i ins hi
                        refine ⟨out, ?_, hkeep i ins out hik (fun h => absurd h hik1) h2⟩
                        rw [List.getElem?_set_ne (fun h => hik1 h.symm), List.getElem?_set_ne (fun h => hik h.symm)]
                        exact h1

theorem Now.init (act : Act) (so : Nat) (orig : List Insn) (i : Nat) (ins : Insn) :
    Now act so orig [] i ins ins :=
  Or.inr ⟨by simp, Or.inr ⟨by simp, rfl⟩⟩

/-- Why a run ends in an error. -/
theorem loop_error (act : Act) (missing : Err) (so : Nat) (rels : List Rel) :
    ∀ (insns : List Insn) (e : Err), loop act missing so rels insns = .error e →
      e ≠ .panicIndex ∨ missing = .panicIndex ∨ ∃ rel ins, act rel ins = .error .panicIndex := by
  induction rels with
  | nil => intro insns e h; simp [loop] at h
  | cons rel rels ih =>
    intro insns e h
    simp only [loop] at h
    cases hs : step act missing so insns rel with
    | ok insns1 => rw [hs] at h; exact ih insns1 e h
    | error e1 =>
      rw [hs] at h
      cases h
      by_cases hp : e = .panicIndex
      · subst hp
        simp only [step] at hs
        split at hs
        · cases hs
        · split at hs
          · cases hs
          · rename_i h1 h2
            split at hs
            · rename_i hn
              exfalso
              rw [List.getElem?_eq_none_iff] at hn
              simp only [insSize] at h1 h2 hn
              omega
            · rename_i ins hi
              cases ha : act rel ins with
              | error e2 => rw [ha] at hs; cases hs; exact Or.inr (Or.inr ⟨rel, ins, ha⟩)
              | ok r =>
                rw [ha] at hs
                match r, hs with
                | none, hs => cases hs
                | some (_, none), hs => cases hs
                | some (_, some _), hs =>
                  simp only at hs
                  split at hs
                  · cases hs; exact Or.inr (Or.inl rfl)
                  · cases hs
      · exact Or.inl hp

end Verif.Reloc
