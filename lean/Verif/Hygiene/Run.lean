import Verif.Hygiene.Model
import Verif.Hygiene.Spec
import Verif.Log.Records
/-!
# Running the code of a log statement
-/
namespace Verif.Hygiene
open Verif.Bytes
open Verif.Log (Bytes Val Level Hint Fragment Item parse field fields accepted fragHints)
open Spec

/-! ## Scopes -/

/-- `sc'` gives the names of the user the meaning they have in `sc`. -/
def Agrees (sc sc' : Scope) : Prop :=
  (∀ n, ['_', '_'].isPrefixOf n = false → n ≠ ayaLogs → sc'.vals ⟨n, false⟩ = sc.vals ⟨n, false⟩) ∧
  ∀ t, t ∉ libraryTypes → sc'.types ⟨t, false⟩ = sc.types ⟨t, false⟩

theorem eval_congr {σ : Type} (W : World σ) : ∀ (e : Expr) (sc sc' : Scope) (st : St σ),
    (∀ n ∈ names e, sc'.vals ⟨n, false⟩ = sc.vals ⟨n, false⟩) → (∀ t ∈ typeNames e, sc'.types ⟨t, false⟩ = sc.types ⟨t, false⟩) →
    eval W e sc' st = eval W e sc st
  | .lit v, sc, sc', st, _, _ => rfl
  | .name n, sc, sc', st, h, _ => by simp only [eval]; rw [h n (by simp [names])]
  | .sizeOf t, sc, sc', st, _, h => by simp only [eval]; rw [h t (by simp [typeNames])]
  | .call f a, sc, sc', st, h1, h2 => by
    simp only [eval]; rw [eval_congr W a sc sc' st (by simpa [names] using h1) (by simpa [typeNames] using h2)]
  | .question a, sc, sc', st, h1, h2 => by
    simp only [eval]; rw [eval_congr W a sc sc' st (by simpa [names] using h1) (by simpa [typeNames] using h2)]
  | .ret a, sc, sc', st, h1, h2 => by
    simp only [eval]; rw [eval_congr W a sc sc' st (by simpa [names] using h1) (by simpa [typeNames] using h2)]
  | .seq a b, sc, sc', st, h1, h2 => by
    simp only [names, typeNames, List.mem_append] at h1 h2
    simp only [eval]
    rw [eval_congr W a sc sc' st (fun n hn => h1 n (.inl hn)) (fun n hn => h2 n (.inl hn))]
    congr 1; funext v st
    exact eval_congr W b sc sc' st (fun n hn => h1 n (.inr hn)) (fun n hn => h2 n (.inr hn))
  | .letIn x a b, sc, sc', st, h1, h2 => by
    simp only [names, typeNames, List.mem_append] at h1 h2
    simp only [eval]
    rw [eval_congr W a sc sc' st (fun n hn => h1 n (.inl hn)) (fun n hn => h2 n (.inl hn))]
    congr 1; funext v st
    refine eval_congr W b _ _ st (fun n hn => ?_) (fun n hn => h2 n (.inr hn))
    simp only [Scope.setVal]
    split
    · rfl
    · exact h1 n (.inr hn)

theorem eval_agrees {σ : Type} (W : World σ) {e : Expr} (hf : Free e) {sc sc' : Scope} (ha : Agrees sc sc') (st : St σ) :
    eval W e sc' st = eval W e sc st :=
  eval_congr W e sc sc' st (fun n hn => ha.1 n (hf.1 n hn).1 (hf.1 n hn).2) (fun t ht => ha.2 t (hf.2 t ht))

theorem agrees_setVal {sc sc' : Scope} (ha : Agrees sc sc') (n : Name) (r : R)
    (hn : n.mixed = true ∨ ['_', '_'].isPrefixOf n.text = true) : Agrees sc (sc'.setVal n r) := by
  refine ⟨fun m h1 h2 => ?_, ha.2⟩
  simp only [Scope.setVal]
  rw [if_neg]
  · exact ha.1 m h1 h2
  · intro e
    subst e
    rcases hn with h | h
    · cases h
    · rw [h1] at h; cases h

theorem agrees_closure {sc sc' : Scope} (ha : Agrees sc sc') (lt : Name → Nat) {c : Code} (ht : c.types = typeImports)
    (hv : c.vals = valImports) : Agrees sc (closureScope lt c sc') := by
  refine ⟨fun m h1 h2 => ?_, fun t h => ?_⟩
  · simp only [closureScope, hv]
    rw [if_neg]
    · exact ha.1 m h1 h2
    · intro e
      simp only [valImports, List.mem_singleton, Name.mk.injEq, and_true] at e
      exact h2 e
  · simp only [closureScope, ht]
    rw [if_neg]
    · exact ha.2 t h
    · intro e
      apply h
      simpa [typeImports, libraryTypes] using e

theorem argName_inj {i j : Nat} (h : argName i = argName j) : i = j := by
  simp only [argName, Name.mk.injEq, and_true] at h
  have h := List.append_cancel_left h
  have h1 := Verif.Str.parseDigits_render 10 i (by omega) (by omega)
  rw [h, Verif.Str.parseDigits_render 10 j (by omega) (by omega)] at h1
  simpa using h1.symm

theorem arg_tmp (i : Nat) : argName i ≠ tmpName := by simp [argName, tmpName]
theorem arg_kind (i : Nat) : argName i ≠ kindName := by simp [argName, kindName]
theorem arg_value (i : Nat) : argName i ≠ valueName := by simp [argName, valueName]
theorem arg_header (i : Nat) : argName i ≠ headerName := by simp [argName, headerName]

theorem setVal_same (sc : Scope) (n : Name) (r : R) : (sc.setVal n r).vals n = some r := by simp [Scope.setVal]
theorem setVal_other (sc : Scope) {n m : Name} (r : R) (h : m ≠ n) : (sc.setVal n r).vals m = sc.vals m := by
  simp [Scope.setVal, h]

/-! ## One value -/

/-- The scope after the three statements for one value. -/
def after (sc : Scope) (i : Nat) (r : R) (k : UInt8) (v b : Bytes) : Scope :=
  (((sc.setVal tmpName r).setVal kindName (.kind k)).setVal valueName (.bytes v)).setVal (argName i) (.field b)

theorem agrees_after {sc sc' : Scope} (ha : Agrees sc sc') (i : Nat) (r : R) (k : UInt8) (v b : Bytes) :
    Agrees sc (after sc' i r k v b) := by
  unfold after
  refine agrees_setVal (agrees_setVal (agrees_setVal (agrees_setVal ha _ _ ?_) _ _ ?_) _ _ ?_) _ _ ?_
  all_goals exact .inr rfl

theorem after_header (sc : Scope) (i : Nat) (r : R) (k : UInt8) (v b : Bytes) :
    (after sc i r k v b).vals headerName = sc.vals headerName := by
  unfold after
  rw [setVal_other _ _ (arg_header i).symm, setVal_other _ _ (by decide), setVal_other _ _ (by decide),
    setVal_other _ _ (by decide)]

theorem after_arg (sc : Scope) (i : Nat) (r : R) (k : UInt8) (v b : Bytes) :
    (after sc i r k v b).vals (argName i) = some (.field b) := setVal_same _ _ _

theorem after_other (sc : Scope) {i j : Nat} (r : R) (k : UInt8) (v b : Bytes) (h : j ≠ i) :
    (after sc i r k v b).vals (argName j) = sc.vals (argName j) := by
  unfold after
  rw [setVal_other _ _ (fun e => h (argName_inj e)), setVal_other _ _ (arg_value j), setVal_other _ _ (arg_kind j),
    setVal_other _ _ (arg_tmp j)]

theorem run_one {σ : Type} (W : World σ) (c : Code) (g : G) (gs : List G) (i : Nat) (rest : List S) (sc : Scope)
    (st st1 : St σ) (r : R) (k : UInt8) (v b : Bytes) (h1 : tmpValue W tmpName sc st g = .go (sc.setVal tmpName r) st1)
    (h2 : asArgument r = some (k, v)) (h3 : field k v = some b) :
    runBody W c (perValue (g :: gs) i ++ rest) sc st = runBody W c (perValue gs (i + 1) ++ rest) (after sc i r k v b) st1 := by
  simp only [perValue, List.cons_append, runBody, runS, h1]
  rw [setVal_same]
  simp only [Option.bind_some, h2]
  rw [setVal_other _ _ (show kindName ≠ valueName by decide), setVal_same, setVal_same]
  simp only [h3]
  rfl

/-! ## All values -/

/-- The values made for some fragments and arguments. -/
inductive Matches (utf8 : List Char → Bytes) : List Fragment → List Expr → List G → Prop where
  | nil (es) : Matches utf8 [] es []
  | lit {s fs es gs} : Matches utf8 fs es gs → Matches utf8 (.literal s :: fs) es (.text (utf8 s) :: gs)
  | par {h fs e es gs} : Matches utf8 fs es gs → Matches utf8 (.param h :: fs) (e :: es) (.hint h :: .arg h e :: gs)

theorem values_matches {utf8 : List Char → Bytes} {args : Option (List Expr)} :
    ∀ {fs : List Fragment} {i : Nat} {gs : List G}, values utf8 args fs i = .ok gs → Matches utf8 fs ((args.getD []).drop i) gs
  | [], i, gs, h => by simp only [values, Except.ok.injEq] at h; subst h; exact .nil _
  | .literal s :: fs, i, gs, h => by
    simp only [values] at h
    split at h
    · cases h
    · rename_i gs' e
      simp only [Except.ok.injEq] at h; subst h
      exact .lit (values_matches e)
  | .param x :: fs, i, gs, h => by
    cases args with
    | none => simp only [values] at h; cases h
    | some as =>
      simp only [values] at h
      split at h
      · cases h
      · rename_i a ha
        split at h
        · cases h
        · rename_i gs' e
          simp only [Except.ok.injEq] at h; subst h
          have := values_matches e
          have hd : (Option.getD (some as) []).drop i = a :: (Option.getD (some as) []).drop (i + 1) := by
            have hi : i < as.length := by
              rcases Nat.lt_or_ge i as.length with q | q
              · exact q
              · rw [List.getElem?_eq_none q] at ha; cases ha
            have : as[i] = a := by rw [List.getElem?_eq_getElem hi] at ha; simpa using ha
            simp only [Option.getD_some]
            rw [← this]
            exact List.drop_eq_getElem_cons hi
          rw [hd]
          exact .par this

theorem field_some (k : UInt8) (v : Bytes) (h : v.length < 65536) : ∃ b, field k v = some b := ⟨_, if_pos h⟩

theorem fields_cons' {k : UInt8} {v b : Bytes} {r : List (UInt8 × Bytes)} {c : Bytes} (h : field k v = some b)
    (hr : fields r = some c) : fields ((k, v) :: r) = some (b ++ c) := by simp only [fields, h, hr]

theorem run_values {σ : Type} (W : World σ) (c : Code) {utf8 : List Char → Bytes} {sc : Scope} {fs : List Fragment}
    {es : List Expr} {gs : List G} (hm : Matches utf8 fs es gs) : ∀ {st st2 : St σ} {ds : List Val},
    (∀ e ∈ es, Free e) → InOrder W sc st es (ds.map .data) st2 → es.length = (fragHints fs).length →
    (∀ p ∈ (fragHints fs).zip ds, accepted p.1 p.2 = true) →
    (∀ s, Fragment.literal s ∈ fs → (utf8 s).length < 65536) → (∀ v ∈ ds, Log.Spec.argSize v < 65536) →
    ∃ items, Log.expand utf8 fs ds = some items ∧ items.length = gs.length ∧
      ∃ b, fields (items.map Item.argument) = some b ∧
      ∀ (i : Nat) (sc' : Scope) (rest : List S), Agrees sc sc' → ∃ sc'', Agrees sc sc'' ∧
        runBody W c (perValue gs i ++ rest) sc' st = runBody W c rest sc'' st2 ∧
        sc''.vals headerName = sc'.vals headerName ∧ (∀ k < i, sc''.vals (argName k) = sc'.vals (argName k)) ∧
        gather sc'' ((List.range' i gs.length).map argName) = some b := by
  induction hm with
  | nil es =>
    intro st st2 ds _ ho hlen _ _ _
    have : es = [] := by simpa [fragHints] using hlen
    subst this
    generalize hvs : ds.map V.data = vs at ho
    cases ho
    have : ds = [] := by simpa using hvs
    subst this
    exact ⟨[], rfl, rfl, [], rfl, fun i sc' rest ha => ⟨sc', ha, rfl, rfl, fun _ _ => rfl, rfl⟩⟩
  | @lit s fs es gs hm ih =>
    intro st st2 ds hfree ho hlen hacc hlit hsz
    obtain ⟨items, h1, h2, b, h3, h4⟩ := ih hfree ho hlen hacc (fun t ht => hlit t (List.mem_cons_of_mem _ ht)) hsz
    obtain ⟨b0, hb0⟩ := field_some 20 (utf8 s) (hlit s (List.mem_cons_self ..))
    refine ⟨.text (utf8 s) :: items, by simp only [Log.expand, h1], by simp [h2], b0 ++ b, ?_, ?_⟩
    · exact fields_cons' hb0 h3
    · intro i sc' rest ha
      obtain ⟨sc'', g1, g2, g3, g4, g5⟩ := h4 (i + 1) (after sc' i (.user (.data (.str (utf8 s)))) 20 (utf8 s) b0) rest
        (agrees_after ha ..)
      refine ⟨sc'', g1, ?_, ?_, ?_, ?_⟩
      · rw [run_one W c (.text (utf8 s)) gs i rest sc' st st _ 20 (utf8 s) b0 rfl rfl hb0]; exact g2
      · rw [g3, after_header]
      · intro k hk; rw [g4 k (by omega), after_other _ _ _ _ _ (by omega)]
      · simp only [List.length_cons, List.range'_succ, List.map_cons, gather]
        rw [g4 i (by omega), after_arg, g5]
  | @par h fs e es gs hm ih =>
    intro st st2 ds hfree ho hlen hacc hlit hsz
    generalize hvs : ds.map V.data = vs at ho
    cases ho with
    | @cons _ st1 _ _ v _ vs' he ho' =>
    cases ds with
    | nil => cases hvs
    | cons d ds =>
    simp only [List.map_cons, List.cons.injEq] at hvs
    obtain ⟨rfl, rfl⟩ := hvs
    obtain ⟨items, h1, h2, b, h3, h4⟩ := ih (fun x hx => hfree x (List.mem_cons_of_mem _ hx)) ho'
      (by simpa [fragHints] using hlen) (fun p hp => hacc p (by simp only [fragHints, List.zip_cons_cons]; exact List.mem_cons_of_mem _ hp))
      (fun t ht => hlit t (List.mem_cons_of_mem _ ht)) (fun x hx => hsz x (List.mem_cons_of_mem _ hx))
    have hd : accepted h d = true := hacc (h, d) (by simp only [fragHints, List.zip_cons_cons]; exact List.mem_cons_self ..)
    obtain ⟨bh, hbh⟩ := field_some 0 [h.byte] (by simp)
    obtain ⟨bd, hbd⟩ := field_some d.argument.1 d.argument.2 (by rw [Log.argument_size]; exact hsz d (List.mem_cons_self ..))
    refine ⟨.hint h :: .arg d :: items, by simp only [Log.expand, hd, h1, if_true], by simp [h2], bh ++ (bd ++ b), ?_, ?_⟩
    · exact fields_cons' hbh (fields_cons' hbd h3)
    · intro i sc' rest ha
      have ha1 := agrees_after ha i (.hint h) 0 [h.byte] bh
      have hev : tmpValue W tmpName (after sc' i (.hint h) 0 [h.byte] bh) st (.arg h e) =
          .go ((after sc' i (.hint h) 0 [h.byte] bh).setVal tmpName (.user (.data d))) st1 := by
        simp only [tmpValue]
        rw [eval_agrees W (hfree e (List.mem_cons_self ..)) ha1, he]
        simp only [inClosure, hd, if_true]
      obtain ⟨sc'', g1, g2, g3, g4, g5⟩ := h4 (i + 2)
        (after (after sc' i (.hint h) 0 [h.byte] bh) (i + 1) (.user (.data d)) d.argument.1 d.argument.2 bd) rest
        (agrees_after ha1 ..)
      refine ⟨sc'', g1, ?_, ?_, ?_, ?_⟩
      · rw [run_one W c (.hint h) _ i rest sc' st st (.hint h) 0 [h.byte] bh rfl rfl hbh,
          run_one W c (.arg h e) gs (i + 1) rest _ st st1 (.user (.data d)) d.argument.1 d.argument.2 bd hev rfl hbd]
        exact g2
      · rw [g3, after_header, after_header]
      · intro k hk
        rw [g4 k (by omega), after_other _ _ _ _ _ (by omega), after_other _ _ _ _ _ (by omega)]
      · simp only [List.length_cons, List.range'_succ, List.map_cons, gather]
        rw [g4 i (by omega), after_other _ _ _ _ _ (by omega), after_arg, g4 (i + 1) (by omega), after_arg, g5]

end Verif.Hygiene
