import Verif.Hygiene.Run
/-!
# C108: a log statement does nothing to the program but log
-/
namespace Verif.Hygiene
open Verif.Bytes
open Verif.Log (Bytes Val Level Hint Fragment Item parse field fields accepted Std flushOne fragHints fragHints_meaning)
open Spec

theorem text_accepted {std : Std} {h : Hint} {v : Val} (ht : (Log.Spec.text std h v).isSome = true) : accepted h v = true := by
  unfold Log.Spec.text at ht
  split at ht <;> first
    | rfl
    | (simp at ht; done)
    | skip
  all_goals simp only [accepted]
  rename_i b
  by_cases h4 : b.length = 4
  · simp [h4]
  · by_cases h16 : b.length = 16
    · simp [h16]
    · simp [h4, h16] at ht

/-- Every argument can be shown as its parameter asks for. -/
theorem message_accepted {std : Std} {utf8 : Char → Bytes} : ∀ {ps : List Log.Spec.Piece} {ds : List Val},
    (Log.Spec.message std utf8 ps ds).isSome = true → ∀ p ∈ (Log.Spec.hints ps).zip ds, accepted p.1 p.2 = true
  | [], ds, _ => by simp [Log.Spec.hints]
  | .chr c :: r, ds, h => by
    simp only [Log.Spec.message, Option.isSome_map] at h; exact message_accepted (ps := r) h
  | .openBrace :: r, ds, h => by
    simp only [Log.Spec.message, Option.isSome_map] at h; exact message_accepted (ps := r) h
  | .closeBrace :: r, ds, h => by
    simp only [Log.Spec.message, Option.isSome_map] at h; exact message_accepted (ps := r) h
  | .param x :: r, [], h => by simp [Log.Spec.message] at h
  | .param x :: r, d :: ds, h => by
    simp only [Log.Spec.message] at h
    split at h
    · rename_i t m e1 e2
      intro p hp
      simp only [Log.Spec.hints, List.zip_cons_cons, List.mem_cons] at hp
      rcases hp with rfl | hp
      · exact text_accepted (by rw [e1]; rfl)
      · exact message_accepted (ps := r) (by rw [e2]; rfl) p hp
    · cases h

theorem level_number (l : Level) : l.byte.toNat = Log.Spec.severity l := by cases l <;> rfl

theorem fields_append {a b : List (UInt8 × Bytes)} {x y : Bytes} (ha : fields a = some x) (hb : fields b = some y) :
    fields (a ++ b) = some (x ++ y) := by
  induction a generalizing x with
  | nil => simp only [fields, Option.some.injEq] at ha; subst ha; simpa using hb
  | cons kv r ih =>
    obtain ⟨b1, b2, f1, f2, rfl⟩ := Log.fields_cons (k := kv.1) (v := kv.2) ha
    rw [List.cons_append, List.append_assoc]
    exact fields_cons' f1 (ih f2)

/-- What `sendBytes` adds is what `logStatement` submits. -/
theorem sendBytes_eq {σ : Type} (W : World σ) (enabled : Nat) (h : Log.Header) (items : List Item) (body : Bytes) (st : St σ)
    (hl : h.level.byte.toNat ≤ enabled) (hb : fields (Log.recordFields h items) = some body) :
    sendBytes W body st = match Log.logStatement enabled (W.reserve st) h items with
      | .dropped => st
      | .submitted buf => { st with sent := st.sent ++ [buf] } := by
  unfold sendBytes Log.logStatement
  rw [if_pos hl, hb]
  dsimp only
  split
  · cases Log.capacityFor 9 64 (2 + body.length) with
    | none => rfl
    | some cap =>
      dsimp only
      cases W.reserve st cap with
      | none => rfl
      | some buf =>
        dsimp only
        split <;> rfl
  · rfl

theorem levelOf_is {kind : Option Level} {a : LogArgs} {e : Expr} (h : LevelIs kind a e) : levelOf a kind = some e := by
  cases kind with
  | none => exact h
  | some l => simp only [LevelIs] at h; rw [h.2]; rfl

/-- The code of a statement. -/
theorem expandLog_code {utf8 : List Char → Bytes} {pl : Place} {a : LogArgs} {kind : Option Level} {c : Code}
    (h : expandLog utf8 pl a kind = .ok c) : ∃ lv fs gs, levelOf a kind = some lv ∧ parse a.format = .ok fs ∧
      values utf8 a.args fs 0 = .ok gs ∧ gs.length < 4294967296 ∧
      c.level = levelName ∧ c.levelExpr = lv ∧ c.ctx = a.ctx ∧ c.types = typeImports ∧ c.vals = valImports ∧
      c.body = .header headerName (targetOf pl a) levelName gs.length ::
        (perValue gs 0 ++ [.send headerName ((List.range gs.length).map argName)]) ∧
      c.module = pl.module ∧ c.file = pl.file ∧ c.line = pl.line := by
  unfold expandLog at h
  split at h
  · cases h
  · rename_i lv hle
    split at h
    · cases h
    · rename_i fs hfs
      split at h
      · cases h
      · rename_i gs hgs
        split at h
        · rename_i hlt
          simp only [Except.ok.injEq] at h
          subst h
          exact ⟨lv, fs, gs, hle, hfs, hgs, hlt, rfl, rfl, rfl, rfl, rfl, rfl, rfl, rfl, rfl⟩
        · cases h

/-- **C108** A log statement that is enabled evaluates its level, its context, its target and its arguments where it stands, in this
    order and each once, and then at most sends a record: the memory of the program is as these left it, the value of the statement
    is `()`, and the program goes on behind it. The record is sent exactly if it has at most 8192 bytes and there is room, after
    all records sent by what was evaluated, and it is shown as what the statement says about these values.

    Missing, and each refuted below: names that begin with two underscores, `AYA_LOGS`, and types called `Header`, `Field` or
    `Argument` in target and arguments (`Free`); expressions in them that leave the function (they must have values); more arguments
    than parameters; a level given to `error!` to `trace!` (`LevelIs`); and texts of 64 KiB and more (`Fits`). -/
theorem C108_transparent_partial {σ : Type} (W : World σ) (hres : ∀ st n b, W.reserve st n = some b → b.length = n)
    (enabled : Nat) (lt : Name → Nat) (utf8 : Char → Bytes) (pl : Place) (a : LogArgs) (kind : Option Level) (c : Code)
    (hc : expandLog (fun s => s.flatMap utf8) pl a kind = .ok c)
    (ps : List Log.Spec.Piece) (hp : ∀ p ∈ ps, p.Ordinary) (hfmt : a.format = Log.Spec.written ps)
    (levelE : Expr) (hlv : LevelIs kind a levelE)
    (hfree : Free (targetOf pl a) ∧ ∀ e ∈ argsOf a, Free e) (hall : (argsOf a).length = (Log.Spec.hints ps).length)
    (sc : Scope) (st st0 st1 st2 : St σ) (l : Level) (v : V) (t : Bytes) (ds : List Val)
    (hlevel : eval W levelE sc st = (.val (.level l), st0)) (hen : Log.Spec.severity l ≤ enabled)
    (hctx : eval W a.ctx sc st0 = (.val v, st1))
    (hargs : InOrder W sc st1 (targetOf pl a :: argsOf a) (.data (.str t) :: ds.map .data) st2)
    (hfits : Fits utf8 pl ps t ds)
    (std : Std) (m : Bytes) (hm : Log.Spec.message std utf8 ps ds = some m) :
    ∃ st3, runCode W enabled lt c sc st = (.val .unit, st3) ∧ st3.mem = st2.mem ∧
      ((Log.Spec.recordSize utf8 ⟨t, l, pl.module, pl.file, pl.line⟩ ps ds ≤ 8192 ∧
          (W.reserve st2 (Log.Spec.slot (Log.Spec.recordSize utf8 ⟨t, l, pl.module, pl.file, pl.line⟩ ps ds))).isSome = true →
        ∃ buf, st3.sent = st2.sent ++ [buf] ∧
          ((∀ s : List Char, std.utf8 (s.flatMap utf8) = true) → std.utf8 t = true → std.utf8 pl.module = true →
            std.utf8 pl.file = true → pl.line < 2 ^ 32 → (∀ d ∈ ds, Log.Spec.Valid std d) →
            (∀ p ∈ (Log.Spec.hints ps).zip ds, ¬ Log.Spec.HexOfSpecialArray p.1 p.2) →
            flushOne std buf = .logged ⟨t, l, pl.module, pl.file, pl.line, m⟩)) ∧
       (¬(Log.Spec.recordSize utf8 ⟨t, l, pl.module, pl.file, pl.line⟩ ps ds ≤ 8192 ∧
          (W.reserve st2 (Log.Spec.slot (Log.Spec.recordSize utf8 ⟨t, l, pl.module, pl.file, pl.line⟩ ps ds))).isSome = true) →
        st3.sent = st2.sent)) := by
  obtain ⟨lv, fs, gs, h1, h2, h3, h4, c1, c2, c3, c4, c5, c6, c7, c8, c9⟩ := expandLog_code hc
  rw [levelOf_is hlv] at h1
  obtain rfl : levelE = lv := by simpa using h1
  have hparse := h2
  rw [hfmt, Log.C44_parses ps hp] at hparse
  obtain rfl : Log.Spec.meaning ps = fs := by simpa using hparse
  have hmat := values_matches h3
  simp only [List.drop_zero] at hmat
  cases hargs with
  | @cons _ st' _ _ _ _ _ ht hrest =>
  obtain ⟨f1, f2, f3, f4, f5⟩ := hfits
  obtain ⟨items, i1, i2, b, i3, i4⟩ := run_values W c hmat hfree.2 hrest (by rw [fragHints_meaning]; exact hall)
    (by rw [fragHints_meaning]; exact message_accepted (by rw [hm]; rfl)) f4 f5
  obtain ⟨hb, hhb⟩ : ∃ hb, fields [(0, t), (1, [l.byte]), (2, pl.module), (3, pl.file), (4, le 4 pl.line), (5, le 4 gs.length)] =
      some hb := by
    obtain ⟨x0, e0⟩ := field_some 0 t f1
    obtain ⟨x1, e1⟩ := field_some 1 [l.byte] (by simp)
    obtain ⟨x2, e2⟩ := field_some 2 pl.module f2
    obtain ⟨x3, e3⟩ := field_some 3 pl.file f3
    obtain ⟨x4, e4⟩ := field_some 4 (le 4 pl.line) (by simp)
    obtain ⟨x5, e5⟩ := field_some 5 (le 4 gs.length) (by simp)
    exact ⟨_, fields_cons' e0 (fields_cons' e1 (fields_cons' e2 (fields_cons' e3 (fields_cons' e4 (fields_cons' e5 rfl)))))⟩
  have hrec : fields (Log.recordFields ⟨t, l, pl.module, pl.file, pl.line⟩ items) = some (hb ++ b) := by
    unfold Log.recordFields
    rw [i2]
    exact fields_append hhb i3
  have hse := sendBytes_eq W enabled ⟨t, l, pl.module, pl.file, pl.line⟩ items (hb ++ b) st2
    (by rw [level_number]; exact hen) hrec
  have hrun : runCode W enabled lt c sc st = (.val .unit, sendBytes W (hb ++ b) st2) := by
    have ha0 : Agrees sc (sc.setVal levelName (.user (.level l))) :=
      agrees_setVal ⟨fun _ _ _ => rfl, fun _ _ => rfl⟩ _ _ (.inl rfl)
    have hctx' : eval W a.ctx (sc.setVal levelName (.user (.level l))) st0 = (.val v, st1) := by
      rw [← hctx]
      refine eval_congr W _ _ _ _ (fun n _ => ?_) (fun _ _ => rfl)
      exact setVal_other _ _ (by simp [levelName])
    unfold runCode
    simp only [c1, c2, c3, c6, hlevel, andThen, levelEnabled, level_number, hen, decide_true, if_true, hctx']
    have hcl := agrees_closure ha0 lt c4 c5
    have hlv' : (closureScope lt c (sc.setVal levelName (.user (.level l)))).vals levelName = some (.user (.level l)) := by
      simp only [closureScope, c5]
      rw [if_neg (by decide)]
      exact setVal_same _ _ _
    obtain ⟨sc'', g1, g2, g3, _, g5⟩ := i4 0 _ [.send headerName ((List.range gs.length).map argName)]
      (agrees_setVal hcl headerName (.header hb) (.inr rfl))
    rw [runBody]
    simp only [runS]
    rw [eval_agrees W hfree.1 hcl, ht]
    simp only [inClosure, hlv', headerBytes, c7, c8, c9, hhb]
    rw [g2]
    simp only [runBody, runS]
    rw [g3, setVal_same, List.range_eq_range', g5]
  have hc42 := Log.C42_sent utf8 ⟨t, l, pl.module, pl.file, pl.line⟩ ps hp ds _ (Log.C44_parses ps hp) items i1 enabled
    (W.reserve st2) (hres st2)
  refine ⟨_, hrun, ?_, ?_, ?_⟩
  · rw [hse]; split <;> rfl
  · intro hok
    obtain ⟨buf, hbuf⟩ := hc42.1.mpr ⟨hen, hok⟩
    rw [hbuf] at hse
    refine ⟨buf, by rw [hse], ?_⟩
    intro u1 u2 u3 u4 u5 u6 u7
    obtain ⟨m', e1, e2⟩ := Log.C42_logged_as_written_partial std utf8 u1 ⟨t, l, pl.module, pl.file, pl.line⟩ u2 u3 u4 u5 ps hp ds u6 u7
      _ (Log.C44_parses ps hp) items i1 (by rw [i2]; exact h4) enabled (W.reserve st2) buf hbuf
    rw [hm] at e1
    cases e1
    exact e2
  · intro hno
    rw [hse]
    split
    · rfl
    · rename_i buf hbuf
      exact absurd ((hc42.1.mp ⟨buf, hbuf⟩).2) hno

/-- **C108** A statement of a level that is not enabled evaluates its level and nothing else, and sends nothing. -/
theorem C108_disabled {σ : Type} (W : World σ) (enabled : Nat) (lt : Name → Nat) (utf8 : List Char → Bytes) (pl : Place)
    (a : LogArgs) (kind : Option Level) (c : Code) (hc : expandLog utf8 pl a kind = .ok c) (levelE : Expr)
    (hlv : LevelIs kind a levelE) (sc : Scope) (st st0 : St σ) (l : Level)
    (hlevel : eval W levelE sc st = (.val (.level l), st0)) (hen : enabled < Log.Spec.severity l) :
    runCode W enabled lt c sc st = (.val .unit, st0) := by
  obtain ⟨lv, fs, gs, h1, h2, h3, h4, c1, c2, c3, c4, c5, c6, c7, c8, c9⟩ := expandLog_code hc
  rw [levelOf_is hlv] at h1
  obtain rfl : levelE = lv := by simpa using h1
  unfold runCode
  have : ¬ Log.Spec.severity l ≤ enabled := by omega
  simp only [c2, hlevel, andThen, levelEnabled, level_number, this, decide_false, Bool.false_eq_true, if_false]

/-- **C108** Level and context are evaluated as they are where the statement stands, even if they leave the function: it is left
    with their value, and nothing is sent. -/
theorem C108_level_and_context {σ : Type} (W : World σ) (enabled : Nat) (lt : Name → Nat) (utf8 : List Char → Bytes) (pl : Place)
    (a : LogArgs) (kind : Option Level) (c : Code) (hc : expandLog utf8 pl a kind = .ok c) (levelE : Expr)
    (hlv : LevelIs kind a levelE) (sc : Scope) (st st0 : St σ) (v : V) :
    (eval W levelE sc st = (.left v, st0) → runCode W enabled lt c sc st = (.left v, st0)) ∧
    ∀ (l : Level) (st1 : St σ), eval W levelE sc st = (.val (.level l), st0) → Log.Spec.severity l ≤ enabled →
      eval W a.ctx sc st0 = (.left v, st1) → runCode W enabled lt c sc st = (.left v, st1) := by
  obtain ⟨lv, fs, gs, h1, h2, h3, h4, c1, c2, c3, c4, c5, c6, c7, c8, c9⟩ := expandLog_code hc
  rw [levelOf_is hlv] at h1
  obtain rfl : levelE = lv := by simpa using h1
  refine ⟨fun h => by simp only [runCode, c2, h, andThen], fun l st1 h1 h2 h3 => ?_⟩
  have hctx' : eval W a.ctx (sc.setVal levelName (.user (.level l))) st0 = (.left v, st1) := by
    rw [← h3]
    refine eval_congr W _ _ _ _ (fun n _ => ?_) (fun _ _ => rfl)
    exact setVal_other _ _ (by simp [levelName])
  simp only [runCode, c1, c2, c3, h1, andThen, levelEnabled, level_number, h2, decide_true, if_true, hctx']

/-! ## Which statements expand -/

theorem matches_length {utf8 : List Char → Bytes} {fs : List Fragment} {es : List Expr} {gs : List G} (h : Matches utf8 fs es gs) :
    (fragHints fs).length ≤ es.length ∧ gs.length = fs.length + (fragHints fs).length := by
  induction h with
  | nil es => simp [fragHints]
  | lit _ ih => simp only [fragHints, List.length_cons]; omega
  | par _ ih => simp only [fragHints, List.length_cons]; omega

theorem values_ok {utf8 : List Char → Bytes} {args : Option (List Expr)} : ∀ {fs : List Fragment} {i : Nat},
    (fragHints fs).length ≤ ((args.getD []).drop i).length → ∃ gs, values utf8 args fs i = .ok gs
  | [], i, _ => ⟨[], rfl⟩
  | .literal s :: fs, i, h => by
    obtain ⟨gs, e⟩ := values_ok (utf8 := utf8) (args := args) (fs := fs) (i := i) h
    exact ⟨_, by simp only [values, e]; rfl⟩
  | .param x :: fs, i, h => by
    simp only [fragHints, List.length_cons, List.length_drop] at h
    cases args with
    | none => simp at h
    | some as =>
      simp only [Option.getD_some] at h
      have hi : i < as.length := by omega
      obtain ⟨gs, e⟩ := values_ok (utf8 := utf8) (args := some as) (fs := fs) (i := i + 1)
        (by simp only [Option.getD_some, List.length_drop]; omega)
      refine ⟨.hint x :: .arg x as[i] :: gs, ?_⟩
      simp only [values, List.getElem?_eq_getElem hi, e]

/-- **C108** Of statements whose format string is well formed, those expand that have a level and no fewer arguments than
    parameters (and fewer than 2^32 values). -/
theorem C108_expands (utf8 : List Char → Bytes) (pl : Place) (a : LogArgs) (kind : Option Level)
    (ps : List Log.Spec.Piece) (hp : ∀ p ∈ ps, p.Ordinary) (hfmt : a.format = Log.Spec.written ps) :
    (∃ c, expandLog utf8 pl a kind = .ok c) ↔
      (kind.isSome = true ∨ a.level.isSome = true) ∧ (Log.Spec.hints ps).length ≤ (argsOf a).length ∧
        (Log.Spec.meaning ps).length + (Log.Spec.hints ps).length < 4294967296 := by
  constructor
  · rintro ⟨c, hc⟩
    obtain ⟨lv, fs, gs, h1, h2, h3, h4, -⟩ := expandLog_code hc
    rw [hfmt, Log.C44_parses ps hp] at h2
    obtain rfl : Log.Spec.meaning ps = fs := by simpa using h2
    have hm := matches_length (values_matches h3)
    rw [fragHints_meaning, List.drop_zero] at hm
    refine ⟨?_, hm.1, by omega⟩
    cases kind with
    | some l => exact .inl rfl
    | none => simp only [levelOf] at h1; rw [h1]; exact .inr rfl
  · rintro ⟨h1, h2, h3⟩
    obtain ⟨lv, hlv⟩ : ∃ lv, levelOf a kind = some lv := by
      cases kind with
      | some l => exact ⟨_, rfl⟩
      | none =>
        rcases h1 with h | h
        · cases h
        · exact Option.isSome_iff_exists.mp h
    obtain ⟨gs, hgs⟩ := values_ok (utf8 := utf8) (args := a.args) (fs := Log.Spec.meaning ps) (i := 0)
      (by rw [fragHints_meaning, List.drop_zero]; exact h2)
    have hm := matches_length (values_matches hgs)
    rw [fragHints_meaning] at hm
    unfold expandLog
    simp only [hlv, hfmt, Log.C44_parses ps hp, hgs]
    rw [if_pos (by omega)]
    exact ⟨_, rfl⟩

end Verif.Hygiene
