import Verif.Hygiene.Props
import Verif.Common.Except
/-!
# C108: cases, and where it does not hold

The memory of the programs is a number. Function 0 increments it and returns it, function 1 returns `None`, function 2 sends a
record itself.
-/
namespace Verif.Hygiene
open Verif.Log (Bytes Val Level Hint toyStd toyUtf8)
open Spec

def exWorld : World Nat where
  call f v st :=
    match f with
    | 0 => (.data (.int .u32 (st.mem + 1)), { st with mem := st.mem + 1 })
    | 1 => (.nothing, st)
    | 2 => (.data (.int .u32 7), { st with sent := st.sent ++ [[1]] })
    | _ => (v, st)
  reserve _ n := some (List.replicate n 0)

/-- A variable `x`, a constant `AYA_LOGS`, a variable `__header`, and a type `Header` of 14 bytes. -/
def exScope : Scope where
  vals n :=
    if n = ⟨['x'], false⟩ then some (.user (.data (.int .u32 5)))
    else if n = ⟨['A', 'Y', 'A', '_', 'L', 'O', 'G', 'S'], false⟩ then some (.user (.data (.int .u32 6)))
    else if n = ⟨['_', '_', 'h', 'e', 'a', 'd', 'e', 'r'], false⟩ then some (.user (.data (.int .u32 8)))
    else none
  types n := if n = ⟨['H', 'e', 'a', 'd', 'e', 'r'], false⟩ then some 14 else none

/-- `Header` of the library has 104 bytes. -/
def exTypes : Name → Nat := fun _ => 104

def exPlace : Place := ⟨[109], [102], 7⟩
def exStart : St Nat := ⟨0, []⟩
def encode (s : List Char) : Bytes := s.flatMap toyUtf8

/-- A statement, expanded and run where everything is enabled; `none` if it does not expand. -/
def exRun (a : LogArgs) (kind : Option Level) : Option (Out × St Nat) :=
  match expandLog encode exPlace a kind with
  | .ok c => some (runCode exWorld 5 exTypes c exScope exStart)
  | .error _ => none

/-- What a run shows in the process. -/
def exShown (a : LogArgs) (kind : Option Level) : List (Log.Shown) :=
  match exRun a kind with
  | some (_, st) => st.sent.map (Log.flushOne toyStd)
  | none => []

def ctxE : Expr := .lit .unit
def oneParam : List Char := ['{', '}']
def twoParams : List Char := ['{', '}', '{', '}']

/-- `info!(ctx, "{}{}", next(), { let __arg0 = next(); x })`: both arguments are evaluated, the first before the second. -/
def goodArgs : LogArgs :=
  { ctx := ctxE, format := twoParams,
    args := some [.call 0 (.lit .unit), .letIn ['_', '_', 'a', 'r', 'g', '0'] (.call 0 (.lit .unit)) (.name ['x'])] }

example : (exRun goodArgs (some .info)).map (fun r => (r.1, r.2.mem, r.2.sent.length)) = some (.val .unit, 2, 1) ∧
    exShown goodArgs (some .info) = [.logged ⟨[109], .info, [109], [102], 7, [49, 53]⟩] := by decide +kernel

/-- `C108_transparent_partial` applies to it. -/
example : ∃ st3, (∃ c, expandLog (fun s => s.flatMap toyUtf8) exPlace goodArgs (some .info) = .ok c ∧
    runCode exWorld 5 exTypes c exScope exStart = (.val .unit, st3)) ∧ st3.mem = 2 := by
  obtain ⟨c, hc⟩ := (C108_expands (fun s => s.flatMap toyUtf8) exPlace goodArgs (some .info) [.param .dflt, .param .dflt]
    (by decide) (by decide)).mpr ⟨.inl rfl, by decide, by decide⟩
  obtain ⟨st3, h1, h2, -⟩ := C108_transparent_partial exWorld (fun _ n b h => by simp [exWorld] at h; subst h; simp) 5 exTypes toyUtf8
    exPlace goodArgs (some .info) c hc [.param .dflt, .param .dflt] (by decide) (by decide) (.lit (.level .info)) ⟨rfl, rfl⟩
    ⟨⟨by decide, by decide⟩, by
      intro e he
      simp only [goodArgs, argsOf, Option.getD_some, List.mem_cons, List.not_mem_nil, or_false] at he
      rcases he with rfl | rfl
      · exact ⟨by decide, by decide⟩
      · exact ⟨by decide, by decide⟩⟩
    (by decide) exScope exStart exStart exStart ⟨2, []⟩ .info .unit [109] [.int .u32 1, .int .u32 5] rfl (by decide) rfl
    (.cons rfl (.cons rfl (.cons rfl (.nil _)))) ⟨by decide, by decide, by decide, by simp [Log.Spec.meaning], by decide⟩ toyStd [49, 53]
    (by decide +kernel)
  exact ⟨st3, ⟨c, hc, h1⟩, h2⟩

/-- A record sent by an argument comes first, and a statement that is not enabled does nothing. -/
example : (exRun { ctx := ctxE, format := oneParam, args := some [.call 2 (.lit .unit)] } (some .warn)).map
      (fun r => (r.1, r.2.sent.length, r.2.sent.head?)) = some (.val .unit, 2, some [1]) ∧
    (match expandLog encode exPlace goodArgs (some .trace) with
      | .ok c => some (runCode exWorld 4 exTypes c exScope exStart)
      | .error _ => none) = some (.val .unit, exStart) := by decide +kernel

/-- Fewer arguments than parameters, no level, or a format string that is not well formed: the statement does not expand. -/
example : exRun { ctx := ctxE, format := twoParams, args := some [.name ['x']] } (some .info) = none ∧
    exRun { ctx := ctxE, format := oneParam } (some .info) = none ∧ exRun { ctx := ctxE, format := [] } none = none ∧
    exRun { ctx := ctxE, format := ['{'] } (some .info) = none := by decide +kernel

/-- **C108** is false for arguments that leave the function. `info!(ctx, "{}", find()?)` where `find` returns `None`, and
    `info!(ctx, "{}", return Some(()))`, written in a function that returns an `Option<()>`, should leave it. Instead the
    expressions leave a closure of the macro: nothing is logged and the function goes on. -/
theorem C108_leaving_violated :
    eval exWorld (.question (.call 1 (.lit .unit))) exScope exStart = (.left .nothing, exStart) ∧
    exRun { ctx := ctxE, format := oneParam, args := some [.question (.call 1 (.lit .unit))] } (some .info) =
      some (.val .unit, exStart) ∧
    eval exWorld (.ret (.lit (.just .unit))) exScope exStart = (.left (.just .unit), exStart) ∧
    exRun { ctx := ctxE, format := oneParam, args := some [.ret (.lit (.just .unit))] } (some .info) =
      some (.val .unit, exStart) := by decide +kernel

/-- **C108** is false for types with the names of the library. With a type `Header` of 14 bytes in scope,
    `info!(ctx, "{}", size_of::<Header>())` logs 104, the size of the library's own `Header`. -/
theorem C108_type_violated :
    eval exWorld (.sizeOf ['H', 'e', 'a', 'd', 'e', 'r']) exScope exStart = (.val (.data (.int .usize 14)), exStart) ∧
    exShown { ctx := ctxE, format := oneParam, args := some [.sizeOf ['H', 'e', 'a', 'd', 'e', 'r']] } (some .info) =
      [.logged ⟨[109], .info, [109], [102], 7, [49, 48, 52]⟩] := by decide +kernel

/-- **C108** is false for the names `AYA_LOGS` and `__header`: a constant and a variable of the user that have them cannot be
    logged, as the statement does not compile. -/
theorem C108_name_violated :
    eval exWorld (.name ['A', 'Y', 'A', '_', 'L', 'O', 'G', 'S']) exScope exStart = (.val (.data (.int .u32 6)), exStart) ∧
    (exRun { ctx := ctxE, format := oneParam, args := some [.name ['A', 'Y', 'A', '_', 'L', 'O', 'G', 'S']] } (some .info)).map
      (·.1) = some .stuck ∧
    eval exWorld (.name ['_', '_', 'h', 'e', 'a', 'd', 'e', 'r']) exScope exStart = (.val (.data (.int .u32 8)), exStart) ∧
    (exRun { ctx := ctxE, format := oneParam, args := some [.name ['_', '_', 'h', 'e', 'a', 'd', 'e', 'r']] } (some .info)).map
      (·.1) = some .stuck := by decide +kernel

/-- **C108** is false for more arguments than parameters: `info!(ctx, "{}", x, next())` compiles, and `next` is not called. -/
theorem C108_surplus_violated :
    (exRun { ctx := ctxE, format := oneParam, args := some [.name ['x'], .call 0 (.lit .unit)] } (some .info)).map
      (fun r => (r.1, r.2.mem)) = some (.val .unit, 0) ∧
    exShown { ctx := ctxE, format := oneParam, args := some [.name ['x'], .call 0 (.lit .unit)] } (some .info) =
      [.logged ⟨[109], .info, [109], [102], 7, [53]⟩] := by decide +kernel

/-- **C108** is false for a level given to `error!`: `error!(ctx, Level::Debug, "{}", x)` compiles, and logs an error. -/
theorem C108_level_violated :
    exShown { ctx := ctxE, level := some (.lit (.level .debug)), format := oneParam, args := some [.name ['x']] } (some .error) =
      [.logged ⟨[109], .error, [109], [102], 7, [53]⟩] := by decide +kernel

/-- **C108** is false for texts of 64 KiB and more: what comes after them in the statement is not evaluated. -/
theorem C108_long_violated (s : Bytes) (hs : 65536 ≤ s.length) :
    exRun { ctx := ctxE, format := twoParams, args := some [.lit (.data (.str s)), .call 0 (.lit .unit)] } (some .info) =
      some (.val .unit, exStart) := by
  have hf : Log.field 20 s = none := if_neg (by omega)
  have hp : Log.parse twoParams = .ok [.param .dflt, .param .dflt] := by decide +kernel
  obtain ⟨hb, hh⟩ : ∃ hb, Log.fields [(0, [109]), (1, [Level.info.byte]), (2, [109]), (3, [102]), (4, Bytes.le 4 7),
      (5, Bytes.le 4 4)] = some hb := Option.isSome_iff_exists.mp (by decide +kernel)
  have hx : expandLog encode exPlace { ctx := ctxE, format := twoParams, args := some [.lit (.data (.str s)), .call 0 (.lit .unit)] }
      (some .info) = .ok
        { level := levelName, levelExpr := .lit (.level .info), ctx := ctxE, types := typeImports, vals := valImports,
          body := .header headerName (.lit (.data (.str [109]))) levelName 4 ::
            (perValue (.hint .dflt :: .arg .dflt (.lit (.data (.str s))) :: [.hint .dflt, .arg .dflt (.call 0 (.lit .unit))]) 0 ++
              [.send headerName ((List.range 4).map argName)]), module := [109], file := [102], line := 7 } := by
    simp only [expandLog, levelOf, hp, values]
    rfl
  obtain ⟨b0, hb0⟩ := field_some 0 [Hint.dflt.byte] (by simp)
  unfold exRun
  rw [hx]
  simp only [runCode, eval, andThen, ctxE]
  rw [show levelEnabled 5 Level.info = true from rfl]
  simp only [if_true, runBody, runS, eval, inClosure]
  rw [show ∀ (c : Code) (sc : Scope), c.vals = valImports → sc.vals levelName = some (.user (.level .info)) →
    (closureScope exTypes c sc).vals levelName = some (.user (.level .info)) from fun c sc h1 h2 => by
      simp only [closureScope, h1]; rw [if_neg (by decide)]; exact h2]
  · simp only [headerBytes, hh]
    rw [run_one exWorld _ (.hint .dflt) _ 0 _ _ exStart exStart (.hint .dflt) 0 [Hint.dflt.byte] b0 rfl rfl hb0]
    simp only [perValue, List.cons_append, runBody, runS, tmpValue, eval, inClosure]
    rw [if_pos (by rfl)]
    simp only [setVal_same, Option.bind_some, asArgument, Log.Val.argument]
    rw [setVal_other _ _ (show kindName ≠ valueName by decide), setVal_same]
    simp only [hf]
  · rfl
  · exact setVal_same _ _ _

end Verif.Hygiene
