import Verif.Hygiene.Lang
import Verif.Common.Str
/-!
# The code a log statement expands to

`/repo/aya-log-ebpf-macros/src/expand.rs`. The macro makes a piece of code of the language of `Verif.Hygiene.Lang` with calls of the
library; that code is then run. Names the expansion takes from `core` and the prelude (`size_of`, `Some`, `None`, `Option`, `Ok`,
`Err`) are taken to mean what they mean there.
-/
namespace Verif.Hygiene
open Verif.Bytes
open Verif.Log (Bytes Val Level Hint Fragment parse field fields capacityFor accepted)

/-- Why a statement does not compile: no level, a format string that cannot be parsed, no arguments at all, or an index out of
    range in the macro (`86-91`, `95-100`, `113`, `112`); too many values (`156-162`). -/
inductive MacroError where
  | noLevel
  | badFormat
  | noArguments
  | outOfRange
  | tooMany
deriving DecidableEq, Repr

/-- One of `values` (`/repo/aya-log-ebpf-macros/src/expand.rs:106-149`): a literal, a hint, or an argument with the check that it
    has a formatter (`138-144`). -/
inductive G where
  | text (s : Bytes)
  | hint (h : Hint)
  | arg (h : Hint) (e : Expr)
deriving DecidableEq, Repr

/-- The loop over the fragments (`/repo/aya-log-ebpf-macros/src/expand.rs:104-150`). `i` is `arg_i`. -/
def values (utf8 : List Char → Bytes) (args : Option (List Expr)) : List Fragment → Nat → Except MacroError (List G)
  | [], _ => .ok []
  | .literal s :: fs, i =>
    match values utf8 args fs i with
    | .error e => .error e
    | .ok gs => .ok (.text (utf8 s) :: gs)
  | .param h :: fs, i =>
    match args with
    | none => .error .noArguments
    | some as =>
      match as[i]? with
      | none => .error .outOfRange
      | some a =>
        match values utf8 args fs (i + 1) with
        | .error e => .error e
        | .ok gs => .ok (.hint h :: .arg h a :: gs)

/-- The statements of the closure (`/repo/aya-log-ebpf-macros/src/expand.rs:180-242`). `send` stands for `197-240`, in which no
    expression of the user is evaluated. -/
inductive S where
  /-- `let header = Header::new(target, level, module_path!(), file!(), line!(), count)?;` (`182-189`) -/
  | header (n : Name) (target : Expr) (level : Name) (count : Nat)
  /-- `let tmp = value;` (`192`) -/
  | tmp (n : Name) (g : G)
  /-- `let (kind, value) = tmp.as_argument();` (`193`) -/
  | argument (kind value tmp : Name)
  /-- `let arg = Field::new(kind, value)?;` (`194`) -/
  | field (n kind value : Name)
  | send (header : Name) (args : List Name)
deriving Repr

/-- The block of `/repo/aya-log-ebpf-macros/src/expand.rs:173-246`, with what `module_path!()`, `file!()` and `line!()` stand for
    where it is written. `types` and `vals` are the names brought into the scope of the closure by `180`. -/
structure Code where
  level : Name
  levelExpr : Expr
  ctx : Expr
  types : List Name
  vals : List Name
  body : List S
  module : Bytes
  file : Bytes
  line : Nat
deriving Repr

/-- Names made by the macro (`/repo/aya-log-ebpf-macros/src/expand.rs:152-154`, `163-167`). -/
def levelName : Name := ⟨['l', 'e', 'v', 'e', 'l'], true⟩
def headerName : Name := ⟨['_', '_', 'h', 'e', 'a', 'd', 'e', 'r'], false⟩
def tmpName : Name := ⟨['_', '_', 't', 'm', 'p'], false⟩
def kindName : Name := ⟨['_', '_', 'k', 'i', 'n', 'd'], false⟩
def valueName : Name := ⟨['_', '_', 'v', 'a', 'l', 'u', 'e'], false⟩
def argName (i : Nat) : Name := ⟨['_', '_', 'a', 'r', 'g'] ++ Verif.Str.render 10 i, false⟩

/-- The three statements for each value (`/repo/aya-log-ebpf-macros/src/expand.rs:191-195`). -/
def perValue : List G → Nat → List S
  | [], _ => []
  | g :: gs, i =>
    .tmp tmpName g :: .argument kindName valueName tmpName :: .field (argName i) kindName valueName :: perValue gs (i + 1)

/-- What the `use` of `/repo/aya-log-ebpf-macros/src/expand.rs:180` brings: `Header`, `Field` and `Argument` as types, `AYA_LOGS` as
    a value (`/repo/ebpf/aya-log-ebpf/src/lib.rs:11-27`). The function `Field` of the tuple structure is private
    (`/repo/aya-log-common/src/lib.rs:312`) and so not imported. -/
def typeImports : List Name :=
  [⟨['H', 'e', 'a', 'd', 'e', 'r'], false⟩, ⟨['F', 'i', 'e', 'l', 'd'], false⟩,
   ⟨['A', 'r', 'g', 'u', 'm', 'e', 'n', 't'], false⟩]
def valImports : List Name :=
  [⟨['A', 'Y', 'A', '_', 'L', 'O', 'G', 'S'], false⟩]

/-- The choice of the level (`/repo/aya-log-ebpf-macros/src/expand.rs:84-93`, `249-282`). A level among the arguments of `error!` to
    `trace!` is not looked at. -/
def levelOf (a : LogArgs) (level : Option Level) : Option Expr :=
  match level with
  | some l => some (.lit (.level l))
  | none => a.level

/-- `log` (`/repo/aya-log-ebpf-macros/src/expand.rs:71-247`). `level` is `level_expr`: some for `error!` to `trace!`
    (`249-282`). -/
def expandLog (utf8 : List Char → Bytes) (pl : Place) (a : LogArgs) (level : Option Level) : Except MacroError Code :=
  match levelOf a level with
  | none => .error .noLevel
  | some levelExpr =>
    match parse a.format with
    | .error _ => .error .badFormat
    | .ok fs =>
      match values utf8 a.args fs 0 with
      | .error e => .error e
      | .ok gs =>
        if gs.length < 4294967296 then
          .ok { level := levelName, levelExpr := levelExpr, ctx := a.ctx, types := typeImports, vals := valImports,
                body := .header headerName (a.target.getD (.lit (.data (.str pl.module)))) levelName gs.length ::
                  perValue gs 0 ++ [.send headerName ((List.range gs.length).map argName)]
                module := pl.module, file := pl.file, line := pl.line }
        else .error .tooMany

/-! ## Running the code -/

/-- How a statement of the closure ends: go on with a new scope, leave the closure, or it does not compile. -/
inductive Next (σ : Type) where
  | go (sc : Scope) (st : St σ)
  | leave (st : St σ)
  | stuck (st : St σ)

/-- What leaving the closure needs: its type is `Option<()>` (`/repo/aya-log-ebpf-macros/src/expand.rs:179`). -/
def leaveClosure {σ : Type} (v : V) (st : St σ) : Next σ :=
  match v with
  | .nothing => .leave st
  | .just .unit => .leave st
  | _ => .stuck st

/-- A value of the user's expression in the closure. -/
def inClosure {σ : Type} (r : Out × St σ) (k : V → St σ → Next σ) : Next σ :=
  match r with
  | (.val v, st) => k v st
  | (.left v, st) => leaveClosure v st
  | (.stuck, st) => .stuck st

/-- `Header::new` (`/repo/aya-log-common/src/lib.rs:339-370`) and the bytes `with_bytes` gives of it (`372-388`). -/
def headerBytes (target : Bytes) (l : Level) (c : Code) (count : Nat) : Option Bytes :=
  fields [(0, target), (1, [l.byte]), (2, c.module), (3, c.file), (4, le 4 c.line), (5, le 4 count)]

/-- `let tmp = value` (`/repo/aya-log-ebpf-macros/src/expand.rs:105-149`, `192`): an argument must have a formatter for its hint. -/
def tmpValue {σ : Type} (W : World σ) (n : Name) (sc : Scope) (st : St σ) : G → Next σ
  | .text s => .go (sc.setVal n (.user (.data (.str s)))) st
  | .hint h => .go (sc.setVal n (.hint h)) st
  | .arg h e => inClosure (eval W e sc st) fun v st =>
    match v with
    | .data d => if accepted h d then .go (sc.setVal n (.user v)) st else .stuck st
    | _ => .stuck st

/-- `as_argument` (`/repo/aya-log-common/src/lib.rs:176-302`). -/
def asArgument : R → Option (UInt8 × Bytes)
  | .user (.data v) => some v.argument
  | .hint h => some (0, [h.byte])
  | _ => none

/-- The bytes of some fields by their names, one after the other (`/repo/aya-log-ebpf-macros/src/expand.rs:203-205`, `233-235`). -/
def gather (sc : Scope) : List Name → Option Bytes
  | [] => some []
  | n :: ns =>
    match sc.vals n, gather sc ns with
    | some (.field b), some r => some (b ++ r)
    | _, _ => none

/-- From the size to `submit` (`/repo/aya-log-ebpf-macros/src/expand.rs:197-240`), for the bytes of header and fields. -/
def sendBytes {σ : Type} (W : World σ) (body : Bytes) (st : St σ) : St σ :=
  if 2 + body.length < 65536 then
    match capacityFor 9 64 (2 + body.length) with
    | none => st
    | some cap =>
      match W.reserve st cap with
      | none => st
      | some buf =>
        if 2 + body.length ≤ buf.length then
          { st with sent := st.sent ++ [le 2 (2 + body.length) ++ body ++ buf.drop (2 + body.length)] }
        else st
  else st

/-- One statement of the closure. -/
def runS {σ : Type} (W : World σ) (c : Code) (sc : Scope) (st : St σ) : S → Next σ
  | .header n target level count => inClosure (eval W target sc st) fun v st =>
    match v, sc.vals level with
    | .data (.str t), some (.user (.level l)) =>
      match headerBytes t l c count with
      | none => .leave st
      | some b => .go (sc.setVal n (.header b)) st
    | _, _ => .stuck st
  | .tmp n g => tmpValue W n sc st g
  | .argument kind value tmp =>
    match (sc.vals tmp).bind asArgument with
    | none => .stuck st
    | some (k, v) => .go ((sc.setVal kind (.kind k)).setVal value (.bytes v)) st
  | .field n kind value =>
    match sc.vals kind, sc.vals value with
    | some (.kind k), some (.bytes v) =>
      match field k v with
      | none => .leave st
      | some b => .go (sc.setVal n (.field b)) st
    | _, _ => .stuck st
  | .send header args =>
    match sc.vals header, gather sc args with
    | some (.header h), some b => .leave (sendBytes W (h ++ b) st)
    | _, _ => .stuck st

/-- The statements of the closure: `none` for code that does not compile. The closure ends with `Some(())`. -/
def runBody {σ : Type} (W : World σ) (c : Code) : List S → Scope → St σ → Option (St σ)
  | [], _, st => some st
  | s :: ss, sc, st =>
    match runS W c sc st s with
    | .go sc st => runBody W c ss sc st
    | .leave st => some st
    | .stuck _ => none

/-- The scope in the closure: `use ::aya_log_ebpf::macro_support::{...}` (`/repo/aya-log-ebpf-macros/src/expand.rs:180`). Items of
    a block hide what is outside, local variables included. `logType` gives the sizes of the library's types. -/
def closureScope (logType : Name → Nat) (c : Code) (sc : Scope) : Scope :=
  { vals := fun m => if m ∈ c.vals then some .item else sc.vals m
    types := fun m => if m ∈ c.types then some (logType m) else sc.types m }

/-- `level_enabled` (`/repo/ebpf/aya-log-ebpf/src/lib.rs:35-40`). -/
def levelEnabled (enabled : Nat) (l : Level) : Bool := decide (l.byte.toNat ≤ enabled)

/-- The block (`/repo/aya-log-ebpf-macros/src/expand.rs:174-245`), as a statement of the user's function: its value is `()`.
    `enabled` is `AYA_LOG_LEVEL`. `let _ = ctx;` evaluates the context. -/
def runCode {σ : Type} (W : World σ) (enabled : Nat) (logType : Name → Nat) (c : Code) (sc : Scope) (st : St σ) : Out × St σ :=
  andThen (eval W c.levelExpr sc st) fun v st =>
    match v with
    | .level l =>
      let sc := sc.setVal c.level (.user (.level l))
      if levelEnabled enabled l then
        andThen (eval W c.ctx sc st) fun _ st =>
          match runBody W c c.body (closureScope logType c sc) st with
          | some st => (.val .unit, st)
          | none => (.stuck, st)
      else (.val .unit, st)
    | _ => (.stuck, st)

end Verif.Hygiene
