import Verif.Common.Str
import Verif.Common.Except
import Verif.Reloc.Model
/-!
# Model of extern resolution, `aya-obj/src/extern_types.rs` 17-194

The extern table (a hash map) is a list of named descriptors in iteration order. Resolution of one typed
extern against kernel BTF (196-290) is a parameter: BTF lookup by name and type compatibility.
-/
namespace Verif.Ksyms
open Verif.Str
open Verif.Reloc (Name Extern)

/-- `ExternDesc`, aya-obj/src/extern_types.rs:367-396; `typed` is `type_id.is_some()`. `ExternType` has
the single value `Ksym`. -/
structure Desc where
  typed : Bool
  isWeak : Bool
  isResolved : Bool
  btfId : Option Nat
  ksymAddr : Option Nat
  deriving DecidableEq, Repr

abbrev Table := List (Name × Desc)

inductive Err where
  | requiresKernelBtf
  | typedFailed
  | parse
  | ambiguous
  | notFound
  deriving DecidableEq, Repr

/-- `char::is_whitespace` (Unicode White_Space). -/
def isWhitespace (c : Char) : Bool :=
  let n := c.toNat
  (9 ≤ n && n ≤ 13) || n == 32 || n == 0x85 || n == 0xA0 || n == 0x1680 || (0x2000 ≤ n && n ≤ 0x200A) ||
  n == 0x2028 || n == 0x2029 || n == 0x202F || n == 0x205F || n == 0x3000

/-- `str::split_whitespace`. -/
def splitWhitespace (s : List Char) : List (List Char) :=
  (splitBy isWhitespace s).filter (fun w => !w.isEmpty)

/-- `externs.get_mut(name)` followed by an update. -/
def update (t : Table) (name : Name) (f : Desc → Desc) : Table :=
  t.map (fun p => if p.1 = name then (p.1, f p.2) else p)

def get (t : Table) (name : Name) : Option Desc := (t.find? (fun p => p.1 == name)).map Prod.snd

/-- One line of kallsyms, aya-obj/src/extern_types.rs:126-163. -/
def kallsymsLine (unresolved : List Name) (t : Table) (line : List Char) : Except Err Table :=
  match splitWhitespace line with
  | addrStr :: _ :: symName :: _ =>
    if symName ∈ unresolved then
      match parseUInt 16 64 addrStr with
      | none => .error .parse
      | some addr =>
        if addr = 0 then .ok t
        else
          match get t symName with
          | none => .ok t
          | some ext =>
            if ext.isResolved then
              match ext.ksymAddr with
              | some existing => if existing ≠ addr then .error .ambiguous else .ok t
              | none => .ok t
            else .ok (update t symName (fun e => { e with ksymAddr := some addr, isResolved := true }))
    else .ok t
  | _ => .ok t

def kallsymsLines (unresolved : List Name) : List (List Char) → Table → Except Err Table
  | [], t => .ok t
  | l :: ls, t =>
    match kallsymsLine unresolved t l with
    | .error e => .error e
    | .ok t => kallsymsLines unresolved ls t

/-- `resolve_kallsyms_from_reader`, aya-obj/src/extern_types.rs:111-175. -/
def resolveKallsyms (unresolved : List Name) (lines : List (List Char)) (t : Table) : Except Err Table :=
  match kallsymsLines unresolved lines t with
  | .error e => .error e
  | .ok t => if t.any (fun p => !p.2.isResolved && !p.2.isWeak) then .error .notFound else .ok t

/-- `unresolved_typeless_ksym_vars`, aya-obj/src/extern_types.rs:178-194. -/
def unresolvedTypeless (t : Table) : List Name :=
  (t.filter (fun p => !p.2.isResolved && !p.2.typed)).map Prod.fst

/-- `resolve_typeless_externs`, aya-obj/src/extern_types.rs:89-108. -/
def resolveTypeless (lines : List (List Char)) (t : Table) : Except Err Table :=
  match (if unresolvedTypeless t = [] then .ok t else resolveKallsyms (unresolvedTypeless t) lines t) with
  | .error e => .error e
  | .ok t => .ok (t.map (fun p => if !p.2.isResolved && p.2.isWeak then (p.1, { p.2 with ksymAddr := some 0 }) else p))

/-- `resolve_typed_externs`, aya-obj/src/extern_types.rs:41-86: `lookup name desc` is the outcome of
`resolve_extern_function` / `resolve_extern_variable`. -/
def resolveTyped (lookup : Name → Desc → Except Err (Option Nat)) : Table → Except Err Table
  | [] => .ok []
  | (name, d) :: rest =>
    if d.typed then
      match lookup name d with
      | .error e => .error e
      | .ok r =>
        match resolveTyped lookup rest with
        | .error e => .error e
        | .ok rest' =>
          match r with
          | some id => .ok ((name, { d with btfId := some id, isResolved := true }) :: rest')
          | none => .ok ((name, d) :: rest')
    else
      match resolveTyped lookup rest with
      | .error e => .error e
      | .ok rest' => .ok ((name, d) :: rest')

/-- `Object::resolve_externs`, aya-obj/src/extern_types.rs:17-31; `lookup` is `none` without kernel BTF. -/
def resolveExterns (lookup : Option (Name → Desc → Except Err (Option Nat))) (lines : List (List Char))
    (t : Table) : Except Err Table :=
  match lookup with
  | some l =>
    match resolveTyped l t with
    | .error e => .error e
    | .ok t => resolveTypeless lines t
  | none =>
    if t.any (fun p => p.2.typed && !p.2.isWeak) then .error .requiresKernelBtf
    else resolveTypeless lines t

/-- `resolve_extern_function` / `resolve_extern_variable`, aya-obj/src/extern_types.rs:196-290, over the
outcomes of the BTF queries: `find` is the id of the kernel function or variable of that name (the name
without flavour for functions), `compatible` the result of comparing the types. -/
def lookupTyped (find : Name → Option Nat) (compatible : Name → Nat → Except Err Bool) (name : Name) (d : Desc) :
    Except Err (Option Nat) :=
  match find name with
  | none => if d.isWeak then .ok none else .error .typedFailed
  | some id =>
    match compatible name id with
    | .error e => .error e
    | .ok true => .ok (some id)
    | .ok false => if d.isWeak then .ok none else .error .typedFailed

/-- The descriptor as relocation sees it. -/
def Desc.toExtern (d : Desc) : Extern := ⟨d.isResolved, d.isWeak, d.btfId, d.ksymAddr⟩

/-- A freshly collected table: `ExternDesc::new`, aya-obj/src/extern_types.rs:399-415. -/
def Fresh (t : Table) : Prop :=
  (t.map Prod.fst).Nodup ∧ ∀ p ∈ t, p.2.isResolved = false ∧ p.2.btfId = none ∧ p.2.ksymAddr = none

end Verif.Ksyms
