import Verif.Btf.Sanitize
import Verif.Core.Model

/-!
# Kernel symbols an object asks for: the code

Collecting the externs of an object from its BTF (`/repo/aya-obj/src/btf/extern_types.rs`) and resolving those with
types against the BTF of the kernel (`/repo/aya-obj/src/extern_types.rs:41-86, 196-290`). Names are byte strings. The
hash map of externs is a list without repeated names; the symbol table is a list in the order of iteration.
-/
namespace Verif.Externs
open Verif.Btf

abbrev Name := List UInt8

/-- `Symbol`, `/repo/aya-obj/src/relocation.rs:111-120`, as far as it matters: name and binding. -/
structure Sym where
  name : Option Name
  isWeak : Bool
  deriving DecidableEq, Repr

/-- `ExternDesc`, `/repo/aya-obj/src/extern_types.rs:366-395`. Simplified: the name is the key in the table, there is one
    extern type, and `ksym_addr` (not written here) is in `Verif.Ksyms`. -/
structure Ext where
  btfId : Nat
  isWeak : Bool
  typeId : Option Nat
  essential : Option Name
  isResolved : Bool
  kernelId : Option Nat
  deriving DecidableEq, Repr

inductive Err where
  | btf (e : Fail)
  | invalidSymbolName
  deriving DecidableEq, Repr

/-- `name.split_once("___").map(|(name, _)| name)`, `/repo/aya-obj/src/extern_types.rs:402`. -/
def beforeFlavor : Name → Option Name
  | 95 :: 95 :: 95 :: _ => some []
  | c :: cs => (beforeFlavor cs).map (c :: ·)
  | [] => none

/-- `ExternDesc::new`, `/repo/aya-obj/src/extern_types.rs:398-415`. -/
def Ext.new (name : Name) (btfId : Nat) (isWeak : Bool) : Ext :=
  ⟨btfId, isWeak, none, beforeFlavor name, false, none⟩

/-- `ExternCollection`, `/repo/aya-obj/src/extern_types.rs:418-435`. Left out: the flags `has_typed_ksyms` and
    `has_strong_typed_ksyms`, which decide whether kernel BTF is fetched and whether its absence is
    an error (`Verif.Ksyms`). -/
structure Externs where
  table : List (Name × Ext)
  placeholder : Option Nat
  datasec : Option Nat
  deriving DecidableEq, Repr

/-- `ExternCollection::insert`, `/repo/aya-obj/src/extern_types.rs:442-450`, without the two flags. -/
def insert (t : List (Name × Ext)) (name : Name) (x : Ext) : List (Name × Ext) :=
  t.filter (fun p => p.1 ≠ name) ++ [(name, x)]

/-- `create_ksym_func_placeholder`, `/repo/aya-obj/src/btf/extern_types.rs:16-45`: the BTF and the id. -/
def createPlaceholder (b : Btf) : Btf × Nat :=
  let (b, int) :=
    match findInt4 0 b.types with
    | some id => (b, id)
    | none =>
      let (b, n) := b.addString "int".toUTF8.toList
      b.addType (mkInt n 4 1 0)
  let (b, n) := b.addString "ksym_func_placeholder".toUTF8.toList
  b.addType (mkVar n int 1)

/-- `find_ksyms_datasec`, `/repo/aya-obj/src/btf/extern_types.rs:48-59`, from type `i` on. -/
def findKsyms (b : Btf) : Nat → List BtfType → Except Fail (Option (Nat × List SecEntry))
  | _, [] => .ok none
  | i, .dataSec n _ _ es :: ts =>
    match b.stringAt n with
    | .error e => .error e
    | .ok s => if s = ".ksyms".toUTF8.toList then .ok (some (i, es)) else findKsyms b (i + 1) ts
  | i, _ :: ts => findKsyms b (i + 1) ts

/-- `datasec_has_functions`, `/repo/aya-obj/src/btf/extern_types.rs:62-70`. -/
def hasFunctions (b : Btf) : List SecEntry → Except Fail Bool
  | [] => .ok false
  | e :: es =>
    match typeById b.types e.ty with
    | .error e => .error e
    | .ok (.ref .func _ _ _) => .ok true
    | .ok _ => hasFunctions b es

/-- Name, whether it is a function, and type of an entry, `/repo/aya-obj/src/btf/extern_types.rs:90-102`. -/
def entryType (b : Btf) (e : SecEntry) : Except Fail (Name × Bool × Nat) :=
  match typeById b.types e.ty with
  | .error x => .error x
  | .ok (.ref .func n _ t) =>
    match b.stringAt n with
    | .error x => .error x
    | .ok s => .ok (s, true, t)
  | .ok (.var n _ t _) =>
    match b.stringAt n with
    | .error x => .error x
    | .ok s => .ok (s, false, t)
  | .ok _ => .error .invalidDatasec

/-- `find_symbol_by_name`, `/repo/aya-obj/src/btf/extern_types.rs:126-133`. -/
def findSymbol (syms : List Sym) (name : Name) : Option Sym := syms.find? fun s => s.name == some name

/-- `process_datasec_entry`, `/repo/aya-obj/src/btf/extern_types.rs:85-123`. -/
def describe (b : Btf) (syms : List Sym) (e : SecEntry) : Except Err (Name × Ext) :=
  match entryType b e with
  | .error x => .error (.btf x)
  | .ok (name, isFunc, ty) =>
    match findSymbol syms name with
    | none => .error .invalidSymbolName
    | some sym =>
      match resolveType b.types ty with
      | .error x => .error (.btf x)
      | .ok r =>
        let x := Ext.new name e.ty sym.isWeak
        .ok (name, if !isFunc && r == 0 then x else { x with typeId := some r })

/-- `extern_entries` and `collect`, `/repo/aya-obj/src/btf/extern_types.rs:73-82, 150-152`. -/
def describeAll (b : Btf) (syms : List Sym) : List SecEntry → Except Err (List (Name × Ext))
  | [] => .ok []
  | e :: es =>
    match describe b syms e with
    | .error x => .error x
    | .ok d =>
      match describeAll b syms es with
      | .error x => .error x
      | .ok ds => .ok (d :: ds)

/-- The BTF with the placeholder, if there are functions, `/repo/aya-obj/src/btf/extern_types.rs:145-148`. -/
def withPlaceholder (b : Btf) (es : List SecEntry) : Except Fail (Btf × Option Nat) :=
  match hasFunctions b es with
  | .error x => .error x
  | .ok true => .ok ((createPlaceholder b).1, some (createPlaceholder b).2)
  | .ok false => .ok (b, none)

/-- `Object::collect_ksyms_from_btf`, `/repo/aya-obj/src/btf/extern_types.rs:137-163`, for an object with BTF. -/
def collect (b : Btf) (syms : List Sym) : Except Err (Btf × Externs) :=
  match findKsyms b 0 b.types with
  | .error x => .error (.btf x)
  | .ok none => .ok (b, ⟨[], none, none⟩)
  | .ok (some (d, es)) =>
    match withPlaceholder b es with
    | .error x => .error (.btf x)
    | .ok (b, ph) =>
      match describeAll b syms es with
      | .error x => .error x
      | .ok ds =>
        let table := ds.foldl (fun t p => insert t p.1 p.2) []
        .ok (b, ⟨table, ph, if table.isEmpty then none else some d⟩)

/-! ## Resolving externs with types -/

/-- `KsymsError`, `/repo/aya-obj/src/extern_types.rs:293-357`, as far as it arises here, without the names. -/
inductive KErr where
  | functionNotFound
  | variableNotFound
  | incompatibleFunction
  | incompatibleVariable
  | invalidExternType
  | btf (e : Core.RFail)
  deriving DecidableEq, Repr

/-- The end of `resolve_extern_function` and `resolve_extern_variable`, `/repo/aya-obj/src/extern_types.rs:223-241,
    271-289`: comparing the type `l` of the object with the type `t` of the kernel. -/
def compare (lb kb : Btf) (x : Ext) (l id t : Nat) (incompatible : KErr) : Except KErr (Option Nat) :=
  match Core.typesCompatible lb l kb t with
  | .error e => .error (.btf e)
  | .ok true => .ok (some id)
  | .ok false => if x.isWeak then .ok none else .error incompatible

/-- `resolve_extern_function`, `/repo/aya-obj/src/extern_types.rs:196-242`; `l` is the type id. A panic of the lookup is no
    missing function. -/
def resolveFunction (lb kb : Btf) (name : Name) (x : Ext) (l : Nat) : Except KErr (Option Nat) :=
  match kb.idByTypeNameKind (x.essential.getD name) 12 with
  | .error .panic => .error (.btf (.btf .panic))
  | .error _ => if x.isWeak then .ok none else .error .functionNotFound
  | .ok id =>
    match typeById kb.types id with
    | .error e => .error (.btf (.btf e))
    | .ok (.ref .func _ _ t) => compare lb kb x l id t .incompatibleFunction
    | .ok _ => .error (.btf (.btf (.unexpectedBtfType id)))

/-- `resolve_extern_variable`, `/repo/aya-obj/src/extern_types.rs:246-290`. -/
def resolveVariable (lb kb : Btf) (name : Name) (x : Ext) (l : Nat) : Except KErr (Option Nat) :=
  match kb.idByTypeNameKind name 14 with
  | .error .panic => .error (.btf (.btf .panic))
  | .error _ => if x.isWeak then .ok none else .error .variableNotFound
  | .ok id =>
    match typeById kb.types id with
    | .error e => .error (.btf (.btf e))
    | .ok (.var _ _ t _) => compare lb kb x l id t .incompatibleVariable
    | .ok _ => .error (.btf (.btf (.unexpectedBtfType id)))

/-- One round of the loop of `resolve_typed_externs`, `/repo/aya-obj/src/extern_types.rs:49-65`. -/
def resolveOne (lb kb : Btf) (name : Name) (x : Ext) : Except KErr (Option Nat) :=
  match x.typeId with
  | none => .ok none
  | some l =>
    match typeById lb.types x.btfId with
    | .error e => .error (.btf (.btf e))
    | .ok (.ref .func _ _ _) => resolveFunction lb kb name x l
    | .ok (.var _ _ _ _) => resolveVariable lb kb name x l
    | .ok _ => .error .invalidExternType

/-- What is done with the result, `/repo/aya-obj/src/extern_types.rs:67-69, 78-83`. -/
def Ext.resolve (x : Ext) : Option Nat → Ext
  | some id => { x with isResolved := true, kernelId := some id }
  | none => x

/-- `resolve_typed_externs`, `/repo/aya-obj/src/extern_types.rs:41-86`. -/
def resolveTyped (lb kb : Btf) : List (Name × Ext) → Except KErr (List (Name × Ext))
  | [] => .ok []
  | (name, x) :: t =>
    match resolveOne lb kb name x with
    | .error e => .error e
    | .ok r =>
      match resolveTyped lb kb t with
      | .error e => .error e
      | .ok t => .ok ((name, x.resolve r) :: t)

end Verif.Externs
