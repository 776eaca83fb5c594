import Verif.Linker.Model
import Verif.Reloc.Model
import Verif.Obj.Model
/-!
# From the object's code to the programs that are loaded

Model of the stages of `EbpfLoader::load` that change code, `/repo/aya/src/bpf.rs:673-689`: map references, externs,
calls, helpers. Each stage is modelled in its own module; here they are applied to the functions of one object. CO-RE
relocation comes before (`bpf.rs:534-570`): the functions are those it leaves.
-/
namespace Verif.Pipe
open Verif.Bpf
open Verif.Linker (Func)
open Verif.Reloc (Name Sym MapRef Extern)

/-- `Relocation`, `/repo/aya-obj/src/relocation.rs:101-108`. -/
structure Rel where
  offset : Nat
  size : Nat
  symbolIndex : Nat
deriving DecidableEq

/-- `Object` (`/repo/aya-obj/src/obj.rs:40-65`): functions by section and address, the keys of the programs, the
relocations of each section (a hash map by offset, here in the order in which it is iterated), symbols, and the externs if
there is BTF. -/
structure Object where
  funcs : List ((Nat × Nat) × Func)
  programs : List (Nat × Nat)
  rels : Nat → List Rel
  syms : Nat → Option Sym
  externs : Option (Name → Option Extern)

/-- The sections with functions (`bpf.rs:673-677`). -/
def Object.text (o : Object) (s : Nat) : Bool := o.funcs.any (fun p => p.1.1 == s)

inductive Err where
  | reloc (e : Reloc.Err)
  | link (e : Linker.Err)
deriving DecidableEq

/-- The relocations as `relocate_maps` and `patch_extern_relocations` see them. -/
def Rel.plain (r : Rel) : Reloc.Rel := ⟨r.offset, r.symbolIndex⟩

/-- `relocate_maps` for one function (`relocation.rs:149-163`). -/
def mapStage (o : Object) (maps : List MapRef) (f : Func) : Except Reloc.Err (List Insn) :=
  Reloc.relocateMaps maps o.syms o.text f.sectionOffset ((o.rels f.sectionIndex).map Rel.plain) f.insns

/-- `relocate_externs` for one function (`relocation.rs:181-194`), nothing without BTF (`170-172`). -/
def externStage (o : Object) (f : Func) : Except Reloc.Err (List Insn) :=
  match o.externs with
  | none => .ok f.insns
  | some x => Reloc.relocateExterns x o.syms f.sectionOffset ((o.rels f.sectionIndex).map Rel.plain) f.insns

/-- The loop over the functions; the first error ends it. -/
def eachFunc (stage : Func → Except Reloc.Err (List Insn)) :
    List ((Nat × Nat) × Func) → Except Err (List ((Nat × Nat) × Func))
  | [] => .ok []
  | (k, f) :: rest =>
    match stage f with
    | .error e => .error (.reloc e)
    | .ok is =>
      match eachFunc stage rest with
      | .error e => .error e
      | .ok rest' => .ok ((k, { f with insns := is }) :: rest')

/-- A symbol as the linker sees it. -/
def linkSym (s : Sym) : Linker.Sym where
  sectionIndex := s.sectionIndex
  hasName := s.name.isSome
  address := s.address
  isDefinition := s.isDefinition
  kind := match s.kind with
    | .text => .text
    | .section => .section
    | .unknown => .unknown
    | .other => .other

/-- The object as the linker sees it. -/
def Object.linker (o : Object) : Linker.Obj where
  funcs := o.funcs
  relocs := fun s off => ((o.rels s).find? (fun r => r.offset == off)).map (fun r => ⟨r.size, r.symbolIndex⟩)
  syms := fun i => (o.syms i).map linkSym
  textSections := o.text

/-- `sanitize_functions` (`bpf.rs:688`). -/
def sanitizeAll (supported : Bool) (fs : List ((Nat × Nat) × Func)) : List ((Nat × Nat) × Func) :=
  List.zipWith (fun p is => (p.1, { p.2 with insns := is })) fs
    (Obj.sanitizeFunctions supported ⟨none, 0⟩ (fs.map (fun p => p.2.insns))).1

/-- `EbpfLoader::load`, the stages that change code (`bpf.rs:673-689`). `supported` says whether the kernel has
`bpf_probe_read_kernel`. -/
def code (maps : List MapRef) (supported : Bool) (o : Object) : Except Err (List ((Nat × Nat) × Func)) :=
  match eachFunc (mapStage o maps) o.funcs with
  | .error e => .error e
  | .ok fs1 =>
    match eachFunc (externStage o) fs1 with
    | .error e => .error e
    | .ok fs2 =>
      match Linker.relocateCalls o.programs { o.linker with funcs := fs2 } with
      | .error e => .error (.link e)
      | .ok l => .ok (sanitizeAll supported l.funcs)

/-- `functions.get(&key)`. -/
def get (fs : List ((Nat × Nat) × Func)) (key : Nat × Nat) : Option Func :=
  (fs.find? (fun p => p.1 == key)).map Prod.snd

end Verif.Pipe
