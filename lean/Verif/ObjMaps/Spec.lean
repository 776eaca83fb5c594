import Verif.ObjMaps.Model
import Verif.Btf.Spec
/-!
# Specification vocabulary for BTF map definitions

How a map is written in C with libbpf's macros (`__uint(name, n)` is `int (*name)[n]`, `__type(name, t)` is
`typeof(t) *name`, `__array(values, t)` is `typeof(t) *values[]`), stated on the BTF type table alone. Only data types of
the model are used, none of its functions.
-/
namespace Verif.ObjMaps.Spec
open Verif.Btf Verif.Btf.Spec Verif.ObjMaps

/-- The numeric attributes. -/
inductive Num where
  | type | keySize | valueSize | maxEntries | mapFlags | mapExtra | pinning
  deriving DecidableEq, Repr

/-- The member name libbpf documents for a numeric attribute. -/
def Num.word : Num → String
  | .type => "type" | .keySize => "key_size" | .valueSize => "value_size" | .maxEntries => "max_entries"
  | .mapFlags => "map_flags" | .mapExtra => "map_extra" | .pinning => "pinning"

/-- One line of a map definition. `ι` stands for inner map definitions. -/
inductive Line (ι : Type) where
  /-- `__uint(name, n)` -/
  | num (f : Num) (n : Nat)
  /-- `__type(key, t)`; the size of `t` -/
  | key (t size : Nat)
  /-- `__type(value, t)` -/
  | value (t size : Nat)
  /-- `__array(values, struct { ... })` -/
  | values (d : ι)
  /-- any other member -/
  | other

/-- All documented member names. -/
def words : List String :=
  ["type", "key", "key_size", "value", "value_size", "max_entries", "map_flags", "map_extra", "pinning", "values"]

def Named (b : Btf) (m : Member) (w : String) : Prop := StringAt b.strings m.name w.toUTF8.toList

/-- `p` points to `t`. -/
def Points (ts : List BtfType) (p t : Nat) : Prop := ∃ n i : Nat, ts[p]? = some (.ref .ptr n i t)

/-- Looking through fewer than 32 typedefs, qualifiers and tags, `a` is `t`. -/
def Is (ts : List BtfType) (a : Nat) (t : BtfType) : Prop :=
  ∃ k r : Nat, k < 32 ∧ Looks ts k a r ∧ ts[r]? = some t ∧ through t = none

/-- A member of the struct is a line of the definition. `Size t n`: the type `t` has `n` bytes. `Inner ms d`: a struct with
members `ms` defines the inner map `d`. -/
inductive Writes {ι : Type} (b : Btf) (Size : Nat → Nat → Prop) (Inner : List Member → ι → Prop) : Member → Line ι → Prop where
  | num {m : Member} {f : Num} {n : Nat} {p x i e y : Nat} : Named b m f.word → Points b.types m.ty p →
      b.types[p]? = some (.array x i e y n) → Writes b Size Inner m (.num f n)
  | key {m : Member} {t n : Nat} : Named b m "key" → Points b.types m.ty t → Size t n → Writes b Size Inner m (.key t n)
  | value {m : Member} {t n : Nat} : Named b m "value" → Points b.types m.ty t → Size t n → Writes b Size Inner m (.value t n)
  | values {m : Member} {x i e y u v p n j z : Nat} {ms : List Member} {d : ι} : Named b m "values" →
      b.types[m.ty]? = some (.array x i e y 0) → Is b.types e (.ref .ptr u v p) → Is b.types p (.struct n j z ms) →
      Inner ms d → Writes b Size Inner m (.values d)
  | other {m : Member} {w : List UInt8} : StringAt b.strings m.name w → (∀ k ∈ words, w ≠ k.toUTF8.toList) →
      Writes b Size Inner m .other

/-- Two lists related element by element. -/
inductive Each {α β : Type} (R : α → β → Prop) : List α → List β → Prop where
  | nil : Each R [] []
  | cons {a : α} {b : β} {as : List α} {bs : List β} : R a b → Each R as bs → Each R (a :: as) (b :: bs)

/-- The last line saying something wins. -/
def last {α β : Type} (f : α → Option β) (ls : List α) (default : β) : β := (ls.filterMap f).getLast?.getD default

/-- What a line says about a numeric attribute. -/
def Line.numIs {ι : Type} (f : Num) : Line ι → Option Nat
  | .num g n => if g = f then some n else none
  | _ => none

/-- What a line says about the key size. -/
def Line.keySize {ι : Type} : Line ι → Option Nat
  | .key _ n => some n
  | .num .keySize n => some n
  | _ => none

/-- What a line says about the value size; the values of a map of maps are four byte descriptors. -/
def Line.valueSize {ι : Type} : Line ι → Option Nat
  | .value _ n => some n
  | .num .valueSize n => some n
  | .values _ => some 4
  | _ => none

def Line.keyType {ι : Type} : Line ι → Option Nat
  | .key t _ => some t
  | _ => none

def Line.valueType {ι : Type} : Line ι → Option Nat
  | .value t _ => some t
  | _ => none

def Line.inner {ι : Type} : Line ι → Option ι
  | .values d => some d
  | _ => none

/-- The map defined by some lines. -/
def meaning {ι : Type} (ls : List (Line ι)) : BtfDef :=
  { mapType := last (Line.numIs .type) ls 0
    keySize := last Line.keySize ls 0
    valueSize := last Line.valueSize ls 0
    maxEntries := last (Line.numIs .maxEntries) ls 0
    mapFlags := last (Line.numIs .mapFlags) ls 0
    mapExtra := last (Line.numIs .mapExtra) ls 0
    pinByName := last (Line.numIs .pinning) ls 0 == 1
    keyTypeId := last Line.keyType ls 0
    valueTypeId := last Line.valueType ls 0 }

/-- A struct defining a map that may be an inner map: it has no inner map itself and is not pinned. -/
def DefinesInner (b : Btf) (Size : Nat → Nat → Prop) (ms : List Member) (d : BtfDef) : Prop :=
  ∃ ls : List (Line Empty), Each (Writes b Size (fun _ _ => False)) ms ls ∧ (∀ n, Line.num .pinning n ∉ ls) ∧ d = meaning ls

/-- A struct defining a map and, for maps of maps, the inner map. -/
def Defines (b : Btf) (Size : Nat → Nat → Prop) (ms : List Member) (d : BtfDef) (inner : Option BtfDef) : Prop :=
  ∃ ls : List (Line BtfDef), Each (Writes b Size (DefinesInner b Size)) ms ls ∧ d = meaning ls ∧
    inner = (ls.filterMap Line.inner).getLast?

/-- C `sizeof`, for types of at most one array dimension, nesting depth 32 and below 4 GiB. -/
def CSize (ts : List BtfType) (t n : Nat) : Prop := ∃ d dims : Nat, SizeOf ts t d dims n ∧ dims ≤ 1 ∧ d ≤ 32 ∧ n < 2 ^ 32

end Verif.ObjMaps.Spec
