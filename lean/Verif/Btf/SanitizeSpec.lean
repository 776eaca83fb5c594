import Verif.Btf.Spec
import Verif.Btf.Sanitize
/-!
# Specification of BTF sanitising

Only data types of the model are used.
-/
namespace Verif.Btf.Spec
open Verif.Btf

/-- Bit 31 of `info`: signed, for enumerations. -/
def SignBit (info : Nat) : Prop := info / 2 ^ 31 = 1

/-- Linkage of a FUNC. -/
def Linkage (info l : Nat) : Prop := info % 65536 = l

/-- The kernel with features `f` knows every feature this record uses. -/
def Supported (f : Feat) : BtfType → Prop
  | .ref .func _ i _ => f.func = true ∧ (Linkage i 1 → f.funcGlobal = true)
  | .funcProto .. => f.func = true
  | .var .. => f.dataSec = true
  | .dataSec _ _ _ es => f.dataSec = true ∧ (es = [] → f.dataSecZero = true)
  | .float .. => f.float = true
  | .declTag .. => f.declTag = true
  | .ref .typeTag .. => f.typeTag = true
  | .enum _ i _ _ => SignBit i → f.enum64 = true
  | .enum64 .. => f.enum64 = true
  | _ => True

/-- A data section of known size without entries. -/
def SizedEmptySection : BtfType → Prop
  | .dataSec _ _ s es => s ≠ 0 ∧ es = []
  | _ => False

/-- The bytes of `s` with every `a` replaced by `c`. -/
def Replaced (a c : UInt8) (s s' : List UInt8) : Prop :=
  s'.length = s.length ∧ ∀ k : Nat, ∀ x : UInt8, s[k]? = some x → s'[k]? = some (if x = a then c else x)

/-- An INT of one byte (the stand-in for things the kernel does not know). -/
def ByteInt (n : Nat) (t : BtfType) : Prop := ∃ i d, t = .int n i 1 d ∧ Announces i 1

/-- The name at offset `n'` is the name at `n` with `a` replaced by `c`; the offset is unchanged if there is nothing to
replace. -/
def RenamedTo (a c : UInt8) (news : List UInt8) (n n' : Nat) : Prop :=
  ∃ s s', StringAt news n s ∧ Replaced a c s s' ∧ (s' = s → n' = n) ∧ (s' ≠ s → ∃ o, StringAt news o s' ∧ n' = o % 2 ^ 32)

/-- Relation between the entry of a data section in the object (size not filled in by the compiler) and the fixed entry:
offsets of non-static variables come from the symbol table. -/
def EntryFixed (types : List BtfType) (strings : List UInt8) (symOff : List UInt8 → Option Nat) (e e' : SecEntry) : Prop :=
  e'.ty = e.ty ∧ e'.size = e.size ∧
  ∃ n i t l name, types[e.ty]? = some (.var n i t l) ∧ StringAt strings n name ∧
    (l = 0 → e'.offset = e.offset) ∧ (l ≠ 0 → ∃ o, symOff name = some o ∧ e'.offset = o % 2 ^ 32)

/-- The single entry given to an empty data section: a static variable of a one byte INT, both newly added. -/
def FillerEntry (n : Nat) (newt : List BtfType) (size : Nat) (e : SecEntry) : Prop :=
  n ≤ e.ty ∧ e.offset = 0 ∧ e.size = max size 1 ∧
  ∃ vn vi ti t tn, newt[e.ty]? = some (.var vn vi ti 0) ∧ n ≤ ti ∧ newt[ti]? = some t ∧ ByteInt tn t

/-- What a record may become. `oldt`: types before; `newt`, `news`: types and strings after (the strings before are a
prefix of them, so names read at old offsets are the old names). -/
def Becomes (f : Feat) (secSize symOff : List UInt8 → Option Nat) (oldt newt : List BtfType)
    (news : List UInt8) (t t' : BtfType) : Prop :=
  match t with
  -- pointers lose their name
  | .ref .ptr _ i x => t' = .ref .ptr 0 i x
  -- variables become INTs of that name
  | .var n _ _ _ => if f.dataSec then t' = t else ByteInt n t'
  -- data sections become STRUCTs whose members are the variables, or have their size and offsets filled in
  | .dataSec n i s es =>
    if f.dataSec then
      ∃ n' i' s' es', t' = .dataSec n' i' s' es' ∧ RenamedTo 47 46 news n n' ∧
        (s ≠ 0 → i' = i ∧ s' = s ∧ es' = es) ∧
        (s = 0 → Announces i' 15 ∧ Counts i' (es'.length % 65536) ∧
          ∃ name size, StringAt news n name ∧ secSize name = some size ∧
          (es ≠ [] → s' = size % 2 ^ 32 ∧ es'.length = es.length ∧
            ∀ (k : Nat) (e e' : SecEntry), es[k]? = some e → es'[k]? = some e' → EntryFixed newt news symOff e e') ∧
          (es = [] → (size % 2 ^ 32 ≠ 0 ∧ f.dataSecZero = true → s' = size % 2 ^ 32 ∧ es' = []) ∧
            (size % 2 ^ 32 = 0 ∨ f.dataSecZero = false → s' = max (size % 2 ^ 32) 1 ∧
              ∃ e, es' = [e] ∧ FillerEntry oldt.length newt (size % 2 ^ 32) e)))
    else
      ∃ n' i' s' ms, t' = .struct n' i' s' ms ∧ Announces i' 4 ∧ Counts i' (ms.length % 65536) ∧ RenamedTo 46 95 news n n' ∧
        ms.length = es.length ∧
        ∀ (k : Nat) (e : SecEntry) (m : Member), es[k]? = some e → ms[k]? = some m → m.ty = e.ty ∧ m.offset = e.offset * 8 % 2 ^ 32 ∧
          ∀ vn i x l, oldt[e.ty]? = some (.var vn i x l) → m.name = vn
  -- function prototypes get parameter names, or become ENUMs with one value per parameter
  | .funcProto n i r ps =>
    if f.func then
      ∃ ps', t' = .funcProto n i r ps' ∧ ps'.length = ps.length ∧
        ∀ (k : Nat) (p p' : Param), ps[k]? = some p → ps'[k]? = some p' → p'.ty = p.ty ∧
          (p.name ≠ 0 ∨ p.ty = 0 → p'.name = p.name) ∧
          (p.name = 0 ∧ p.ty ≠ 0 → ∃ o, p'.name = o % 2 ^ 32 ∧
            StringAt news o ("param".toUTF8.toList ++ (Str.render 10 k).map (fun c => UInt8.ofNat c.toNat)))
    else
      ∃ i', t' = .enum n i' 4 (ps.map (fun p => ⟨p.name, p.ty⟩)) ∧ Announces i' 6 ∧ Counts i' (ps.length % 65536) ∧ ¬ SignBit i'
  -- functions become TYPEDEFs of their prototype, or static
  | .ref .func n i x =>
    if f.func then
      ∃ i' name, t' = .ref .func n i' x ∧ StringAt news n name ∧ i' / 65536 = i / 65536 ∧
        (¬ Linkage i 1 → i' = i) ∧
        (Linkage i 1 → (f.funcGlobal = true ∧
            name ∉ ["memset", "memcpy", "memmove", "memcmp"].map (fun x => x.toUTF8.toList) → i' = i) ∧
          (f.funcGlobal = false ∨
            name ∈ ["memset", "memcpy", "memmove", "memcmp"].map (fun x => x.toUTF8.toList) → Linkage i' 0))
    else ∃ i', t' = .ref .typedef n i' x ∧ Announces i' 8
  | .float _ _ s => if f.float then t' = t else ∃ i', t' = .struct 0 i' s [] ∧ Announces i' 4 ∧ Counts i' 0
  | .declTag n _ _ _ => if f.declTag then t' = t else ByteInt n t'
  | .ref .typeTag _ _ x => if f.typeTag then t' = t else ∃ i', t' = .ref .const 0 i' x ∧ Announces i' 10
  | .enum n i s vs =>
    if f.enum64 then t' = t
    else ∃ i', t' = .enum n i' s vs ∧ i' % 2 ^ 31 = i % 2 ^ 31 ∧ ¬ SignBit i'
  | .enum64 n i s vs =>
    if f.enum64 then t' = t
    else ∃ i' p pt pn sg, t' = .union n i' s (vs.map (fun v => ⟨v.name, p, 0⟩))
          (some ⟨sg, vs.map (fun v => ⟨v.name, v.high * 2 ^ 32 + v.low⟩)⟩) ∧
        Announces i' 5 ∧ Counts i' (vs.length % 65536) ∧ (sg = true ↔ SignBit i) ∧
        oldt.length ≤ p ∧ newt[p]? = some pt ∧ ByteInt pn pt
  | t => t' = t

/-- Header and records agree, up to the width of the header's fields. -/
def Good (b : Btf) : Prop :=
  ∃ ts, b.types = .unknown :: ts ∧ (∀ t ∈ ts, Coherent t) ∧
    b.header.typeLen = (ts.map recordSize).sum % 2 ^ 32 ∧ b.header.strOff = b.header.typeLen ∧
    b.header.strLen = b.strings.length % 2 ^ 32 ∧ b.header.hdrLen = 24 ∧ b.header.typeOff = 0 ∧
    b.header.magic < 2 ^ 16 ∧ b.header.version < 2 ^ 8 ∧ b.header.flags < 2 ^ 8

end Verif.Btf.Spec
