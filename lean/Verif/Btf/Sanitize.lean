import Verif.Btf.Model
import Verif.Common.Str
/-!
# Model of BTF sanitising

`Btf::fixup_and_sanitize` (aya-obj/src/btf/btf.rs:474-796) and `Btf::fixup_ksyms_datasec` (805-925).
`mem::take` of the types during the loop is not modelled (`string_at` and `add_string` do not look at the types).
Section and symbol tables are functions from names. Names are byte strings, assumed UTF-8 (`to_string_lossy` is the
identity on them).
-/
namespace Verif.Btf

/-- Which `BtfFeature`s (btf.rs:180-198) the kernel supports; `BtfFeatureResolver` (200-225) asks once and caches. -/
structure Feat where
  func : Bool
  funcGlobal : Bool
  dataSec : Bool
  dataSecZero : Bool
  float : Bool
  declTag : Bool
  typeTag : Bool
  enum64 : Bool
  deriving DecidableEq, Repr

/-- State of the loop: the BTF and the two `OnceCell`s (btf.rs:490-491). -/
structure San where
  b : Btf
  placeholder : Option Nat
  filler : Option Nat
  deriving DecidableEq, Repr

/-- `types.types[i] = t`. -/
def San.setType (s : San) (i : Nat) (t : BtfType) : San := { s with b := { s.b with types := s.b.types.set i t } }

/-- `name.replace(from, to)` for single characters. -/
def replaceByte (a c : UInt8) (s : List UInt8) : List UInt8 := s.map (fun x => if x = a then c else x)

/-- Rename if the replacement changes the name: the BTF and the offset to use (btf.rs:514-521, 554-557). -/
def renamed (b : Btf) (a c : UInt8) (name : List UInt8) (offset : Nat) : Btf × Nat :=
  let fixed := replaceByte a c name
  if fixed ≠ name then b.addString fixed else (b, offset)

/-- The members of the STRUCT replacing a DATASEC, btf.rs:525-535; `unwrap` panics on an unknown id. -/
def secMembers (types : List BtfType) : List SecEntry → Except Fail (List Member)
  | [] => .ok []
  | e :: es =>
    match types[e.ty]? with
    | none => .error .panic
    | some mt =>
      match secMembers types es with
      | .error x => .error x
      | .ok ms => .ok (⟨mt.name, e.ty, e.offset * 8 % 2 ^ 32⟩ :: ms)

/-- `filler_var_id.get_or_init`, btf.rs:593-617. -/
def getFiller (s : San) : San × Nat :=
  match s.filler with
  | some id => (s, id)
  | none =>
    let (b, tn) := s.b.addString "__aya_datasec_filler_type".toUTF8.toList
    let (b, tid) := b.addType (mkInt tn 1 0 0)
    let (b, vn) := b.addString "__aya_datasec_filler".toUTF8.toList
    let (b, vid) := b.addType (mkVar vn tid 0)
    ({ s with b := b, filler := some vid }, vid)

/-- `enum64_placeholder_id.get_or_init`, btf.rs:767-774. -/
def getPlaceholder (s : San) : San × Nat :=
  match s.placeholder with
  | some id => (s, id)
  | none =>
    let (b, n) := s.b.addString "enum64_placeholder".toUTF8.toList
    let (b, id) := b.addType (mkInt n 1 0 0)
    ({ s with b := b, placeholder := some id }, id)

/-- The loop over the entries of a DATASEC, btf.rs:630-649. -/
def fixEntries (b : Btf) (symOff : List UInt8 → Option Nat) : List SecEntry → Except Fail (List SecEntry)
  | [] => .ok []
  | e :: es =>
    match b.types[e.ty]? with
    | none => .error (.unknownBtfType e.ty)
    | some (.var n _ _ linkage) =>
      match b.stringAt n with
      | .error x => .error x
      | .ok name =>
        if linkage = 0 then
          match fixEntries b symOff es with
          | .error x => .error x
          | .ok es' => .ok (e :: es')
        else match symOff name with
          | none => .error (.symbolOffsetNotFound name)
          | some o =>
            match fixEntries b symOff es with
            | .error x => .error x
            | .ok es' => .ok ({ e with offset := o % 2 ^ 32 } :: es')
    | some _ => .error .invalidDatasec

/-- `type_len - old + new` on `u32`, wrapping. -/
def resizedLen (len old new : Nat) : Nat := (len + 2 ^ 32 - old % 2 ^ 32 + new) % 2 ^ 32

/-- The header correction, btf.rs:650-656. -/
def resized (b : Btf) (old new : Nat) : Btf :=
  if new ≠ old then
    { b with header := { b.header with
        typeLen := resizedLen b.header.typeLen old new
        strOff := resizedLen b.header.typeLen old new } }
  else b

/-- A DATASEC of size 0 when DATASECs are supported, btf.rs:566-661. `name` is its name before renaming, `n` its name
offset after. -/
def fixDataSec (f : Feat) (secSize symOff : List UInt8 → Option Nat) (s : San) (i n : Nat) (name : List UInt8)
    (entries : List SecEntry) : Except Fail San :=
  match secSize name with
  | none => .error (.unknownSectionSize name)
  | some size64 =>
    let size := size64 % 2 ^ 32
    let (s, entries', size') :=
      if entries.isEmpty && (size == 0 || !f.dataSecZero) then
        let (s, id) := getFiller s
        (s, [SecEntry.mk id 0 (max size 1)], if size = 0 then max size 1 else size)
      else (s, entries, size)
    match fixEntries s.b symOff entries' with
    | .error x => .error x
    | .ok es =>
      let t := mkDataSec n es size'
      .ok ({ s with b := resized s.b (12 + 12 * entries.length) t.infoSize }.setType i t)

/-- `format!("param{i}")`. -/
def paramName (k : Nat) : List UInt8 :=
  "param".toUTF8.toList ++ (Str.render 10 k).map (fun c => UInt8.ofNat c.toNat)

/-- The parameter names of a FUNC_PROTO, btf.rs:664-670, from parameter `k` on. -/
def nameParams : Btf → Nat → List Param → Btf × List Param
  | b, _, [] => (b, [])
  | b, k, p :: ps =>
    if p.name = 0 ∧ p.ty ≠ 0 then
      let (b, n) := b.addString (paramName k)
      let (b, ps') := nameParams b (k + 1) ps
      (b, { p with name := n } :: ps')
    else
      let (b, ps') := nameParams b (k + 1) ps
      (b, p :: ps')

/-- `set_linkage(Static)`, types.rs:276-278. -/
def staticInfo (info : Nat) : Nat := info / 65536 * 65536

/-- The names forced to static linkage, btf.rs:698. -/
def isMemBuiltin (name : List UInt8) : Bool :=
  name == "memset".toUTF8.toList || name == "memcpy".toUTF8.toList || name == "memmove".toUTF8.toList ||
  name == "memcmp".toUTF8.toList

/-- One iteration of the loop, btf.rs:494-793. -/
def sanitizeOne (f : Feat) (secSize symOff : List UInt8 → Option Nat) (s : San) (i : Nat) : Except Fail San :=
  match s.b.types[i]? with
  | none => .error .panic
  | some t =>
    match t with
    | .ref .ptr _ info x => .ok (s.setType i (.ref .ptr 0 info x))
    | .var n _ _ _ => if !f.dataSec then .ok (s.setType i (mkInt n 1 0 0)) else .ok s
    | .dataSec n info size entries =>
      match s.b.stringAt n with
      | .error e => .error e
      | .ok name =>
        if !f.dataSec then
          let (b, n') := renamed s.b 46 95 name n          -- '.' to '_'
          match secMembers s.b.types entries with
          | .error e => .error e
          | .ok ms => .ok ({ s with b := b }.setType i (mkStruct n' ms (entries.length % 2 ^ 32)))
        else
          let (b, n') := renamed s.b 47 46 name n          -- '/' to '.'
          if size > 0 then .ok ({ s with b := b }.setType i (.dataSec n' info size entries))
          else fixDataSec f secSize symOff { s with b := b } i n' name entries
    | .funcProto n info r ps =>
      if f.func then
        let (b, ps') := nameParams s.b 0 ps
        .ok ({ s with b := b }.setType i (.funcProto n info r ps'))
      else .ok (s.setType i (mkEnum n false (ps.map (fun p => ⟨p.name, p.ty⟩))))
    | .ref .func n info x =>
      match s.b.stringAt n with
      | .error e => .error e
      | .ok name =>
        if !f.func then .ok (s.setType i (mkTypedef n x))
        else if info % 65536 = 1 then
          if isMemBuiltin name then .ok (s.setType i (.ref .func n (staticInfo info) x))
          else if !f.funcGlobal then .ok (s.setType i (.ref .func n (staticInfo info) x))
          else .ok s
        else .ok s
    | .float _ _ size => if !f.float then .ok (s.setType i (mkStruct 0 [] size)) else .ok s
    | .declTag n _ _ _ => if !f.declTag then .ok (s.setType i (mkInt n 1 0 0)) else .ok s
    | .ref .typeTag _ _ x => if !f.typeTag then .ok (s.setType i (mkConst x)) else .ok s
    | .enum n info size vs =>
      if !f.enum64 && info / 2 ^ 31 == 1 then .ok (s.setType i (.enum n (info % 2 ^ 31) size vs)) else .ok s
    | .enum64 n info size vs =>
      if !f.enum64 then
        let fb : Fallback := ⟨info / 2 ^ 31 == 1, vs.map (fun v => ⟨v.name, v.high * 2 ^ 32 + v.low⟩)⟩
        let (s, id) := getPlaceholder s
        .ok (s.setType i (mkUnion n size (vs.map (fun v => ⟨v.name, id, 0⟩)) (some fb)))
      else .ok s
    | _ => .ok s

/-- The loop, btf.rs:494: `k` types from `i` on. -/
def sanitizeLoop (f : Feat) (secSize symOff : List UInt8 → Option Nat) : Nat → Nat → San → Except Fail San
  | 0, _, s => .ok s
  | k + 1, i, s =>
    match sanitizeOne f secSize symOff s i with
    | .error e => .error e
    | .ok s' => sanitizeLoop f secSize symOff k (i + 1) s'

/-! ## `.ksyms` -/

/-- The INT of size 4 used for extern variables, btf.rs:822-845. -/
def findInt4 : Nat → List BtfType → Option Nat
  | _, [] => none
  | i, .int _ _ 4 _ :: _ => some i
  | i, _ :: ts => findInt4 (i + 1) ts

/-- Set the type id, offset and size of entry `k` of DATASEC `d`, btf.rs:887-892, 908-912. `panic`: no such entry. -/
def setEntry (types : List BtfType) (d k : Nat) (ty : Option Nat) (offset size : Nat) : Except Fail (List BtfType) :=
  match types[d]? with
  | some (.dataSec n i s es) =>
    match es[k]? with
    | none => .error .panic
    | some e => .ok (types.set d (.dataSec n i s (es.set k ⟨ty.getD e.ty, offset, size⟩)))
  | some _ => .error .invalidDatasec
  | none => .error .panic

/-- `for param in &mut func_proto.params`, btf.rs:877-883. -/
def placeholderParams (n : Nat) (ps : List Param) : List Param :=
  ps.map (fun p => if p.ty ≠ 0 ∧ p.name = 0 then { p with name := n } else p)

/-- One entry of the `.ksyms` DATASEC, btf.rs:865-914. `ph`: name offset and id of the placeholder variable. -/
def fixKsym (b : Btf) (d intId : Nat) (ph : Option (Nat × Nat)) (k ty offset : Nat) : Except Fail Btf :=
  match b.types[ty]? with
  | none => .error .panic
  | some (.ref .func n info proto) =>
    match b.stringAt n with
    | .error e => .error e
    | .ok _ =>
      let types := b.types.set ty (.ref .func n (staticInfo info + 1) proto)
      match ph with
      | none =>
        match setEntry types d k none offset 4 with
        | .error e => .error e
        | .ok types => .ok { b with types := types }
      | some (pn, pid) =>
        match types[proto]? with
        | none => .error .panic
        | some pt =>
          let types := match pt with
            | .funcProto pn' pi r ps => types.set proto (.funcProto pn' pi r (placeholderParams pn ps))
            | _ => types
          match setEntry types d k (some pid) offset 4 with
          | .error e => .error e
          | .ok types => .ok { b with types := types }
  | some (.var n info _ _) =>
    match b.stringAt n with
    | .error e => .error e
    | .ok _ =>
      match setEntry (b.types.set ty (.var n info intId 1)) d k none offset 4 with
      | .error e => .error e
      | .ok types => .ok { b with types := types }
  | some _ => .error .invalidDatasec

/-- The loop over the entries, btf.rs:864-917: entry `k` on. -/
def fixKsymsLoop (d intId : Nat) (ph : Option (Nat × Nat)) : List Nat → Nat → Btf → Except Fail Btf
  | [], _, b => .ok b
  | ty :: tys, k, b =>
    match fixKsym b d intId ph k ty (4 * k % 2 ^ 32) with
    | .error e => .error e
    | .ok b' => fixKsymsLoop d intId ph tys (k + 1) b'

/-- Name offset and type of the placeholder variable, or an INT of size 4, btf.rs:812-848. -/
def ksymsInt (b : Btf) : Option Nat → Except Fail (Btf × Option (Nat × Nat) × Nat)
  | some pid =>
    match b.types[pid]? with
    | none => .error .panic
    | some (.var n _ t _) => .ok (b, some (n, pid), t)
    | some _ => .error .invalidDatasec
  | none =>
    match findInt4 0 b.types with
    | some id => .ok (b, none, id)
    | none =>
      let (b, n) := b.addString "int".toUTF8.toList
      let (b, id) := b.addType (mkInt n 4 1 0)
      .ok (b, none, id)

/-- `Btf::fixup_ksyms_datasec`, btf.rs:805-925. -/
def fixupKsyms (b : Btf) (d : Nat) (placeholder : Option Nat) : Except Fail Btf :=
  match ksymsInt b placeholder with
  | .error e => .error e
  | .ok (b, ph, intId) =>
    match b.types[d]? with
    | none => .error .panic
    | some (.dataSec n _ _ es) =>
      match b.stringAt n with
      | .error e => .error e
      | .ok _ =>
        match fixKsymsLoop d intId ph (es.map (·.ty)) 0 b with
        | .error e => .error e
        | .ok b =>
          match b.types[d]? with
          | some (.dataSec n i _ es') => .ok { b with types := b.types.set d (.dataSec n i (4 * es.length % 2 ^ 32) es') }
          | _ => .ok b
    | some _ => .error .invalidDatasec

/-- btf.rs:483-489. `externs`: id of the `.ksyms` DATASEC and of the placeholder variable, if there are externs. -/
def fixupExterns (externs : Option (Nat × Option Nat)) (b : Btf) : Except Fail Btf :=
  match externs with
  | none => .ok b
  | some (d, ph) => fixupKsyms b d ph

/-- `Btf::fixup_and_sanitize`, btf.rs:474-796. -/
def fixupAndSanitize (f : Feat) (secSize symOff : List UInt8 → Option Nat) (externs : Option (Nat × Option Nat)) (b : Btf) :
    Except Fail Btf :=
  match fixupExterns externs b with
  | .error e => .error e
  | .ok b =>
    match sanitizeLoop f secSize symOff b.types.length 0 ⟨b, none, none⟩ with
    | .error e => .error e
    | .ok s => .ok s.b

end Verif.Btf
