import Verif.Btf.Lemmas
import Verif.Common.Except
/-!
# BTF: serialisation, resolution, sizes and strings (C13, C15, C16, C17)
-/
set_option linter.unusedSimpArgs false
set_option linter.unusedVariables false
namespace Verif.Btf
open Verif.Bytes Verif.Btf.Spec

/-! ## C13: round trip -/

theorem word_append4 (a r : List UInt8) (ha : a.length = 4) (k : Nat) : word (a ++ r) (k + 1) = word r k := by
  unfold word
  have : (a ++ r).drop (4 * (k + 1)) = r.drop (4 * k) := by
    rw [List.drop_append, ha]
    have h1 : a.drop (4 * (k + 1)) = [] := by apply List.drop_eq_nil_of_le; omega
    rw [h1]
    have h2 : 4 * (k + 1) - 4 = 4 * k := by omega
    rw [h2]; simp
  rw [this]

theorem header_read (h : Header) (rest : List UInt8) (hm : h.magic < 2 ^ 16) (hv : h.version < 2 ^ 8)
    (hf : h.flags < 2 ^ 8) (h1 : U32 h.hdrLen) (h2 : U32 h.typeOff) (h3 : U32 h.typeLen) (h4 : U32 h.strOff)
    (h5 : U32 h.strLen) : Header.read (h.toBytes ++ rest) = h := by
  have e : h.toBytes ++ rest = (le 2 h.magic ++ (le 1 h.version ++ le 1 h.flags)) ++ (le 4 h.hdrLen ++ (le 4 h.typeOff ++
      (le 4 h.typeLen ++ (le 4 h.strOff ++ (le 4 h.strLen ++ rest))))) := by
    simp [Header.toBytes, List.append_assoc]
  have hl : (le 2 h.magic ++ (le 1 h.version ++ le 1 h.flags)).length = 4 := by simp
  unfold Header.read
  rw [e]
  have w1 : ∀ k, word ((le 2 h.magic ++ (le 1 h.version ++ le 1 h.flags)) ++ (le 4 h.hdrLen ++ (le 4 h.typeOff ++
      (le 4 h.typeLen ++ (le 4 h.strOff ++ (le 4 h.strLen ++ rest)))))) (k + 1) = word (le 4 h.hdrLen ++ (le 4 h.typeOff ++
      (le 4 h.typeLen ++ (le 4 h.strOff ++ (le 4 h.strLen ++ rest))))) k := fun k => word_append4 _ _ hl k
  have a1 : word ((le 2 h.magic ++ (le 1 h.version ++ le 1 h.flags)) ++ (le 4 h.hdrLen ++ (le 4 h.typeOff ++
      (le 4 h.typeLen ++ (le 4 h.strOff ++ (le 4 h.strLen ++ rest)))))) 1 = h.hdrLen := by
    rw [w1 0]; exact word_zero _ _ h1
  have a2 : word ((le 2 h.magic ++ (le 1 h.version ++ le 1 h.flags)) ++ (le 4 h.hdrLen ++ (le 4 h.typeOff ++
      (le 4 h.typeLen ++ (le 4 h.strOff ++ (le 4 h.strLen ++ rest)))))) 2 = h.typeOff := by
    rw [w1 1, word_succ]; exact word_zero _ _ h2
  have a3 : word ((le 2 h.magic ++ (le 1 h.version ++ le 1 h.flags)) ++ (le 4 h.hdrLen ++ (le 4 h.typeOff ++
      (le 4 h.typeLen ++ (le 4 h.strOff ++ (le 4 h.strLen ++ rest)))))) 3 = h.typeLen := by
    rw [w1 2, word_succ, word_succ]; exact word_zero _ _ h3
  have a4 : word ((le 2 h.magic ++ (le 1 h.version ++ le 1 h.flags)) ++ (le 4 h.hdrLen ++ (le 4 h.typeOff ++
      (le 4 h.typeLen ++ (le 4 h.strOff ++ (le 4 h.strLen ++ rest)))))) 4 = h.strOff := by
    rw [w1 3, word_succ, word_succ, word_succ]; exact word_zero _ _ h4
  have a5 : word ((le 2 h.magic ++ (le 1 h.version ++ le 1 h.flags)) ++ (le 4 h.hdrLen ++ (le 4 h.typeOff ++
      (le 4 h.typeLen ++ (le 4 h.strOff ++ (le 4 h.strLen ++ rest)))))) 5 = h.strLen := by
    rw [w1 4, word_succ, word_succ, word_succ, word_succ]; exact word_zero _ _ h5
  rw [a1, a2, a3, a4, a5]
  have b1 : ofLe (((le 2 h.magic ++ (le 1 h.version ++ le 1 h.flags)) ++ (le 4 h.hdrLen ++ (le 4 h.typeOff ++
      (le 4 h.typeLen ++ (le 4 h.strOff ++ (le 4 h.strLen ++ rest)))))).take 2) = h.magic := by
    rw [List.append_assoc, List.take_left' (by simp)]
    exact ofLe_le_of_lt 2 _ hm
  have b2 : ofLe ((((le 2 h.magic ++ (le 1 h.version ++ le 1 h.flags)) ++ (le 4 h.hdrLen ++ (le 4 h.typeOff ++
      (le 4 h.typeLen ++ (le 4 h.strOff ++ (le 4 h.strLen ++ rest)))))).drop 2).take 1) = h.version := by
    rw [List.append_assoc, List.drop_left' (by simp), List.append_assoc, List.take_left' (by simp)]
    exact ofLe_le_of_lt 1 _ (by omega)
  have b3 : ofLe ((((le 2 h.magic ++ (le 1 h.version ++ le 1 h.flags)) ++ (le 4 h.hdrLen ++ (le 4 h.typeOff ++
      (le 4 h.typeLen ++ (le 4 h.strOff ++ (le 4 h.strLen ++ rest)))))).drop 3).take 1) = h.flags := by
    rw [← List.append_assoc (le 2 h.magic), List.append_assoc (le 2 h.magic ++ le 1 h.version),
      List.drop_left' (by simp), List.take_left' (by simp)]
    exact ofLe_le_of_lt 1 _ (by omega)
  rw [b1, b2, b3]

theorem header_length (h : Header) : h.toBytes.length = 24 := by simp [Header.toBytes]

/-- **C13.** Serialising and parsing again gives back every BTF whose sections lie one after the other and whose
types are coherent: same header, strings and types. What is missing from the full statement: BTF with other
layouts and with kind-0 records, see the `_violated` theorems. (The note aya keeps about a downgraded ENUM64 is
not part of the format and is gone.) -/
theorem C13_roundtrip_partial (b : Btf) (ts : List BtfType) (hts : b.types = .unknown :: ts) (hcan : Canonical b)
    (hco : ∀ t ∈ ts, Coherent t) : Btf.parse b.toBytes = .ok { b with types := .unknown :: ts.map wire } := by
  obtain ⟨c1, c2, c3, c4, c5, c6, c7, c8, c9, c10, c11⟩ := hcan
  rw [hts] at c9
  simp only [List.drop_one, List.tail_cons] at c9
  have hd : b.toBytes = b.header.toBytes ++ (ts.flatMap BtfType.toBytes ++ b.strings) := by
    simp [Btf.toBytes, hts]
  have hlen := types_length ts hco
  have hh : Header.read b.toBytes = b.header := by
    rw [hd]; exact header_read _ _ c4 c5 c6 (by rw [c7]; unfold U32; omega) (by rw [c8]; unfold U32; omega) c1 c2 c3
  have hL : b.toBytes.length = 24 + (b.header.typeLen + b.strings.length) := by
    rw [hd, List.length_append, List.length_append, header_length, hlen, ← c9]
  unfold Btf.parse
  rw [if_neg (by omega)]
  simp only [hh]
  rw [if_neg (by omega), if_neg (by omega)]
  have e1 : (b.toBytes.drop (b.header.hdrLen + b.header.typeOff)).take b.header.typeLen = ts.flatMap BtfType.toBytes := by
    rw [hd, c7, c8, List.drop_left' (by rw [header_length]), List.take_left' (by rw [hlen, c9])]
  have e2 : (b.toBytes.drop (b.header.hdrLen + b.header.strOff)).take b.header.strLen = b.strings := by
    rw [hd, c7, c10, ← List.append_assoc, List.drop_left' (by rw [List.length_append, header_length, hlen, c9]), c11]
    exact List.take_length
  rw [e1, e2, readTypes_toBytes ts hco _ (by rw [hlen, c9]; exact Nat.le_refl _)]

/-- What parsing accepts has coherent types and a type section of the size given in its header. -/
theorem parse_ok {data : List UInt8} {b : Btf} (h : Btf.parse data = .ok b) :
    ∃ ts, b.types = .unknown :: ts ∧ (∀ t ∈ ts, (t = .unknown ∨ Coherent t) ∧ wire t = t) ∧
      b.header.typeLen = (ts.map recordSize).sum ∧ b.header.strLen = b.strings.length ∧ b.header = Header.read data := by
  unfold Btf.parse at h
  split at h
  · cases h
  · simp only at h
    split at h
    · cases h
    · split at h
      · cases h
      · split at h
        · cases h
        · rename_i hs ht _ ts hr
          cases h
          have hl : ((data.drop ((Header.read data).hdrLen + (Header.read data).typeOff)).take (Header.read data).typeLen).length
              = (Header.read data).typeLen := by
            rw [List.length_take, List.length_drop]; omega
          obtain ⟨h1, h2⟩ := readTypes_ok (by rw [hl]; exact Nat.le_refl _) hr
          refine ⟨ts, rfl, h1, ?_, ?_, rfl⟩
          · rw [h2, hl]
          · simp only [List.length_take, List.length_drop]; omega

theorem ofLe_take_lt (d : List UInt8) (k : Nat) : ofLe (d.take k) < 256 ^ k := by
  have h1 := ofLe_lt (d.take k)
  have h2 : (d.take k).length ≤ k := by simp; omega
  exact Nat.lt_of_lt_of_le h1 (Nat.pow_le_pow_right (by omega) h2)

/-- **C13**, starting from bytes: BTF parsed from any bytes in the usual layout without kind-0 records survives
serialising and parsing again unchanged. -/
theorem C13_reparse_partial (data : List UInt8) (b : Btf) (hp : Btf.parse data = .ok b)
    (hh : b.header.hdrLen = 24) (ht : b.header.typeOff = 0) (hs : b.header.strOff = b.header.typeLen)
    (hu : ∀ t ∈ b.types.drop 1, t ≠ .unknown) : Btf.parse b.toBytes = .ok b := by
  obtain ⟨ts, h1, h2, h3, h4, h5⟩ := parse_ok hp
  have hmem : ∀ t ∈ ts, Coherent t := by
    intro t htm
    rcases (h2 t htm).1 with h | h
    · exact absurd h (hu t (by rw [h1]; exact htm))
    · exact h
  have hw : ts.map wire = ts := by
    conv => rhs; rw [← List.map_id ts]
    exact List.map_congr_left (fun t htm => (h2 t htm).2)
  have hcan : Canonical b := by
    refine ⟨?_, ?_, ?_, ?_, ?_, ?_, hh, ht, ?_, hs, h4⟩
    · rw [h5]; exact word_lt _ _
    · rw [h5]; exact word_lt _ _
    · rw [h5]; exact word_lt _ _
    · rw [h5]; exact ofLe_take_lt _ 2
    · rw [h5]; exact ofLe_take_lt _ 1
    · rw [h5]; exact ofLe_take_lt _ 1
    · rw [h3, h1]; rfl
  rw [C13_roundtrip_partial b ts h1 hcan hmem, hw, ← h1]

/-- Parsing never panics, whatever the bytes: each record consumed is within the data. -/
theorem readTypes_no_panic (fuel : Nat) (d : List UInt8) : readTypes fuel d ≠ .error .panic := by
  induction fuel generalizing d with
  | zero => intro h; cases h
  | succ fuel ih =>
    rw [readTypes]
    split
    · intro h; cases h
    · split
      · rename_i e he
        intro h; cases h
        revert he
        unfold BtfType.read
        split
        · intro h; cases h
        · have hra : ∀ w n d, readArray w n d ≠ .error .panic := by
            intro w n d h; unfold readArray at h; split at h <;> cases h
          unfold BtfType.readBody
          split <;> (try (intro h; cases h; done)) <;> (try (split <;> (try (intro h; cases h; done)))) <;>
            (try (rename_i hx; intro h; cases h; exact absurd hx (hra _ _ _))) <;>
            (try (split <;> (intro h; cases h)))
      · rename_i t ht
        rw [if_neg (by have := (read_ok ht).2.2; omega)]
        split
        · rename_i e he
          intro h; cases h; exact ih _ he
        · intro h; cases h

theorem C13_parse_no_panic (data : List UInt8) : Btf.parse data ≠ .error .panic := by
  unfold Btf.parse
  split
  · intro h; cases h
  · simp only
    split
    · intro h; cases h
    · split
      · intro h; cases h
      · split
        · rename_i e he; intro h; cases h; exact readTypes_no_panic _ _ he
        · intro h; cases h

/-! ### BTF built through the API -/

/-- One call of the building API. -/
def applyOp (b : Btf) : Op → Btf
  | .str s => (b.addString s).1
  | .type t => (b.addType t).1

/-- The BTF after a sequence of calls on a new one. -/
def build (ops : List Op) : Btf := ops.foldl applyOp .new

/-- The types added by a sequence of calls. -/
def addedTypes : List Op → List BtfType
  | [] => []
  | .type t :: ops => t :: addedTypes ops
  | .str _ :: ops => addedTypes ops

/-- State of a BTF under construction. -/
structure BuildInv (b : Btf) (ts : List BtfType) (str : Bool) : Prop where
  types : b.types = .unknown :: ts
  hdr : b.header.magic = 0xeb9f ∧ b.header.version = 1 ∧ b.header.flags = 0 ∧ b.header.hdrLen = 24 ∧ b.header.typeOff = 0
  len : b.header.typeLen = (ts.map recordSize).sum
  off : b.header.strOff = b.header.typeLen
  strLen : str = true → b.header.strLen = b.strings.length

theorem build_inv (ops : List Op) (b : Btf) (ts : List BtfType) (str : Bool) (h : BuildInv b ts str)
    (hb : (ts.map recordSize).sum + b.strings.length + (ops.map Op.bytes).sum < 2 ^ 32) :
    BuildInv (ops.foldl applyOp b) (ts ++ addedTypes ops) (str || ops.any (fun o => match o with | .str _ => true | _ => false)) ∧
    (((ts ++ addedTypes ops).map recordSize).sum + (ops.foldl applyOp b).strings.length < 2 ^ 32) := by
  induction ops generalizing b ts str with
  | nil => simp at hb; simpa [addedTypes] using ⟨h, hb⟩
  | cons o ops ih =>
    simp only [List.map_cons, List.sum_cons] at hb
    cases o with
    | str s =>
      simp only [Op.bytes] at hb
      have h' : BuildInv (applyOp b (.str s)) ts true := by
        refine ⟨h.types, h.hdr, h.len, h.off, fun _ => ?_⟩
        show (b.strings ++ s ++ [0]).length % 2 ^ 32 = (b.strings ++ s ++ [0]).length
        apply Nat.mod_eq_of_lt
        simp only [List.length_append, List.length_cons, List.length_nil]; omega
      have hl : (applyOp b (.str s)).strings.length = b.strings.length + s.length + 1 := by
        simp [applyOp, Btf.addString]; omega
      have := ih (applyOp b (.str s)) ts true h' (by rw [hl]; omega)
      simpa [addedTypes, List.foldl_cons] using this
    | type t =>
      simp only [Op.bytes] at hb
      have h' : BuildInv (applyOp b (.type t)) (ts ++ [t]) str := by
        have hs : (b.header.typeLen + t.infoSize) % 2 ^ 32 = b.header.typeLen + recordSize t := by
          rw [infoSize_eq]; apply Nat.mod_eq_of_lt; rw [h.len]; omega
        refine ⟨?_, h.hdr, ?_, ?_, h.strLen⟩
        · show b.types ++ [t] = _; rw [h.types]; rfl
        · show (b.header.typeLen + t.infoSize) % 2 ^ 32 = _
          rw [hs, h.len]; simp
        · show (b.header.strOff + t.infoSize) % 2 ^ 32 = (b.header.typeLen + t.infoSize) % 2 ^ 32
          rw [h.off]
      have hl : (applyOp b (.type t)).strings = b.strings := rfl
      have := ih (applyOp b (.type t)) (ts ++ [t]) str h' (by
        rw [hl]; simp only [List.map_append, List.sum_append, List.map_cons, List.map_nil, List.sum_cons, List.sum_nil]; omega)
      simpa [addedTypes, List.foldl_cons] using this

/-- **C13**, for BTF built with the API: whatever sequence of strings and coherent types has been added, as long as
there is a string and the total fits 32 bits, serialising and parsing again gives the same strings and types. -/
theorem C13_built_partial (ops : List Op) (hstr : ∃ s, Op.str s ∈ ops)
    (hco : ∀ t, Op.type t ∈ ops → Coherent t) (hsz : (ops.map Op.bytes).sum + 1 < 2 ^ 32) :
    ∃ b', Btf.parse (build ops).toBytes = .ok b' ∧ b'.strings = (build ops).strings ∧
      b'.types = .unknown :: (addedTypes ops).map wire := by
  have h0 : BuildInv .new [] false := ⟨rfl, ⟨rfl, rfl, rfl, rfl, rfl⟩, rfl, rfl, by simp⟩
  obtain ⟨hi, hb⟩ := build_inv ops .new [] false h0 (by
    show 0 + 1 + _ < _; omega)
  rw [List.nil_append] at hi hb
  obtain ⟨s, hs⟩ := hstr
  have hany : (false || ops.any (fun o => match o with | .str _ => true | _ => false)) = true := by
    rw [Bool.false_or, List.any_eq_true]; exact ⟨_, hs, rfl⟩
  rw [hany] at hi
  have hb' : ((addedTypes ops).map recordSize).sum + (build ops).strings.length < 2 ^ 32 := hb
  have hi' : BuildInv (build ops) (addedTypes ops) true := hi
  have hmem : ∀ t ∈ addedTypes ops, Coherent t := by
    have : ∀ l : List Op, ∀ t ∈ addedTypes l, Op.type t ∈ l := by
      intro l
      induction l with
      | nil => intro t ht; simp [addedTypes] at ht
      | cons o l ih =>
        intro t ht
        cases o with
        | str s => exact List.mem_cons_of_mem _ (ih t ht)
        | type t' =>
          rcases List.mem_cons.mp ht with rfl | ht
          · simp
          · exact List.mem_cons_of_mem _ (ih t ht)
    exact fun t ht => hco t (this ops t ht)
  obtain ⟨hm1, hm2, hm3, hm4, hm5⟩ := hi'.hdr
  refine ⟨_, C13_roundtrip_partial (build ops) (addedTypes ops) hi'.types ?_ hmem, rfl, rfl⟩
  refine ⟨?_, ?_, ?_, ?_, ?_, ?_, hm4, hm5, ?_, hi'.off, hi'.strLen rfl⟩
  · unfold U32; rw [hi'.len]; omega
  · unfold U32; rw [hi'.off, hi'.len]; omega
  · unfold U32; rw [hi'.strLen rfl]; omega
  · rw [hm1]; omega
  · rw [hm2]; omega
  · rw [hm3]; omega
  · rw [hi'.len, hi'.types]; rfl

/-- A short history meeting the hypotheses of `C13_built_partial`. -/
def exOps : List Op :=
  [.str "int".toUTF8.toList, .type (mkInt 1 4 1 0), .str "x".toUTF8.toList, .type (mkStruct 5 [⟨5, 1, 0⟩, ⟨5, 1, 32⟩] 8),
   .type (mkEnum 1 true [⟨1, 2⟩]), .type (mkVar 1 1 1), .type (.array 0 (3 * 2 ^ 24) 1 1 4)]

example : Btf.parse (build exOps).toBytes = .ok (build exOps) ∧ (build exOps).types.length = 6 := by decide +kernel

/-- The constructors of the API give coherent types when their words fit and a list has at most 65535 entries. -/
theorem C13_constructors (n t s l o : Nat) (sg : Bool) (hn : U32 n) (ht : U32 t) (hs : U32 s) (hl : l ≤ 2) (ho : U32 o)
    (ps : List Param) (vs : List Variant) (ws : List Variant64) (es : List SecEntry)
    (hps : ps.length < 65536 ∧ ∀ p ∈ ps, U32 p.name ∧ U32 p.ty)
    (hvs : vs.length < 65536 ∧ ∀ v ∈ vs, U32 v.name ∧ U32 v.value)
    (hws : ws.length < 65536 ∧ ∀ v ∈ ws, U32 v.name ∧ U32 v.low ∧ U32 v.high)
    (hes : es.length < 65536 ∧ ∀ e ∈ es, U32 e.ty ∧ U32 e.offset ∧ U32 e.size) :
    Coherent (mkInt n s l o) ∧ Coherent (mkPtr n t) ∧ Coherent (mkFloat n s) ∧ Coherent (mkFunc n t l) ∧
    Coherent (mkTypeTag n t) ∧ Coherent (mkEnum n sg vs) ∧ Coherent (mkEnum64 n sg ws) ∧ Coherent (mkFuncProto ps t) ∧
    Coherent (mkVar n t l) ∧ Coherent (mkDataSec n es s) ∧ Coherent (mkDeclTag n t o) := by
  unfold U32 at *
  obtain ⟨hp1, hp2⟩ := hps
  obtain ⟨hv1, hv2⟩ := hvs
  obtain ⟨hw1, hw2⟩ := hws
  obtain ⟨he1, he2⟩ := hes
  refine ⟨?_, ?_, ?_, ?_, ?_, ?_, ?_, ?_, ?_, ?_, ?_⟩ <;>
    simp only [Coherent, mkInt, mkPtr, mkFloat, mkFunc, mkTypeTag, mkEnum, mkEnum64, mkFuncProto, mkVar, mkDataSec,
      mkDeclTag, U32, Announces, Counts, refKindNo]
  · refine ⟨hn, by first | omega | decide, hs, by first | omega | decide, by first | omega | decide⟩
  · exact ⟨hn, by first | omega | decide, ht, by first | omega | decide⟩
  · exact ⟨hn, by first | omega | decide, hs, by first | omega | decide⟩
  · exact ⟨hn, by first | omega | decide, ht, by first | omega | decide⟩
  · exact ⟨hn, by first | omega | decide, ht, by first | omega | decide⟩
  · cases sg <;> simp <;> exact ⟨hn, by first | omega | decide, by first | omega | decide, by first | omega | decide, fun v hv => by simpa using hv2 v hv⟩
  · cases sg <;> simp <;> exact ⟨hn, by first | omega | decide, by first | omega | decide, by first | omega | decide, fun v hv => by simpa using hw2 v hv⟩
  · exact ⟨by first | omega | decide, by first | omega | decide, ht, by first | omega | decide, by first | omega | decide, hp2⟩
  · exact ⟨hn, by first | omega | decide, ht, by first | omega | decide, by first | omega | decide⟩
  · exact ⟨hn, by first | omega | decide, hs, by first | omega | decide, by first | omega | decide, he2⟩
  · exact ⟨hn, by first | omega | decide, ht, ho, by first | omega | decide⟩

/-! ### Where the round trip fails -/

/-- **C13 violated**: a new BTF (its string table holds one NUL) is written with string length 0 and comes back with an
empty string table. -/
theorem C13_new_violated : ∃ b', Btf.parse Btf.new.toBytes = .ok b' ∧ b'.strings ≠ Btf.new.strings := by
  refine ⟨⟨⟨0xeb9f, 1, 0, 24, 0, 0, 0, 0⟩, [], [.unknown]⟩, ?_, ?_⟩ <;> decide +kernel

/-- BTF with a kind-0 record before an INT. -/
def unknownBtf : List UInt8 :=
  (Header.toBytes ⟨0xeb9f, 1, 0, 24, 0, 28, 28, 1⟩) ++ head 0 0 0 ++ (mkInt 0 4 0 0).toBytes ++ [0]

/-- **C13 violated**: a kind-0 record is accepted, takes a type id, and is not written again. -/
theorem C13_unknown_kind_violated :
    ∃ b, Btf.parse unknownBtf = .ok b ∧ b.types = [.unknown, .unknown, mkInt 0 4 0 0] ∧ Btf.parse b.toBytes ≠ .ok b ∧
      b.toBytes.length < unknownBtf.length := by
  refine ⟨⟨⟨0xeb9f, 1, 0, 24, 0, 28, 28, 1⟩, [0], [.unknown, .unknown, mkInt 0 4 0 0]⟩, ?_, ?_, ?_, ?_⟩ <;> decide +kernel

/-- BTF with the strings before the types: valid, as the header gives both offsets. -/
def swappedBtf : List UInt8 :=
  (Header.toBytes ⟨0xeb9f, 1, 0, 24, 4, 16, 0, 4⟩) ++ [0, 97, 98, 0] ++ (mkInt 1 4 0 0).toBytes

/-- **C13 violated**: sections are written in a fixed order although the header keeps the parsed offsets. -/
theorem C13_layout_violated :
    ∃ b, Btf.parse swappedBtf = .ok b ∧ b.types = [.unknown, mkInt 1 4 0 0] ∧ b.strings = [0, 97, 98, 0] ∧
      Btf.parse b.toBytes ≠ .ok b := by
  refine ⟨⟨⟨0xeb9f, 1, 0, 24, 4, 16, 0, 4⟩, [0, 97, 98, 0], [.unknown, mkInt 1 4 0 0]⟩, ?_, ?_, ?_, ?_⟩ <;> decide +kernel

/-- **C13 violated**: a list of more than 65535 entries, which the constructors accept, cannot come back: no parsed
type has that many entries. -/
theorem C13_long_list_violated (n r : Nat) (ps : List Param) (hps : 65535 < ps.length) (d : List UInt8) :
    BtfType.read d ≠ .ok (.funcProto n (13 * 2 ^ 24 + ps.length % 65536) r ps) := by
  intro h
  have := (read_ok h).1
  rcases this with h | h
  · cases h
  · have hc := h.2.2.2.2.1
    unfold Counts at hc
    omega

/-! ## C15: looking through typedefs and qualifiers -/

theorem resolve_step {ts : List BtfType} {root fuel id : Nat} {t : BtfType} (ht : ts[id]? = some t) :
    resolveLoop ts root (fuel + 1) id =
      match through t with
      | some next => resolveLoop ts root fuel next
      | none => .ok id := by
  rw [resolveLoop]
  unfold typeById
  rw [ht]
  cases t with
  | ref k n i x => cases k <;> rfl
  | _ => rfl

theorem resolveLoop_ok {ts : List BtfType} {root fuel id r : Nat} (h : resolveLoop ts root fuel id = .ok r) :
    ∃ k, k < fuel ∧ Looks ts k id r ∧ ∃ t, ts[r]? = some t ∧ through t = none := by
  induction fuel generalizing id with
  | zero => cases h
  | succ fuel ih =>
    cases ht : ts[id]? with
    | none => rw [resolveLoop] at h; unfold typeById at h; rw [ht] at h; cases h
    | some t =>
      rw [resolve_step ht] at h
      cases hn : through t with
      | none =>
        rw [hn] at h; cases h
        exact ⟨0, by omega, .here _, t, ht, hn⟩
      | some next =>
        rw [hn] at h
        obtain ⟨k, hk, hl, ht'⟩ := ih h
        exact ⟨k + 1, by omega, .step ht hn hl, ht'⟩

theorem resolveLoop_complete {ts : List BtfType} {k id r : Nat} (hl : Looks ts k id r) (root fuel : Nat) (hk : k < fuel)
    {t : BtfType} (ht : ts[r]? = some t) (hn : through t = none) : resolveLoop ts root fuel id = .ok r := by
  induction hl generalizing fuel with
  | here a =>
    cases fuel with
    | zero => omega
    | succ fuel => rw [resolve_step ht, hn]
  | step h1 h2 _ ih =>
    cases fuel with
    | zero => omega
    | succ fuel => rw [resolve_step h1, h2]; exact ih fuel (by omega) ht

/-- **C15.** A result is a type that is no typedef, qualifier or tag and is reached from the start by following those;
it is found whenever fewer than 32 of them are in the way; every other graph (cycles, ids that do not exist, longer
chains) gives an error. -/
theorem C15_resolve (ts : List BtfType) (id : Nat) :
    (∀ r, resolveType ts id = .ok r ↔ ∃ k, k < 32 ∧ Looks ts k id r ∧ ∃ t, ts[r]? = some t ∧ through t = none) ∧
    (∀ e, resolveType ts id = .error e →
      e = .maximumTypeDepthReached id ∨ ∃ k x, Looks ts k id x ∧ ts[x]? = none ∧ e = .unknownBtfType x) := by
  constructor
  · intro r
    constructor
    · exact resolveLoop_ok
    · rintro ⟨k, hk, hl, t, ht, hn⟩
      exact resolveLoop_complete hl id 32 hk ht hn
  · unfold resolveType
    generalize 32 = fuel
    have : ∀ fuel a, ∀ e, resolveLoop ts id fuel a = .error e →
        e = .maximumTypeDepthReached id ∨ ∃ k x, Looks ts k a x ∧ ts[x]? = none ∧ e = .unknownBtfType x := by
      intro fuel
      induction fuel with
      | zero => intro a e h; cases h; exact .inl rfl
      | succ fuel ih =>
        intro a e h
        cases ht : ts[a]? with
        | none =>
          rw [resolveLoop] at h; unfold typeById at h; rw [ht] at h; cases h
          exact .inr ⟨0, a, .here a, ht, rfl⟩
        | some t =>
          rw [resolve_step ht] at h
          cases hn : through t with
          | none => rw [hn] at h; cases h
          | some next =>
            rw [hn] at h
            rcases ih next e h with h | ⟨k, x, h1, h2, h3⟩
            · exact .inl h
            · exact .inr ⟨k + 1, x, .step ht hn h1, h2, h3⟩
    exact this fuel id

example : resolveType [.unknown, mkTypedef 1 2, mkConst 3, mkInt 0 4 1 0] 1 = .ok 3 ∧
    resolveType [.unknown, mkTypedef 1 2, mkConst 1] 1 = .error (.maximumTypeDepthReached 1) ∧
    resolveType [.unknown, mkTypedef 1 7] 1 = .error (.unknownBtfType 7) := by decide +kernel

/-! ## C16: sizes -/

/-- One step of the size computation on the record `t`. -/
def sizeNext (ts : List BtfType) (root fuel id elems : Nat) : BtfType → Except Fail Nat
  | .array _ _ e _ len => sizeLoop ts root fuel e len
  | t => match t.size with
    | some s => .ok (s * elems % 2 ^ 32)
    | none => match t.btfType with
      | some next => sizeLoop ts root fuel next elems
      | none => .error (.unexpectedBtfType id)

theorem size_step {ts : List BtfType} {root fuel id elems : Nat} {t : BtfType} (ht : ts[id]? = some t) :
    sizeLoop ts root (fuel + 1) id elems = sizeNext ts root fuel id elems t := by
  rw [sizeLoop]
  unfold typeById
  rw [ht]
  cases t <;> rfl

theorem size_through {ts : List BtfType} {root fuel id elems next : Nat} {t : BtfType} (ht : ts[id]? = some t)
    (hn : through t = some next) : sizeLoop ts root (fuel + 1) id elems = sizeLoop ts root fuel next elems := by
  rw [size_step ht]
  cases t with
  | ref k n i x => cases k <;> simp only [through] at hn <;> cases hn <;> rfl
  | _ => simp only [through] at hn <;> cases hn

/-- What is computed for a type with no array on the way. -/
theorem sizeLoop_flat {ts : List BtfType} {id d n : Nat} (h : SizeOf ts id d 0 n) (root fuel elems : Nat) (hd : d ≤ fuel) :
    sizeLoop ts root fuel id elems = .ok (n * elems % 2 ^ 32) := by
  generalize hdims : 0 = dims at h
  induction h generalizing fuel with
  | int ht | float ht | enum ht | enum64 ht | struct ht | union ht | dataSec ht | ptr ht =>
    cases fuel with
    | zero => omega
    | succ fuel => rw [size_step ht]; rfl
  | array => omega
  | through ht hn _ ih =>
    cases fuel with
    | zero => omega
    | succ fuel => rw [size_through ht hn]; exact ih fuel (by omega) hdims
  | var ht _ ih =>
    cases fuel with
    | zero => omega
    | succ fuel => rw [size_step ht]; exact ih fuel (by omega) hdims

theorem sizeLoop_one {ts : List BtfType} {id d dims n : Nat} (h : SizeOf ts id d dims n) (hdims : dims ≤ 1) (root fuel : Nat)
    (hd : d ≤ fuel) : sizeLoop ts root fuel id 1 = .ok (n % 2 ^ 32) := by
  induction h generalizing fuel with
  | int ht | float ht | enum ht | enum64 ht | struct ht | union ht | dataSec ht | ptr ht =>
    cases fuel with
    | zero => omega
    | succ fuel => rw [size_step ht]; simp [sizeNext, BtfType.size]
  | @array id n i e x len d dims s ht hs ih =>
    cases fuel with
    | zero => omega
    | succ fuel =>
      have hz : dims = 0 := by omega
      subst hz
      rw [size_step ht, Nat.mul_comm]
      exact sizeLoop_flat hs root fuel len (by omega)
  | through ht hn _ ih =>
    cases fuel with
    | zero => omega
    | succ fuel => rw [size_through ht hn]; exact ih hdims fuel (by omega)
  | var ht _ ih =>
    cases fuel with
    | zero => omega
    | succ fuel => rw [size_step ht]; exact ih hdims fuel (by omega)

/-- **C16.** The size of a type with at most one array dimension, below 4 GiB and within 32 records, is its C size. What
is missing: arrays of arrays, where the code forgets all dimensions but the innermost, and sizes of 4 GiB and more. -/
theorem C16_size_partial (ts : List BtfType) (id d dims n : Nat) (h : SizeOf ts id d dims n) (hdims : dims ≤ 1) (hd : d ≤ 32)
    (hn : n < 2 ^ 32) : typeSize ts id = .ok n := by
  rw [typeSize, sizeLoop_one h hdims id 32 hd, Nat.mod_eq_of_lt hn]

/-- `struct { int a[2][3]; }` and its member type. -/
def matrixTypes : List BtfType :=
  [.unknown, mkInt 0 4 1 0, .array 0 (3 * 2 ^ 24) 1 1 3, .array 0 (3 * 2 ^ 24) 2 1 2]

/-- **C16 violated**: `sizeof(int[2][3])` is 24, the answer is 12. -/
theorem C16_matrix_violated : ∃ d dims, SizeOf matrixTypes 3 d dims 24 ∧ typeSize matrixTypes 3 = .ok 12 := by
  refine ⟨3, 2, ?_, by decide +kernel⟩
  have h1 : SizeOf matrixTypes 1 1 0 4 := .int (n := 0) (i := 1 * 2 ^ 24) (s := 4) (x := 1 * 2 ^ 24 + 32) rfl
  have h2 : SizeOf matrixTypes 2 2 1 (3 * 4) := .array (n := 0) (i := 3 * 2 ^ 24) (e := 1) (x := 1) rfl h1
  exact .array (n := 0) (i := 3 * 2 ^ 24) (e := 2) (x := 1) (len := 2) (d := 2) (dims := 1) (s := 12) rfl h2

/-- In general the answer for an array of arrays of `n` bytes per innermost array is `n`, whatever the outer count. -/
theorem C16_outer_dimension_ignored (ts : List BtfType) (id n i e x len d s : Nat) (ht : ts[id]? = some (.array n i e x len))
    (he : ∃ n i e' x len', ts[e]? = some (.array n i e' x len')) (hs : SizeOf ts e d 1 s) (hd : d < 32) (hn : s < 2 ^ 32) :
    typeSize ts id = .ok s := by
  obtain ⟨n', i', e', x', len', he⟩ := he
  cases hs with
  | array ht' hs' =>
    rw [he] at ht'
    cases ht'
    rw [typeSize]
    rename_i d' s'
    show sizeLoop ts id (30 + 1 + 1) id 1 = _
    rw [size_step ht]
    show sizeLoop ts id (30 + 1) e len = _
    rw [size_step he]
    show sizeLoop ts id 30 e' len' = _
    rw [sizeLoop_flat hs' id 30 len' (by omega), Nat.mul_comm, Nat.mod_eq_of_lt hn]
  | through ht' hn' _ => rw [he] at ht'; cases ht'; cases hn'
  | var ht' _ => rw [he] at ht'; cases ht'

example : typeSize [.unknown, mkInt 0 4 1 0, .array 0 (3 * 2 ^ 24) 1 1 3, mkTypedef 1 2, mkVar 0 3 1, mkPtr 0 3] 4 = .ok 12 ∧
    typeSize [.unknown, mkInt 0 4 1 0, .array 0 (3 * 2 ^ 24) 1 1 3, mkTypedef 1 2, mkVar 0 3 1, mkPtr 0 3] 5 = .ok 8 := by
  decide +kernel

/-! ## C17: strings -/

theorem untilNul_some {d s : List UInt8} : untilNul d = some s ↔ 0 ∉ s ∧ ∃ rest, d = s ++ 0 :: rest := by
  induction d generalizing s with
  | nil => simp [untilNul]
  | cons c cs ih =>
    unfold untilNul
    split
    · rename_i hc
      subst hc
      constructor
      · intro h; cases h; exact ⟨by simp, cs, rfl⟩
      · rintro ⟨h1, rest, h2⟩
        cases s with
        | nil => rfl
        | cons a s => simp only [List.cons_append, List.cons.injEq] at h2; exact absurd (by rw [h2.1]; simp) h1
    · rename_i hc
      constructor
      · intro h
        cases hu : untilNul cs with
        | none => rw [hu] at h; cases h
        | some s' =>
          rw [hu] at h; cases h
          obtain ⟨h1, rest, h2⟩ := ih.mp hu
          refine ⟨?_, rest, by rw [h2]; rfl⟩
          simp only [List.mem_cons, not_or]
          exact ⟨fun h => hc h.symm, h1⟩
      · rintro ⟨h1, rest, h2⟩
        cases s with
        | nil => simp only [List.nil_append, List.cons.injEq] at h2; exact absurd h2.1 hc
        | cons a s =>
          simp only [List.cons_append, List.cons.injEq] at h2
          obtain ⟨rfl, h2⟩ := h2
          simp only [List.mem_cons, not_or] at h1
          rw [ih.mpr ⟨h1.2, rest, h2⟩]
          rfl

/-- **C17.** A successful lookup returns exactly the C string stored at the offset. -/
theorem C17_string (b : Btf) (offset : Nat) (s : List UInt8) (h : b.stringAt offset = .ok s) :
    StringAt b.strings offset s := by
  unfold Btf.stringAt at h
  simp only at h
  split at h
  · cases h
  · split at h
    · cases h
    · split at h
      · cases h
      · rename_i hu; cases h; exact untilNul_some.mp hu

/-- **C17**, without a panic: on every BTF in the usual layout (types followed by the strings, total below 4 GiB), every
offset into the string section holding a terminated string is found, every other offset gives an error, except offsets
past the strings but less than the size of the whole BTF, where the code panics. -/
theorem C17_total_partial (b : Btf) (offset : Nat) (hh : b.header.hdrLen + b.header.strOff + b.header.strLen < 2 ^ 32)
    (hl : b.header.strLen = b.strings.length) :
    (∀ s, StringAt b.strings offset s → b.stringAt offset = .ok s) ∧
    (offset ≤ b.strings.length ∨ b.header.hdrLen + b.header.strOff + b.header.strLen ≤ offset →
      b.stringAt offset ≠ .error .panic) := by
  have hm : (((b.header.strOff + b.header.hdrLen) % 2 ^ 32) + b.header.strLen) % 2 ^ 32 =
      b.header.hdrLen + b.header.strOff + b.header.strLen := by omega
  constructor
  · intro s hs
    have hlt : offset < b.strings.length := by
      obtain ⟨_, rest, hr⟩ := hs
      have := congrArg List.length hr
      simp at this; omega
    unfold Btf.stringAt
    simp only [hm]
    rw [if_neg (by omega), if_neg (by omega), untilNul_some.mpr hs]
  · intro ho
    unfold Btf.stringAt
    simp only [hm]
    split
    · intro h; cases h
    · rw [if_neg (by omega)]
      split <;> (intro h; cases h)

/-- A BTF with one INT whose name offset lies beyond its one-byte string section. -/
def badNameBtf : Btf := ⟨⟨0xeb9f, 1, 0, 24, 0, 16, 16, 1⟩, [0], [.unknown, mkInt 30 4 0 0]⟩

/-- **C17 violated**: this BTF parses, and looking up the INT's name panics (also when only searching for a type of some
name). -/
theorem C17_panic_violated : Btf.parse badNameBtf.toBytes = .ok badNameBtf ∧ badNameBtf.stringAt 30 = .error .panic ∧
    badNameBtf.idByTypeNameKind "task".toUTF8.toList 1 = .error .panic := by
  refine ⟨?_, ?_, ?_⟩ <;> decide +kernel

/-- **C17**, for strings added through the API: the offset returned gives back the string (if it contains no NUL), and so
do all offsets of strings present before. -/
theorem C17_added_string (b : Btf) (s : List UInt8) (hs : 0 ∉ s)
    (hb : b.header.hdrLen + b.header.strOff + b.strings.length + s.length + 1 < 2 ^ 32) :
    (b.addString s).1.stringAt (b.addString s).2 = .ok s ∧
    ∀ o s', StringAt b.strings o s' → (b.addString s).1.stringAt o = .ok s' := by
  have hlen : (b.strings ++ s ++ [0]).length = b.strings.length + s.length + 1 := by simp; omega
  have hstr : (b.addString s).1.strings = b.strings ++ s ++ [0] := rfl
  have hsl : (b.addString s).1.header.strLen = (b.strings ++ s ++ [0]).length := by
    show (b.strings ++ s ++ [0]).length % 2 ^ 32 = _
    apply Nat.mod_eq_of_lt; rw [hlen]; omega
  have hh : (b.addString s).1.header.hdrLen + (b.addString s).1.header.strOff + (b.addString s).1.header.strLen < 2 ^ 32 := by
    rw [hsl, hlen]
    show b.header.hdrLen + b.header.strOff + _ < _
    omega
  have hoff : (b.addString s).2 = b.strings.length := by
    show b.strings.length % 2 ^ 32 = _
    apply Nat.mod_eq_of_lt; omega
  constructor
  · apply (C17_total_partial _ _ hh (by rw [hsl, hstr])).1
    refine ⟨hs, [], ?_⟩
    rw [hoff, hstr, List.append_assoc, List.drop_left]
  · intro o s' hs'
    apply (C17_total_partial _ _ hh (by rw [hsl, hstr])).1
    obtain ⟨h1, rest, h2⟩ := hs'
    refine ⟨h1, rest ++ (s ++ [0]), ?_⟩
    have hlt : o ≤ b.strings.length := by
      have := congrArg List.length h2
      simp at this; omega
    rw [hstr, List.append_assoc, List.drop_append_of_le_length hlt, h2]
    simp

example : let (b, o1) := Btf.new.addString "foo".toUTF8.toList
    let (b, o2) := b.addString "bar".toUTF8.toList
    b.stringAt o1 = .ok "foo".toUTF8.toList ∧ b.stringAt o2 = .ok "bar".toUTF8.toList ∧ b.stringAt 0 = .ok [] ∧
    b.stringAt 8 = .ok "".toUTF8.toList := by decide +kernel

end Verif.Btf
