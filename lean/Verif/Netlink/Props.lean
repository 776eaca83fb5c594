import Verif.Netlink.Spec

/-!
# Netlink attributes: writing and reading (C39, C40)
-/
set_option linter.unusedSimpArgs false
set_option linter.unusedVariables false
namespace Verif.Netlink
open Verif.Bytes
open Verif.Netlink.Spec (pad Reads attrList attrSize)

theorem align_eq (n : Nat) : align n = n + pad n := by unfold align pad; omega

theorem pad_lt (n : Nat) : pad n < 4 := by unfold pad; omega

theorem pad_four_add (n : Nat) : pad (4 + n) = pad n := by unfold pad; omega

theorem nlattrBytes_length (a b : Nat) : (nlattrBytes a b).length = 4 := by simp [nlattrBytes]

theorem writeBytes_err (c : Cursor) (v : Bytes) (h : c.rest.length < v.length + pad v.length) :
    writeBytes c v = .error .noSpace := by
  rw [writeBytes, if_pos (by rw [align_eq]; exact h)]

theorem writeBytes_ok (c : Cursor) (v : Bytes) (h : v.length + pad v.length ≤ c.rest.length) :
    writeBytes c v = .ok (⟨c.done ++ (v ++ (c.rest.drop v.length).take (pad v.length)),
      c.rest.drop (v.length + pad v.length)⟩, v.length + pad v.length) := by
  rw [writeBytes, if_neg (by rw [align_eq]; omega), align_eq, List.drop_take]
  congr 6
  omega

theorem writeHeader_ok (c : Cursor) (a b : Nat) (h : 4 ≤ c.rest.length) :
    writeAttrHeader c a b = .ok (⟨c.done ++ nlattrBytes a b, c.rest.drop 4⟩, 4) := by
  rw [writeAttrHeader, writeBytes_ok _ _ (by rw [nlattrBytes_length]; exact h), nlattrBytes_length]
  simp [pad]

theorem writeHeader_err (c : Cursor) (a b : Nat) (h : c.rest.length < 4) :
    writeAttrHeader c a b = .error .noSpace := by
  rw [writeAttrHeader, writeBytes_err _ _ (by rw [nlattrBytes_length]; exact h)]

theorem writeAttr_ok (c : Cursor) (ty : Nat) (v : Bytes)
    (h : 4 + v.length + pad v.length ≤ c.rest.length) (h16 : 4 + v.length < 2 ^ 16) :
    writeAttrBytes c ty v = .ok (⟨c.done ++ (le 2 (4 + v.length) ++ le 2 ty ++ v
        ++ (c.rest.drop (4 + v.length)).take (pad v.length)),
      c.rest.drop (4 + v.length + pad v.length)⟩, 4 + v.length + pad v.length) := by
  have e1 : (nlaHdrLen + v.length) % 2 ^ 16 = 4 + v.length := by
    rw [nlaHdrLen]; exact Nat.mod_eq_of_lt h16
  rw [writeAttrBytes, e1, writeHeader_ok _ _ _ (by omega)]
  simp only []
  rw [writeBytes_ok _ _ (by simp only [List.length_drop]; omega)]
  simp only [List.drop_drop, nlattrBytes, List.append_assoc, Nat.add_assoc]

theorem writeAttr_err (c : Cursor) (ty : Nat) (v : Bytes)
    (h : c.rest.length < 4 + v.length + pad v.length) :
    writeAttrBytes c ty v = .error .noSpace := by
  rw [writeAttrBytes]
  by_cases h4 : c.rest.length < 4
  · rw [writeHeader_err _ _ _ h4]
  · rw [writeHeader_ok _ _ _ (by omega)]
    simp only []
    rw [writeBytes_err _ _ (by simp only [List.length_drop]; omega)]

/-! ## Reading -/

theorem take2_le (a : Nat) (rest : Bytes) (h : a < 2 ^ 16) : ofLe ((le 2 a ++ rest).take 2) = a := by
  rw [List.take_append_of_le_length (by simp), List.take_of_length_le (by simp),
    ofLe_le_of_lt 2 a (by omega)]

theorem nextAttr_ok (ty : Nat) (data padding rest : Bytes) (hty : ty < 2 ^ 16)
    (hlen : 4 + data.length < 2 ^ 16) (hpad : padding.length = pad data.length) :
    nextAttr (le 2 (4 + data.length) ++ le 2 ty ++ data ++ padding ++ rest)
      = .ok (⟨ty, data⟩, rest) := by
  have hp : pad (4 + data.length) = pad data.length := pad_four_add _
  have e0 : le 2 (4 + data.length) ++ le 2 ty ++ data ++ padding ++ rest
      = le 2 (4 + data.length) ++ (le 2 ty ++ (data ++ padding ++ rest)) := by simp
  have e1 : (le 2 (4 + data.length) ++ (le 2 ty ++ (data ++ padding ++ rest))).drop 2
      = le 2 ty ++ (data ++ padding ++ rest) := by
    rw [List.drop_append_of_le_length (by simp), List.drop_of_length_le (by simp)]; rfl
  have e2 : (le 2 (4 + data.length) ++ (le 2 ty ++ (data ++ padding ++ rest))).drop nlaHdrLen
      = data ++ padding ++ rest := by
    rw [show nlaHdrLen = 2 + 2 from rfl, ← List.drop_drop, e1,
      List.drop_append_of_le_length (by simp), List.drop_of_length_le (by simp)]; rfl
  rw [e0, nextAttr, if_neg (by simp [nlaHdrLen]; omega)]
  simp only [take2_le _ _ hlen, e1, e2, take2_le _ _ hty]
  rw [if_neg (by simp [nlaHdrLen])]
  have ea : align (4 + data.length) - nlaHdrLen = (data ++ padding).length := by
    rw [align_eq, hp]; simp [nlaHdrLen, hpad]; omega
  rw [ea, if_neg (by simp), List.take_left, List.drop_left]
  have : 4 + data.length - nlaHdrLen = data.length := by simp [nlaHdrLen]
  rw [this, List.take_left]

/-- Whatever the bytes, the attribute iteration is the one the format prescribes. -/
theorem reads_of_attrsFuel : ∀ (fuel : Nat) (buf : Bytes), buf.length ≤ fuel →
    Reads buf (attrsFuel fuel buf).1 (attrsFuel fuel buf).2
  | 0, buf, h => by
    have : buf = [] := List.length_eq_zero_iff.1 (by omega)
    subst this; exact .nil
  | fuel + 1, buf, h => by
    rw [attrsFuel]
    by_cases h0 : buf = []
    · rw [if_pos h0, h0]; exact .nil
    · rw [if_neg h0]
      by_cases h4 : buf.length < 4
      · rw [nextAttr, if_pos (by simpa [nlaHdrLen] using h4)]
        exact .short buf h0 h4
      · -- split the header off
        have hsplit : buf = le 2 (ofLe (buf.take 2)) ++ le 2 (ofLe ((buf.drop 2).take 2))
            ++ buf.drop 4 := by
          rw [le_ofLe_of_length 2 _ (by simp; omega), le_ofLe_of_length 2 _ (by simp; omega)]
          rw [show (4 : Nat) = 2 + 2 from rfl, ← List.drop_drop, List.append_assoc,
            List.take_append_drop, List.take_append_drop]
        have hl : ofLe (buf.take 2) < 2 ^ 16 := by
          have := ofLe_lt (buf.take 2)
          rw [show (buf.take 2).length = 2 by simp; omega] at this; omega
        have ht : ofLe ((buf.drop 2).take 2) < 2 ^ 16 := by
          have := ofLe_lt ((buf.drop 2).take 2)
          rw [show ((buf.drop 2).take 2).length = 2 by simp; omega] at this; omega
        generalize hlen : ofLe (buf.take 2) = len at *
        generalize hty : ofLe ((buf.drop 2).take 2) = ty at *
        generalize hr : buf.drop 4 = rest at *
        have hrl : rest.length + 4 = buf.length := by rw [← hr]; simp; omega
        have hn : nextAttr buf = (if len < 4 then .error (.headerLength len)
            else if rest.length < align len - 4 then .error (.bufferLength rest.length (align len - 4))
            else .ok (⟨ty, (rest.take (align len - 4)).take (len - 4)⟩, rest.drop (align len - 4))) := by
          rw [nextAttr, if_neg (by simpa [nlaHdrLen] using h4)]
          simp only [hlen, hty, hr, nlaHdrLen]
        rw [hn]
        by_cases hl4 : len < 4
        · rw [if_pos hl4, hsplit, List.append_assoc]
          exact .header len _ hl4 (by simp)
        · rw [if_neg hl4]
          have ea : align len - 4 = len - 4 + pad len := by rw [align_eq]; omega
          rw [ea]
          by_cases ho : rest.length < len - 4 + pad len
          · rw [if_pos ho, hsplit]
            exact .over len ty rest (by omega) hl ht ho
          · rw [if_neg ho]
            have ih := reads_of_attrsFuel fuel (rest.drop (len - 4 + pad len))
              (by simp only [List.length_drop]; omega)
            have hd : (rest.take (len - 4)).length = len - 4 := by
              rw [List.length_take]; omega
            have hpl : pad (len - 4) = pad len := by
              have := pad_four_add (len - 4)
              rw [← this]; congr 1; omega
            have hdata : (rest.take (len - 4 + pad len)).take (len - 4) = rest.take (len - 4) := by
              rw [List.take_take]; congr 1; omega
            have e : buf = le 2 (4 + (rest.take (len - 4)).length) ++ le 2 ty ++ rest.take (len - 4)
                ++ ((rest.drop (len - 4)).take (pad len)) ++ rest.drop (len - 4 + pad len) := by
              rw [hd, show 4 + (len - 4) = len by omega]
              conv => lhs; rw [hsplit]
              simp only [List.append_assoc]
              congr 2
              rw [← List.drop_drop, List.take_append_drop, List.take_append_drop]
            simp only [hdata]
            conv => arg 1; rw [e]
            exact .attr ty _ _ _ _ _ ht (by rw [hd]; omega)
              (by rw [hd, hpl]; simp only [List.length_take, List.length_drop]; omega) ih

/-- The format determines what is read. -/
theorem attrsFuel_of_reads {buf : Bytes} {as : List Attr} {e : Option AttrErr} (h : Reads buf as e) :
    ∀ fuel, buf.length ≤ fuel → attrsFuel fuel buf = (as, e) := by
  induction h with
  | nil => intro fuel _; cases fuel <;> simp [attrsFuel]
  | attr ty data padding rest as e hty hlen hpad hrest ih =>
    intro fuel hf
    cases fuel with
    | zero => simp at hf
    | succ fuel =>
      rw [attrsFuel, if_neg (by simp [le]), nextAttr_ok ty data padding rest hty hlen hpad]
      simp only [ih fuel (by simp at hf; omega)]
  | short b h0 h =>
    intro fuel hf
    cases fuel with
    | zero => exact absurd (List.length_eq_zero_iff.1 (by omega)) h0
    | succ fuel => rw [attrsFuel, if_neg h0, nextAttr, if_pos (by simpa [nlaHdrLen] using h)]; rfl
  | header len rest h hr =>
    intro fuel hf
    cases fuel with
    | zero => simp at hf
    | succ fuel =>
      rw [attrsFuel, if_neg (by simp [le]), nextAttr, if_neg (by simp [nlaHdrLen]; omega)]
      simp only [take2_le _ _ (show len < 2 ^ 16 by omega)]
      rw [if_pos (by simpa [nlaHdrLen] using h)]
  | over len ty rest h4 h16 hty h =>
    intro fuel hf
    cases fuel with
    | zero => simp at hf
    | succ fuel =>
      have e1 : (le 2 len ++ (le 2 ty ++ rest)).drop nlaHdrLen = rest := by
        rw [show nlaHdrLen = 2 + 2 from rfl, ← List.drop_drop,
          List.drop_append_of_le_length (by simp), List.drop_of_length_le (l := le 2 len) (by simp),
          List.nil_append,
          List.drop_append_of_le_length (by simp), List.drop_of_length_le (by simp)]; rfl
      rw [List.append_assoc, attrsFuel, if_neg (by simp [le]), nextAttr,
        if_neg (by simp [nlaHdrLen]; omega)]
      simp only [take2_le _ _ h16, e1]
      rw [if_neg (by simp [nlaHdrLen]; omega)]
      have ea : align len - nlaHdrLen = len - 4 + pad len := by rw [align_eq]; simp [nlaHdrLen]; omega
      rw [ea, if_pos h]

/-- **C40.** For any bytes, the attribute iterator stops and yields exactly what the format says: the
attributes standing one after the other from the start, each slice inside the buffer, up to the end of
the buffer or the first place where no complete attribute stands, which is reported as an error. -/
theorem C40_iterator (buf : Bytes) (as : List Attr) (e : Option AttrErr) :
    attrs buf = (as, e) ↔ Reads buf as e := by
  constructor
  · intro h
    have := reads_of_attrsFuel buf.length buf (Nat.le_refl _)
    rw [← attrs, h] at this
    exact this
  · intro h
    exact attrsFuel_of_reads h _ (Nat.le_refl _)

/-- **C40.** Every attribute yielded from any bytes is a slice of them: behind its header, at an offset
behind everything yielded before it, and it ends inside the buffer. -/
theorem C40_slices (buf : Bytes) : ∃ offsets : List Nat,
    offsets.length = (attrs buf).1.length ∧
    (∀ i (h : i < (attrs buf).1.length) (ho : i < offsets.length),
      let a := (attrs buf).1[i]
      offsets[i] + 4 + a.data.length ≤ buf.length ∧
      a.data = (buf.drop (offsets[i] + 4)).take a.data.length ∧
      a.ty = ofLe ((buf.drop (offsets[i] + 2)).take 2) ∧
      4 + a.data.length = ofLe ((buf.drop offsets[i]).take 2)) ∧
    (∀ i (h : i + 1 < offsets.length) (h' : i < (attrs buf).1.length),
      offsets[i] + 4 + ((attrs buf).1[i]).data.length ≤ offsets[i + 1]) := by
  have key : ∀ {b : Bytes} {as : List Attr} {e : Option AttrErr}, Reads b as e → ∀ (pre : Bytes),
      ∃ offsets : List Nat, offsets.length = as.length ∧
      (∀ i (h : i < as.length) (ho : i < offsets.length), pre.length ≤ offsets[i] ∧
        offsets[i] + 4 + as[i].data.length ≤ (pre ++ b).length ∧
        as[i].data = ((pre ++ b).drop (offsets[i] + 4)).take as[i].data.length ∧
        as[i].ty = ofLe (((pre ++ b).drop (offsets[i] + 2)).take 2) ∧
        4 + as[i].data.length = ofLe (((pre ++ b).drop offsets[i]).take 2)) ∧
      (∀ i (h : i + 1 < offsets.length) (h' : i < as.length),
        offsets[i] + 4 + as[i].data.length ≤ offsets[i + 1]) := by
    intro b as e h
    induction h with
    | nil => intro pre; exact ⟨[], rfl, by simp, by simp⟩
    | short => intro pre; exact ⟨[], rfl, by simp, by simp⟩
    | header => intro pre; exact ⟨[], rfl, by simp, by simp⟩
    | over => intro pre; exact ⟨[], rfl, by simp, by simp⟩
    | attr ty data padding rest as e hty hlen hpad hrest ih =>
      intro pre
      generalize hhd : le 2 (4 + data.length) ++ le 2 ty ++ data ++ padding = hd
      have hhl : hd.length = 4 + data.length + padding.length := by rw [← hhd]; simp; omega
      obtain ⟨os, h1, h2, h3⟩ := ih (pre ++ hd)
      have eapp : pre ++ (hd ++ rest) = pre ++ hd ++ rest := by simp
      rw [eapp]
      refine ⟨pre.length :: os, by simp [h1], ?_, ?_⟩
      · intro i h ho
        cases i with
        | zero =>
          simp only [List.getElem_cons_zero]
          have d0 : (pre ++ hd ++ rest).drop pre.length = hd ++ rest := by
            rw [List.append_assoc, List.drop_left]
          have d2 : (pre ++ hd ++ rest).drop (pre.length + 2)
              = le 2 ty ++ (data ++ padding ++ rest) := by
            rw [← List.drop_drop, d0, ← hhd]
            simp [le]
          have d4 : (pre ++ hd ++ rest).drop (pre.length + 4) = data ++ (padding ++ rest) := by
            rw [← List.drop_drop, d0, ← hhd]
            simp [le]
          refine ⟨Nat.le_refl _, by simp [hhl]; omega, ?_, ?_, ?_⟩
          · rw [d4, List.take_left]
          · rw [d2, take2_le _ _ hty]
          · rw [d0, ← hhd]
            simp only [List.append_assoc]
            rw [take2_le _ _ hlen]
        | succ i =>
          simp only [List.getElem_cons_succ]
          have := h2 i (by simpa using h) (by simpa using ho)
          refine ⟨?_, this.2⟩
          have h5 := this.1
          simp at h5; omega
      · intro i h h'
        cases i with
        | zero =>
          simp only [List.getElem_cons_zero, List.getElem_cons_succ]
          have h6 : 0 < os.length := by simpa using h
          have := (h2 0 (by omega) h6).1
          simp [hhl] at this; omega
        | succ i =>
          simp only [List.getElem_cons_succ]
          exact h3 i (by simpa using h) (by simpa using h')
  obtain ⟨os, h1, h2, h3⟩ := key (reads_of_attrsFuel buf.length buf (Nat.le_refl _)) []
  refine ⟨os, h1, ?_, h3⟩
  intro i h ho
  have := h2 i h ho
  simp only [List.nil_append] at this
  exact this.2

/-- Two attributes and a truncated third: two slices, then the error. -/
example : attrs [5, 0, 1, 0, 0xaa, 0, 0, 0, 4, 0, 2, 0x80, 9, 0, 3, 0, 1, 2, 3, 4]
    = ([⟨1, [0xaa]⟩, ⟨0x8002, []⟩], some (.bufferLength 4 8)) := by decide +kernel

/-! ## Writing (C39) -/

/-- Attributes as they are read back. -/
def asAttrs (as : List (Nat × Bytes)) : List Attr := as.map (fun a => ⟨a.1, a.2⟩)

theorem reads_append {b b' : Bytes} {as as' : List Attr} {e : Option AttrErr}
    (h : Reads b as none) (h' : Reads b' as' e) : Reads (b ++ b') (as ++ as') e := by
  generalize he : (none : Option AttrErr) = e0 at h
  induction h with
  | nil => exact h'
  | attr ty data padding rest as e hty hlen hpad hrest ih =>
    have := Reads.attr ty data padding (rest ++ b') (as ++ as') _ hty hlen hpad (ih he)
    simpa using this
  | short => cases he
  | header => cases he
  | over => cases he

theorem attrSize_cons (a : Nat × Bytes) (as : List (Nat × Bytes)) :
    attrSize (a :: as) = 4 + a.2.length + pad a.2.length + attrSize as := by
  simp [attrSize]

theorem writeLeaves_spec : ∀ (as : List (Nat × Bytes)) (c : Cursor),
    c.rest.length < 2 ^ 16 → (∀ a ∈ as, a.1 < 2 ^ 16) →
    if attrSize as ≤ c.rest.length then
      ∃ w, writeLeaves c as = .ok (⟨c.done ++ w, c.rest.drop (attrSize as)⟩, attrSize as) ∧
        w.length = attrSize as ∧ Reads w (asAttrs as) none
    else writeLeaves c as = .error .noSpace
  | [], c, h, hty => by
    rw [if_pos (by simp [attrSize])]
    exact ⟨[], by simp [attrSize, writeLeaves], rfl, .nil⟩
  | a :: as, c, h, hty => by
    rw [attrSize_cons]
    rcases a with ⟨ty, v⟩
    simp only []
    have ha : ty < 2 ^ 16 := hty (ty, v) (by simp)
    have has : ∀ a ∈ as, a.1 < 2 ^ 16 := fun a h => hty a (by simp [h])
    by_cases hfit : 4 + v.length + pad v.length ≤ c.rest.length
    · have hw := writeAttr_ok c ty v hfit (by omega)
      rw [writeLeaves, hw]
      simp only []
      generalize hp : (c.rest.drop (4 + v.length)).take (pad v.length) = p
      have hpl : p.length = pad v.length := by
        rw [← hp]; simp only [List.length_take, List.length_drop]; omega
      have ih := writeLeaves_spec as ⟨c.done ++ (le 2 (4 + v.length) ++ le 2 ty ++ v ++ p),
        c.rest.drop (4 + v.length + pad v.length)⟩ (by simp only [List.length_drop]; omega) has
      simp only [List.length_drop] at ih
      split
      · rename_i h1
        rw [if_pos (by omega)] at ih
        obtain ⟨w, e1, e2, e3⟩ := ih
        refine ⟨le 2 (4 + v.length) ++ le 2 ty ++ v ++ p ++ w, ?_, ?_, ?_⟩
        · rw [e1]
          simp only [List.append_assoc, List.drop_drop, Nat.add_assoc]
        · simp [e2, hpl]; omega
        · exact .attr ty v p w _ _ ha (by omega) hpl e3
      · rename_i h1
        rw [if_neg (by omega)] at ih
        rw [ih]
    · rw [if_neg (by omega), writeLeaves, writeAttr_err c ty v (by omega)]

theorem writeAttrs_spec : ∀ (as : List (Nat × Bytes)) (n : Nested),
    n.body.rest.length < 2 ^ 16 → (∀ a ∈ as, a.1 < 2 ^ 16) →
    if attrSize as ≤ n.body.rest.length then
      ∃ w, n.writeAttrs as = .ok ⟨n.header, ⟨n.body.done ++ w, n.body.rest.drop (attrSize as)⟩, n.ty,
          n.nlaLen + attrSize as⟩ ∧ w.length = attrSize as ∧ Reads w (asAttrs as) none
    else n.writeAttrs as = .error .noSpace
  | [], n, h, hty => by
    rw [if_pos (by simp [attrSize])]
    exact ⟨[], by simp [attrSize, Nested.writeAttrs], rfl, .nil⟩
  | a :: as, n, h, hty => by
    rw [attrSize_cons]
    rcases a with ⟨ty, v⟩
    simp only []
    have ha : ty < 2 ^ 16 := hty (ty, v) (by simp)
    have has : ∀ a ∈ as, a.1 < 2 ^ 16 := fun a h => hty a (by simp [h])
    by_cases hfit : 4 + v.length + pad v.length ≤ n.body.rest.length
    · have hw := writeAttr_ok n.body ty v hfit (by omega)
      rw [Nested.writeAttrs, Nested.writeAttr, hw]
      simp only []
      generalize hp : (n.body.rest.drop (4 + v.length)).take (pad v.length) = p
      have hpl : p.length = pad v.length := by
        rw [← hp]; simp only [List.length_take, List.length_drop]; omega
      have ih := writeAttrs_spec as ⟨n.header, ⟨n.body.done ++ (le 2 (4 + v.length) ++ le 2 ty ++ v ++ p),
        n.body.rest.drop (4 + v.length + pad v.length)⟩, n.ty, n.nlaLen + (4 + v.length + pad v.length)⟩
        (by simp only [List.length_drop]; omega) has
      simp only [List.length_drop] at ih
      split
      · rename_i h1
        rw [if_pos (by omega)] at ih
        obtain ⟨w, e1, e2, e3⟩ := ih
        refine ⟨le 2 (4 + v.length) ++ le 2 ty ++ v ++ p ++ w, ?_, ?_, ?_⟩
        · rw [e1]
          simp only [List.append_assoc, List.drop_drop, Nat.add_assoc]
        · simp [e2, hpl]; omega
        · exact .attr ty v p w _ _ ha (by omega) hpl e3
      · rename_i h1
        rw [if_neg (by omega)] at ih
        rw [ih]
    · rw [if_neg (by omega), Nested.writeAttrs, Nested.writeAttr,
        writeAttr_err n.body ty v (by omega)]

theorem pad_attrSize (as : List (Nat × Bytes)) : attrSize as % 4 = 0 := by
  induction as with
  | nil => rfl
  | cons a as ih => rw [attrSize_cons]; unfold pad; omega

/-- **C39.** For any buffer of at most 65535 bytes, whatever it holds, any plain attributes and any
nested attribute behind them: if they fit, then they are written at the front, the rest of the buffer
is untouched, the length reported is the number of bytes written, and reading the bytes written gives
back exactly the attributes, types and data, with the nested ones inside the last; if they do not fit,
the writer reports that there is no space. -/
theorem C39_roundtrip (buf : Bytes) (leaves : List (Nat × Bytes)) (ty : Nat)
    (children : List (Nat × Bytes)) (hbuf : buf.length < 2 ^ 16)
    (hl : ∀ a ∈ leaves, a.1 < 2 ^ 16) (hty : ty < 2 ^ 14) (hc : ∀ a ∈ children, a.1 < 2 ^ 16) :
    if attrSize leaves + 4 + attrSize children ≤ buf.length then
      ∃ written inner,
        writeTree buf leaves ty children
          = .ok (⟨written, buf.drop (attrSize leaves + 4 + attrSize children)⟩,
              attrSize leaves + 4 + attrSize children) ∧
        written.length = attrSize leaves + 4 + attrSize children ∧
        attrs written = (asAttrs leaves ++ [⟨0x8000 + ty, inner⟩], none) ∧
        attrs inner = (asAttrs children, none)
    else writeTree buf leaves ty children = .error .noSpace := by
  have h1 := writeLeaves_spec leaves ⟨[], buf⟩ hbuf hl
  simp only [List.nil_append] at h1
  rw [writeTree]
  by_cases hf1 : attrSize leaves ≤ buf.length
  · rw [if_pos hf1] at h1
    obtain ⟨w, e1, e2, e3⟩ := h1
    rw [e1]
    simp only []
    generalize hr : buf.drop (attrSize leaves) = rest
    have hrl : rest.length = buf.length - attrSize leaves := by rw [← hr]; simp
    by_cases h4 : rest.length < 4
    · rw [if_neg (by omega), Nested.new, if_pos (by simpa [nlaHdrLen] using h4)]
      have h2 := writeAttrs_spec children ⟨[], ⟨[], []⟩, ty, nlaHdrLen⟩ (by simp) hc
      simp only [List.length_nil, List.nil_append] at h2
      split at h2
      · obtain ⟨w2, e4, e5, e6⟩ := h2
        rw [e4]
        simp only []
        rw [Nested.finish, writeHeader_err _ _ _ (by simp)]
      · rw [h2]
    · have hnew : Nested.new rest ty = ⟨rest.take 4, ⟨[], rest.drop 4⟩, ty, 4⟩ := by
        rw [Nested.new, if_neg (by simpa [nlaHdrLen] using h4)]; rfl
      rw [hnew]
      have h2 := writeAttrs_spec children ⟨rest.take 4, ⟨[], rest.drop 4⟩, ty, 4⟩
        (by simp only [List.length_drop]; omega) hc
      simp only [List.nil_append, List.length_drop] at h2
      by_cases hf2 : attrSize children ≤ rest.length - 4
      · rw [if_pos hf2] at h2
        obtain ⟨w2, e4, e5, e6⟩ := h2
        rw [if_pos (by omega), e4]
        simp only []
        have hor : 0x8000 ||| ty = 0x8000 + ty := by
          have := Nat.two_pow_add_eq_or_of_lt (i := 15) (b := ty) (by omega) 1
          rw [show 2 ^ 15 * 1 = 0x8000 from rfl] at this
          exact this.symm
        have hm : (4 + attrSize children) % 2 ^ 16 = 4 + w2.length := by
          rw [e5]; exact Nat.mod_eq_of_lt (by omega)
        rw [Nested.finish, writeHeader_ok _ _ _ (by simp; omega)]
        simp only [hm, hor, List.nil_append, List.drop_drop]
        refine ⟨w ++ (nlattrBytes (4 + w2.length) (0x8000 + ty) ++ w2), w2, ?_, ?_, ?_, ?_⟩
        · have : List.drop 4 (List.take 4 rest) = [] := by
            rw [List.drop_eq_nil_iff]; simp; omega
          rw [this, List.append_nil, ← hr, List.drop_drop]
          simp only [Nat.add_assoc]
        · simp [e2, e5, nlattrBytes]; omega
        · rw [C40_iterator]
          apply reads_append e3
          have := Reads.attr (0x8000 + ty) w2 [] [] [] none (by omega) (by omega)
            (by simp [pad, e5]; have := pad_attrSize children; omega) .nil
          simpa [nlattrBytes] using this
        · rw [C40_iterator]; exact e6
      · rw [if_neg hf2] at h2
        rw [if_neg (by omega), h2]
  · rw [if_neg hf1] at h1
    rw [if_neg (by omega), h1]

example : ∃ w inner, writeTree (List.replicate 40 7) [(1, [98, 112, 102, 0])] 2 [(6, [5, 0, 0, 0]), (7, [97, 0])]
      = .ok (⟨w, List.replicate 12 7⟩, 28) ∧
    attrs w = ([⟨1, [98, 112, 102, 0]⟩, ⟨0x8002, inner⟩], none) ∧
    attrs inner = ([⟨6, [5, 0, 0, 0]⟩, ⟨7, [97, 0]⟩], none) := by
  refine ⟨[8, 0, 1, 0, 98, 112, 102, 0, 20, 0, 2, 0x80, 8, 0, 6, 0,
        5, 0, 0, 0, 6, 0, 7, 0, 97, 0, 7, 7], [8, 0, 6, 0, 5, 0, 0, 0, 6, 0, 7, 0, 97, 0, 7, 7], ?_, ?_, ?_⟩
  · decide +kernel
  · decide +kernel
  · decide +kernel

/-! ### The requests -/

theorem writeAttr_zero (d : Bytes) (k ty : Nat) (v : Bytes) (h : 4 + v.length + pad v.length ≤ k)
    (h16 : 4 + v.length < 2 ^ 16) :
    writeAttrBytes ⟨d, List.replicate k 0⟩ ty v
      = .ok (⟨d ++ Spec.attr ty v, List.replicate (k - (4 + v.length + pad v.length)) 0⟩,
          4 + v.length + pad v.length) := by
  rw [writeAttr_ok _ _ _ (by simpa using h) h16]
  simp only [List.drop_replicate, List.take_replicate, Spec.attr]
  congr 6
  omega

theorem nestedAttr_zero (hd d : Bytes) (k t l ty : Nat) (v : Bytes)
    (h : 4 + v.length + pad v.length ≤ k) (h16 : 4 + v.length < 2 ^ 16) :
    Nested.writeAttr ⟨hd, ⟨d, List.replicate k 0⟩, t, l⟩ ty v
      = .ok ⟨hd, ⟨d ++ Spec.attr ty v, List.replicate (k - (4 + v.length + pad v.length)) 0⟩, t,
          l + (4 + v.length + pad v.length)⟩ := by
  rw [Nested.writeAttr]
  simp only [writeAttr_zero d k ty v h h16]

theorem finish_zero (d r : Bytes) (t l : Nat) (hl : l < 2 ^ 16) :
    Nested.finish ⟨[0, 0, 0, 0], ⟨d, r⟩, t, l⟩
      = .ok (⟨le 2 l ++ le 2 (0x8000 ||| t) ++ d, r⟩, l) := by
  rw [Nested.finish, writeHeader_ok _ _ _ (by simp)]
  simp only [Nat.mod_eq_of_lt hl, List.nil_append, nlattrBytes]
  rfl

theorem i32Bytes_eq (v : Int) : i32Bytes v = le 4 (Spec.u32 v) := rfl

theorem i32Bytes_length (v : Int) : (i32Bytes v).length = 4 := by simp [i32Bytes]

theorem le4_zero : le 4 0 = [0, 0, 0, 0] := by decide

theorem attr4_length (ty : Nat) (v : Bytes) (h : v.length = 4) : (Spec.attr ty v).length = 8 := by
  simp [Spec.attr, h, pad]

theorem take_append_exact (a b : Bytes) (n : Nat) (h : a.length = n) : (a ++ b).take n = a := by
  subst h; exact List.take_left

theorem Spec_attr_nest (ty : Nat) (d : Bytes) (h : d.length % 4 = 0) :
    Spec.attr ty d = le 2 (4 + d.length) ++ le 2 ty ++ d := by
  simp [Spec.attr, pad, h]

theorem new_zero (k ty : Nat) (h : 4 ≤ k) :
    Nested.new (List.replicate k 0) ty = ⟨[0, 0, 0, 0], ⟨[], List.replicate (k - 4) 0⟩, ty, 4⟩ := by
  rw [Nested.new, if_neg (by simp [nlaHdrLen]; omega)]
  simp only [nlaHdrLen, List.take_replicate, List.drop_replicate, Nat.min_eq_left h]
  rfl

theorem le_append_zero : le 1 0 ++ le 1 0 ++ le 2 0 = le 4 0 := by decide

theorem XdpMode.or_one (m : XdpMode) : m.flags ||| 1 ≠ 0 ∧ m.flags ||| 1 ||| 16 ≠ 0 := by
  cases m <;> decide

theorem message_eq (ty flags seq pid n : Nat) (a b : Bytes) (h : 16 + (a ++ b).length = n) :
    nlmsghdrBytes n ty flags seq pid ++ a ++ b = Spec.message ty flags seq pid (a ++ b) := by
  simp only [Spec.message, h, nlmsghdrBytes, List.append_assoc]

/-- The XDP flags of a request: the mode, "only if none is attached", and "replace" when the program
expected to be attached is given. -/
def xdpFlags (mode : XdpMode) (expected : Option Int) : Nat :=
  (match mode with | .default => 0 | .skb => 2 | .driver => 4 | .hardware => 8) + 1
    + (match expected with | none => 0 | some _ => 16)

/-- **C39.** The XDP request always fits, and consists of exactly: one `RTM_SETLINK` message asking for
an acknowledgement, the interface, and one nested `IFLA_XDP` attribute with the program (or -1), the
flags and, when given, the program expected. -/
theorem C39_xdp_request (ifIndex : Int) (fd expected : Option Int) (mode : XdpMode) :
    xdpRequest ifIndex fd expected mode = .ok (Spec.message 19 5 1 0
      (Spec.ifinfomsg 0 (Spec.u32 ifIndex) 0 0
        ++ Spec.attr (0x8000 + 43) (attrList
            ([(1, le 4 (Spec.u32 (fd.getD (-1)))), (3, le 4 (xdpFlags mode expected))]
              ++ (expected.map (fun e => (8, le 4 (Spec.u32 e)))).toList)))) := by
  have hi : ifinfomsgBytes 0 ifIndex 0 0 = Spec.ifinfomsg 0 (Spec.u32 ifIndex) 0 0 := by
    rw [ifinfomsgBytes, Spec.ifinfomsg, le_append_zero, i32Bytes_eq]
  have hil : (Spec.ifinfomsg 0 (Spec.u32 ifIndex) 0 0).length = 16 := by simp [Spec.ifinfomsg]
  cases expected with
  | none =>
    have hfl : mode.flags ||| 1 = xdpFlags mode none := by cases mode <;> rfl
    have hne := (XdpMode.or_one mode).1
    simp only [xdpRequest, new_zero 64 43 (by omega)]
    rw [nestedAttr_zero _ _ _ _ _ _ _ (by simp [i32Bytes, pad]) (by simp [i32Bytes])]
    simp only [if_pos hne]
    rw [nestedAttr_zero _ _ _ _ _ _ _ (by simp [i32Bytes, pad]) (by simp [i32Bytes])]
    simp only []
    rw [finish_zero _ _ _ _ (by simp [i32Bytes, pad])]
    simp only [i32Bytes_eq, le_length, pad, hfl, hi]
    congr 1
    have e : attrList ([(1, le 4 (Spec.u32 (fd.getD (-1)))), (3, le 4 (xdpFlags mode none))]
        ++ (Option.map (fun e => (8, le 4 (Spec.u32 e))) (none : Option Int)).toList)
        = [] ++ Spec.attr 1 (le 4 (Spec.u32 (fd.getD (-1)))) ++ Spec.attr 3 (le 4 (xdpFlags mode none)) := by
      simp [attrList]
    rw [e, Spec_attr_nest (0x8000 + 43) _ (by simp [attr4_length])]
    simp only [attr4_length _ _ (le_length 4 _), List.length_append, List.length_nil]
    rw [← List.append_assoc (nlmsghdrBytes _ _ _ _ _ ++ _), take_append_exact _ _ _
      (by simp [nlmsghdrBytes, hil, attr4_length, align]), message_eq _ _ _ _ _ _ _
      (by simp [hil, attr4_length, align])]
    rfl
  | some ex =>
    have hfl : mode.flags ||| 1 ||| 16 = xdpFlags mode (some ex) := by
      cases mode <;> simp [xdpFlags, XdpMode.flags]
    have hne := (XdpMode.or_one mode).2
    simp only [xdpRequest, new_zero 64 43 (by omega)]
    rw [nestedAttr_zero _ _ _ _ _ _ _ (by simp [i32Bytes, pad]) (by simp [i32Bytes])]
    simp only [if_pos hne]
    rw [nestedAttr_zero _ _ _ _ _ _ _ (by simp [i32Bytes, pad]) (by simp [i32Bytes])]
    simp only []
    rw [nestedAttr_zero _ _ _ _ _ _ _ (by simp [i32Bytes, pad]) (by simp [i32Bytes])]
    simp only []
    rw [finish_zero _ _ _ _ (by simp [i32Bytes, pad])]
    simp only [i32Bytes_eq, le_length, pad, hfl, hi]
    congr 1
    have e : attrList ([(1, le 4 (Spec.u32 (fd.getD (-1)))), (3, le 4 (xdpFlags mode (some ex)))]
        ++ (Option.map (fun e => (8, le 4 (Spec.u32 e))) (some ex)).toList)
        = [] ++ Spec.attr 1 (le 4 (Spec.u32 (fd.getD (-1)))) ++ Spec.attr 3 (le 4 (xdpFlags mode (some ex)))
          ++ Spec.attr 8 (le 4 (Spec.u32 ex)) := by
      simp [attrList]
    rw [e, Spec_attr_nest (0x8000 + 43) _ (by simp [attr4_length])]
    simp only [attr4_length _ _ (le_length 4 _), List.length_append, List.length_nil]
    rw [← List.append_assoc (nlmsghdrBytes _ _ _ _ _ ++ _), take_append_exact _ _ _
      (by simp [nlmsghdrBytes, hil, attr4_length, align]), message_eq _ _ _ _ _ _ _
      (by simp [hil, attr4_length, align])]
    rfl

/-- **C39.** The `clsact` request: one `RTM_NEWQDISC` message (request, acknowledge, create, exclusive)
for handle and parent `ffff:` with the kind `clsact`. -/
theorem C39_clsact_request (ifIndex : Int) :
    clsactRequest ifIndex = .ok (Spec.message 36 0x605 1 0
      (Spec.tcmsg 0 (Spec.u32 ifIndex) 0xFFFF0000 0xFFFFFFF1 0
        ++ Spec.attr 1 [0x63, 0x6c, 0x73, 0x61, 0x63, 0x74, 0])) := by
  have hi : ∀ a b c, tcmsgBytes 0 ifIndex a b c = Spec.tcmsg 0 (Spec.u32 ifIndex) a b c := by
    intro a b c
    rw [tcmsgBytes, Spec.tcmsg, le_append_zero, i32Bytes_eq]
  have hil : ∀ a b c, (Spec.tcmsg 0 (Spec.u32 ifIndex) a b c).length = 20 := by simp [Spec.tcmsg]
  have h1 : (Util.tcHandlerMake 0xFFFFFFF1#32 0#32).toNat = 0xFFFF0000 := by
    rw [Util.tcHandlerMake]; rfl
  have h2 : (Util.tcHandlerMake 0xFFFFFFF1#32 0xFFFFFFF1#32).toNat = 0xFFFFFFF1 := by
    rw [Util.tcHandlerMake]; rfl
  have hsz : tcRequestAttrsSize = 296 := by decide
  have hf : 1 ||| 4 ||| 0x200 ||| 0x400 = 0x605 := by decide
  have hw := writeAttr_zero [] tcRequestAttrsSize 1 [0x63, 0x6c, 0x73, 0x61, 0x63, 0x74, 0]
    (by rw [hsz]; simp [pad]) (by simp)
  unfold clsactRequest
  rw [hw]
  simp only [List.nil_append, h1, h2, hi, hf]
  congr 1

/-- **C39.** The request that attaches a classifier: with a name of at most 256 bytes (terminator
included) it always fits and consists of exactly one `RTM_NEWTFILTER` message (request, acknowledge,
echo, and create + exclusive for a new attachment), the `tcmsg` with interface, handle, parent,
priority and protocol, the kind `bpf`, and nested options with the class (when given), the program, its
name and the direct-action flag; a longer name is refused. -/
theorem C39_tc_attach_request (ifIndex : Int) (t : Util.TcAttachType) (fd : Int) (name : Bytes)
    (prio : BitVec 16) (handle : Util.TcHandle) (classid : Option Util.TcHandle) (create : Bool) :
    tcAttachRequest ifIndex t fd name prio handle classid create =
      if name.length ≤ 256 then .ok (Spec.message 44 (if create then 0x60d else 0xd) 1 0
        (Spec.tcmsg 0 (Spec.u32 ifIndex) handle.toU32.toNat t.tcParent.toNat (Util.tcmInfo prio 3).toNat
          ++ (Spec.attr 1 [0x62, 0x70, 0x66, 0]
          ++ Spec.attr (0x8000 + 2) (attrList ((classid.map (fun h => (3, le 4 h.toU32.toNat))).toList
              ++ [(6, le 4 (Spec.u32 fd)), (7, name), (8, le 4 1)])))))
      else .error .nameTooLong := by
  have hi : ∀ a b c, tcmsgBytes 0 ifIndex a b c = Spec.tcmsg 0 (Spec.u32 ifIndex) a b c := by
    intro a b c
    rw [tcmsgBytes, Spec.tcmsg, le_append_zero, i32Bytes_eq]
  have hil : ∀ a b c, (Spec.tcmsg 0 (Spec.u32 ifIndex) a b c).length = 20 := by simp [Spec.tcmsg]
  have hfl : (1 ||| 4 ||| 8 ||| if create = true then 0x400 ||| 0x200 else 0)
      = if create = true then 0x60d else 0xd := by cases create <;> rfl
  by_cases hn : name.length ≤ 256
  · rw [if_pos hn]
    have hp := pad_lt name.length
    have hpm : (name.length + pad name.length) % 4 = 0 := by unfold pad; omega
    generalize hP : pad name.length = P at hp hpm
    have hsz : tcRequestAttrsSize = 296 := by decide
    have hal : (Spec.attr 7 name).length = 4 + name.length + P := by simp [Spec.attr, hP]; omega
    have hal4 : ∀ ty, (Spec.attr ty [0x62, 0x70, 0x66, 0]).length = 8 := by
      intro ty; exact attr4_length _ _ rfl
    have hP4 : pad 4 = 0 := by decide
    have hP4' : pad [0x62, 0x70, 0x66, (0 : UInt8)].length = 0 := by decide
    have hl4 : [0x62, 0x70, 0x66, (0 : UInt8)].length = 4 := rfl
    simp only [tcAttachRequest, writeTcAttachAttrs, hsz, clsBpfNameLen]
    rw [if_neg (by omega), writeAttr_zero _ _ _ _ (by decide) (by decide)]
    simp only [hP4', hl4]
    rw [new_zero _ _ (by omega)]
    cases classid with
    | none =>
      simp only []
      rw [nestedAttr_zero _ _ _ _ _ _ _ (by simp [i32Bytes, hP4]) (by simp [i32Bytes])]
      simp only [i32Bytes_length, hP4]
      rw [nestedAttr_zero _ _ _ _ _ _ _ (by omega) (by omega)]
      simp only [hP]
      rw [nestedAttr_zero _ _ _ _ _ _ _ (by simp [hP4]; omega) (by simp)]
      simp only [le_length, hP4]
      rw [finish_zero _ _ _ _ (by omega)]
      simp only [i32Bytes_eq, le_length, hi, hfl]
      congr 1
      have e : attrList ((Option.map (fun h : Util.TcHandle => (3, le 4 h.toU32.toNat)) none).toList
          ++ [(6, le 4 (Spec.u32 fd)), (7, name), (8, le 4 1)])
          = [] ++ Spec.attr 6 (le 4 (Spec.u32 fd)) ++ Spec.attr 7 name ++ Spec.attr 8 (le 4 1) := by
        simp [attrList]
      rw [e, Spec_attr_nest (0x8000 + 2) _ (by simp [attr4_length, hal]; omega)]
      simp only [attr4_length _ _ (le_length 4 _), List.length_append, List.length_nil, hal]
      have eq : ∀ (A B C D : Bytes), A ++ (B ++ (C ++ D)) = A ++ (B ++ C) ++ D := by simp
      rw [eq, take_append_exact _ _ _
        (by simp [nlmsghdrBytes, hil, attr4_length, hal, hal4, align]; omega), message_eq _ _ _ _ _ _ _
        (by simp [hil, attr4_length, hal, hal4, align]; omega)]
      have el : 0 + 8 + (4 + name.length + P) + 8 + 4 = 4 + (4 + 4 + 0) + (4 + name.length + P) + (4 + 4 + 0) := by
        omega
      have el2 : 4 + (0 + 8 + (4 + name.length + P) + 8) = 4 + (4 + 4 + 0) + (4 + name.length + P) + (4 + 4 + 0) := by
        omega
      rw [el2]
      rfl
    | some cl =>
      simp only []
      rw [nestedAttr_zero _ _ _ _ _ _ _ (by simp [hP4]) (by simp)]
      simp only [le_length, hP4]
      rw [nestedAttr_zero _ _ _ _ _ _ _ (by simp [i32Bytes, hP4]) (by simp [i32Bytes])]
      simp only [i32Bytes_length, hP4]
      rw [nestedAttr_zero _ _ _ _ _ _ _ (by omega) (by omega)]
      simp only [hP]
      rw [nestedAttr_zero _ _ _ _ _ _ _ (by simp [hP4]; omega) (by simp)]
      simp only [le_length, hP4]
      rw [finish_zero _ _ _ _ (by omega)]
      simp only [i32Bytes_eq, le_length, hi, hfl]
      congr 1
      have e : attrList ((Option.map (fun h : Util.TcHandle => (3, le 4 h.toU32.toNat)) (some cl)).toList
          ++ [(6, le 4 (Spec.u32 fd)), (7, name), (8, le 4 1)])
          = [] ++ Spec.attr 3 (le 4 cl.toU32.toNat) ++ Spec.attr 6 (le 4 (Spec.u32 fd)) ++ Spec.attr 7 name
            ++ Spec.attr 8 (le 4 1) := by
        simp [attrList]
      rw [e, Spec_attr_nest (0x8000 + 2) _ (by simp [attr4_length, hal]; omega)]
      simp only [attr4_length _ _ (le_length 4 _), List.length_append, List.length_nil, hal]
      have eq : ∀ (A B C D : Bytes), A ++ (B ++ (C ++ D)) = A ++ (B ++ C) ++ D := by simp
      rw [eq, take_append_exact _ _ _
        (by simp [nlmsghdrBytes, hil, attr4_length, hal, hal4, align]; omega), message_eq _ _ _ _ _ _ _
        (by simp [hil, attr4_length, hal, hal4, align]; omega)]
      have el2 : 4 + (0 + 8 + 8 + (4 + name.length + P) + 8)
          = 4 + (4 + 4 + 0) + (4 + 4 + 0) + (4 + name.length + P) + (4 + 4 + 0) := by
        omega
      rw [el2]
      rfl
  · rw [if_neg hn]
    have : writeTcAttachAttrs (List.replicate tcRequestAttrsSize 0) fd name classid
        = .error .nameTooLong := by
      rw [writeTcAttachAttrs, if_pos (by simp only [clsBpfNameLen]; omega)]
    simp only [tcAttachRequest, this]

/-- **C39.** The requests that detach a classifier and that list classifiers are bare messages. -/
theorem C39_tc_other_requests (ifIndex : Int) (t : Util.TcAttachType) (prio : BitVec 16)
    (handle : Util.TcHandle) :
    tcDetachRequest ifIndex t prio handle = Spec.message 45 5 1 0
      (Spec.tcmsg 0 (Spec.u32 ifIndex) handle.toU32.toNat t.tcParent.toNat (Util.tcmInfo prio 3).toNat) ∧
    tcDumpRequest ifIndex t = Spec.message 46 0x301 1 0
      (Spec.tcmsg 0 (Spec.u32 ifIndex) 0 t.tcParent.toNat 0) := by
  have hi : ∀ a b c, tcmsgBytes 0 ifIndex a b c = Spec.tcmsg 0 (Spec.u32 ifIndex) a b c := by
    intro a b c
    rw [tcmsgBytes, Spec.tcmsg, le_append_zero, i32Bytes_eq]
  have hil : ∀ a b c, (Spec.tcmsg 0 (Spec.u32 ifIndex) a b c).length = 20 := by simp [Spec.tcmsg]
  constructor
  · simp only [tcDetachRequest, hi]
    rw [take_append_exact _ _ _ (by simp [nlmsghdrBytes, hil])]
    have := message_eq 45 5 1 0 36 (Spec.tcmsg 0 (Spec.u32 ifIndex) handle.toU32.toNat
      t.tcParent.toNat (Util.tcmInfo prio 3).toNat) [] (by simp [hil])
    simpa using this
  · simp only [tcDumpRequest, hi]
    rw [take_append_exact _ _ _ (by simp [nlmsghdrBytes, hil])]
    have := message_eq 46 0x301 1 0 36 (Spec.tcmsg 0 (Spec.u32 ifIndex) 0
      t.tcParent.toNat 0) [] (by simp [hil])
    simpa using this

/-- A name of 256 bytes is carried, one of 257 is refused. -/
example : (tcAttachRequest 2 .ingress 7 (List.replicate 255 97 ++ [0]) 1 ⟨0, 1⟩ none true).isOk ∧
    tcAttachRequest 2 .ingress 7 (List.replicate 256 97 ++ [0]) 1 ⟨0, 1⟩ none true
      = .error .nameTooLong := by decide +kernel

end Verif.Netlink
