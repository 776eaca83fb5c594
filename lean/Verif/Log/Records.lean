import Verif.Log.Props
/-!
# C42, C43, C45: log records
-/
set_option linter.unusedSimpArgs false
set_option linter.unusedVariables false
namespace Verif.Log
open Spec Verif.Bytes

/-! ## Reading back what was written -/

theorem tryRead_field {kinds : Nat} {k : UInt8} {v b : Bytes} (rest : Bytes) (h : field k v = some b)
    (hk : k.toNat < kinds) : tryRead kinds (b ++ rest) = .ok (k.toNat, v, rest) := by
  unfold field at h
  split at h
  · rename_i hl
    simp only [Option.some.injEq] at h
    subst h
    have hle : le 2 v.length = [UInt8.ofNat (v.length % 256), UInt8.ofNat (v.length / 256 % 256)] := rfl
    have hof : ofLe [UInt8.ofNat (v.length % 256), UInt8.ofNat (v.length / 256 % 256)] = v.length := by
      rw [← hle]; exact ofLe_le_of_lt 2 _ (by omega)
    rw [hle]
    simp only [List.cons_append, List.nil_append, tryRead, if_pos hk, hof]
    rw [if_neg (by simp)]
    simp
  · cases h

theorem fields_cons {k v r b} (h : fields ((k, v) :: r) = some b) :
    ∃ b1 b2, field k v = some b1 ∧ fields r = some b2 ∧ b = b1 ++ b2 := by
  simp only [fields] at h
  cases h1 : field k v with
  | none => rw [h1] at h; cases h
  | some b1 =>
    rw [h1] at h
    simp only at h
    cases h2 : fields r with
    | none => rw [h2] at h; cases h
    | some b2 =>
      rw [h2] at h
      simp only [Option.some.injEq] at h
      exact ⟨b1, b2, rfl, rfl, h.symm⟩

theorem readLevel_byte (l : Level) : readLevel [l.byte] = .ok l := by cases l <;> rfl
theorem readHint_byte (h : Hint) : readHint [h.byte] = .ok h := by cases h <;> rfl

theorem fields_split (h : Header) (items : List Item) {body} (hb : fields (recordFields h items) = some body) :
    ∃ b0 b1 b2 b3 b4 b5 b6, field 0 h.target = some b0 ∧ field 1 [h.level.byte] = some b1 ∧
      field 2 h.module = some b2 ∧ field 3 h.file = some b3 ∧ field 4 (le 4 h.line) = some b4 ∧
      field 5 (le 4 items.length) = some b5 ∧ fields (items.map Item.argument) = some b6 ∧
      body = b0 ++ (b1 ++ (b2 ++ (b3 ++ (b4 ++ (b5 ++ b6))))) := by
  unfold recordFields at hb
  simp only [List.cons_append, List.nil_append] at hb
  obtain ⟨b0, r0, f0, g0, e0⟩ := fields_cons hb
  obtain ⟨b1, r1, f1, g1, e1⟩ := fields_cons g0
  obtain ⟨b2, r2, f2, g2, e2⟩ := fields_cons g1
  obtain ⟨b3, r3, f3, g3, e3⟩ := fields_cons g2
  obtain ⟨b4, r4, f4, g4, e4⟩ := fields_cons g3
  obtain ⟨b5, r5, f5, g5, e5⟩ := fields_cons g4
  exact ⟨b0, b1, b2, b3, b4, b5, r5, f0, f1, f2, f3, f4, f5, g5, by rw [e0, e1, e2, e3, e4, e5]⟩

theorem headerLoop_step {std : Std} {n : Nat} {p p' : Partial} {k : UInt8} {v b rest : Bytes}
    (hf : field k v = some b) (hk : k.toNat < 6) (hc : p.complete = false)
    (hs : headerField std p k.toNat v = .ok p') :
    headerLoop std (n + 1) p (b ++ rest) = headerLoop std n p' rest := by
  rw [headerLoop, tryRead_field _ hf hk]
  simp [hc, Res.bind, hs]

/-- The header loop finds the six fields of the header. -/
theorem headerLoop_record (std : Std) (h : Header) (items : List Item) {body} (n : Nat)
    (hb : fields (recordFields h items) = some body)
    (ht : std.utf8 h.target = true) (hm : std.utf8 h.module = true) (hf : std.utf8 h.file = true)
    (hl : h.line < 2 ^ 32) (hi : items.length < 2 ^ 32) :
    ∃ b6, fields (items.map Item.argument) = some b6 ∧
      headerLoop std (n + 7) {} body =
        .ok (⟨some h.target, some h.level, some h.module, some h.file, some h.line, some items.length⟩, b6) := by
  obtain ⟨b0, b1, b2, b3, b4, b5, b6, f0, f1, f2, f3, f4, f5, f6, rfl⟩ := fields_split h items hb
  refine ⟨b6, f6, ?_⟩
  have l1 : ofLe (le 4 h.line) = h.line := ofLe_le_of_lt 4 _ (by omega)
  have l2 : ofLe (le 4 items.length) = items.length := ofLe_le_of_lt 4 _ (by omega)
  rw [headerLoop_step (p' := { target := some h.target }) f0 (by decide) rfl
    (by simp [headerField, fromUtf8, ht, Res.bind, setOnce])]
  rw [headerLoop_step (p' := { target := some h.target, level := some h.level }) f1 (by decide) rfl
    (by simp [headerField, readLevel_byte, Res.bind, setOnce])]
  rw [headerLoop_step (p' := { target := some h.target, level := some h.level, module := some h.module })
    f2 (by decide) rfl (by simp [headerField, fromUtf8, hm, Res.bind, setOnce])]
  rw [headerLoop_step (p' := { target := some h.target, level := some h.level, module := some h.module,
                               file := some h.file })
    f3 (by decide) rfl (by simp [headerField, fromUtf8, hf, Res.bind, setOnce])]
  rw [headerLoop_step (p' := { target := some h.target, level := some h.level, module := some h.module,
                               file := some h.file, line := some h.line })
    f4 (by decide) rfl (by simp [headerField, fromU32, l1, Res.bind, setOnce])]
  rw [headerLoop_step (p' := { target := some h.target, level := some h.level, module := some h.module,
                               file := some h.file, line := some h.line, numArgs := some items.length })
    f5 (by decide) rfl (by simp [headerField, fromU32, l2, Res.bind, setOnce])]
  rw [headerLoop]; simp [Partial.complete]

/-! ## Values -/

theorem intOfKind_kind (t : IntTy) : intOfKind t.kind.toNat = some t := by cases t <;> rfl

theorem ofBytes_int (t : IntTy) (v : Int) (h1 : least t ≤ v) (h2 : v ≤ greatest t) :
    t.ofBytes (le t.size (v % 256 ^ t.size).toNat) = v := by
  unfold IntTy.ofBytes
  rw [ofLe_le]
  cases t <;> simp only [least, greatest, IntTy.signed, IntTy.size, Bool.true_and, Bool.false_and,
    Bool.false_eq_true, if_false, decide_eq_true_eq, Int.reducePow, Nat.reducePow,
    ge_iff_le] at * <;> (try split) <;> omega

theorem unsigned_int (t : IntTy) (v : Int) : unsigned (width t) v = (v % 256 ^ t.size).toNat := by
  unfold unsigned
  cases t <;> rfl

theorem ofNat_mod (n : Nat) : UInt8.ofNat (n % 256) = UInt8.ofNat n := by
  apply UInt8.toNat_inj.mp
  simp

theorem ipv4_u32 (n : Nat) : (le 4 n).reverse =
    [UInt8.ofNat (n / 2 ^ 24), UInt8.ofNat (n / 2 ^ 16), UInt8.ofNat (n / 2 ^ 8), UInt8.ofNat n] := by
  simp only [le, List.reverse_cons, List.reverse_nil, List.nil_append, List.cons_append, ofNat_mod,
    Nat.div_div_eq_div_mul]

/-- An argument that compiles has a text. -/
theorem text_of_accepted (std : Std) {h : Hint} {v : Val} (ha : accepted h v = true) :
    ∃ t, text std h v = some t := by
  cases h <;> cases v <;> simp [accepted, text] at ha ⊢
  case ip.int t n => subst ha; exact ⟨_, rfl⟩
  case ip.arr b =>
    rcases ha with h | h
    · simp [h]
    · simp [h]
  case lowerMac.arr b =>
    match b, ha with
    | [_, _, _, _, _, _], _ => exact ⟨_, rfl⟩
  case upperMac.arr b =>
    match b, ha with
    | [_, _, _, _, _, _], _ => exact ⟨_, rfl⟩

theorem argKind_lt (v : Val) : v.argument.1.toNat < 22 := by
  cases v with
  | int t n => cases t <;> simp [Val.argument, IntTy.kind]
  | arr b => simp only [Val.argument, arrKind]; repeat' split
             all_goals decide
  | refArr b => simp only [Val.argument, arrKind]; repeat' split
                all_goals decide
  | _ => simp [Val.argument]

/-- **C43 (core)** What user space makes of an argument under its hint is the text of the argument. -/
theorem argField_text (std : Std) {h : Hint} {v : Val} {t : Bytes} (hv : Valid std v)
    (hx : ¬ HexOfSpecialArray h v) (ht : text std h v = some t) :
    ∃ h', argField std (some h) v.argument.1.toNat v.argument.2 = .ok (h', t) := by
  cases v with
  | int ty n =>
    simp only [Val.argument, argField, intOfKind_kind, le_length, if_true, ofBytes_int ty n hv.1 hv.2]
    cases h <;> simp only [text, Option.some.injEq, reduceCtorEq] at ht
    · subst ht; exact ⟨none, rfl⟩
    · subst ht; exact ⟨none, by rw [unsigned_int]; rfl⟩
    · subst ht; exact ⟨none, by rw [unsigned_int]; rfl⟩
    · cases ty <;> simp only [text, Option.some.injEq, reduceCtorEq] at ht
      subst ht
      exact ⟨none, by simp only [formatInt, if_true, Res.bind, ipv4_u32]⟩
  | f32 b =>
    have hb : ofLe (le 4 b) = b := ofLe_le_of_lt 4 _ (by have := hv; simp only [Valid] at this; omega)
    cases h <;> simp only [text, Option.some.injEq, reduceCtorEq] at ht
    subst ht
    exact ⟨none, by simp [Val.argument, argField, intOfKind, hb, formatFloat, Res.bind]⟩
  | f64 b =>
    have hb : ofLe (le 8 b) = b := ofLe_le_of_lt 8 _ (by have := hv; simp only [Valid] at this; omega)
    cases h <;> simp only [text, Option.some.injEq, reduceCtorEq] at ht
    subst ht
    exact ⟨none, by simp [Val.argument, argField, intOfKind, hb, formatFloat, Res.bind]⟩
  | ipv4 o =>
    have hl : o.length = 4 := hv
    cases h <;> simp only [text, Option.some.injEq, reduceCtorEq] at ht <;> subst ht <;>
      exact ⟨none, by simp [Val.argument, argField, intOfKind, hl, formatAddr, Res.bind]⟩
  | ipv6 o =>
    have hl : o.length = 16 := hv
    cases h <;> simp only [text, Option.some.injEq, reduceCtorEq] at ht <;> subst ht <;>
      exact ⟨none, by simp [Val.argument, argField, intOfKind, hl, formatAddr, Res.bind]⟩
  | arr b =>
    cases h <;> simp only [text, Option.some.injEq, reduceCtorEq] at ht
    · -- ip
      split at ht
      · rename_i hl
        simp only [Option.some.injEq] at ht; subst ht
        exact ⟨none, by simp [Val.argument, arrKind, argField, intOfKind, hl, formatAddr, Res.bind]⟩
      · split at ht
        · rename_i hn hl
          simp only [Option.some.injEq] at ht; subst ht
          exact ⟨none, by simp [Val.argument, arrKind, argField, intOfKind, hl, formatIp, Res.bind]⟩
        · cases ht
    · match b, ht with
      | [x0, x1, x2, x3, x4, x5], ht =>
        simp only [text, Option.some.injEq] at ht; subst ht
        exact ⟨none, by simp [Val.argument, arrKind, argField, intOfKind, formatMac, macText, Res.bind]⟩
    · match b, ht with
      | [x0, x1, x2, x3, x4, x5], ht =>
        simp only [text, Option.some.injEq] at ht; subst ht
        exact ⟨none, by simp [Val.argument, arrKind, argField, intOfKind, formatMac, macText, Res.bind]⟩
  | refArr b =>
    have hk : HexOfSpecialArray .lowerHex (.refArr b) = HexOfSpecialArray .upperHex (.refArr b) := rfl
    cases h <;> simp only [text, Option.some.injEq, reduceCtorEq] at ht <;> subst ht <;>
      (simp only [HexOfSpecialArray, not_or] at hx
       refine ⟨none, ?_⟩
       simp only [Val.argument, arrKind, if_neg hx.1, if_neg hx.2.1, if_neg hx.2.2]
       rfl)
  | slice b =>
    cases h <;> simp only [text, Option.some.injEq, reduceCtorEq] at ht <;> subst ht <;>
      exact ⟨none, rfl⟩
  | str s =>
    have hs : std.utf8 s = true := hv
    cases h <;> simp only [text, Option.some.injEq, reduceCtorEq] at ht
    subst ht
    exact ⟨some .dflt, by simp [Val.argument, argField, intOfKind, hs]⟩
  | ptr a =>
    have hb : ofLe (le 8 a) = a := ofLe_le_of_lt 8 _ (by have := hv; simp only [Valid] at this; omega)
    cases h <;> simp only [text, Option.some.injEq, reduceCtorEq] at ht
    subst ht
    exact ⟨none, by simp [Val.argument, argField, intOfKind, hb, formatPtr, Res.bind]⟩

/-! ## The arguments of a statement -/

/-- The message of parsed fragments. -/
def fragsMessage (std : Std) (utf8 : Char → Bytes) : List Fragment → List Val → Option Bytes
  | [], _ => some []
  | .literal s :: r, args => (fragsMessage std utf8 r args).map (s.flatMap utf8 ++ ·)
  | .param h :: r, a :: args =>
    match text std h a, fragsMessage std utf8 r args with
    | some t, some m => some (t ++ m)
    | _, _ => none
  | .param _ :: _, [] => none

/-- The hints of parsed fragments. -/
def fragHints : List Fragment → List Hint
  | [] => []
  | .literal _ :: r => fragHints r
  | .param h :: r => h :: fragHints r

theorem fragHints_meaning : ∀ ps : List Piece, fragHints (meaning ps) = hints ps
  | [] => rfl
  | .chr c :: r | .openBrace :: r | .closeBrace :: r => by
    have ih := fragHints_meaning r
    simp only [meaning, hints, ← ih]
    cases meaning r with
    | nil => rfl
    | cons f fs => cases f <;> rfl
  | .param h :: r => by simp [meaning, hints, fragHints, fragHints_meaning r]

theorem fragsMessage_addChar (std : Std) (utf8 : Char → Bytes) (c : Char) (fs : List Fragment) (args) :
    fragsMessage std utf8 (addChar c fs) args = (fragsMessage std utf8 fs args).map (utf8 c ++ ·) := by
  cases fs with
  | nil => simp [addChar, fragsMessage]
  | cons f r =>
    cases f with
    | literal s =>
      simp only [addChar, fragsMessage, List.flatMap_cons, Option.map_map]
      congr 1; funext x; simp
    | param h => simp only [addChar, fragsMessage, List.flatMap_cons, List.flatMap_nil, List.append_nil]

theorem fragsMessage_meaning (std : Std) (utf8 : Char → Bytes) : ∀ (ps : List Piece) (args : List Val),
    fragsMessage std utf8 (meaning ps) args = message std utf8 ps args
  | [], _ => rfl
  | .chr c :: r, args => by
    rw [meaning, fragsMessage_addChar, fragsMessage_meaning std utf8 r]; rfl
  | .openBrace :: r, args => by
    rw [meaning, fragsMessage_addChar, fragsMessage_meaning std utf8 r]; rfl
  | .closeBrace :: r, args => by
    rw [meaning, fragsMessage_addChar, fragsMessage_meaning std utf8 r]; rfl
  | .param h :: r, [] => rfl
  | .param h :: r, a :: args => by
    simp only [meaning, fragsMessage, message, fragsMessage_meaning std utf8 r]
    cases text std h a <;> cases message std utf8 r args <;> rfl

/-- The argument loop shows the message. -/
theorem argLoop_items (std : Std) (utf8 : Char → Bytes)
    (hu : ∀ s : List Char, std.utf8 (s.flatMap utf8) = true) :
    ∀ (fs : List Fragment) (args : List Val) (items : List Item) (body : Bytes) (hint : Option Hint)
      (msg : Bytes),
    expand (fun s => s.flatMap utf8) fs args = some items →
    fields (items.map Item.argument) = some body →
    (∀ v ∈ args, Valid std v) →
    (∀ p ∈ (fragHints fs).zip args, ¬ HexOfSpecialArray p.1 p.2) →
    ∃ m, fragsMessage std utf8 fs args = some m ∧
      argLoop std items.length hint body msg = .ok (msg ++ m)
  | [], args, items, body, hint, msg, he, hb, _, _ => by
    simp only [expand, Option.some.injEq] at he; subst he
    exact ⟨[], rfl, by simp [argLoop]⟩
  | .literal s :: fs, args, items, body, hint, msg, he, hb, hv, hx => by
    simp only [expand] at he
    cases hr : expand (fun s => s.flatMap utf8) fs args with
    | none => rw [hr] at he; cases he
    | some items' =>
      rw [hr] at he
      simp only [Option.some.injEq] at he; subst he
      rw [List.map_cons] at hb
      obtain ⟨b1, b2, f1, f2, rfl⟩ := fields_cons hb
      obtain ⟨m, h1, h2⟩ := argLoop_items std utf8 hu fs args items' b2 hint (msg ++ s.flatMap utf8) hr f2 hv hx
      refine ⟨s.flatMap utf8 ++ m, by simp [fragsMessage, h1], ?_⟩
      rw [List.length_cons, argLoop, tryRead_field _ f1 (by decide)]
      simp only [Res.bind, argField, show (20 : UInt8).toNat = 20 from rfl, intOfKind, hu, if_true]
      rw [h2]; simp
  | .param h :: fs, [], items, body, hint, msg, he, _, _, _ => by simp [expand] at he
  | .param h :: fs, a :: args, items, body, hint, msg, he, hb, hv, hx => by
    simp only [expand] at he
    split at he
    · rename_i hacc
      cases hr : expand (fun s => s.flatMap utf8) fs args with
      | none => rw [hr] at he; cases he
      | some items' =>
        rw [hr] at he
        simp only [Option.some.injEq] at he; subst he
        rw [List.map_cons, List.map_cons] at hb
        obtain ⟨b1, r1, f1, g1, rfl⟩ := fields_cons hb
        obtain ⟨b2, b3, f2, f3, rfl⟩ := fields_cons g1
        obtain ⟨t, ht⟩ := text_of_accepted std hacc
        have hx0 : ¬ HexOfSpecialArray h a := hx (h, a) (by simp [fragHints])
        obtain ⟨h', ha⟩ := argField_text std (hv a (List.mem_cons_self ..)) hx0 ht
        obtain ⟨m, h1, h2⟩ := argLoop_items std utf8 hu fs args items' b3 h' (msg ++ [] ++ t) hr f3
          (fun v hv' => hv v (List.mem_cons_of_mem _ hv'))
          (fun p hp => hx p (by simp only [fragHints, List.zip_cons_cons]; exact List.mem_cons_of_mem _ hp))
        refine ⟨t ++ m, by simp [fragsMessage, h1, ht], ?_⟩
        rw [List.length_cons, List.length_cons, argLoop, tryRead_field _ f1 (by decide)]
        simp only [Res.bind, argField, show (0 : UInt8).toNat = 0 from rfl, intOfKind, readHint_byte]
        have f2' : field a.argument.1 a.argument.2 = some b2 := f2
        rw [argLoop, tryRead_field _ f2' (argKind_lt a)]
        simp only [Res.bind]
        rw [ha]
        simp only [Res.bind]
        rw [h2]; simp
    · cases he

/-- What is submitted. -/
theorem submitted_form {enabled reserve h items buf}
    (hs : logStatement enabled reserve h items = .submitted buf) :
    ∃ body tail, fields (recordFields h items) = some body ∧ 2 + body.length < 65536 ∧
      buf = le 2 (2 + body.length) ++ body ++ tail := by
  unfold logStatement at hs
  split at hs
  · cases hb : fields (recordFields h items) with
    | none => rw [hb] at hs; cases hs
    | some body =>
      rw [hb] at hs
      simp only at hs
      split at hs
      · rename_i hlt
        split at hs
        · cases hs
        · split at hs
          · cases hs
          · split at hs
            · simp only [Sent.submitted.injEq] at hs
              exact ⟨body, _, rfl, hlt, hs.symm⟩
            · cases hs
      · cases hs
  · cases hs

/-- `log_buf` looks at the record only. -/
theorem logBuf_record (std : Std) (body tail : Bytes) (hl : 2 + body.length < 65536) :
    logBuf std (le 2 (2 + body.length) ++ body ++ tail) =
      (headerLoop std (body.length + tail.length + 1) {} body).bind (logArgs std) := by
  have hle : le 2 (2 + body.length) = [UInt8.ofNat ((2 + body.length) % 256),
    UInt8.ofNat ((2 + body.length) / 256 % 256)] := rfl
  have hof : ofLe [UInt8.ofNat ((2 + body.length) % 256), UInt8.ofNat ((2 + body.length) / 256 % 256)] =
      2 + body.length := by
    rw [← hle]; exact ofLe_le_of_lt 2 _ (by omega)
  rw [hle]
  simp only [List.cons_append, List.nil_append, logBuf, hof]
  rw [if_pos ⟨by omega, by simp; omega⟩]
  rw [show 2 + body.length - 2 = body.length by omega, List.take_left' rfl]
  simp [List.length_append]

theorem fields_length {kvs : List (UInt8 × Bytes)} {b} (h : fields kvs = some b) :
    3 * kvs.length ≤ b.length := by
  induction kvs generalizing b with
  | nil => simp
  | cons kv r ih =>
    obtain ⟨b1, b2, f1, f2, rfl⟩ := fields_cons (k := kv.1) (v := kv.2) h
    have := ih f2
    unfold field at f1
    split at f1
    · simp only [Option.some.injEq] at f1; subst f1
      simp; omega
    · cases f1

/-- **C42** Every log statement that compiles and whose record is sent is shown to the logger with the
target, level, module, file and line of the statement, and with its message: the literal text of the
format string with each parameter replaced by the text of its own argument, in order.  This holds for
every format string, argument list and value, whatever the contents of the reserved buffer and whatever
the texts of the standard library, except for `&[u8; 4]`, `&[u8; 6]` and `&[u8; 16]` shown in hexadecimal
(`C43_hex_array_violated`). -/
theorem C42_logged_as_written_partial (std : Std) (utf8 : Char → Bytes)
    (hu : ∀ s : List Char, std.utf8 (s.flatMap utf8) = true)
    (h : Header) (ht : std.utf8 h.target = true) (hm : std.utf8 h.module = true)
    (hf : std.utf8 h.file = true) (hl : h.line < 2 ^ 32)
    (ps : List Piece) (hp : ∀ p ∈ ps, p.Ordinary)
    (args : List Val) (hv : ∀ v ∈ args, Valid std v)
    (hx : ∀ p ∈ (hints ps).zip args, ¬ HexOfSpecialArray p.1 p.2)
    (fs : List Fragment) (hparse : parse (written ps) = .ok fs)
    (items : List Item) (hexp : expand (fun s => s.flatMap utf8) fs args = some items)
    (hcount : items.length < 2 ^ 32)
    (enabled : Nat) (reserve : Nat → Option Bytes) (buf : Bytes)
    (hsent : logStatement enabled reserve h items = .submitted buf) :
    ∃ m, message std utf8 ps args = some m ∧
      flushOne std buf = .logged ⟨h.target, h.level, h.module, h.file, h.line, m⟩ := by
  rw [C44_parses ps hp] at hparse
  simp only [Except.ok.injEq] at hparse
  subst hparse
  obtain ⟨body, tail, hb, hlt, rfl⟩ := submitted_form hsent
  have hlen := fields_length hb
  have hrl : 6 ≤ (recordFields h items).length := by simp [recordFields]
  obtain ⟨b6, f6, hh⟩ := headerLoop_record std h items (body.length + tail.length - 6) hb ht hm hf hl hcount
  obtain ⟨m, h1, h2⟩ := argLoop_items std utf8 hu (meaning ps) args items b6 none [] hexp f6 hv
    (by rw [fragHints_meaning]; exact hx)
  refine ⟨m, by rw [← fragsMessage_meaning]; exact h1, ?_⟩
  unfold flushOne
  rw [logBuf_record std body tail hlt]
  rw [show body.length + tail.length + 1 = body.length + tail.length - 6 + 7 by omega, hh]
  simp only [Res.bind, logArgs, orErr, h2, List.nil_append]

/-! ## When a statement is sent -/

theorem capacityFor_stop (f cap n : Nat) (h : n ≤ cap) : capacityFor (f + 1) cap n = some cap := by
  rw [capacityFor, if_neg (by omega)]

theorem capacityFor_go (f cap n : Nat) (h : cap < n) (h2 : 2 * cap ≤ 8192) :
    capacityFor (f + 1) cap n = capacityFor f (2 * cap) n := by
  rw [capacityFor, if_pos h, if_neg (by omega)]

theorem capacityFor_slot (n : Nat) (h : n ≤ 8192) : capacityFor 9 64 n = some (slot n) := by
  have hc : n ≤ 64 ∨ (64 < n ∧ n ≤ 128) ∨ (128 < n ∧ n ≤ 256) ∨ (256 < n ∧ n ≤ 512) ∨
      (512 < n ∧ n ≤ 1024) ∨ (1024 < n ∧ n ≤ 2048) ∨ (2048 < n ∧ n ≤ 4096) ∨ (4096 < n ∧ n ≤ 8192) := by
    omega
  unfold slot
  rcases hc with h | h | h | h | h | h | h | h
  all_goals
    repeat rw [capacityFor_go _ _ _ (by omega) (by omega)]
    rw [capacityFor_stop _ _ _ (by omega)]
    repeat rw [if_neg (by omega)]
    try rw [if_pos (by omega)]

theorem slot_ge (n : Nat) (h : n ≤ 8192) : n ≤ slot n := by
  simp only [slot]
  repeat' split
  all_goals omega

theorem capacityFor_none : ∀ (fuel cap size : Nat), 8192 < size → cap ≤ 8192 →
    capacityFor fuel cap size = none
  | 0, _, _, _, _ => rfl
  | fuel + 1, cap, size, h1, h2 => by
    rw [capacityFor, if_pos (by omega)]
    by_cases hc : 2 * cap > 8192
    · rw [if_pos hc]
    · rw [if_neg hc]; exact capacityFor_none fuel (2 * cap) size h1 (by omega)

theorem argument_size (v : Val) : v.argument.2.length = argSize v := by
  cases v with
  | int t n => simp [Val.argument, argSize]; cases t <;> rfl
  | _ => simp [Val.argument, argSize]

/-- Total size of fields. -/
def total : List (UInt8 × Bytes) → Nat
  | [] => 0
  | kv :: r => 3 + kv.2.length + total r

theorem total_append (a b) : total (a ++ b) = total a + total b := by
  induction a with
  | nil => simp [total]
  | cons x r ih => simp only [List.cons_append, total, ih]; omega

theorem fields_total : ∀ (kvs : List (UInt8 × Bytes)), total kvs < 65536 →
    ∃ b, fields kvs = some b ∧ b.length = total kvs
  | [], _ => ⟨[], rfl, rfl⟩
  | (k, v) :: r, h => by
    simp only [total] at h
    obtain ⟨b, hb, hl⟩ := fields_total r (by omega)
    refine ⟨(k :: le 2 v.length ++ v) ++ b, ?_, ?_⟩
    · simp only [fields, field, if_pos (show v.length < 65536 by omega), hb]
    · simp [total, hl]; omega

theorem fields_total_le {kvs : List (UInt8 × Bytes)} {b} (h : fields kvs = some b) : b.length = total kvs := by
  induction kvs generalizing b with
  | nil => simp only [fields, Option.some.injEq] at h; subst h; rfl
  | cons kv r ih =>
    obtain ⟨b1, b2, f1, f2, rfl⟩ := fields_cons (k := kv.1) (v := kv.2) h
    have := ih f2
    unfold field at f1
    split at f1
    · simp only [Option.some.injEq] at f1; subst f1
      simp [total]; omega
    · cases f1

theorem items_total (utf8 : Char → Bytes) : ∀ (fs : List Fragment) (args : List Val) (items : List Item),
    expand (fun s => s.flatMap utf8) fs args = some items →
    total (items.map Item.argument) = fragmentsSize utf8 fs args
  | [], args, items, h => by
    simp only [expand, Option.some.injEq] at h; subst h; cases args <;> rfl
  | .literal s :: fs, args, items, h => by
    simp only [expand] at h
    cases hr : expand (fun s => s.flatMap utf8) fs args with
    | none => rw [hr] at h; cases h
    | some r =>
      rw [hr] at h; simp only [Option.some.injEq] at h; subst h
      simp only [List.map_cons, total, fragmentsSize, items_total utf8 fs args r hr]
      rfl
  | .param x :: fs, [], items, h => by simp [expand] at h
  | .param x :: fs, a :: args, items, h => by
    simp only [expand] at h
    split at h
    · cases hr : expand (fun s => s.flatMap utf8) fs args with
      | none => rw [hr] at h; cases h
      | some r =>
        rw [hr] at h; simp only [Option.some.injEq] at h; subst h
        simp only [List.map_cons, total, fragmentsSize, items_total utf8 fs args r hr, Item.argument,
          argument_size, List.length_cons, List.length_nil]
        omega
    · cases h

/-- **C42** When a statement is sent: a record is submitted exactly if its level is enabled, it has at
most 8192 bytes and the ring gives room for the least power of two of bytes, from 64 on, that is enough for
it; what is submitted has that size.  Otherwise nothing is sent. -/
theorem C42_sent (utf8 : Char → Bytes) (h : Header)
    (ps : List Piece) (hp : ∀ p ∈ ps, p.Ordinary) (args : List Val)
    (fs : List Fragment) (hparse : parse (written ps) = .ok fs)
    (items : List Item) (hexp : expand (fun s => s.flatMap utf8) fs args = some items)
    (enabled : Nat) (reserve : Nat → Option Bytes) (hres : ∀ n b, reserve n = some b → b.length = n) :
    ((∃ buf, logStatement enabled reserve h items = .submitted buf) ↔
      severity h.level ≤ enabled ∧ recordSize utf8 h ps args ≤ 8192 ∧
        (reserve (slot (recordSize utf8 h ps args))).isSome = true) ∧
    ∀ buf, logStatement enabled reserve h items = .submitted buf →
      buf.length = slot (recordSize utf8 h ps args) := by
  rw [C44_parses ps hp] at hparse
  simp only [Except.ok.injEq] at hparse
  subst hparse
  have hit := items_total utf8 _ _ _ hexp
  have hsz : 2 + total (recordFields h items) = recordSize utf8 h ps args := by
    simp only [recordFields, total_append, total, hit, recordSize, List.length_cons, List.length_nil, le_length]
    omega
  have hlev : h.level.byte.toNat = severity h.level := by cases h.level <;> rfl
  have fwd : ∀ buf, logStatement enabled reserve h items = .submitted buf →
      severity h.level ≤ enabled ∧ recordSize utf8 h ps args ≤ 8192 ∧
        (reserve (slot (recordSize utf8 h ps args))).isSome = true ∧
        buf.length = slot (recordSize utf8 h ps args) := by
    intro buf hs
    unfold logStatement at hs
    split at hs
    · rename_i hen
      cases hb : fields (recordFields h items) with
      | none => rw [hb] at hs; cases hs
      | some body =>
        rw [hb] at hs
        simp only at hs
        have hbl : 2 + body.length = recordSize utf8 h ps args := by rw [fields_total_le hb, hsz]
        rw [hbl] at hs
        split at hs
        · rename_i hlt
          by_cases hbig : 8192 < recordSize utf8 h ps args
          · rw [capacityFor_none 9 64 _ hbig (by omega)] at hs; cases hs
          · rw [capacityFor_slot _ (by omega)] at hs
            simp only at hs
            cases hr : reserve (slot (recordSize utf8 h ps args)) with
            | none => rw [hr] at hs; cases hs
            | some b =>
              rw [hr] at hs
              simp only at hs
              split at hs
              · rename_i hfit
                simp only [Sent.submitted.injEq] at hs
                refine ⟨hlev ▸ hen, by omega, rfl, ?_⟩
                rw [← hs, ← hres _ _ hr]
                simp only [List.length_append, le_length, List.length_drop]
                omega
              · cases hs
        · cases hs
    · cases hs
  refine ⟨⟨fun ⟨buf, hs⟩ => ⟨(fwd buf hs).1, (fwd buf hs).2.1, (fwd buf hs).2.2.1⟩, ?_⟩,
    fun buf hs => (fwd buf hs).2.2.2⟩
  rintro ⟨hen, hle, hr⟩
  obtain ⟨b, hr⟩ := Option.isSome_iff_exists.mp hr
  obtain ⟨body, hb, hbl⟩ := fields_total (recordFields h items) (by omega)
  have hbl : 2 + body.length = recordSize utf8 h ps args := by rw [hbl, hsz]
  unfold logStatement
  rw [if_pos (by rw [hlev]; exact hen), hb]
  simp only [hbl]
  rw [if_pos (by omega), capacityFor_slot _ hle]
  simp only [hr]
  rw [if_pos (by rw [hres _ b hr]; exact slot_ge _ hle)]
  exact ⟨_, rfl⟩

/-! ### A concrete statement

`info!(target: "t", ctx, "a={:x} {:mac} {}}}", -2i16, [1,2,3,4,5,6], "é")` with a toy standard library. -/

/-- A toy standard library: enough to see that the theorems speak of something. -/
def toyStd : Std where
  dec n := (toString n).toUTF8.toList
  hexLower n := (String.ofList (Nat.toDigits 16 n)).toUTF8.toList
  hexUpper n := (String.ofList (Nat.toDigits 16 n)).toUTF8.toList
  byteLower b := [b / 16 + 48, b % 16 + 48]
  byteUpper b := [b / 16 + 48, b % 16 + 48]
  f32 _ := []
  f64 _ := []
  ipv4 o := o
  ipv6 o := o
  ptr _ := []
  utf8 _ := true

/-- ASCII only. -/
def toyUtf8 (c : Char) : Bytes := [UInt8.ofNat c.toNat]

def toyHeader : Header := ⟨[116], .info, [109], [102], 7⟩
def toyPieces : List Piece :=
  [.chr 'a', .chr '=', .param .lowerHex, .chr ' ', .param .lowerMac, .chr ' ', .param .dflt, .closeBrace]
def toyArgs : List Val := [.int .i16 (-2), .arr [1, 2, 3, 4, 5, 6], .str [104, 105]]

/-- The record submitted. -/
def toyRun : Shown :=
  match parse (written toyPieces) with
  | .error _ => .panic
  | .ok fs =>
    match expand (fun s => s.flatMap toyUtf8) fs toyArgs with
    | none => .panic
    | some items =>
      match logStatement 5 (fun n => some (List.replicate n 0xaa)) toyHeader items with
      | .dropped => .panic
      | .submitted buf => flushOne toyStd buf

example : toyRun = .logged ⟨[116], .info, [109], [102], 7, "a=fffe 01:02:03:04:05:06 hi}".toUTF8.toList⟩ ∧
    message toyStd toyUtf8 toyPieces toyArgs = some "a=fffe 01:02:03:04:05:06 hi}".toUTF8.toList := by
  decide +kernel

example : (∀ v ∈ toyArgs, Valid toyStd v) ∧
    (∀ p ∈ (hints toyPieces).zip toyArgs, ¬ HexOfSpecialArray p.1 p.2) ∧ (∀ p ∈ toyPieces, p.Ordinary) := by
  refine ⟨?_, by decide, by decide⟩
  intro v hv
  simp only [toyArgs, List.mem_cons, List.not_mem_nil, or_false] at hv
  rcases hv with rfl | rfl | rfl
  · exact ⟨by decide, by decide⟩
  · trivial
  · rfl

/-! ## C43 -/

/-- **C43 (partial)** No log statement that compiles makes the logger crash, other than those showing a
`&[u8; 4]`, `&[u8; 6]` or `&[u8; 16]` in hexadecimal: the record it sends is formatted.  Missing: those
statements (`C43_hex_array_violated`). -/
theorem C43_no_crash_partial (std : Std) (utf8 : Char → Bytes)
    (hu : ∀ s : List Char, std.utf8 (s.flatMap utf8) = true)
    (h : Header) (ht : std.utf8 h.target = true) (hm : std.utf8 h.module = true)
    (hf : std.utf8 h.file = true) (hl : h.line < 2 ^ 32)
    (format : List Char) (fs : List Fragment) (hparse : parse format = .ok fs)
    (args : List Val) (hv : ∀ v ∈ args, Valid std v)
    (hx : ∀ hint ∈ [Hint.lowerHex, Hint.upperHex], ∀ v ∈ args, ¬ HexOfSpecialArray hint v)
    (items : List Item) (hexp : expand (fun s => s.flatMap utf8) fs args = some items)
    (hcount : items.length < 2 ^ 32)
    (enabled : Nat) (reserve : Nat → Option Bytes) (buf : Bytes)
    (hsent : logStatement enabled reserve h items = .submitted buf) :
    flushOne std buf ≠ .panic ∧ flushOne std buf ≠ .ub := by
  obtain ⟨body, tail, hb, hlt, rfl⟩ := submitted_form hsent
  have hlen := fields_length hb
  have hrl : 6 ≤ (recordFields h items).length := by simp [recordFields]
  obtain ⟨b6, f6, hh⟩ := headerLoop_record std h items (body.length + tail.length - 6) hb ht hm hf hl hcount
  obtain ⟨m, h1, h2⟩ := argLoop_items std utf8 hu fs args items b6 none [] hexp f6 hv (by
    intro p hp hbad
    have hmem := (List.of_mem_zip hp).2
    have hcases : p.1 = .lowerHex ∨ p.1 = .upperHex := by
      cases h1 : p.1 <;> cases h2 : p.2 <;> simp [h1, h2, HexOfSpecialArray] at hbad ⊢
    rcases hcases with h1 | h1
    · exact hx .lowerHex (by simp) p.2 hmem (h1 ▸ hbad)
    · exact hx .upperHex (by simp) p.2 hmem (h1 ▸ hbad))
  unfold flushOne
  rw [logBuf_record std body tail hlt]
  rw [show body.length + tail.length + 1 = body.length + tail.length - 6 + 7 by omega, hh]
  simp [Res.bind, logArgs, orErr, h2]

/-- **C43 (violated)** `{:x}` (or `{:X}`) with a `&[u8; 4]`, `&[u8; 6]` or `&[u8; 16]` compiles, and its
record is sent; but user space takes the value for an address, refuses to show it in hexadecimal, and
`flush` panics.  For every such value and every header. -/
theorem C43_hex_array_violated (std : Std) (h : Header)
    (ht : std.utf8 h.target = true) (hm : std.utf8 h.module = true)
    (hf : std.utf8 h.file = true) (hl : h.line < 2 ^ 32) (hint : Hint) (b : Bytes)
    (hbad : HexOfSpecialArray hint (.refArr b)) (utf8 : List Char → Bytes) :
    expand utf8 [.param hint] [.refArr b] = some [.hint hint, .arg (.refArr b)] ∧
    ∀ enabled reserve buf, logStatement enabled reserve h [.hint hint, .arg (.refArr b)] = .submitted buf →
      flushOne std buf = .panic := by
  have hh : hint = .lowerHex ∨ hint = .upperHex := by
    cases hint <;> simp [HexOfSpecialArray] at hbad ⊢
  have hb3 : b.length = 4 ∨ b.length = 6 ∨ b.length = 16 := by
    rcases hh with rfl | rfl <;> exact hbad
  refine ⟨by rcases hh with rfl | rfl <;> rfl, ?_⟩
  intro enabled reserve buf hsent
  obtain ⟨body, tail, hb, hlt, rfl⟩ := submitted_form hsent
  have hlen := fields_length hb
  have hrl : 6 ≤ (recordFields h [.hint hint, .arg (.refArr b)]).length := by simp [recordFields]
  obtain ⟨b6, f6, hloop⟩ := headerLoop_record std h [.hint hint, .arg (.refArr b)]
    (body.length + tail.length - 6) hb ht hm hf hl (by simp)
  simp only [List.map_cons, List.map_nil] at f6
  obtain ⟨b1, r1, f1, g1, rfl⟩ := fields_cons f6
  obtain ⟨b2, b3, f2, f3, rfl⟩ := fields_cons g1
  have hk : (arrKind b).toNat < 22 := argKind_lt (.arr b)
  have f2' : field (arrKind b) b = some b2 := f2
  have harg : argField std (some hint) (arrKind b).toNat b = .err := by
    rcases hb3 with h | h | h <;> rcases hh with rfl | rfl <;>
      simp [arrKind, h, argField, intOfKind, formatAddr, formatMac, formatIp, Res.bind]
  unfold flushOne
  rw [logBuf_record std body tail hlt]
  rw [show body.length + tail.length + 1 = body.length + tail.length - 6 + 7 by omega, hloop]
  simp only [Res.bind, logArgs, orErr, List.length_cons, List.length_nil]
  rw [argLoop, tryRead_field _ f1 (by decide)]
  simp only [Res.bind, argField, show (0 : UInt8).toNat = 0 from rfl, intOfKind, readHint_byte]
  rw [argLoop, tryRead_field _ f2' hk]
  simp only [Res.bind, harg]

/-- What the user sees of one statement. -/
def seen (items : List Item) : Option Shown :=
  match logStatement 5 (fun n => some (List.replicate n 0)) toyHeader items with
  | .submitted buf => some (flushOne toyStd buf)
  | .dropped => none

example : (parse "{:x}".toList = .ok [.param .lowerHex]) ∧
    seen [.hint .lowerHex, .arg (.refArr [1, 2, 3, 4])] = some .panic ∧
    -- a `&[u8]` of the same length is fine
    seen [.hint .lowerHex, .arg (.slice [1, 2, 3, 4])] =
      some (.logged ⟨[116], .info, [109], [102], 7, "01020304".toUTF8.toList⟩) := by decide +kernel

end Verif.Log
