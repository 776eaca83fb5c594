import Verif.Obj.Spec
/-!
# C24, C25, C26: code, helper calls, legacy map definitions
-/
set_option linter.unusedSimpArgs false
set_option linter.unusedVariables false
namespace Verif.Obj
open Verif.Bytes Verif.Bpf Spec

/-! ## C24 -/

theorem signed_mod (bits : Nat) (hb : 0 < bits) (n : Nat) (h : n < 2 ^ bits) :
    (signed bits n % 2 ^ bits).toNat = n := by
  have hp : (2 : Int) ^ bits = ((2 ^ bits : Nat) : Int) := by norm_cast
  unfold signed
  split
  · rw [hp, ← Int.natCast_emod, Nat.mod_eq_of_lt h]; rfl
  · rw [hp, Int.sub_emod_right, ← Int.natCast_emod, Nat.mod_eq_of_lt h]; rfl

theorem signed_bounds (bits : Nat) (hb : 0 < bits) (n : Nat) (h : n < 2 ^ bits) :
    -(2 ^ (bits - 1) : Int) ≤ signed bits n ∧ signed bits n < 2 ^ (bits - 1) := by
  have hp : (2 : Int) ^ bits = ((2 ^ bits : Nat) : Int) := by norm_cast
  have hq : (2 : Int) ^ (bits - 1) = ((2 ^ (bits - 1) : Nat) : Int) := by norm_cast
  have h2 : 2 ^ bits = 2 * 2 ^ (bits - 1) := by
    obtain ⟨k, rfl⟩ : ∃ k, bits = k + 1 := ⟨bits - 1, by omega⟩
    simp [Nat.pow_succ, Nat.mul_comm]
  unfold signed
  rw [hp, hq]
  split <;> omega

theorem signed_of_mod (bits : Nat) (hb : 0 < bits) (x : Int) (h1 : -(2 ^ (bits - 1) : Int) ≤ x)
    (h2 : x < 2 ^ (bits - 1)) : signed bits (x % 2 ^ bits).toNat = x := by
  have hp : (2 : Int) ^ bits = ((2 ^ bits : Nat) : Int) := by norm_cast
  have hq : (2 : Int) ^ (bits - 1) = ((2 ^ (bits - 1) : Nat) : Int) := by norm_cast
  have h3 : 2 ^ bits = 2 * 2 ^ (bits - 1) := by
    obtain ⟨k, rfl⟩ : ∃ k, bits = k + 1 := ⟨bits - 1, by omega⟩
    simp [Nat.pow_succ, Nat.mul_comm]
  rw [hq] at h1 h2
  unfold signed
  rw [hp]
  by_cases hx : 0 ≤ x
  · have : x % ((2 ^ bits : Nat) : Int) = x := Int.emod_eq_of_lt hx (by omega)
    rw [this]
    split <;> omega
  · have : x % ((2 ^ bits : Nat) : Int) = x + ((2 ^ bits : Nat) : Int) := by
      rw [← Int.add_emod_right]
      exact Int.emod_eq_of_lt (by omega) (by omega)
    rw [this]
    split <;> omega

theorem eight (d : List UInt8) (h : d.length = 8) : ∃ a b c e f g i j, d = [a, b, c, e, f, g, i, j] := by
  match d, h with
  | [a, b, c, e, f, g, i, j], _ => exact ⟨a, b, c, e, f, g, i, j, rfl⟩

theorem encode_decode (d : List UInt8) (h : d.length = 8) : encode (decodeInsn d) = d := by
  obtain ⟨a, b, c, e, f, g, i, j, rfl⟩ := eight d h
  have hc : ofLe [c, e] < 2 ^ 16 := by have := ofLe_lt [c, e]; simpa using this
  have hf : ofLe [f, g, i, j] < 2 ^ 32 := by have := ofLe_lt [f, g, i, j]; simpa using this
  have e1 : UInt8.ofNat a.toNat = a := by simp
  have e2 : b.toNat / 16 * 16 + b.toNat % 16 = b.toNat := by omega
  have e3 : le 2 (ofLe [c, e]) = [c, e] := le_ofLe [c, e]
  have e4 : le 4 (ofLe [f, g, i, j]) = [f, g, i, j] := le_ofLe [f, g, i, j]
  simp only [encode, decodeInsn, List.getD_cons_zero, List.getD_cons_succ, List.drop_succ_cons, List.drop_zero,
    List.take_succ_cons, List.take_zero]
  rw [e2, signed_mod 16 (by decide) _ hc, signed_mod 32 (by decide) _ hf, e3, e4]
  simp

theorem decode_wf (d : List UInt8) (h : d.length = 8) : (decodeInsn d).WF := by
  obtain ⟨a, b, c, e, f, g, i, j, rfl⟩ := eight d h
  have hc0 : ofLe [c, e] < 2 ^ 16 := by have := ofLe_lt [c, e]; simpa using this
  have hf0 : ofLe [f, g, i, j] < 2 ^ 32 := by have := ofLe_lt [f, g, i, j]; simpa using this
  have hc := signed_bounds 16 (by decide) _ hc0
  have hf := signed_bounds 32 (by decide) _ hf0
  have ha := a.toNat_lt
  have hb := b.toNat_lt
  refine ⟨by simpa [decodeInsn] using ha, by simp [decodeInsn]; omega, by simp [decodeInsn]; omega, ?_⟩
  exact ⟨hc.1, hc.2, hf.1, hf.2⟩

theorem encode_length (i : Insn) : (encode i).length = 8 := by simp [encode]

theorem decode_encode (i : Insn) (h : i.WF) : decodeInsn (encode i) = i := by
  obtain ⟨h1, h2, h3, h4, h5, h6, h7⟩ := h
  have hl2 := le_length 2 (i.off % 2 ^ 16).toNat
  have hl4 := le_length 4 (i.imm % 2 ^ 32).toNat
  have e1 : (UInt8.ofNat i.code).toNat = i.code := by simp [UInt8.toNat_ofNat']; omega
  have e2 : (UInt8.ofNat (i.src * 16 + i.dst)).toNat = i.src * 16 + i.dst := by
    simp [UInt8.toNat_ofNat']; omega
  have o1 : ((encode i).drop 2).take 2 = le 2 (i.off % 2 ^ 16).toNat := by
    simp [encode]
  have o2 : ((encode i).drop 4).take 4 = le 4 (i.imm % 2 ^ 32).toNat := by
    simp only [encode]
    rw [List.drop_append_of_le_length (by simp), List.drop_eq_nil_of_le (by simp)]
    rw [List.nil_append]
    exact List.take_of_length_le (by simp)
  have c0 : (encode i).getD 0 0 = UInt8.ofNat i.code := by simp [encode]
  have c1 : (encode i).getD 1 0 = UInt8.ofNat (i.src * 16 + i.dst) := by simp [encode]
  unfold decodeInsn
  rw [o1, o2, c0, c1, e1, e2, ofLe_le_of_lt _ _ (by omega), ofLe_le_of_lt _ _ (by omega),
    signed_of_mod 16 (by decide) _ h4 h5, signed_of_mod 32 (by decide) _ h6 h7]
  have : (i.src * 16 + i.dst) % 16 = i.dst := by omega
  have : (i.src * 16 + i.dst) / 16 = i.src := by omega
  simp [*]

theorem chunks_flatten (fuel : Nat) (d : List UInt8) (h : d.length % 8 = 0) (hf : d.length ≤ fuel) :
    ((chunksExact 8 fuel d).map decodeInsn).flatMap encode = d ∧
    ∀ i ∈ (chunksExact 8 fuel d).map decodeInsn, i.WF := by
  induction fuel generalizing d with
  | zero =>
    have : d = [] := List.length_eq_zero_iff.mp (by omega)
    subst this
    simp [chunksExact]
  | succ n ih =>
    unfold chunksExact
    split
    · have : d = [] := List.length_eq_zero_iff.mp (by omega)
      subst this
      simp
    · rename_i hlt
      obtain ⟨h1, h2⟩ := ih (d.drop 8) (by simp; omega) (by simp; omega)
      have h8 : (d.take 8).length = 8 := by simp; omega
      constructor
      · rw [List.map_cons, List.flatMap_cons, h1, encode_decode _ h8, List.take_append_drop]
      · intro i hi
        rw [List.map_cons, List.mem_cons] at hi
        rcases hi with rfl | hi
        · exact decode_wf _ h8
        · exact h2 i hi

/-- **C24.** A code section is accepted exactly when its size is a multiple of eight, and is then read as the
well-formed instructions whose encoding is the section. -/
theorem C24_decode (data : List UInt8) :
    (data.length % 8 ≠ 0 → copyInstructions data = .error .invalidProgramCode) ∧
    (data.length % 8 = 0 → ∃ is, copyInstructions data = .ok is ∧ encodeAll is = data ∧ ∀ i ∈ is, i.WF) := by
  constructor
  · intro h; simp [copyInstructions, h]
  · intro h
    refine ⟨(chunksExact 8 data.length data).map decodeInsn, ?_, chunks_flatten _ data h (Nat.le_refl _)⟩
    simp [copyInstructions, h]

example : copyInstructions [0xb7, 0x21, 0xfe, 0xff, 1, 0, 0, 0x80] = .ok [⟨0xb7, 1, 2, -2, -2147483647⟩] := by
  decide +kernel

theorem encodeAll_length (is : List Insn) : (encodeAll is).length = 8 * is.length := by
  induction is with
  | nil => rfl
  | cons i is ih =>
    simp only [encodeAll] at ih
    simp only [encodeAll, List.flatMap_cons, List.length_append, encode_length, List.length_cons, ih]; omega

theorem encode_append_inj (a b : Insn) (x y : List UInt8) (h : encode a ++ x = encode b ++ y) :
    encode a = encode b ∧ x = y :=
  List.append_inj h (by rw [encode_length, encode_length])

/-- Different instruction lists have different encodings. -/
theorem encodeAll_inj (is js : List Insn) (hi : ∀ i ∈ is, i.WF) (hj : ∀ j ∈ js, j.WF)
    (h : encodeAll is = encodeAll js) : is = js := by
  induction is generalizing js with
  | nil =>
    have := congrArg List.length h
    rw [encodeAll_length, encodeAll_length] at this
    simp only [List.length_nil] at this
    exact (List.length_eq_zero_iff.mp (by omega)).symm
  | cons i is ih =>
    cases js with
    | nil =>
      have := congrArg List.length h
      rw [encodeAll_length, encodeAll_length] at this
      simp at this
    | cons j js =>
      obtain ⟨h1, h2⟩ := encode_append_inj i j _ _ h
      have h3 : i = j := by
        rw [← decode_encode i (hi i (by simp)), ← decode_encode j (hj j (by simp)), h1]
      subst h3
      rw [ih js (fun x hx => hi x (by simp [hx])) (fun x hx => hj x (by simp [hx])) h2]

/-- **C24.** Reading back encoded instructions gives those instructions. -/
theorem C24_roundtrip (is : List Insn) (h : ∀ i ∈ is, i.WF) : copyInstructions (encodeAll is) = .ok is := by
  obtain ⟨js, h1, h2, h3⟩ := (C24_decode (encodeAll is)).2 (by rw [encodeAll_length]; omega)
  rw [h1, encodeAll_inj js is h3 h h2]

example : ∀ i ∈ ([⟨0x85, 0, 0, 0, 113⟩, ⟨0x95, 0, 0, 0, 0⟩] : List Insn), i.WF := by decide

/-! ## C25 -/

theorem helper_call_iff (i : Insn) (h : i.WF) : insnIsHelperCall i = true ↔ i.code = 0x85 ∧ i.src = 0 ∧ i.dst = 0 := by
  have key : ∀ c : Fin 256, (((c.val &&& 0x07) == 5 && (c.val &&& 0xF0) == 0x80 && (c.val &&& 0x08) == 0) = true) ↔
      c.val = 0x85 := by decide +kernel
  have := key ⟨i.code, h.1⟩
  simp only [insnIsHelperCall, Bool.and_eq_true] at this ⊢
  rw [this]
  simp [and_assoc]

theorem fallback_some (imm o : Int) : fallback imm = some o ↔ Downgrade imm o := by
  constructor
  · intro h
    unfold fallback at h
    split at h
    · rename_i hh
      simp only [Option.some.injEq] at h; subst h
      rcases hh with rfl | rfl
      · exact .kernel
      · exact .user
    · split at h
      · rename_i hh
        simp only [Option.some.injEq] at h; subst h
        rcases hh with rfl | rfl
        · exact .kernelStr
        · exact .userStr
      · simp at h
  · intro h
    cases h <;> decide

/-- The instruction `sanitize` turns `ins` into. -/
def sanitized (supported : Bool) (ins : Insn) : Insn :=
  if insnIsHelperCall ins then
    match fallback ins.imm with
    | some imm => if !supported then { ins with imm := imm } else ins
    | none => ins
  else ins

/-- Whether `ins` makes `sanitize` ask for the feature. -/
def asks (ins : Insn) : Bool := insnIsHelperCall ins && (fallback ins.imm).isSome

theorem sanitize_eq (supported : Bool) (l : Lazy) (is : List Insn) (hl : l.cell = none ∨ l.cell = some supported) :
    (sanitize supported l is).1 = is.map (sanitized supported) ∧
    ((sanitize supported l is).2.cell = none ∨ (sanitize supported l is).2.cell = some supported) ∧
    (sanitize supported l is).2 = if is.any asks then
      (if l.cell = none then ⟨some supported, l.runs + 1⟩ else l) else l := by
  induction is generalizing l with
  | nil => exact ⟨rfl, hl, rfl⟩
  | cons i is ih =>
    unfold sanitize
    by_cases hc : insnIsHelperCall i = true
    · cases hf : fallback i.imm with
      | none =>
        obtain ⟨h1, h2, h3⟩ := ih l hl
        simp only [hc, if_true, hf]
        refine ⟨by simp [h1, sanitized, hc, hf], h2, by rw [h3]; simp [asks, hc, hf]⟩
      | some imm =>
        rcases hl with hl | hl
        · obtain ⟨h1, h2, h3⟩ := ih ⟨some supported, l.runs + 1⟩ (.inr rfl)
          simp only [hc, if_true, hf, Lazy.force, hl]
          refine ⟨by simp [h1, sanitized, hc, hf], h2, by rw [h3]; simp [asks, hc, hf]⟩
        · obtain ⟨h1, h2, h3⟩ := ih l (.inr hl)
          simp only [hc, if_true, hf, Lazy.force, hl]
          refine ⟨by simp [h1, sanitized, hc, hf], h2, by rw [h3]; simp [asks, hc, hf, hl]⟩
    · obtain ⟨h1, h2, h3⟩ := ih l hl
      simp only [hc]
      refine ⟨by simp [h1, sanitized, hc], h2, ?_⟩
      simp only [Bool.false_eq_true, if_false]
      rw [h3]; simp [asks, hc]

theorem sanitizeFunctions_eq (supported : Bool) (l : Lazy) (fs : List (List Insn))
    (hl : l.cell = none ∨ l.cell = some supported) :
    (sanitizeFunctions supported l fs).1 = fs.map (List.map (sanitized supported)) ∧
    (sanitizeFunctions supported l fs).2 = if fs.any (·.any asks) then
      (if l.cell = none then ⟨some supported, l.runs + 1⟩ else l) else l := by
  induction fs generalizing l with
  | nil => exact ⟨rfl, rfl⟩
  | cons f fs ih =>
    obtain ⟨h1, h2, h3⟩ := sanitize_eq supported l f hl
    obtain ⟨g1, g2⟩ := ih _ h2
    simp only [sanitizeFunctions]
    refine ⟨by simp [h1, g1], ?_⟩
    rw [g2, h3]
    by_cases hf : f.any asks = true <;> by_cases hc : l.cell = none <;> simp [hf, hc]

/-- **C25.** On a kernel without the address-space-specific helpers every call of one becomes a call of the
helper it extends and nothing else about the instruction changes; all other instructions stay. -/
theorem C25_unsupported (fs : List (List Insn)) (hwf : ∀ f ∈ fs, ∀ i ∈ f, i.WF) :
    ∃ fs', (sanitizeFunctions false ⟨none, 0⟩ fs).1 = fs' ∧ fs'.length = fs.length ∧
      ∀ (k : Nat) (f f' : List Insn), fs[k]? = some f → fs'[k]? = some f' → f'.length = f.length ∧
        ∀ (j : Nat) (i i' : Insn), f[j]? = some i → f'[j]? = some i' →
          (∀ n o, Downgrade n o → CallsHelper i n → i' = { i with imm := o }) ∧ (¬ CallsNew i → i' = i) := by
  obtain ⟨h1, -⟩ := sanitizeFunctions_eq false ⟨none, 0⟩ fs (.inl rfl)
  refine ⟨_, h1, by simp, ?_⟩
  intro k f f' hk hk'
  simp only [List.getElem?_map, hk, Option.map_some, Option.some.injEq] at hk'
  subst hk'
  refine ⟨by simp, ?_⟩
  intro j i i' hj hj'
  simp only [List.getElem?_map, hj, Option.map_some, Option.some.injEq] at hj'
  subst hj'
  have hw : i.WF := hwf f (List.mem_of_getElem? hk) i (List.mem_of_getElem? hj)
  constructor
  · intro n o hd ⟨hcode, hsrc, hdst, himm⟩
    have hc := (helper_call_iff i hw).mpr ⟨hcode, hsrc, hdst⟩
    have hf := (fallback_some i.imm o).mpr (himm ▸ hd)
    simp [sanitized, hc, hf]
  · intro hn
    unfold sanitized
    split
    · rename_i hc
      split
      · rename_i o ho
        obtain ⟨a, b, c⟩ := (helper_call_iff i hw).mp hc
        exact absurd ⟨_, _, (fallback_some _ _).mp ho, a, b, c, rfl⟩ hn
      · rfl
    · rfl

example : (sanitizeFunctions false ⟨none, 0⟩ [[⟨0x85, 0, 0, 0, 113⟩, ⟨0x85, 0, 1, 0, 113⟩], [⟨0x85, 0, 0, 0, 114⟩]]) =
    ([[⟨0x85, 0, 0, 0, 4⟩, ⟨0x85, 0, 1, 0, 113⟩], [⟨0x85, 0, 0, 0, 45⟩]], ⟨some false, 1⟩) := by decide +kernel

/-- **C25.** On a kernel that has them nothing changes. -/
theorem C25_supported (fs : List (List Insn)) : (sanitizeFunctions true ⟨none, 0⟩ fs).1 = fs := by
  obtain ⟨h1, -⟩ := sanitizeFunctions_eq true ⟨none, 0⟩ fs (.inl rfl)
  rw [h1]
  have : sanitized true = id := by
    funext i
    unfold sanitized
    split
    · split <;> rfl
    · rfl
  simp [this]

/-- **C25.** The kernel is probed for the feature at most once, and only if some function calls one of these
helpers. -/
theorem C25_probed_once (supported : Bool) (fs : List (List Insn)) (hwf : ∀ f ∈ fs, ∀ i ∈ f, i.WF) :
    ((sanitizeFunctions supported ⟨none, 0⟩ fs).2.runs = 1 ↔ ∃ f ∈ fs, ∃ i ∈ f, CallsNew i) ∧
    ((sanitizeFunctions supported ⟨none, 0⟩ fs).2.runs = 0 ↔ ¬ ∃ f ∈ fs, ∃ i ∈ f, CallsNew i) := by
  obtain ⟨-, h⟩ := sanitizeFunctions_eq supported ⟨none, 0⟩ fs (.inl rfl)
  have key : (fs.any (·.any asks)) = true ↔ ∃ f ∈ fs, ∃ i ∈ f, CallsNew i := by
    simp only [List.any_eq_true]
    refine exists_congr fun f => and_congr_right fun hf => exists_congr fun i => and_congr_right fun hi => ?_
    have hw := hwf f hf i hi
    simp only [asks, Bool.and_eq_true, helper_call_iff i hw, Option.isSome_iff_exists, fallback_some]
    constructor
    · rintro ⟨⟨a, b, c⟩, o, ho⟩
      exact ⟨_, o, ho, a, b, c, rfl⟩
    · rintro ⟨n, o, ho, a, b, c, d⟩
      exact ⟨⟨a, b, c⟩, o, d ▸ ho⟩
  rw [h]
  by_cases hk : (fs.any (·.any asks)) = true
  · simp only [hk, if_true, true_and, key.mp hk]
    simp
  · have hk' := fun hh => hk (key.mpr hh)
    simp only [hk, if_false]
    exact ⟨by simpa using hk', by simpa using hk'⟩

/-! ## C26 -/

theorem u32At_cons (n : Nat) (h : n < 2 ^ 32) (rest : List UInt8) : u32At (le 4 n ++ rest) 0 = n := by
  have : ((le 4 n ++ rest).drop (4 * 0)).take 4 = le 4 n := by simp
  rw [u32At, this, ofLe_le_of_lt _ _ (by omega)]

theorem u32At_skip (n k : Nat) (rest : List UInt8) : u32At (le 4 n ++ rest) (k + 1) = u32At rest k := by
  unfold u32At
  have : (le 4 n ++ rest).drop (4 * (k + 1)) = rest.drop (4 * k) := by
    rw [Nat.mul_add, Nat.add_comm, ← List.drop_drop]
    simp
  rw [this]

theorem readMapDef_encode (d : MapDef) (h : DefWF d) (rest : List UInt8) : readMapDef (encodeDef d ++ rest) = .ok d := by
  obtain ⟨h1, h2, h3, h4, h5, h6, h7⟩ := h
  simp only [readMapDef, encodeDef, List.append_assoc]
  simp only [u32At_skip, u32At_cons, h1, h2, h3, h4, h5, h6, (by omega : d.pinning < 2 ^ 32), h7, if_true]

/-- **C26.** A definition with all seven fields, whatever follows it, is read as those fields. -/
theorem C26_full_partial (d : MapDef) (h : DefWF d) (trailing : List UInt8) :
    parseMapDef (encodeDef d ++ trailing) = .ok d := by
  have hl : (encodeDef d).length = 28 := by simp [encodeDef]
  have h1 : (encodeDef d ++ trailing).take 28 = encodeDef d := by rw [← hl]; simp
  have := readMapDef_encode d h []
  rw [List.append_nil] at this
  unfold parseMapDef
  rw [if_neg (by simp only [List.length_append, hl]; omega), if_neg (by simp only [List.length_append, hl]; omega), h1, this]

/-- **C26.** A definition with the first five fields and part of the rest (a prefix of the seven, at least 20
bytes) is read as those fields with the missing bytes zero. -/
theorem C26_short_partial (d : MapDef) (h : DefWF d) (n : Nat) (h1 : 20 ≤ n) (h2 : n ≤ 28)
    (hz : ∀ b ∈ (encodeDef d).drop n, b = 0) : parseMapDef ((encodeDef d).take n) = .ok d := by
  have hl : (encodeDef d).length = 28 := by simp [encodeDef]
  have hl' : ((encodeDef d).take n).length = n := by simp [hl]; omega
  have hpad : (encodeDef d).take n ++ List.replicate (28 - n) 0 = encodeDef d := by
    have : (encodeDef d).drop n = List.replicate (28 - n) 0 := by
      refine List.eq_replicate_iff.mpr ⟨by simp [hl], hz⟩
    rw [← this, List.take_append_drop]
  have hr := readMapDef_encode d h []
  rw [List.append_nil] at hr
  unfold parseMapDef
  rw [hl', if_neg (by omega)]
  by_cases hn : n < 28
  · rw [if_pos hn, hpad, hr]
  · have : n = 28 := by omega
    subst this
    have : ((encodeDef d).take 28).take 28 = encodeDef d := by rw [List.take_take]; rw [← hl]; simp
    rw [if_neg hn, this, hr]

/-- **C26.** The minimal definition: five fields, the optional ones zero. -/
theorem C26_minimal (d : MapDef) (h : DefWF d) : parseMapDef (encodeShort d) = .ok { d with id := 0, pinning := 0 } := by
  obtain ⟨h1, h2, h3, h4, h5, h6, h7⟩ := h
  have hs : (encodeShort d).length = 20 := by simp [encodeShort]
  have split : encodeDef { d with id := 0, pinning := 0 } = encodeShort d ++ (le 4 0 ++ le 4 0) := by
    simp [encodeDef, encodeShort]
  have := C26_short_partial { d with id := 0, pinning := 0 } ⟨h1, h2, h3, h4, h5, (by decide : 0 < 2 ^ 32), Nat.zero_le 1⟩ 20 (by decide) (by decide)
    (by
      have : (encodeDef { d with id := 0, pinning := 0 }).drop 20 = le 4 0 ++ le 4 0 := by
        rw [split, List.drop_append_of_le_length (by simp [hs]), List.drop_eq_nil_of_le (by simp [hs])]; rfl
      rw [this]
      decide)
  rw [← this, split, List.take_append_of_le_length (by simp [hs]), List.take_of_length_le (by simp [hs])]

/-- **C26.** Fewer than 20 bytes are rejected. -/
theorem C26_rejected (data : List UInt8) (h : data.length < 20) :
    parseMapDef data = .error (.err .invalidMapDefinition) := by
  simp [parseMapDef, h]

/-- A definition whose pinning field is neither 0 nor 1 is not rejected: the Rust field is an enum with those two
values only, and `ptr::read_unaligned` of any other value is undefined behaviour (aya-obj/src/obj.rs:1212-1222). -/
theorem C26_pinning_unchecked_violated :
    parseMapDef (le 4 1 ++ le 4 4 ++ le 4 4 ++ le 4 8 ++ le 4 0 ++ le 4 0 ++ le 4 2) = .error .undefinedBehaviour := by
  decide +kernel

example : DefWF ⟨1, 4, 8, 1024, 0, 0, 1⟩ := by unfold DefWF; decide
example : parseMapDef ([1, 0, 0, 0, 4, 0, 0, 0, 8, 0, 0, 0, 0, 4, 0, 0, 1, 0, 0, 0, 9]) = .ok ⟨1, 4, 8, 1024, 1, 9, 0⟩ := by
  decide +kernel

end Verif.Obj
