import Verif.Btf.Spec
/-!
# Lemmas about reading and writing BTF records
-/
set_option linter.unusedSimpArgs false
set_option linter.unusedVariables false
namespace Verif.Btf
open Verif.Bytes Verif.Btf.Spec

theorem infoSize_eq (t : BtfType) : t.infoSize = recordSize t := by
  cases t <;> simp [BtfType.infoSize, recordSize, Nat.mul_comm]

theorem word_zero (a : Nat) (r : List UInt8) (h : U32 a) : word (le 4 a ++ r) 0 = a := by
  have : ((le 4 a ++ r).drop (4 * 0)).take 4 = le 4 a := by simp
  rw [word, this]; exact ofLe_le_of_lt 4 a h

theorem word_zero' (a : Nat) (h : U32 a) : word (le 4 a) 0 = a := by
  have := word_zero a [] h
  rwa [List.append_nil] at this

theorem word_succ (a : Nat) (r : List UInt8) (k : Nat) : word (le 4 a ++ r) (k + 1) = word r k := by
  unfold word
  have : (le 4 a ++ r).drop (4 * (k + 1)) = r.drop (4 * k) := by
    rw [List.drop_append]
    have h1 : (le 4 a).drop (4 * (k + 1)) = [] := by
      apply List.drop_eq_nil_of_le; simp; omega
    rw [h1, le_length]
    have h2 : 4 * (k + 1) - 4 = 4 * k := by omega
    rw [h2]; simp
  rw [this]

theorem word_lt (d : List UInt8) (k : Nat) : U32 (word d k) := by
  unfold word U32
  have h1 := ofLe_lt ((d.drop (4 * k)).take 4)
  have h2 : ((d.drop (4 * k)).take 4).length ≤ 4 := by simp; omega
  have h3 : (256 : Nat) ^ ((d.drop (4 * k)).take 4).length ≤ 256 ^ 4 := Nat.pow_le_pow_right (by omega) h2
  omega

theorem head_read (n i x : Nat) (d : List UInt8) (hn : U32 n) (hi : U32 i) (hx : U32 x) :
    BtfType.read (head n i x ++ d) = BtfType.readBody n i x d := by
  have hl : (head n i x).length = 12 := by simp [head]
  unfold BtfType.read
  rw [if_neg (by simp [hl])]
  have h0 : word (head n i x ++ d) 0 = n := by
    unfold head; rw [List.append_assoc, List.append_assoc]; exact word_zero n _ hn
  have h1 : word (head n i x ++ d) 1 = i := by
    unfold head; rw [List.append_assoc, List.append_assoc, word_succ]; exact word_zero i _ hi
  have h2 : word (head n i x ++ d) 2 = x := by
    unfold head; rw [List.append_assoc, List.append_assoc, word_succ, word_succ]; exact word_zero x _ hx
  have h3 : (head n i x ++ d).drop 12 = d := by rw [← hl]; simp
  rw [h0, h1, h2, h3]

theorem readRows_flatMap {α : Type} (w : Nat) (f : α → List UInt8) (hf : ∀ a, (f a).length = 4 * w) (l : List α)
    (rest : List UInt8) : readRows w l.length (l.flatMap f ++ rest) = l.map f := by
  induction l with
  | nil => rfl
  | cons a l ih =>
    have h : (a :: l).flatMap f ++ rest = f a ++ (l.flatMap f ++ rest) := by simp
    rw [h]
    simp only [List.length_cons, readRows, List.map_cons]
    rw [List.take_left' (hf a), List.drop_left' (hf a), ih]

theorem flatMap_length {α : Type} (n : Nat) (f : α → List UInt8) (hf : ∀ a, (f a).length = n) (l : List α) :
    (l.flatMap f).length = l.length * n := by
  induction l with
  | nil => simp
  | cons a l ih => simp [hf, ih, Nat.add_mul]; omega

theorem readArray_flatMap {α : Type} (w : Nat) (f : α → List UInt8) (hf : ∀ a, (f a).length = 4 * w) (l : List α)
    (rest : List UInt8) (n : Nat) (hn : n = l.length) : readArray w n (l.flatMap f ++ rest) = .ok (l.map f) := by
  subst hn
  unfold readArray
  rw [if_neg, readRows_flatMap w f hf]
  rw [List.length_append, flatMap_length (4 * w) f hf, Nat.mul_comm (4 * w)]
  omega

theorem map_map_id {α : Type} (f : α → List UInt8) (g : List UInt8 → α) (l : List α) (h : ∀ a ∈ l, g (f a) = a) :
    (l.map f).map g = l := by
  rw [List.map_map]
  conv => rhs; rw [← List.map_id l]
  exact List.map_congr_left (by simpa using h)

/-- Two-word rows. -/
theorem row2 (a b : Nat) (ha : U32 a) (hb : U32 b) :
    word (le 4 a ++ le 4 b) 0 = a ∧ word (le 4 a ++ le 4 b) 1 = b := by
  refine ⟨word_zero a _ ha, ?_⟩
  rw [word_succ]; exact word_zero' b hb

/-- Three-word rows. -/
theorem row3 (a b c : Nat) (r : List UInt8) (ha : U32 a) (hb : U32 b) (hc : U32 c) :
    word (le 4 a ++ le 4 b ++ le 4 c ++ r) 0 = a ∧ word (le 4 a ++ le 4 b ++ le 4 c ++ r) 1 = b ∧
    word (le 4 a ++ le 4 b ++ le 4 c ++ r) 2 = c := by
  rw [List.append_assoc, List.append_assoc]
  refine ⟨word_zero a _ ha, ?_, ?_⟩
  · rw [word_succ]; exact word_zero b _ hb
  · rw [word_succ, word_succ]; exact word_zero c _ hc

theorem row3' (a b c : Nat) (ha : U32 a) (hb : U32 b) (hc : U32 c) :
    word (le 4 a ++ le 4 b ++ le 4 c) 0 = a ∧ word (le 4 a ++ le 4 b ++ le 4 c) 1 = b ∧
    word (le 4 a ++ le 4 b ++ le 4 c) 2 = c := by
  have := row3 a b c [] ha hb hc
  rwa [List.append_nil] at this

/-- Reading back a written record, whatever follows it. -/
theorem read_toBytes (t : BtfType) (h : Coherent t) (rest : List UInt8) :
    BtfType.read (t.toBytes ++ rest) = .ok (wire t) := by
  cases t with
  | unknown => exact h.elim
  | fwd n i =>
    obtain ⟨hn, hi, hk⟩ := h
    rw [BtfType.toBytes, head_read n i 0 rest hn hi (by unfold U32; omega)]
    unfold BtfType.readBody infoKind; unfold Announces at hk; rw [hk]; rfl
  | ref k n i t =>
    obtain ⟨hn, hi, ht, hk⟩ := h
    rw [BtfType.toBytes, head_read n i t rest hn hi ht]
    unfold BtfType.readBody infoKind; unfold Announces at hk; rw [hk]; cases k <;> rfl
  | int n i s d =>
    obtain ⟨hn, hi, hs, hd, hk⟩ := h
    rw [BtfType.toBytes, List.append_assoc, head_read n i s _ hn hi hs]
    unfold BtfType.readBody infoKind; unfold Announces at hk; rw [hk]
    simp only [word_zero d rest hd]
    rw [if_neg (by simp)]; rfl
  | float n i s =>
    obtain ⟨hn, hi, hs, hk⟩ := h
    rw [BtfType.toBytes, head_read n i s rest hn hi hs]
    unfold BtfType.readBody infoKind; unfold Announces at hk; rw [hk]; rfl
  | enum n i s vs =>
    obtain ⟨hn, hi, hs, hk, hc, hv⟩ := h
    rw [BtfType.toBytes, List.append_assoc, head_read n i s _ hn hi hs]
    unfold BtfType.readBody infoKind; unfold Announces at hk; rw [hk]
    simp only
    rw [readArray_flatMap 2 _ (by intro a; simp) vs rest (vlen i) hc]
    simp only
    rw [map_map_id _ _ vs (fun v hvm => by
      obtain ⟨h1, h2⟩ := row2 v.name v.value (hv v hvm).1 (hv v hvm).2
      rw [h1, h2])]
    rfl
  | enum64 n i s vs =>
    obtain ⟨hn, hi, hs, hk, hc, hv⟩ := h
    rw [BtfType.toBytes, List.append_assoc, head_read n i s _ hn hi hs]
    unfold BtfType.readBody infoKind; unfold Announces at hk; rw [hk]
    simp only
    rw [readArray_flatMap 3 _ (by intro a; simp) vs rest (vlen i) hc]
    simp only
    rw [map_map_id _ _ vs (fun v hvm => by
      obtain ⟨h1, h2, h3⟩ := row3' v.name v.low v.high (hv v hvm).1 (hv v hvm).2.1 (hv v hvm).2.2
      rw [h1, h2, h3])]
    rfl
  | array n i e x l =>
    obtain ⟨hn, hi, he, hx, hl, hk⟩ := h
    rw [BtfType.toBytes, List.append_assoc, head_read n i 0 _ hn hi (by unfold U32; omega)]
    unfold BtfType.readBody infoKind; unfold Announces at hk; rw [hk]
    obtain ⟨h1, h2, h3⟩ := row3 e x l rest he hx hl
    simp only [h1, h2, h3]
    rw [if_neg (by simp; omega)]; rfl
  | struct n i s ms =>
    obtain ⟨hn, hi, hs, hk, hc, hv⟩ := h
    rw [BtfType.toBytes, List.append_assoc, head_read n i s _ hn hi hs]
    unfold BtfType.readBody infoKind; unfold Announces at hk; rw [hk]
    simp only
    rw [readArray_flatMap 3 _ (by intro a; simp) ms rest (vlen i) hc]
    simp only
    rw [map_map_id _ _ ms (fun v hvm => by
      obtain ⟨h1, h2, h3⟩ := row3' v.name v.ty v.offset (hv v hvm).1 (hv v hvm).2.1 (hv v hvm).2.2
      rw [h1, h2, h3])]
    rfl
  | union n i s ms f =>
    obtain ⟨hn, hi, hs, hk, hc, hv⟩ := h
    rw [BtfType.toBytes, List.append_assoc, head_read n i s _ hn hi hs]
    unfold BtfType.readBody infoKind; unfold Announces at hk; rw [hk]
    simp only
    rw [readArray_flatMap 3 _ (by intro a; simp) ms rest (vlen i) hc]
    simp only
    rw [map_map_id _ _ ms (fun v hvm => by
      obtain ⟨h1, h2, h3⟩ := row3' v.name v.ty v.offset (hv v hvm).1 (hv v hvm).2.1 (hv v hvm).2.2
      rw [h1, h2, h3])]
    rfl
  | funcProto n i r ps =>
    obtain ⟨hn, hi, hs, hk, hc, hv⟩ := h
    rw [BtfType.toBytes, List.append_assoc, head_read n i r _ hn hi hs]
    unfold BtfType.readBody infoKind; unfold Announces at hk; rw [hk]
    simp only
    rw [readArray_flatMap 2 _ (by intro a; simp) ps rest (vlen i) hc]
    simp only
    rw [map_map_id _ _ ps (fun v hvm => by
      obtain ⟨h1, h2⟩ := row2 v.name v.ty (hv v hvm).1 (hv v hvm).2
      rw [h1, h2])]
    rfl
  | var n i t l =>
    obtain ⟨hn, hi, hs, hl, hk⟩ := h
    have hd : U32 l := by unfold U32; omega
    rw [BtfType.toBytes, List.append_assoc, head_read n i t _ hn hi hs]
    unfold BtfType.readBody infoKind; unfold Announces at hk; rw [hk]
    simp only [word_zero l rest hd]
    rw [if_neg (by simp), if_neg (by omega)]; rfl
  | dataSec n i s es =>
    obtain ⟨hn, hi, hs, hk, hc, hv⟩ := h
    rw [BtfType.toBytes, List.append_assoc, head_read n i s _ hn hi hs]
    unfold BtfType.readBody infoKind; unfold Announces at hk; rw [hk]
    simp only
    rw [readArray_flatMap 3 _ (by intro a; simp) es rest (vlen i) hc]
    simp only
    rw [map_map_id _ _ es (fun v hvm => by
      obtain ⟨h1, h2, h3⟩ := row3' v.ty v.offset v.size (hv v hvm).1 (hv v hvm).2.1 (hv v hvm).2.2
      rw [h1, h2, h3])]
    rfl
  | declTag n i t c =>
    obtain ⟨hn, hi, hs, hd, hk⟩ := h
    rw [BtfType.toBytes, List.append_assoc, head_read n i t _ hn hi hs]
    unfold BtfType.readBody infoKind; unfold Announces at hk; rw [hk]
    simp only [word_zero c rest hd]
    rw [if_neg (by simp)]; rfl

theorem toBytes_length (t : BtfType) (h : t ≠ .unknown) : t.toBytes.length = t.infoSize := by
  have hh : ∀ a b c : Nat, (head a b c).length = 12 := by intro a b c; simp [head]
  cases t with
  | unknown => exact absurd rfl h
  | enum n i s vs => 
    simp only [BtfType.toBytes, BtfType.infoSize, List.length_append, hh]
    rw [flatMap_length 8 _ (by intro a; simp)]; omega
  | enum64 n i s vs =>
    simp only [BtfType.toBytes, BtfType.infoSize, List.length_append, hh]
    rw [flatMap_length 12 _ (by intro a; simp)]; omega
  | struct n i s vs =>
    simp only [BtfType.toBytes, BtfType.infoSize, List.length_append, hh]
    rw [flatMap_length 12 _ (by intro a; simp)]; omega
  | union n i s vs f =>
    simp only [BtfType.toBytes, BtfType.infoSize, List.length_append, hh]
    rw [flatMap_length 12 _ (by intro a; simp)]; omega
  | funcProto n i s vs =>
    simp only [BtfType.toBytes, BtfType.infoSize, List.length_append, hh]
    rw [flatMap_length 8 _ (by intro a; simp)]; omega
  | dataSec n i s vs =>
    simp only [BtfType.toBytes, BtfType.infoSize, List.length_append, hh]
    rw [flatMap_length 12 _ (by intro a; simp)]; omega
  | _ => simp [BtfType.toBytes, BtfType.infoSize, hh]

theorem coherent_ne {t : BtfType} (h : Coherent t) : t ≠ .unknown := by
  intro e; subst e; exact h

theorem wire_infoSize (t : BtfType) : (wire t).infoSize = t.infoSize := by
  cases t <;> rfl

theorem infoSize_pos (t : BtfType) : 12 ≤ t.infoSize := by
  cases t <;> simp [BtfType.infoSize] <;> omega

theorem types_length (ts : List BtfType) (h : ∀ t ∈ ts, Coherent t) :
    (ts.flatMap BtfType.toBytes).length = (ts.map recordSize).sum := by
  induction ts with
  | nil => rfl
  | cons t ts ih =>
    have h1 := toBytes_length t (coherent_ne (h t (by simp)))
    have h2 := ih (fun t ht => h t (by simp [ht]))
    rw [infoSize_eq] at h1
    simp only [List.flatMap_cons, List.length_append, List.map_cons, List.sum_cons, h1, h2]

theorem readTypes_toBytes (ts : List BtfType) (h : ∀ t ∈ ts, Coherent t) (fuel : Nat)
    (hf : (ts.flatMap BtfType.toBytes).length ≤ fuel) :
    readTypes fuel (ts.flatMap BtfType.toBytes) = .ok (ts.map wire) := by
  induction ts generalizing fuel with
  | nil => cases fuel <;> rfl
  | cons t ts ih =>
    have hc := h t (by simp)
    have hl := toBytes_length t (coherent_ne hc)
    have hp := infoSize_pos t
    rw [List.flatMap_cons] at hf ⊢
    rw [List.length_append] at hf
    cases fuel with
    | zero => omega
    | succ fuel =>
      rw [readTypes]
      rw [if_neg (by
        intro he
        rw [List.isEmpty_iff] at he
        have := congrArg List.length he
        simp only [List.length_append, List.length_nil] at this; omega)]
      rw [read_toBytes t hc]
      simp only [wire_infoSize]
      rw [if_neg (by rw [List.length_append]; omega)]
      rw [← hl, List.drop_left, ih (fun t ht => h t (by simp [ht])) fuel (by omega)]
      rfl

/-! ## What is read is coherent -/

theorem readRows_length (w n : Nat) (d : List UInt8) : (readRows w n d).length = n := by
  induction n generalizing d with
  | zero => rfl
  | succ n ih => simp [readRows, ih]

theorem readArray_ok {w n : Nat} {d : List UInt8} {rows : List (List UInt8)} (h : readArray w n d = .ok rows) :
    rows.length = n ∧ 4 * w * n ≤ d.length := by
  unfold readArray at h
  split at h
  · cases h
  · cases h; exact ⟨readRows_length w n d, by omega⟩

theorem readBody_ok {n i x : Nat} {d : List UInt8} {t : BtfType} (hn : U32 n) (hi : U32 i) (hx : U32 x)
    (h : BtfType.readBody n i x d = .ok t) :
    (t = .unknown ∨ Coherent t) ∧ wire t = t ∧ t.infoSize ≤ 12 + d.length := by
  unfold BtfType.readBody at h
  have rows : ∀ {α : Type} (g : List UInt8 → α) (rs : List (List UInt8)) (P : α → Prop) (hp : ∀ r, P (g r)),
      ∀ a ∈ rs.map g, P a := by
    intro α g rs P hp a ha
    obtain ⟨r, _, rfl⟩ := List.mem_map.mp ha
    exact hp r
  split at h
  case h_1 => cases h; exact ⟨.inl rfl, rfl, by simp [BtfType.infoSize]⟩
  case h_2 hk => cases h; exact ⟨.inr ⟨hn, hi, hk⟩, rfl, by simp [BtfType.infoSize]⟩
  case h_3 hk => cases h; exact ⟨.inr ⟨hn, hi, hx, hk⟩, rfl, by simp [BtfType.infoSize]⟩
  case h_4 hk => cases h; exact ⟨.inr ⟨hn, hi, hx, hk⟩, rfl, by simp [BtfType.infoSize]⟩
  case h_5 hk => cases h; exact ⟨.inr ⟨hn, hi, hx, hk⟩, rfl, by simp [BtfType.infoSize]⟩
  case h_6 hk => cases h; exact ⟨.inr ⟨hn, hi, hx, hk⟩, rfl, by simp [BtfType.infoSize]⟩
  case h_7 hk => cases h; exact ⟨.inr ⟨hn, hi, hx, hk⟩, rfl, by simp [BtfType.infoSize]⟩
  case h_8 hk => cases h; exact ⟨.inr ⟨hn, hi, hx, hk⟩, rfl, by simp [BtfType.infoSize]⟩
  case h_9 hk => cases h; exact ⟨.inr ⟨hn, hi, hx, hk⟩, rfl, by simp [BtfType.infoSize]⟩
  case h_10 hk =>
    split at h
    · cases h
    · cases h; exact ⟨.inr ⟨hn, hi, hx, word_lt _ _, hk⟩, rfl, by simp [BtfType.infoSize]; omega⟩
  case h_11 hk => cases h; exact ⟨.inr ⟨hn, hi, hx, hk⟩, rfl, by simp [BtfType.infoSize]⟩
  case h_12 hk =>
    split at h
    · cases h
    · rename_i rs hr
      obtain ⟨hl, hb⟩ := readArray_ok hr
      cases h
      exact ⟨.inr ⟨hn, hi, hx, hk, by rw [List.length_map]; exact hl.symm, rows _ rs _ (fun r => ⟨word_lt _ _, word_lt _ _⟩)⟩,
        rfl, by simp only [BtfType.infoSize, List.length_map, hl]; omega⟩
  case h_13 hk =>
    split at h
    · cases h
    · rename_i rs hr
      obtain ⟨hl, hb⟩ := readArray_ok hr
      cases h
      exact ⟨.inr ⟨hn, hi, hx, hk, by rw [List.length_map]; exact hl.symm, rows _ rs _ (fun r => ⟨word_lt _ _, word_lt _ _, word_lt _ _⟩)⟩,
        rfl, by simp only [BtfType.infoSize, List.length_map, hl]; omega⟩
  case h_14 hk =>
    split at h
    · cases h
    · cases h; exact ⟨.inr ⟨hn, hi, word_lt _ _, word_lt _ _, word_lt _ _, hk⟩, rfl, by simp [BtfType.infoSize]; omega⟩
  case h_15 hk =>
    split at h
    · cases h
    · rename_i rs hr
      obtain ⟨hl, hb⟩ := readArray_ok hr
      cases h
      exact ⟨.inr ⟨hn, hi, hx, hk, by rw [List.length_map]; exact hl.symm, rows _ rs _ (fun r => ⟨word_lt _ _, word_lt _ _, word_lt _ _⟩)⟩,
        rfl, by simp only [BtfType.infoSize, List.length_map, hl]; omega⟩
  case h_16 hk =>
    split at h
    · cases h
    · rename_i rs hr
      obtain ⟨hl, hb⟩ := readArray_ok hr
      cases h
      exact ⟨.inr ⟨hn, hi, hx, hk, by rw [List.length_map]; exact hl.symm, rows _ rs _ (fun r => ⟨word_lt _ _, word_lt _ _, word_lt _ _⟩)⟩,
        rfl, by simp only [BtfType.infoSize, List.length_map, hl]; omega⟩
  case h_17 hk =>
    split at h
    · cases h
    · rename_i rs hr
      obtain ⟨hl, hb⟩ := readArray_ok hr
      cases h
      exact ⟨.inr ⟨hn, hi, hx, hk, by rw [List.length_map]; exact hl.symm, rows _ rs _ (fun r => ⟨word_lt _ _, word_lt _ _⟩)⟩,
        rfl, by simp only [BtfType.infoSize, List.length_map, hl]; omega⟩
  case h_18 hk =>
    split at h
    · cases h
    · split at h
      · cases h
      · cases h; exact ⟨.inr ⟨hn, hi, hx, by omega, hk⟩, rfl, by simp [BtfType.infoSize]; omega⟩
  case h_19 hk =>
    split at h
    · cases h
    · rename_i rs hr
      obtain ⟨hl, hb⟩ := readArray_ok hr
      cases h
      exact ⟨.inr ⟨hn, hi, hx, hk, by rw [List.length_map]; exact hl.symm, rows _ rs _ (fun r => ⟨word_lt _ _, word_lt _ _, word_lt _ _⟩)⟩,
        rfl, by simp only [BtfType.infoSize, List.length_map, hl]; omega⟩
  case h_20 hk =>
    split at h
    · cases h
    · cases h; exact ⟨.inr ⟨hn, hi, hx, word_lt _ _, hk⟩, rfl, by simp [BtfType.infoSize]; omega⟩
  case h_21 => cases h

theorem read_ok {d : List UInt8} {t : BtfType} (h : BtfType.read d = .ok t) :
    (t = .unknown ∨ Coherent t) ∧ wire t = t ∧ t.infoSize ≤ d.length := by
  unfold BtfType.read at h
  split at h
  · cases h
  · obtain ⟨h1, h2, h3⟩ := readBody_ok (word_lt _ _) (word_lt _ _) (word_lt _ _) h
    refine ⟨h1, h2, ?_⟩
    simp at h3; omega

theorem readTypes_ok {fuel : Nat} {d : List UInt8} {ts : List BtfType} (hf : d.length ≤ fuel)
    (h : readTypes fuel d = .ok ts) :
    (∀ t ∈ ts, (t = .unknown ∨ Coherent t) ∧ wire t = t) ∧ (ts.map recordSize).sum = d.length := by
  induction fuel generalizing d ts with
  | zero =>
    cases h
    exact ⟨by simp, by simp; omega⟩
  | succ fuel ih =>
    rw [readTypes] at h
    split at h
    · rename_i he
      cases h
      rw [List.isEmpty_iff] at he
      subst he
      exact ⟨by simp, rfl⟩
    · split at h
      · cases h
      · rename_i t ht
        obtain ⟨h1, h2, h3⟩ := read_ok ht
        rw [if_neg (by omega)] at h
        split at h
        · cases h
        · rename_i ts' hts
          cases h
          have hp := infoSize_pos t
          obtain ⟨h4, h5⟩ := ih (by simp; omega) hts
          refine ⟨?_, ?_⟩
          · intro t' ht'
            rcases List.mem_cons.mp ht' with rfl | ht'
            · exact ⟨h1, h2⟩
            · exact h4 t' ht'
          · simp only [List.map_cons, List.sum_cons, h5, ← infoSize_eq]
            simp; omega

end Verif.Btf
