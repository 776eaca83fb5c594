import Verif.Shared.Array

set_option linter.unusedSimpArgs false
set_option linter.unusedVariables false

/-!
# C87: longest-prefix-match tries shared with programs
-/
namespace Verif.Shared
open Verif.Maps Verif.Bytes Verif.Shared.Spec

/-- Run one operation of the process (`/repo/aya/src/maps/lpm_trie.rs:118-155`) or of a program on the
    kernel's trie. -/
def trieShared (m : MapData) (width cap : Nat) (rs : Rules) : LpmOp → Rules × Res
  | .process (.get b d) =>
      let r := asProcess (trieStep m.fd width cap) (fun k h => hashGet k m (procLpmKey b d) 0 h) rs
      (r.2, ofGet r.1)
  | .process (.insert b d v flags) =>
      let r := asProcess (trieStep m.fd width cap) (fun k h => hashInsert k m (procLpmKey b d) v flags h) rs
      (r.2, ofSet r.1)
  | .process (.remove b d) =>
      let r := asProcess (trieStep m.fd width cap) (fun k h => hashRemove k m (procLpmKey b d) h) rs
      (r.2, ofSet r.1)
  | .program (.get b d) => (rs, ofOpt (lpmGet (trieHelpers m.fd width cap) b d rs))
  | .program (.insert b d v flags) =>
      let r := lpmInsert (trieHelpers m.fd width cap) b d v flags rs
      (r.2, ofErr r.1)
  | .program (.remove b d) =>
      let r := lpmRemove (trieHelpers m.fd width cap) b d rs
      (r.2, ofErr r.1)

/-- Run several. -/
def trieSharedAll (m : MapData) (width cap : Nat) : Rules → List LpmOp → Rules × List Res
  | rs, [] => (rs, [])
  | rs, op :: ops =>
      let r := trieShared m width cap rs op
      let x := trieSharedAll m width cap r.1 ops
      (x.1, r.2 :: x.2)

/-! ## Rules -/

theorem rules_lookup_some {p : List Bool} {v : Bytes} {rs : Rules} (h : rs.lookup p = some v) : (p, v) ∈ rs := by
  induction rs with
  | nil => simp at h
  | cons r rs ih =>
    obtain ⟨q, w⟩ := r
    by_cases hq : p = q
    · subst hq; simp [List.lookup] at h; simp [h]
    · have : (p == q) = false := by simpa using hq
      simp only [List.lookup, this] at h
      exact List.mem_cons_of_mem _ (ih h)

theorem rules_lookup_mem {r : List Bool × Bytes} {rs : Rules} (hn : (rs.map Prod.fst).Nodup) (h : r ∈ rs) :
    rs.lookup r.1 = some r.2 := by
  induction rs with
  | nil => simp at h
  | cons q rs ih =>
    obtain ⟨a, w⟩ := q
    simp only [List.map_cons, List.nodup_cons] at hn
    rcases List.mem_cons.mp h with rfl | h
    · simp [List.lookup]
    · have hne : r.1 ≠ a := by
        intro e; exact hn.1 (by rw [← e]; exact List.mem_map_of_mem h)
      have : (r.1 == a) = false := by simpa using hne
      simp only [List.lookup, this]
      exact ih hn.2 h

theorem rules_lookup_none {p : List Bool} {rs : Rules} (h : rs.lookup p = none) : p ∉ rs.map Prod.fst := by
  induction rs with
  | nil => simp
  | cons r rs ih =>
    obtain ⟨q, w⟩ := r
    by_cases hq : p = q
    · subst hq; simp [List.lookup] at h
    · have : (p == q) = false := by simpa using hq
      simp only [List.lookup, this] at h
      simp only [List.map_cons, List.mem_cons, not_or]
      exact ⟨hq, ih h⟩

theorem longest_some {bits : List Bool} {rs : Rules} {r : List Bool × Bytes} (h : longest bits rs = some r) :
    r ∈ rs ∧ r.1 <+: bits ∧ ∀ r' ∈ rs, r'.1 <+: bits → r'.1.length ≤ r.1.length := by
  induction rs generalizing r with
  | nil => simp [longest] at h
  | cons q rs ih =>
    cases hl : longest bits rs with
    | none =>
      have hnone : ∀ r' ∈ rs, ¬ r'.1 <+: bits := by
        clear ih h
        induction rs with
        | nil => simp
        | cons q' rs' ih' =>
          simp only [longest] at hl
          cases hl' : longest bits rs' with
          | none =>
            rw [hl'] at hl
            by_cases hp : q'.1 <+: bits
            · simp [hp] at hl
            · intro r' hr'
              rcases List.mem_cons.mp hr' with rfl | hr'
              · exact hp
              · exact ih' hl' r' hr'
          | some b => rw [hl'] at hl; simp only at hl; split at hl <;> simp at hl
      simp only [longest, hl] at h
      by_cases hp : q.1 <+: bits
      · rw [if_pos hp] at h
        cases h
        refine ⟨by simp, hp, fun r' hr' hpr => ?_⟩
        rcases List.mem_cons.mp hr' with rfl | hr'
        · exact Nat.le_refl _
        · exact absurd hpr (hnone r' hr')
      · rw [if_neg hp] at h; cases h
    | some b =>
      obtain ⟨h1, h2, h3⟩ := ih hl
      simp only [longest, hl] at h
      by_cases hp : q.1 <+: bits ∧ b.1.length < q.1.length
      · rw [if_pos hp] at h
        cases h
        refine ⟨by simp, hp.1, fun r' hr' hpr => ?_⟩
        rcases List.mem_cons.mp hr' with rfl | hr'
        · exact Nat.le_refl _
        · have := h3 r' hr' hpr; omega
      · rw [if_neg hp] at h
        cases h
        refine ⟨List.mem_cons_of_mem _ h1, h2, fun r' hr' hpr => ?_⟩
        rcases List.mem_cons.mp hr' with rfl | hr'
        · have : ¬ r.1.length < r'.1.length := fun hlt => hp ⟨hpr, hlt⟩
          omega
        · exact h3 r' hr' hpr

theorem longest_none {bits : List Bool} {rs : Rules} (h : longest bits rs = none) :
    ∀ r ∈ rs, ¬ r.1 <+: bits := by
  induction rs with
  | nil => simp
  | cons q rs ih =>
    simp only [longest] at h
    cases hl : longest bits rs with
    | none =>
      rw [hl] at h
      by_cases hp : q.1 <+: bits
      · simp [hp] at h
      · intro r hr
        rcases List.mem_cons.mp hr with rfl | hr
        · exact hp
        · exact ih hl r hr
    | some b => rw [hl] at h; simp only at h; split at h <;> simp at h

theorem findDown {f : Nat → Option Bytes} (N : Nat) {n : Nat} {v : Bytes} (hn : n < N) (hf : f n = some v)
    (hm : ∀ k, n < k → k < N → f k = none) : (List.range N).reverse.findSome? f = some v := by
  induction N with
  | zero => omega
  | succ N ih =>
    rw [List.range_succ, List.reverse_append]
    simp only [List.reverse_cons, List.reverse_nil, List.nil_append, List.singleton_append,
      List.findSome?_cons]
    by_cases hN : n = N
    · subst hN; rw [hf]
    · rw [hm N (by omega) (by omega)]
      exact ih (by omega) (fun k h1 h2 => hm k h1 (by omega))

/-- The kernel's rules are the table. -/
structure SameRules (rs : Rules) (t : Routes) : Prop where
  nodup : (rs.map Prod.fst).Nodup
  lookup : ∀ p, rs.lookup p = t.rule p
  count : rs.length = t.count

theorem longest_find {rs : Rules} {t : Routes} (h : SameRules rs t) (bits : List Bool) :
    (longest bits rs).map Prod.snd = t.find bits := by
  cases hl : longest bits rs with
  | none =>
    have hn := longest_none hl
    symm
    simp only [Option.map_none, Routes.find, List.findSome?_eq_none_iff]
    intro n _
    rw [← h.lookup]
    cases hc : rs.lookup (bits.take n) with
    | none => rfl
    | some v => exact absurd (List.take_prefix n bits) (hn _ (rules_lookup_some hc))
  | some r =>
    obtain ⟨h1, h2, h3⟩ := longest_some hl
    symm
    have hlen : r.1.length ≤ bits.length := h2.length_le
    have htake : bits.take r.1.length = r.1 := (List.prefix_iff_eq_take.mp h2).symm
    refine findDown (bits.length + 1) (n := r.1.length) (by omega) ?_ ?_
    · rw [htake, ← h.lookup, rules_lookup_mem h.nodup h1]
    · intro k hk1 hk2
      rw [← h.lookup]
      cases hc : rs.lookup (bits.take k) with
      | none => rfl
      | some v =>
        have := h3 _ (rules_lookup_some hc) (List.take_prefix k bits)
        simp only [List.length_take] at this
        omega

theorem sameRules_replace {rs : Rules} {t : Routes} (h : SameRules rs t) (p : List Bool) (v : Bytes)
    (hp : (rs.lookup p).isSome) :
    SameRules (rs.map fun r => if r.1 = p then (p, v) else r) (t.set p v) := by
  have hkeys : (rs.map fun r => if r.1 = p then (p, v) else r).map Prod.fst = rs.map Prod.fst := by
    rw [List.map_map]
    apply List.map_congr_left
    intro r _
    simp only [Function.comp]
    by_cases hr : r.1 = p
    · simp [hr]
    · simp [hr]
  refine { nodup := by rw [hkeys]; exact h.nodup, lookup := fun x => ?_, count := ?_ }
  · have hlook : ∀ (rs : Rules), (rs.map fun r => if r.1 = p then (p, v) else r).lookup x
        = if x = p then (rs.lookup p).map (fun _ => v) else rs.lookup x := by
      intro rs
      induction rs with
      | nil => simp
      | cons r rs ih =>
        obtain ⟨q, w⟩ := r
        by_cases hq : q = p
        · subst hq
          by_cases hx : x = q
          · subst hx; simp [List.lookup]
          · have : (x == q) = false := by simpa using hx
            simp only [List.map_cons, if_true, List.lookup, this, ih, if_neg hx]
        · by_cases hx : x = p
          · subst hx
            have : (x == q) = false := by simpa using fun e => hq (Eq.symm e)
            simp only [List.map_cons, if_neg hq, List.lookup, this, ih, if_true]
          · by_cases hxq : x = q
            · subst hxq; simp [List.lookup, hx]
            · have : (x == q) = false := by simpa using hxq
              simp only [List.map_cons, if_neg hq, List.lookup, this, ih, if_neg hx]
    rw [hlook, Routes.set]
    by_cases hx : x = p
    · obtain ⟨w, hw⟩ := Option.isSome_iff_exists.mp hp
      simp [hx, hw]
    · simp [hx, h.lookup]
  · simp [Routes.set, ← h.lookup, hp, h.count]

theorem sameRules_add {rs : Rules} {t : Routes} (h : SameRules rs t) (p : List Bool) (v : Bytes)
    (hp : rs.lookup p = none) : SameRules (rs ++ [(p, v)]) (t.set p v) := by
  have hnm := rules_lookup_none hp
  refine { nodup := ?_, lookup := fun x => ?_, count := ?_ }
  · rw [List.map_append]
    exact List.nodup_append.mpr ⟨h.nodup, by simp, by
      intro a ha b hb; simp at hb; subst hb; intro he; subst he; exact hnm ha⟩
  · rw [List.lookup_append, Routes.set]
    by_cases hx : x = p
    · subst hx; simp [hp, List.lookup]
    · have : (x == p) = false := by simpa using hx
      simp only [List.lookup, this, Option.or_none, h.lookup, if_neg hx]
  · simp [Routes.set, ← h.lookup, hp, h.count]

theorem sameRules_del {rs : Rules} {t : Routes} (h : SameRules rs t) (p : List Bool) (hp : (rs.lookup p).isSome) :
    SameRules (rs.filter fun r => r.1 ≠ p) (t.unset p) := by
  refine { nodup := h.nodup.sublist ((List.filter_sublist).map _), lookup := fun x => ?_, count := ?_ }
  · have hlook : ∀ (rs : Rules), (rs.filter fun r => r.1 ≠ p).lookup x = if x = p then none else rs.lookup x := by
      intro rs
      induction rs with
      | nil => simp
      | cons r rs ih =>
        obtain ⟨q, w⟩ := r
        by_cases hq : q = p
        · subst hq
          rw [List.filter_cons_of_neg (by simp), ih]
          by_cases hx : x = q
          · simp [hx]
          · have : (x == q) = false := by simpa using hx
            simp [List.lookup, hx, this]
        · rw [List.filter_cons_of_pos (by simpa using hq)]
          by_cases hx : x = q
          · subst hx; simp [List.lookup, hq]
          · have : (x == q) = false := by simpa using hx
            simp only [List.lookup, this, ih]
    rw [hlook, Routes.unset]
    simp only [h.lookup]
  · have hfl : ∀ (rs : Rules), (rs.map Prod.fst).Nodup → (rs.lookup p).isSome →
        (rs.filter fun r => r.1 ≠ p).length = rs.length - 1 := by
      intro rs
      induction rs with
      | nil => intro _ h; simp at h
      | cons r rs ih =>
        obtain ⟨q, w⟩ := r
        intro hn hs
        simp only [List.map_cons, List.nodup_cons] at hn
        by_cases hq : q = p
        · subst hq
          rw [List.filter_cons_of_neg (by simp)]
          have : rs.filter (fun r => r.1 ≠ q) = rs := by
            apply List.filter_eq_self.mpr
            intro x hx
            have : x.1 ≠ q := fun e => hn.1 (by rw [← e]; exact List.mem_map_of_mem hx)
            simpa using this
          rw [this]; simp
        · rw [List.filter_cons_of_pos (by simpa using hq)]
          have hx : (p == q) = false := by simpa using fun e => hq (Eq.symm e)
          simp only [List.lookup, hx] at hs
          have hpos : 0 < rs.length := by
            cases rs with
            | nil => simp at hs
            | cons => simp
          simp only [List.length_cons, ih hn.2 hs]
          omega
    rw [hfl rs h.nodup hp, h.count]; rfl

theorem key_bits (b : BitVec 32) (d : Bytes) : ofLe ((le 4 b.toNat ++ d).take 4) = b.toNat := by
  have : (le 4 b.toNat ++ d).take 4 = le 4 b.toNat := by
    rw [List.take_append_of_le_length (by simp [le_length]), List.take_of_length_le (by simp [le_length])]
  rw [this]
  exact ofLe_u32 b

theorem key_data (b : BitVec 32) (d : Bytes) : (le 4 b.toNat ++ d).drop 4 = d := by
  rw [List.drop_append_of_le_length (by simp [le_length]), List.drop_of_length_le (by simp [le_length])]
  rfl

theorem trie_get {rs : Rules} {t : Routes} (h : SameRules rs t) (fd width cap : Nat) (b : BitVec 32) (d : Bytes) :
    ∃ out, trieStep fd width cap rs (.lookup fd (some (le 4 b.toNat ++ d)) 0) = (rs, out) ∧
      (lpmOp width cap t (.get b d)).1 = t ∧
      ((∃ v, out = .ok { data := v } ∧ (lpmOp width cap t (.get b d)).2 = .value v) ∨
       (out = .error 2 ∧ (lpmOp width cap t (.get b d)).2 = .missing)) := by
  simp only [trieStep, key_bits, key_data, ne_eq, not_true_eq_false, if_false, lpmOp]
  by_cases hb : b.toNat > 8 * width
  · rw [if_pos hb, if_pos hb]; exact ⟨_, rfl, rfl, Or.inr ⟨rfl, rfl⟩⟩
  · rw [if_neg hb, if_neg hb]
    have hlf := longest_find h (prefixBits b.toNat d)
    cases hl : longest (prefixBits b.toNat d) rs with
    | none =>
      rw [hl] at hlf
      simp only [Option.map_none] at hlf
      rw [← hlf]
      exact ⟨_, rfl, rfl, Or.inr ⟨rfl, rfl⟩⟩
    | some r =>
      rw [hl] at hlf
      simp only [Option.map_some] at hlf
      rw [← hlf]
      exact ⟨_, rfl, rfl, Or.inl ⟨r.2, rfl, rfl⟩⟩

theorem trie_update {rs : Rules} {t : Routes} (h : SameRules rs t) (fd width cap : Nat) (b : BitVec 32) (d v : Bytes)
    (flags : Nat) :
    let r := trieStep fd width cap rs (.update fd (some (le 4 b.toNat ++ d)) v flags)
    let a := lpmOp width cap t (.insert b d v flags)
    SameRules r.1 a.1 ∧ ofSys r.2 = a.2 ∧ ∀ e, r.2 = .error e → 0 < e ∧ e ≤ 4095 := by
  simp only [trieStep, key_bits, key_data, ne_eq, not_true_eq_false, if_false, lpmOp]
  by_cases hf : flags > 2
  · simp only [hf, true_or, if_true]; exact ⟨h, rfl, by intro e he; cases he; omega⟩
  by_cases hb : b.toNat > 8 * width
  · simp only [hf, hb, or_true, if_true, if_false]; exact ⟨h, rfl, by intro e he; cases he; omega⟩
  simp only [hf, hb, or_self, if_false]
  have hlk := h.lookup (prefixBits b.toNat d)
  cases hc : t.rule (prefixBits b.toNat d) with
  | some w =>
    rw [hc] at hlk
    have hs : (rs.lookup (prefixBits b.toNat d)).isSome := by rw [hlk]; rfl
    simp only [hs, if_true]
    by_cases h1 : flags = 1
    · simp only [h1, if_true]; exact ⟨h, rfl, by intro e he; cases he; omega⟩
    · simp only [h1, if_false]; exact ⟨sameRules_replace h _ _ hs, rfl, by intro e he; cases he⟩
  | none =>
    rw [hc] at hlk
    simp only [hlk, Option.isSome_none, Bool.false_eq_true, if_false]
    by_cases h2 : flags = 2
    · simp only [h2, if_true]; exact ⟨h, rfl, by intro e he; cases he; omega⟩
    · by_cases hcap : cap ≤ t.count
      · simp only [h2, h.count, hcap, if_true, if_false]; exact ⟨h, rfl, by intro e he; cases he; omega⟩
      · simp only [h2, h.count, hcap, if_false]
        exact ⟨sameRules_add h _ _ hlk, rfl, by intro e he; cases he⟩

theorem trie_delete {rs : Rules} {t : Routes} (h : SameRules rs t) (fd width cap : Nat) (b : BitVec 32) (d : Bytes) :
    let r := trieStep fd width cap rs (.delete fd (le 4 b.toNat ++ d))
    let a := lpmOp width cap t (.remove b d)
    SameRules r.1 a.1 ∧ ofSys r.2 = a.2 ∧ ∀ e, r.2 = .error e → 0 < e ∧ e ≤ 4095 := by
  simp only [trieStep, key_bits, key_data, ne_eq, not_true_eq_false, if_false, lpmOp]
  by_cases hb : b.toNat > 8 * width
  · simp only [hb, if_true]; exact ⟨h, rfl, by intro e he; cases he; omega⟩
  simp only [hb, if_false]
  have hlk := h.lookup (prefixBits b.toNat d)
  cases hc : t.rule (prefixBits b.toNat d) with
  | some w =>
    rw [hc] at hlk
    have hs : (rs.lookup (prefixBits b.toNat d)).isSome := by rw [hlk]; rfl
    simp only [hs, if_true]
    exact ⟨sameRules_del h _ hs, rfl, by intro e he; cases he⟩
  | none =>
    rw [hc] at hlk
    simp only [hlk, Option.isSome_none, Bool.false_eq_true, if_false]
    exact ⟨h, rfl, by intro e he; cases he; omega⟩

theorem trieShared_same (m : MapData) (width cap : Nat) {rs : Rules} {t : Routes} (h : SameRules rs t)
    (op : LpmOp) :
    SameRules (trieShared m width cap rs op).1 (lpmOp width cap t op.act).1 ∧
      (trieShared m width cap rs op).2 = (lpmOp width cap t op.act).2 := by
  cases op with
  | process act =>
    cases act with
    | get b d =>
      obtain ⟨out, h1, h2, h3⟩ := trie_get h m.fd width cap b d
      simp only [LpmOp.act, h2]
      rcases h3 with ⟨v, rfl, h4⟩ | ⟨rfl, h4⟩
      · simp only [trieShared, asProcess, seenBy, hashGet, bpfLookup, sys, List.foldl_nil, procLpmKey, h1,
          List.nil_append, List.foldl_cons, ofGet, h4]
        exact ⟨h, trivial⟩
      · simp only [trieShared, asProcess, seenBy, hashGet, bpfLookup, sys, List.foldl_nil, procLpmKey, h1,
          List.nil_append, List.foldl_cons, ofGet, h4, ENOENT, if_true, ofMapErr]
        exact ⟨h, trivial⟩
    | insert b d v flags =>
      obtain ⟨h1, h2, h3⟩ := trie_update h m.fd width cap b d v flags
      have hr : trieShared m width cap rs (.process (.insert b d v flags))
          = ((trieStep m.fd width cap rs (.update m.fd (some (le 4 b.toNat ++ d)) v flags)).1,
             ofSys (trieStep m.fd width cap rs (.update m.fd (some (le 4 b.toNat ++ d)) v flags)).2) := by
        simp only [trieShared, asProcess, seenBy, hashInsert, bpfUpdate, sys, List.foldl_nil, procLpmKey]
        cases (trieStep m.fd width cap rs (.update m.fd (some (le 4 b.toNat ++ d)) v flags)).2 <;> rfl
      rw [hr]; exact ⟨h1, h2⟩
    | remove b d =>
      obtain ⟨h1, h2, h3⟩ := trie_delete h m.fd width cap b d
      have hr : trieShared m width cap rs (.process (.remove b d))
          = ((trieStep m.fd width cap rs (.delete m.fd (le 4 b.toNat ++ d))).1,
             ofSys (trieStep m.fd width cap rs (.delete m.fd (le 4 b.toNat ++ d))).2) := by
        simp only [trieShared, asProcess, seenBy, hashRemove, bpfDelete, sys, List.foldl_nil, procLpmKey]
        cases (trieStep m.fd width cap rs (.delete m.fd (le 4 b.toNat ++ d))).2 <;> rfl
      rw [hr]; exact ⟨h1, h2⟩
  | program act =>
    cases act with
    | get b d =>
      obtain ⟨out, h1, h2, h3⟩ := trie_get h m.fd width cap b d
      simp only [LpmOp.act, h2]
      rcases h3 with ⟨v, rfl, h4⟩ | ⟨rfl, h4⟩
      · simp only [trieShared, lpmGet, lookup, trieHelpers, progLpmKey, h1, ofOpt, h4]
        exact ⟨h, trivial⟩
      · simp only [trieShared, lpmGet, lookup, trieHelpers, progLpmKey, h1, ofOpt, h4]
        exact ⟨h, trivial⟩
    | insert b d v flags =>
      obtain ⟨h1, h2, h3⟩ := trie_update h m.fd width cap b d v flags
      obtain ⟨g1, g2⟩ := insert_eq (trieHelpers m.fd width cap) (progLpmKey b d) v flags rs _ _ rfl h3
      simp only [trieShared, lpmInsert, g1, g2, LpmOp.act]
      exact ⟨h1, h2⟩
    | remove b d =>
      obtain ⟨h1, h2, h3⟩ := trie_delete h m.fd width cap b d
      obtain ⟨g1, g2⟩ := remove_eq (trieHelpers m.fd width cap) (progLpmKey b d) rs _ _ rfl h3
      simp only [trieShared, lpmRemove, g1, g2, LpmOp.act]
      exact ⟨h1, h2⟩

/-- **C87 (tries).** A process and any number of programs use a longest-prefix-match trie, in any order.
    Every operation returns what it returns on one table with at most one rule per prefix: `get` answers
    with the rule of the longest prefix of the asked bits that has one, whichever side added it, and
    `insert` and `remove` concern the exact prefix, bits of the key data beyond its length being ignored. -/
theorem C87_trie (m : MapData) (width cap : Nat) (ops : List LpmOp) :
    (trieSharedAll m width cap [] ops).2
      = (lpmRun width cap { rule := fun _ => none, count := 0 } ops).2 := by
  have key : ∀ (ops : List LpmOp) (rs : Rules) (t : Routes), SameRules rs t →
      (trieSharedAll m width cap rs ops).2 = (lpmRun width cap t ops).2 := by
    intro ops
    induction ops with
    | nil => intro rs t h; rfl
    | cons op ops ih =>
      intro rs t h
      obtain ⟨h1, h2⟩ := trieShared_same m width cap h op
      simp only [trieSharedAll, lpmRun, h2, ih _ _ h1]
  exact key ops [] _ { nodup := by simp, lookup := by simp, count := rfl }

/- 10.0.0.0/8 and 10.1.0.0/16 set by the process; a program asks for 10.1.2.3, 10.2.0.0 and 11.0.0.0. -/
example :
    (trieSharedAll ⟨5, 8, 1, 4⟩ 4 4 []
      [.process (.insert 8 [10, 9, 9, 9] [1] 0), .process (.insert 16 [10, 1, 0, 0] [2] 0),
       .program (.get 32 [10, 1, 2, 3]), .program (.get 32 [10, 2, 0, 0]), .program (.get 32 [11, 0, 0, 0]),
       .program (.remove 16 [10, 1, 7, 7]), .process (.get 32 [10, 1, 2, 3]), .process (.get 7 [10, 1, 2, 3]),
       .program (.insert 33 [0, 0, 0, 0] [1] 0)]).2
    = [.done, .done, .value [2], .value [1], .missing, .done, .value [1], .missing, .failed 22] := by
  decide +kernel

end Verif.Shared
