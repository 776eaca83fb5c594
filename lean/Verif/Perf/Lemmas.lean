import Verif.Perf.Spec
set_option linter.unusedSimpArgs false
set_option linter.unusedVariables false
namespace Verif.Perf
open Verif.Bytes Verif.Perf.Spec

theorem peek_ok (mem : Nat → UInt8) (size pos : Nat) (bs : List UInt8)
    (h : RingAt mem size pos bs) (hfit : pos % size + bs.length ≤ size) :
    peek mem size (pos % size) bs.length = some bs := by
  simp only [peek, if_pos hfit, Option.some.injEq]
  apply List.ext_getElem
  · simp
  · intro i h1 h2
    simp only [List.getElem_map, List.getElem_range]
    rw [← h i h2]
    congr 1
    have e1 : (pos + i) % size = (pos % size + i) % size := by rw [Nat.mod_add_mod]
    have e2 : (pos % size + i) % size = pos % size + i := Nat.mod_eq_of_lt (by omega)
    omega

theorem Spec.RingAt.append {mem : Nat → UInt8} {size pos : Nat} {a b : List UInt8} :
    RingAt mem size pos (a ++ b) ↔ RingAt mem size pos a ∧ RingAt mem size (pos + a.length) b := by
  constructor
  · intro h
    refine ⟨?_, ?_⟩
    · intro i hi
      have := h i (by simp; omega)
      rwa [List.getElem_append_left hi] at this
    · intro i hi
      have := h (a.length + i) (by simp; omega)
      rw [List.getElem_append_right (by omega)] at this
      simpa [Nat.add_assoc] using this
  · rintro ⟨h1, h2⟩ i hi
    rcases Nat.lt_or_ge i a.length with h | h
    · rw [List.getElem_append_left h]; exact h1 i h
    · rw [List.getElem_append_right h]
      have := h2 (i - a.length) (by simp at hi; omega)
      rw [← this]
      congr 2
      omega

theorem Spec.RingAt.mod64 {mem : Nat → UInt8} {size m pos : Nat} {bs : List UInt8} (hs : size = 2 ^ m)
    (hm : m ≤ 64) : RingAt mem size (pos % 2 ^ 64) bs ↔ RingAt mem size pos bs := by
  have key : ∀ i, (pos % 2 ^ 64 + i) % size = (pos + i) % size := by
    intro i
    have hd : size ∣ 2 ^ 64 := by rw [hs]; exact Nat.pow_dvd_pow 2 hm
    rw [← Nat.mod_add_mod (pos % 2 ^ 64), Nat.mod_mod_of_dvd _ hd, Nat.mod_add_mod]
  simp only [RingAt, key]

theorem bytes_length (r : KRec) : r.bytes.length = r.size := by
  simp [KRec.bytes, KRec.size, le_length]; omega

theorem mod8 (size m pos : Nat) (hs : size = 2 ^ m) (h3 : 3 ≤ m) (hp : pos % 8 = 0) :
    pos % size % 8 = 0 := by
  have hd : 8 ∣ size := by rw [hs, show 8 = 2 ^ 3 from rfl]; exact Nat.pow_dvd_pow 2 h3
  rw [Nat.mod_mod_of_dvd _ hd]; exact hp

theorem mod8_fit (size m pos : Nat) (hs : size = 2 ^ m) (h3 : 3 ≤ m) (hp : pos % 8 = 0) :
    pos % size + 8 ≤ size := by
  have h1 := mod8 size m pos hs h3 hp
  have h2 : pos % size < size := Nat.mod_lt _ (by rw [hs]; exact Nat.two_pow_pos m)
  have hd : size % 8 = 0 := by
    have : 8 ∣ size := by rw [hs, show 8 = 2 ^ 3 from rfl]; exact Nat.pow_dvd_pow 2 h3
    omega
  omega

/-- Reading a wrapped range as two pieces. -/
theorem peek_wrap (mem : Nat → UInt8) (size pos : Nat) (bs : List UInt8)
    (h : RingAt mem size pos bs) (hpos : pos % size < size) (hw : size ≤ pos % size + bs.length)
    (hl : bs.length ≤ size) :
    peek mem size (pos % size) (size - pos % size) = some (bs.take (size - pos % size)) ∧
    peek mem size 0 (pos % size + bs.length - size) = some (bs.drop (size - pos % size)) := by
  have hsplit : bs = bs.take (size - pos % size) ++ bs.drop (size - pos % size) := by simp
  rw [hsplit, RingAt.append] at h
  have hlt : (bs.take (size - pos % size)).length = size - pos % size := by simp; omega
  have hld : (bs.drop (size - pos % size)).length = pos % size + bs.length - size := by simp; omega
  refine ⟨?_, ?_⟩
  · have := peek_ok mem size pos _ h.1 (by rw [hlt]; omega)
    rwa [hlt] at this
  · have h0 : (pos + (bs.take (size - pos % size)).length) % size = 0 := by
      rw [hlt]
      have := Nat.div_add_mod pos size
      have e : pos + (size - pos % size) = size * (pos / size + 1) := by
        rw [Nat.mul_add, Nat.mul_one]; omega
      rw [e]; simp
    have := peek_ok mem size _ _ h.2 (by rw [h0, hld]; omega)
    rwa [h0, hld] at this

/-- One iteration reads one record. -/
theorem readEvent_ok (mem : Nat → UInt8) (size m tail : Nat) (hs : size = 2 ^ m) (h3 : 3 ≤ m)
    (r : KRec) (hwf : r.WF) (hal : tail % 8 = 0) (hfit : r.bytes.length ≤ size)
    (hd : RingAt mem size tail r.bytes) :
    ∃ ev, readEvent mem size tail = some ((tail + r.size) % 2 ^ 64, ev) ∧
      ev.map show' = r.view := by
  rw [bytes_length] at hfit
  obtain ⟨w1, w2, w3⟩ := hwf
  have hpos : 0 < size := by rw [hs]; exact Nat.two_pow_pos m
  have hlt : tail % size < size := Nat.mod_lt _ hpos
  -- header
  have hb : r.bytes = (le 4 r.type ++ (le 2 r.misc ++ le 2 r.size)) ++ r.body := by
    simp [KRec.bytes]
  rw [hb, RingAt.append] at hd
  obtain ⟨hh, hbody⟩ := hd
  have hhl : (le 4 r.type ++ (le 2 r.misc ++ le 2 r.size)).length = 8 := by simp [le_length]
  have hp := peek_ok mem size tail _ hh (by rw [hhl]; exact mod8_fit size m tail hs h3 hal)
  rw [hhl] at hp hbody
  have htype : r.type < 2 ^ 32 := by
    cases r <;> simp only [KRec.type] <;> simp at w3 <;> omega
  have e1 : ofLe ((le 4 r.type ++ (le 2 r.misc ++ le 2 r.size)).take 4) = r.type := by
    rw [List.take_append_of_le_length (by simp [le_length]), List.take_of_length_le (by simp [le_length])]
    exact ofLe_le_of_lt 4 _ (by simpa using htype)
  have e2 : ofLe ((le 4 r.type ++ (le 2 r.misc ++ le 2 r.size)).drop 6) = r.size := by
    have : (le 4 r.type ++ (le 2 r.misc ++ le 2 r.size)).drop 6 = le 2 r.size := by
      rw [← List.append_assoc, List.drop_append_of_le_length (by simp [le_length])]
      rw [List.drop_eq_nil_of_le (by simp [le_length])]; rfl
    rw [this]
    exact ofLe_le_of_lt 2 _ (by simpa using w2)
  simp only [readEvent, hp, e1, e2]
  have mid : ∀ k, (tail % size + k) % size = (tail + k) % size := fun k => Nat.mod_add_mod _ _ _
  cases r with
  | other t mi b =>
    refine ⟨none, ?_, rfl⟩
    have t1 : ¬ (KRec.other t mi b).type = PERF_RECORD_SAMPLE := w3.2.1
    have t2 : ¬ (KRec.other t mi b).type = PERF_RECORD_LOST := w3.2.2
    rw [if_neg t1, if_neg t2]
  | lost mi id c sid =>
    have t1 : ¬ (KRec.lost mi id c sid).type = PERF_RECORD_SAMPLE := by show ¬ (2 = 9); decide
    have t2 : (KRec.lost mi id c sid).type = PERF_RECORD_LOST := rfl
    simp only [KRec.body] at hbody
    rw [if_neg t1, if_pos t2]
    rw [RingAt.append, RingAt.append] at hbody
    have hb2 := hbody.2.1
    rw [le_length] at hb2
    have hf := mod8_fit size m (tail + 8 + 8) hs h3 (by omega)
    have hq := peek_ok mem size (tail + 8 + 8) _ hb2 (by rw [le_length]; exact hf)
    rw [le_length] at hq
    have : (tail % size + 8 + 8) % size = (tail + 8 + 8) % size := by
      rw [Nat.add_assoc, mid, Nat.add_assoc]
    rw [this, hq]
    refine ⟨_, rfl, ?_⟩
    simp only [Option.map_some, show', KRec.view]
    rw [ofLe_le_of_lt 8 c (by simpa using w3)]
  | sample mi d =>
    have t1 : (KRec.sample mi d).type = PERF_RECORD_SAMPLE := rfl
    simp only [KRec.body] at hbody
    rw [if_pos t1]
    rw [RingAt.append] at hbody
    obtain ⟨hn, hdata⟩ := hbody
    rw [le_length] at hdata
    have hsize : KRec.size (.sample mi d) = 12 + d.length := by
      simp [KRec.size, KRec.body, le_length]; omega
    rw [hsize] at w1 w2 hfit ⊢
    have hf := mod8_fit size m (tail + 8) hs h3 (by omega)
    have hq := peek_ok mem size (tail + 8) _ hn (by rw [le_length]; omega)
    rw [le_length] at hq
    rw [mid 8, hq]
    simp only
    rw [ofLe_le_of_lt 4 d.length (by omega)]
    have hst : (tail % size + 8 + 4) % size = (tail + 8 + 4) % size := by
      rw [Nat.add_assoc, mid, Nat.add_assoc]
    rw [hst]
    have hlt2 : (tail + 8 + 4) % size < size := Nat.mod_lt _ hpos
    split
    · rename_i hw
      obtain ⟨p1, p2⟩ := peek_wrap mem size (tail + 8 + 4) d hdata hlt2 hw (by omega)
      rw [p1, p2]
      exact ⟨_, rfl, by simp [show', KRec.view]⟩
    · rename_i hw
      have := peek_ok mem size (tail + 8 + 4) d hdata (by omega)
      rw [this]
      exact ⟨_, rfl, by simp [show', KRec.view]⟩

theorem bytesOf_cons (r : KRec) (rs : List KRec) : bytesOf (r :: rs) = r.bytes ++ bytesOf rs := by
  simp [bytesOf]

theorem size_pos (r : KRec) : 8 ≤ r.size := by simp [KRec.size]

/-- Past the first record, the ring holds the rest. -/
theorem Spec.Holds.tail_rest {mem : Nat → UInt8} {size m tail head : Nat} {r : KRec} {rs : List KRec}
    (hs : size = 2 ^ m) (hm : m ≤ 63) (h : Holds mem size tail head (r :: rs)) :
    Holds mem size ((tail + r.size) % 2 ^ 64) head rs := by
  have hd := h.data
  rw [bytesOf_cons, RingAt.append, bytes_length] at hd
  have hf := h.fits
  rw [bytesOf_cons, List.length_append, bytes_length] at hf
  have hh := h.head
  rw [bytesOf_cons, List.length_append, bytes_length] at hh
  refine ⟨fun q hq => h.wf q (List.mem_cons_of_mem _ hq), ?_, Nat.mod_lt _ (by omega), by omega, ?_, ?_⟩
  · have h1 := h.aligned
    have h2 := (h.wf r List.mem_cons_self).1
    have : (tail + r.size) % 2 ^ 64 % 8 = (tail + r.size) % 8 := Nat.mod_mod_of_dvd _ (by decide)
    omega
  · rw [hh, Nat.mod_add_mod, Nat.add_assoc]
  · exact (RingAt.mod64 hs (by omega)).mpr hd.2

theorem Spec.Holds.ne_head {mem : Nat → UInt8} {size m tail head : Nat} {r : KRec} {rs : List KRec}
    (hs : size = 2 ^ m) (hm : m ≤ 63) (h : Holds mem size tail head (r :: rs)) : tail ≠ head := by
  have hf := h.fits
  have hle : size ≤ 2 ^ 63 := by rw [hs]; exact Nat.pow_le_pow_right (by omega) hm
  have hh := h.head
  rw [bytesOf_cons, List.length_append, bytes_length] at hf hh
  have h8 := size_pos r
  have ht := h.tail64
  rw [hh]
  omega

theorem Spec.Holds.nil {mem : Nat → UInt8} {size tail head : Nat} (h : Holds mem size tail head []) :
    tail = head := by
  rw [h.head]
  simp [bytesOf]
  exact (Nat.mod_eq_of_lt h.tail64).symm

end Verif.Perf
