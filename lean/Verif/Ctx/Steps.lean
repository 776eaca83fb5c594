import Verif.Ctx.Run
/-!
# Lemmas about words of packets and one's complement sums
-/
set_option linter.unusedSimpArgs false
set_option linter.unusedVariables false
namespace Verif.Ctx
open Verif.Bytes Verif.Ctx.Packet Verif.Ctx.Spec

/-- The bytes of a word exchanged. -/
def swap (w : Nat) : Nat := 256 * (w % 256) + w / 256 % 256

theorem put_length {p : Pkt} {o : Nat} {bs : List UInt8} (h : o + bs.length ≤ p.length) : (put p o bs).length = p.length := by
  simp only [put, List.length_append, List.length_take, List.length_drop]; omega

theorem put_out {p : Pkt} {o x : Nat} {bs : List UInt8} (h : o + bs.length ≤ p.length) (hx : x < o ∨ o + bs.length ≤ x) :
    (put p o bs)[x]? = p[x]? := by
  simp only [put]
  rcases hx with hx | hx
  · rw [List.append_assoc, List.getElem?_append_left (by simp; omega), List.getElem?_take]
    simp [hx]
  · rw [List.getElem?_append_right (by simp; omega), List.getElem?_drop]
    congr 1
    simp only [List.length_append, List.length_take]; omega

theorem put_in {p : Pkt} {o i : Nat} {bs : List UInt8} (h : o + bs.length ≤ p.length) (hi : i < bs.length) :
    (put p o bs)[o + i]? = bs[i]? := by
  simp only [put]
  rw [List.append_assoc, List.getElem?_append_right (by simp; omega), List.getElem?_append_left (by simp; omega)]
  congr 1
  simp only [List.length_take]; omega

theorem put_at {p : Pkt} {o x : Nat} {bs : List UInt8} (h : o + bs.length ≤ p.length) (hx : o ≤ x) (hx2 : x < o + bs.length) :
    (put p o bs)[x]? = bs[x - o]? := by
  have := put_in (i := x - o) h (by omega)
  rwa [show o + (x - o) = x by omega] at this

theorem putWord_length {p : Pkt} {o w : Nat} (h : o + 2 ≤ p.length) : (putWord p o w).length = p.length :=
  put_length (by simpa using h)

theorem putWord_out {p : Pkt} {o w x : Nat} (h : o + 2 ≤ p.length) (hx : x < o ∨ o + 2 ≤ x) : (putWord p o w)[x]? = p[x]? :=
  put_out (by simpa using h) (by simpa using hx)

theorem byte_eq {p q : Pkt} {x : Nat} (h : p[x]? = q[x]?) : byte p x = byte q x := by
  simp only [byte, List.getD_eq_getElem?_getD, h]

theorem byte_lt (p : Pkt) (x : Nat) : byte p x < 256 := (p.getD x 0).toNat_lt

theorem putWord_byte0 {p : Pkt} {o w : Nat} (h : o + 2 ≤ p.length) : byte (putWord p o w) o = w % 256 := by
  have := put_at (p := p) (o := o) (x := o) (bs := [UInt8.ofNat (w % 256), UInt8.ofNat (w / 256 % 256)]) (by simpa using h) (by simp) (by simp)
  simp only [byte, List.getD_eq_getElem?_getD, putWord, this]
  simp [UInt8.toNat_ofNat']

theorem putWord_byte1 {p : Pkt} {o w : Nat} (h : o + 2 ≤ p.length) : byte (putWord p o w) (o + 1) = w / 256 % 256 := by
  have := put_at (p := p) (o := o) (x := o + 1) (bs := [UInt8.ofNat (w % 256), UInt8.ofNat (w / 256 % 256)]) (by simpa using h) (by simp) (by simp)
  simp only [byte, List.getD_eq_getElem?_getD, putWord, this]
  simp [UInt8.toNat_ofNat']

theorem putWord_host {p : Pkt} {o w : Nat} (h : o + 2 ≤ p.length) : hostWord (putWord p o w) o = w % 65536 := by
  simp only [hostWord, putWord_byte0 h, putWord_byte1 h]; omega

theorem putWord_word {p : Pkt} {o w : Nat} (h : o + 2 ≤ p.length) : word (putWord p o w) o = swap w := by
  simp only [word, putWord_byte0 h, putWord_byte1 h, swap]

theorem putWord_word_out {p : Pkt} {o w x : Nat} (h : o + 2 ≤ p.length) (hx : x + 2 ≤ o ∨ o + 2 ≤ x) :
    word (putWord p o w) x = word p x := by
  simp only [word]
  rw [byte_eq (putWord_out (w := w) h (by omega)), byte_eq (putWord_out (w := w) (x := x + 1) h (by omega))]

theorem putWord_host_out {p : Pkt} {o w x : Nat} (h : o + 2 ≤ p.length) (hx : x + 2 ≤ o ∨ o + 2 ≤ x) :
    hostWord (putWord p o w) x = hostWord p x := by
  simp only [hostWord]
  rw [byte_eq (putWord_out (w := w) h (by omega)), byte_eq (putWord_out (w := w) (x := x + 1) h (by omega))]

theorem host_lt (p : Pkt) (o : Nat) : hostWord p o < 65536 := by
  have := byte_lt p o; have := byte_lt p (o + 1); simp only [hostWord]; omega

theorem word_swap (p : Pkt) (o : Nat) : word p o = swap (hostWord p o) := by
  have := byte_lt p o; have := byte_lt p (o + 1); simp only [word, swap, hostWord]; omega

theorem sum_change (ws : List Nat) (o : Nat) (f g : Nat → Nat) (hn : ws.Nodup) (ho : o ∈ ws) (h : ∀ x ∈ ws, x ≠ o → g x = f x) :
    (ws.map g).sum + f o = (ws.map f).sum + g o := by
  induction ws with
  | nil => simp at ho
  | cons a ws ih =>
    simp only [List.nodup_cons] at hn
    simp only [List.map_cons, List.sum_cons]
    by_cases ha : a = o
    · subst ha
      have : ws.map g = ws.map f := by
        apply List.map_congr_left
        intro x hx
        exact h x (by simp [hx]) (fun e => hn.1 (e ▸ hx))
      rw [this]; omega
    · have h1 := ih hn.2 (by simpa [Ne.symm ha] using ho) (fun x hx hne => h x (by simp [hx]) hne)
      have h2 := h a (by simp) ha
      omega

theorem over_nodup {s : Sum} {p : Pkt} (h : s.Over p) : s.words.Nodup := by
  refine List.Pairwise.imp ?_ h.1
  intro a b hab e; omega

theorem over_apart {s : Sum} {p : Pkt} (h : s.Over p) {a b : Nat} (ha : a ∈ s.words) (hb : b ∈ s.words) (hne : a ≠ b) :
    a + 2 ≤ b ∨ b + 2 ≤ a := by
  have := h.1
  revert this ha hb
  generalize s.words = ws
  intro ha hb hp
  induction ws with
  | nil => simp at ha
  | cons x ws ih =>
    rw [List.pairwise_cons] at hp
    rcases List.mem_cons.1 ha with rfl | ha'
    · rcases List.mem_cons.1 hb with rfl | hb'
      · exact absurd rfl hne
      · exact hp.1 b hb'
    · rcases List.mem_cons.1 hb with rfl | hb'
      · exact (hp.1 a ha').symm
      · exact ih ha' hb' hp.2

theorem over_putWord {s : Sum} {p : Pkt} {o w : Nat} (h : s.Over p) (ho : o + 2 ≤ p.length) : s.Over (putWord p o w) := by
  refine ⟨h.1, fun x hx => ?_⟩
  rw [putWord_length ho]; exact h.2 x hx

theorem total_putWord {s : Sum} {p : Pkt} {o w : Nat} (h : s.Over p) (ho : o ∈ s.words) :
    s.total (putWord p o w) + swap (hostWord p o) = s.total p + swap w := by
  have hl := h.2 o ho
  have := sum_change s.words o (word p) (word (putWord p o w)) (over_nodup h) ho
    (fun x hx hne => putWord_word_out hl (over_apart h hx ho hne))
  rw [putWord_word hl, word_swap p o] at this
  simp only [Sum.total]; omega

theorem le_two (v : Nat) : le 2 v = [UInt8.ofNat (v % 256), UInt8.ofNat (v / 256 % 256)] := by simp [le]

theorem put_two (p : Pkt) (o v : Nat) : put p o (le 2 v) = putWord p o v := by rw [le_two]; rfl

theorem put_four {p : Pkt} {o v : Nat} (h : o + 4 ≤ p.length) :
    put p o (le 4 v) = putWord (putWord p o v) (o + 2) (v / 65536) := by
  have e : le 4 v = [UInt8.ofNat (v % 256), UInt8.ofNat (v / 256 % 256), UInt8.ofNat (v / 65536 % 256), UInt8.ofNat (v / 65536 / 256 % 256)] := by
    simp only [le, Nat.div_div_eq_div_mul]
  apply List.ext_getElem?
  intro x
  have hl1 : o + 2 ≤ p.length := by omega
  have hl2 : o + 2 + 2 ≤ (putWord p o v).length := by rw [putWord_length hl1]; omega
  have hl4 : o + (le 4 v).length ≤ p.length := by simpa using h
  by_cases hx : x < o ∨ o + 4 ≤ x
  · rw [put_out hl4 (by simpa using hx), putWord_out hl2 (by omega), putWord_out hl1 (by omega)]
  · rw [put_at hl4 (by omega) (by simp; omega), e]
    by_cases h2 : x < o + 2
    · rw [putWord_out hl2 (by omega), putWord, put_at (by simpa using hl1) (by omega) (by simp; omega)]
      have hc : x - o = 0 ∨ x - o = 1 := by omega
      rcases hc with hc | hc <;> rw [hc] <;> rfl
    · rw [putWord, put_at (by simpa using hl2) (by omega) (by simp; omega)]
      have hc : (x - o = 2 ∧ x - (o + 2) = 0) ∨ (x - o = 3 ∧ x - (o + 2) = 1) := by omega
      rcases hc with ⟨hc, hd⟩ | ⟨hc, hd⟩ <;> rw [hc, hd] <;> rfl

/-! ## Arithmetic -/

theorem add16_spec {a b : Nat} (ha : a < 65536) (hb : b < 65536) :
    add16 a b < 65536 ∧ ∃ k, a + b = add16 a b + 65535 * k := by
  simp only [add16]
  refine ⟨by omega, (a + b) / 65536, by omega⟩

theorem add32_spec {a b : Nat} (ha : a < 4294967296) (hb : b < 4294967296) :
    add32 a b < 4294967296 ∧ ∃ k, a + b = add32 a b + 65535 * k := by
  simp only [add32]
  refine ⟨by omega, 65537 * ((a + b) / 4294967296), by omega⟩

theorem fold_spec {s : Nat} (hs : s < 4294967296) : fold s < 65536 ∧ ∃ k, s + fold s = 65535 * k := by
  simp only [fold]
  refine ⟨by omega, 1 + s / 65536 + (s % 65536 + s / 65536) / 65536, by omega⟩

theorem replace2_spec {c a b : Nat} (hc : c < 65536) (ha : a < 65536) (hb : b < 65536) :
    replace2 c a b < 65536 ∧ ∃ i j, replace2 c a b + b + 65535 * i = c + a + 65535 * j := by
  obtain ⟨h1, k1, e1⟩ := add16_spec (a := 65535 - c) (b := 65535 - a) (by omega) (by omega)
  obtain ⟨h2, k2, e2⟩ := add16_spec (a := add16 (65535 - c) (65535 - a)) (b := b) h1 hb
  simp only [replace2]
  refine ⟨by omega, 1, k1 + k2, by omega⟩

theorem replace4_spec {c a b : Nat} (hc : c < 65536) (ha : a < 4294967296) (hb : b < 4294967296) :
    replace4 c a b < 65536 ∧ ∃ i j, replace4 c a b + b + 65535 * i = c + a + 65535 * j := by
  obtain ⟨h1, k1, e1⟩ := add32_spec (a := 4294967295 - c) (b := 4294967295 - a) (by omega) (by omega)
  obtain ⟨h2, k2, e2⟩ := add32_spec (a := add32 (4294967295 - c) (4294967295 - a)) (b := b) h1 hb
  obtain ⟨h3, k3, e3⟩ := fold_spec h2
  simp only [replace4]
  refine ⟨h3, 131074, k1 + k2 + k3, by omega⟩

theorem swap_spec {w : Nat} (h : w < 65536) : swap w + 65535 * (w / 256) = 256 * w := by
  simp only [swap]; omega

theorem swap_zero {w : Nat} (h : w < 65536) : swap w = 0 ↔ w = 0 := by
  simp only [swap]; omega

end Verif.Ctx
