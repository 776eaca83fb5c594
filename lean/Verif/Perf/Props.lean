import Verif.Perf.Lemmas
/-!
# C04, C05: perf buffers

`Holds mem size tail head recs` (Spec.lean) is the state the kernel's writer leaves: the records lie
one after the other from `tail` to `head`, modulo the buffer size. Buffer sizes are powers of two
(`open` rejects other page counts, `C04_open_power_of_two`).
-/
set_option linter.unusedSimpArgs false
set_option linter.unusedVariables false
namespace Verif.Perf
open Verif.Bytes Verif.Perf.Spec

/-- One call of `try_fold`, with any callback: the callback is called with the records' events in
order (for each sample, two slices that join to its bytes; for each lost record its count; nothing
for other records) until it breaks; the tail stored is just past the last record used up, and no
read leaves the mapping. -/
theorem C04_try_fold (m : Nat) (h3 : 3 ≤ m) (hm : m ≤ 63) (mem : Nat → UInt8) (tail head : Nat)
    (recs : List KRec) (h : Holds mem (2 ^ m) tail head recs) :
    ∃ evs : List (Option PEvent), evs.map (Option.map show') = recs.map KRec.view ∧
      ∀ {β γ : Type} (f : γ → PEvent → Flow β γ) (init : γ) (fuel : Nat), recs.length ≤ fuel →
        tryFold mem (2 ^ m) head f fuel tail init =
          .done ((tail + (bytesOf (recs.take (feed f init evs).1)).length) % 2 ^ 64)
            (feed f init evs).2 := by
  induction recs generalizing tail with
  | nil =>
    refine ⟨[], rfl, ?_⟩
    intro β γ f init fuel _
    have ht := Spec.Holds.nil h
    have h64 := h.tail64
    cases fuel <;> simp [tryFold, ht, feed, bytesOf] <;> omega
  | cons r rs ih =>
    have hrest := h.tail_rest rfl hm
    obtain ⟨evs, hev, hrun⟩ := ih _ hrest
    have hd := h.data
    rw [bytesOf_cons, RingAt.append] at hd
    have hf := h.fits
    rw [bytesOf_cons, List.length_append] at hf
    obtain ⟨ev, hread, hview⟩ := readEvent_ok mem (2 ^ m) m tail rfl h3 r (h.wf r List.mem_cons_self)
      h.aligned (by omega) hd.1
    refine ⟨ev :: evs, by simp [hview, hev], ?_⟩
    intro β γ f init fuel hfuel
    have hne := h.ne_head rfl hm
    cases fuel with
    | zero => simp at hfuel
    | succ fuel =>
      have hfuel' : rs.length ≤ fuel := by simpa using hfuel
      simp only [tryFold, if_neg hne, hread]
      cases ev with
      | none =>
        simp only [feed]
        rw [hrun f init fuel hfuel']
        simp only [List.take_succ_cons, bytesOf_cons, List.length_append, bytes_length, Nat.mod_add_mod, Nat.add_assoc]
      | some e =>
        simp only [feed]
        cases hfe : f init e with
        | brk b =>
          simp [bytesOf, bytes_length]
        | cont acc =>
          simp only
          rw [hrun f acc fuel hfuel']
          simp only [List.take_succ_cons, bytesOf_cons, List.length_append, bytes_length, Nat.mod_add_mod, Nat.add_assoc]

/-- In particular a callback that never breaks is called once for each record that carries
something, in order, with exactly what was written, and the tail ends at the head. -/
theorem C04_delivers_all (m : Nat) (h3 : 3 ≤ m) (hm : m ≤ 63) (mem : Nat → UInt8) (tail head : Nat)
    (recs : List KRec) (h : Holds mem (2 ^ m) tail head recs) (fuel : Nat)
    (hfuel : recs.length ≤ fuel) :
    ∃ evs : List PEvent, evs.map show' = recs.filterMap KRec.view ∧
      tryFold (β := Empty) mem (2 ^ m) head (fun acc e => .cont (acc ++ [e])) fuel tail [] =
        .done head (.cont evs) := by
  obtain ⟨evs, hev, hrun⟩ := C04_try_fold m h3 hm mem tail head recs h
  have hfeed : ∀ (evs : List (Option PEvent)) (acc : List PEvent),
      feed (β := Empty) (fun acc e => .cont (acc ++ [e])) acc evs =
        (evs.length, .cont (acc ++ evs.filterMap id)) := by
    intro evs
    induction evs with
    | nil => intro acc; simp [feed]
    | cons e evs ih =>
      intro acc
      cases e with
      | none => simp [feed, ih]
      | some e => simp [feed, ih]
  have hlen : evs.length = recs.length := by
    have := congrArg List.length hev
    simpa using this
  refine ⟨evs.filterMap id, ?_, ?_⟩
  · have := congrArg (List.filterMap id) hev
    simp only [List.filterMap_map] at this
    rw [List.map_filterMap]
    exact this
  · rw [hrun _ [] fuel hfuel, hfeed]
    simp only [hlen, List.take_length, List.nil_append]
    rw [h.head]

/-- `open` accepts exactly the page counts that are powers of two. -/
theorem C04_open_power_of_two (n : Nat) : openAccepts n = true ↔ ∃ k, n = 2 ^ k := by
  constructor
  · intro h
    simp only [openAccepts, Bool.and_eq_true, bne_iff_ne, ne_eq, beq_iff_eq] at h
    obtain ⟨h0, h1⟩ := h
    refine ⟨n.log2, ?_⟩
    have hlo := Nat.log2_self_le h0
    have hhi : n < 2 ^ (n.log2 + 1) := Nat.lt_log2_self
    rcases Nat.eq_or_lt_of_le hlo with h | h
    · exact h.symm
    · exfalso
      have tb : ∀ x, 2 ^ n.log2 ≤ x → x < 2 ^ (n.log2 + 1) → x.testBit n.log2 = true := by
        intro x hx1 hx2
        rw [Nat.testBit_eq_decide_div_mod_eq]
        have : x / 2 ^ n.log2 = 1 := by
          apply Nat.div_eq_of_lt_le
          · omega
          · rw [Nat.pow_succ] at hx2; omega
        simp [this]
      have ht : (n &&& (n - 1)).testBit n.log2 = true := by
        rw [Nat.testBit_and, tb n hlo hhi, tb (n - 1) (by omega) (by omega)]; rfl
      rw [h1] at ht
      simp at ht
  · rintro ⟨k, rfl⟩
    have : 2 ^ k ≠ 0 := Nat.pos_iff_ne_zero.mp (Nat.two_pow_pos k)
    simp [openAccepts, this, Nat.and_two_pow_sub_one_eq_mod]

/-- After a call that used up `n` records, the ring holds the others. -/
theorem holds_drop {mem : Nat → UInt8} {m tail head : Nat} {recs : List KRec} (hm : m ≤ 63)
    (h : Holds mem (2 ^ m) tail head recs) (n : Nat) :
    Holds mem (2 ^ m) ((tail + (bytesOf (recs.take n)).length) % 2 ^ 64) head (recs.drop n) := by
  induction n generalizing tail recs with
  | zero =>
    have := h.tail64
    simpa [bytesOf, Nat.mod_eq_of_lt this] using h
  | succ n ih =>
    cases recs with
    | nil =>
      have := h.tail64
      simpa [bytesOf, Nat.mod_eq_of_lt this] using h
    | cons r rs =>
      have := ih (h.tail_rest rfl hm)
      simpa only [List.take_succ_cons, List.drop_succ_cons, bytesOf_cons, List.length_append,
        bytes_length, Nat.mod_add_mod, Nat.add_assoc] using this

/-! ## C05: histories of broken-off reads and kernel writes -/

/-- A reader that looks at each event and decides after each whether to break off. -/
def collect (stop : List PEvent → Bool) (acc : List PEvent) (e : PEvent) :
    Flow (List PEvent) (List PEvent) :=
  if stop (acc ++ [e]) then .brk (acc ++ [e]) else .cont (acc ++ [e])

/-- Bytes written by the kernel at `head` (same layout as the ring buffer's, modulo the size). -/
def put (mem : Nat → UInt8) (size p : Nat) (bs : List UInt8) : Nat → UInt8 :=
  fun x => (bs[(x + (size - p % size)) % size]?).getD (mem x)

/-- A perf buffer with its history: everything the kernel ever wrote and everything ever handed to
callbacks. -/
structure St where
  mem : Nat → UInt8
  tail : Nat
  head : Nat
  written : List KRec
  got : List PEvent

/-- Steps: the kernel writes a record (only if it fits before the tail, else it is dropped), or the
user calls `try_fold` with a callback that may break off anywhere. -/
inductive Step (size : Nat) : St → St → Prop
  | kernel (s : St) (r : KRec) (hwf : r.WF)
      (hroom : (s.head + 2 ^ 64 - s.tail) % 2 ^ 64 + r.size ≤ size) :
      Step size s { s with
        mem := put s.mem size s.head r.bytes
        head := (s.head + r.size) % 2 ^ 64
        written := s.written ++ [r] }
  | read (s : St) (stop : List PEvent → Bool) (fuel tail' : Nat) (out : List PEvent)
      (h : tryFold s.mem size s.head (collect stop) fuel s.tail [] = .done tail' (.brk out) ∨
        tryFold s.mem size s.head (collect stop) fuel s.tail [] = .done tail' (.cont out)) :
      Step size s { s with tail := tail', got := s.got ++ out }

inductive Reach (size : Nat) : St → Prop
  | init (mem : Nat → UInt8) (pos : Nat) (h64 : pos < 2 ^ 64) (h8 : pos % 8 = 0) :
      Reach size ⟨mem, pos, pos, [], []⟩
  | step (s s' : St) (h : Reach size s) (hs : Step size s s') : Reach size s'

theorem ring_dist (size p d : Nat) (hd : d < size) :
    ((p + d) % size + (size - p % size)) % size = d := by
  have hs : 0 < size := by omega
  have hp : p % size < size := Nat.mod_lt _ hs
  have h1 : ((p + d) % size + (size - p % size)) % size = (p + d + (size - p % size)) % size := by
    rw [Nat.mod_add_mod]
  rw [h1]
  have h2 : p + d + (size - p % size) = d + size * (p / size + 1) := by
    have := Nat.div_add_mod p size
    rw [Nat.mul_add, Nat.mul_one]
    omega
  rw [h2, Nat.add_mul_mod_self_left, Nat.mod_eq_of_lt hd]

theorem put_in (mem : Nat → UInt8) (size p : Nat) (bs : List UInt8) (hb : bs.length ≤ size) :
    RingAt (put mem size p bs) size p bs := by
  intro i hi
  simp only [put]
  rw [ring_dist size p i (by omega)]
  simp [hi]

theorem put_before (mem : Nat → UInt8) (size p n : Nat) (bs old : List UInt8)
    (hn : p + n = p + old.length) (hfit : old.length + bs.length ≤ size)
    (h : RingAt mem size p old) : RingAt (put mem size (p + n) bs) size p old := by
  intro i hi
  rw [← h i hi]
  simp only [put]
  have hq : (p + i) % size = (p + n + (size - n + i)) % size := by
    have : p + n + (size - n + i) = p + i + size := by omega
    rw [this]; simp
  rw [hq, ring_dist size (p + n) (size - n + i) (by omega)]
  have : bs.length ≤ size - n + i := by omega
  simp [List.getElem?_eq_none this]

theorem put_mod (mem : Nat → UInt8) (size m p : Nat) (bs : List UInt8) (hs : size = 2 ^ m)
    (hm : m ≤ 64) : put mem size (p % 2 ^ 64) bs = put mem size p bs := by
  funext x
  simp only [put]
  have hd : size ∣ 2 ^ 64 := by rw [hs]; exact Nat.pow_dvd_pow 2 hm
  rw [Nat.mod_mod_of_dvd _ hd]

theorem bytesOf_append (a b : List KRec) : bytesOf (a ++ b) = bytesOf a ++ bytesOf b := by
  simp [bytesOf]

/-- The invariant: the ring holds the records not yet handed out. -/
theorem reach_inv (m : Nat) (h3 : 3 ≤ m) (hm : m ≤ 63) (s : St) (h : Reach (2 ^ m) s) :
    ∃ n, n ≤ s.written.length ∧ Holds s.mem (2 ^ m) s.tail s.head (s.written.drop n) ∧
      s.got.map show' = (s.written.take n).filterMap KRec.view := by
  induction h with
  | init mem pos h64 h8 =>
    refine ⟨0, Nat.le_refl _, ⟨by simp, h8, h64, by simp [bytesOf], ?_, ?_⟩, rfl⟩
    · simp [bytesOf, Nat.mod_eq_of_lt h64]
    · intro i hi; simp [bytesOf] at hi
  | step s s' hr hs ih =>
    obtain ⟨n, hn, hh, hg⟩ := ih
    cases hs with
    | kernel r hwf hroom =>
      refine ⟨n, by simp; omega, ?_, ?_⟩
      · simp only [List.drop_append_of_le_length hn]
        have hle : (2 : Nat) ^ m ≤ 2 ^ 63 := Nat.pow_le_pow_right (by omega) hm
        have hhead := hh.head
        have hfits := hh.fits
        have h64 := hh.tail64
        have hused : (s.head + 2 ^ 64 - s.tail) % 2 ^ 64 = (bytesOf (s.written.drop n)).length := by
          rw [hhead]; omega
        rw [hused] at hroom
        have hbs : bytesOf [r] = r.bytes := by simp [bytesOf]
        refine ⟨?_, hh.aligned, hh.tail64, ?_, ?_, ?_⟩
        · intro q hq
          rcases List.mem_append.mp hq with hq | hq
          · exact hh.wf q hq
          · have : q = r := by simpa using hq
            subst this; exact hwf
        · rw [bytesOf_append, List.length_append, hbs, bytes_length]; exact hroom
        · rw [bytesOf_append, List.length_append, hbs, bytes_length, hhead, Nat.mod_add_mod, Nat.add_assoc]
        · rw [bytesOf_append, hbs, RingAt.append]
          have hput : put s.mem (2 ^ m) s.head r.bytes =
              put s.mem (2 ^ m) (s.tail + (bytesOf (s.written.drop n)).length) r.bytes := by
            rw [hhead]; exact put_mod _ _ m _ _ rfl (by omega)
          rw [hput]
          refine ⟨put_before _ _ _ _ _ _ rfl (by rw [bytes_length]; exact hroom) hh.data, ?_⟩
          exact put_in _ _ _ _ (by rw [bytes_length]; omega)
      · simp only [List.take_append_of_le_length hn]
        exact hg
    | read stop fuel tail' out hread =>
      obtain ⟨evs, hev, hrun⟩ := C04_try_fold m h3 hm s.mem s.tail s.head _ hh
      have hlenev : evs.length = (s.written.drop n).length := by
        have := congrArg List.length hev
        simpa using this
      -- the number of records used up does not exceed what is there, and the output is their events
      have hfeed : ∀ (evs : List (Option PEvent)) (acc : List PEvent),
          (feed (collect stop) acc evs).1 ≤ evs.length ∧
          ((feed (collect stop) acc evs).2 = .brk (acc ++ (evs.take (feed (collect stop) acc evs).1).filterMap id) ∨
           (feed (collect stop) acc evs).2 = .cont (acc ++ (evs.take (feed (collect stop) acc evs).1).filterMap id)) := by
        intro evs
        induction evs with
        | nil => intro acc; simp [feed]
        | cons e evs ih =>
          intro acc
          cases e with
          | none =>
            obtain ⟨i1, i2⟩ := ih acc
            simp only [feed]
            refine ⟨by simp; omega, ?_⟩
            simpa using i2
          | some e =>
            simp only [feed, collect]
            split
            · rename_i b hb
              split at hb
              · cases hb; simp
              · cases hb
            · rename_i acc' hb
              split at hb
              · cases hb
              · cases hb
                obtain ⟨i1, i2⟩ := ih (acc ++ [e])
                refine ⟨by simp; omega, ?_⟩
                simpa [collect] using i2
      -- fuel monotone: any finished run is the canonical one
      have hmono : ∀ (fuel k : Nat) (tail : Nat) (acc : List PEvent) t r,
          tryFold s.mem (2 ^ m) s.head (collect stop) fuel tail acc = .done t r →
          tryFold s.mem (2 ^ m) s.head (collect stop) (fuel + k) tail acc = .done t r := by
        intro fuel k
        induction fuel with
        | zero =>
          intro tail acc t r hx
          simp only [tryFold] at hx
          split at hx
          · rename_i he
            cases hx
            cases k <;> simp [tryFold, he]
          · cases hx
        | succ fuel ihf =>
          intro tail acc t r hx
          rw [show fuel + 1 + k = (fuel + k) + 1 by omega]
          simp only [tryFold] at hx ⊢
          split at hx
          · rename_i he; rw [if_pos he]; exact hx
          · rename_i he
            rw [if_neg he]
            split at hx
            · cases hx
            · exact ihf _ _ _ _ hx
            · rename_i t' ev hre
              split at hx
              · exact ihf _ _ _ _ hx
              · exact hx
      have hcanon := hrun (collect stop) [] (fuel + (s.written.drop n).length) (by omega)
      obtain ⟨f1, f2⟩ := hfeed evs []
      generalize hk : (feed (collect stop) [] evs).1 = k at hcanon f1 f2
      have hout : tail' = (s.tail + (bytesOf ((s.written.drop n).take k)).length) % 2 ^ 64 ∧
          out = (evs.take k).filterMap id := by
        rcases hread with hx | hx
        all_goals
          have hy := hmono _ (s.written.drop n).length _ _ _ _ hx
          rw [hcanon] at hy
          injection hy with h1 h2
          refine ⟨h1.symm, ?_⟩
          rcases f2 with f2 | f2 <;> rw [f2] at h2 <;> cases h2 <;> simp
      obtain ⟨ht, ho⟩ := hout
      subst ht; subst ho
      have hkn : n + k ≤ s.written.length := by
        rw [hlenev] at f1; simp at f1; omega
      refine ⟨n + k, hkn, ?_, ?_⟩
      · have := holds_drop hm hh k
        rw [List.drop_drop] at this
        exact this
      · simp only [List.map_append, hg]
        rw [List.take_add, List.filterMap_append]
        congr 1
        have := congrArg (fun l => (l.take k).filterMap id) hev
        simp only [← List.map_take, List.filterMap_map] at this
        rw [List.map_filterMap]
        exact this

/-- Over any history of kernel writes and reads that break off anywhere, what callbacks have
received in total is, in order and without gap or repetition, what the first `n` records the kernel
wrote carry; the remaining records are exactly what the ring still holds. -/
theorem C05_batches (m : Nat) (h3 : 3 ≤ m) (hm : m ≤ 63) (s : St) (h : Reach (2 ^ m) s) :
    ∃ n, n ≤ s.written.length ∧ s.got.map show' = (s.written.take n).filterMap KRec.view ∧
      Holds s.mem (2 ^ m) s.tail s.head (s.written.drop n) := by
  obtain ⟨n, h1, h2, h3⟩ := reach_inv m h3 hm s h
  exact ⟨n, h1, h3, h2⟩

/-- Hence a final read that does not break off completes the sequence: everything written has been
handed out exactly once. -/
theorem C05_final_read_completes (m : Nat) (h3 : 3 ≤ m) (hm : m ≤ 63) (s : St)
    (h : Reach (2 ^ m) s) :
    ∃ fuel evs, tryFold (β := Empty) s.mem (2 ^ m) s.head (fun acc e => .cont (acc ++ [e])) fuel s.tail [] =
        .done s.head (.cont evs) ∧
      (s.got ++ evs).map show' = s.written.filterMap KRec.view := by
  obtain ⟨n, h1, h2, h4⟩ := reach_inv m h3 hm s h
  obtain ⟨evs, e1, e2⟩ := C04_delivers_all m h3 hm s.mem s.tail s.head _ h2 _ (Nat.le_refl _)
  refine ⟨_, evs, e2, ?_⟩
  rw [List.map_append, h4, e1, ← List.filterMap_append, List.take_append_drop]

/-! ## Concrete cases -/

def demoRecs : List KRec :=
  [.sample 0 [1, 2, 3, 4], .lost 0 5 77 [], .other 3 0 [0, 0, 0, 0, 0, 0, 0, 0],
   .sample 0 [10, 20, 30, 40, 50, 60, 70, 80, 90, 100, 110, 120]]

/-- A 128-byte ring whose content starts 72 bytes before the end, so that the last sample wraps. -/
def demoMem : Nat → UInt8 := put (fun _ => 0xaa) 128 (2 ^ 64 - 72) (bytesOf demoRecs)

example : ∀ r ∈ demoRecs, r.WF := by decide
example : Holds demoMem (2 ^ 7) (2 ^ 64 - 72) 8 demoRecs :=
  ⟨by decide, by decide, by decide, by decide, by decide +kernel, by
    have : ∀ i, (h : i < (bytesOf demoRecs).length) →
      demoMem ((2 ^ 64 - 72 + i) % 2 ^ 7) = (bytesOf demoRecs)[i] :=
        put_in _ 128 _ _ (by decide)
    exact this⟩

/-- The wrapped sample is handed out in two pieces; the tail wraps past 2^64. -/
example : tryFold (β := Empty) demoMem 128 8 (fun acc e => .cont (acc ++ [e])) 4 (2 ^ 64 - 72) [] =
    .done 8 (.cont [.sample [1, 2, 3, 4] [], .lost 77,
      .sample [10, 20, 30, 40] [50, 60, 70, 80, 90, 100, 110, 120]]) := by decide +kernel

/-- Breaking off after the lost record leaves the tail just past it. -/
example : tryFold demoMem 128 8 (collect (fun l => l.length == 2)) 4 (2 ^ 64 - 72) [] =
    .done (2 ^ 64 - 32) (.brk [.sample [1, 2, 3, 4] [], .lost 77]) := by decide +kernel

end Verif.Perf
