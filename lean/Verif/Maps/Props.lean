import Verif.Maps.Spec
import Verif.Common.Except

set_option linter.unusedSimpArgs false
set_option linter.unusedVariables false

/-! # C29–C33: maps -/
namespace Verif.Maps
open Verif.Bytes Verif.Maps.Spec

/-! ## C29: per-CPU values -/

theorem roundUp8_stride (size : Nat) : IsStride size (roundUp8 size) := by
  unfold IsStride roundUp8
  refine ⟨⟨(size + 7) / 8, by omega⟩, by omega, by omega⟩

theorem stride_unique {size a : Nat} (h : IsStride size a) : a = roundUp8 size := by
  obtain ⟨⟨c, hc⟩, h1, h2⟩ := h
  unfold roundUp8
  omega

/-- A value padded to its slot. -/
def padded (size : Nat) (v : Bytes) : Bytes := v ++ List.replicate (roundUp8 size - size) 0

theorem padded_length {size : Nat} {v : Bytes} (h : v.length = size) :
    (padded size v).length = roundUp8 size := by
  have := (roundUp8_stride size).2.1
  simp [padded, h]; omega

theorem buildLoop_eq (size : Nat) (vs : List Bytes) (hv : ∀ v ∈ vs, v.length = size) :
    ∀ (i : Nat) (pre : Bytes), pre.length = i * roundUp8 size →
      buildLoop size i vs (pre ++ List.replicate (vs.length * roundUp8 size) 0)
        = some (pre ++ (vs.map (padded size)).flatten) := by
  induction vs with
  | nil => intro i pre hp; simp [buildLoop]
  | cons v vs ih =>
    intro i pre hp
    have hvl := hv v (by simp)
    have hs := (roundUp8_stride size).2.1
    have hlen : (v :: vs).length * roundUp8 size
        = size + ((roundUp8 size - size) + vs.length * roundUp8 size) := by
      simp only [List.length_cons, Nat.add_mul, Nat.one_mul]; omega
    have hw : writeAt (pre ++ List.replicate ((v :: vs).length * roundUp8 size) 0)
        (i * roundUp8 size) v
        = some ((pre ++ padded size v) ++ List.replicate (vs.length * roundUp8 size) 0) := by
      unfold writeAt
      rw [if_pos]
      · rw [hlen, ← List.replicate_append_replicate, ← List.replicate_append_replicate, ← hp]
        simp only [List.take_left', List.append_assoc, padded]
        congr 2
        rw [List.drop_append, List.drop_append, hvl]
        simp
      · simp only [List.length_append, List.length_replicate, hp, hvl, hlen]; omega
    simp only [buildLoop, hw, Option.bind_eq_bind, Option.bind_some]
    rw [ih (fun w hw => hv w (by simp [hw])) (i + 1) (pre ++ padded size v)]
    · simp
    · simp only [List.length_append, padded_length hvl, hp, Nat.add_mul]; omega

theorem buildKernelMem_eq (nrCpus size : Nat) (values : List Bytes) (hn : values.length = nrCpus)
    (hv : ∀ v ∈ values, v.length = size) :
    buildKernelMem nrCpus size values = some (values.map (padded size)).flatten := by
  subst hn
  have := buildLoop_eq size values hv 0 [] (by simp)
  simpa [buildKernelMem, allocKernelMem] using this

theorem flatten_slot {n : Nat} (bs : List Bytes) (hb : ∀ b ∈ bs, b.length = n) :
    ∀ (i : Nat) (b : Bytes), bs[i]? = some b → slot n i bs.flatten = b := by
  induction bs with
  | nil => intro i b h; simp at h
  | cons c bs ih =>
    intro i b h
    have hc := hb c (by simp)
    match i, h with
    | 0, h =>
      simp only [List.getElem?_cons_zero, Option.some.injEq] at h
      subst h
      simp [slot, ← hc]
    | i + 1, h =>
      simp only [List.getElem?_cons_succ] at h
      have := ih (fun w hw => hb w (by simp [hw])) i b h
      have e : (i + 1) * n = c.length + i * n := by rw [hc, Nat.add_mul]; omega
      simp only [slot, List.flatten_cons, e, ← List.drop_drop]
      rw [List.drop_left]
      exact this

/-- **C29 (writing).** For every number of CPUs, every value size and every list of one value per CPU,
    the buffer given to the kernel has one slot per CPU, of the value size rounded up to a multiple of
    8, and slot `i` holds value `i` followed by zeros. No write leaves the buffer. -/
theorem C29_layout (nrCpus size : Nat) (values : List Bytes) (hn : values.length = nrCpus)
    (hv : ∀ v ∈ values, v.length = size) :
    ∃ mem stride, buildKernelMem nrCpus size values = some mem ∧ IsStride size stride ∧
      mem.length = nrCpus * stride ∧
      ∀ (i : Nat) (v : Bytes), values[i]? = some v →
        slot stride i mem = v ++ List.replicate (stride - size) 0 := by
  refine ⟨_, roundUp8 size, buildKernelMem_eq nrCpus size values hn hv, roundUp8_stride size, ?_, ?_⟩
  · subst hn
    induction values with
    | nil => simp
    | cons v vs ih =>
      have := ih (fun w hw => hv w (by simp [hw]))
      simp only [List.map_cons, List.flatten_cons, List.length_append, List.length_cons, Nat.add_mul,
        Nat.one_mul, padded_length (hv v (by simp)), this]
      omega
  · intro i v hi
    apply flatten_slot
    · intro b hb
      obtain ⟨w, hw, rfl⟩ := List.mem_map.mp hb
      exact padded_length (hv w hw)
    · rw [List.getElem?_map, hi]; rfl

example : buildKernelMem 2 3 [[1, 2, 3], [4, 5, 6]]
    = some [1, 2, 3, 0, 0, 0, 0, 0, 4, 5, 6, 0, 0, 0, 0, 0] := by decide +kernel

theorem fromLoop_eq (size : Nat) (hs : 0 < size) (mem : Bytes) :
    ∀ (n i fuel : Nat), mem.length = (i + n) * roundUp8 size → n < fuel →
      ∃ vs, fromLoop size mem fuel (i * roundUp8 size) = some vs ∧ vs.length = n ∧
        ∀ (j : Nat), j < n →
          vs[j]? = some ((mem.drop ((i + j) * roundUp8 size)).take size) := by
  have hst := roundUp8_stride size
  intro n
  induction n with
  | zero =>
    intro i fuel hlen hf
    obtain ⟨f, rfl⟩ : ∃ f, fuel = f + 1 := ⟨fuel - 1, by omega⟩
    refine ⟨[], ?_, rfl, fun j hj => absurd hj (by omega)⟩
    have : ¬ i * roundUp8 size < mem.length := by rw [hlen]; simp
    simp [fromLoop, this]
  | succ n ih =>
    intro i fuel hlen hf
    obtain ⟨f, rfl⟩ : ∃ f, fuel = f + 1 := ⟨fuel - 1, by omega⟩
    have e1 : (i + (n + 1)) * roundUp8 size = i * roundUp8 size + (roundUp8 size + n * roundUp8 size) := by
      simp only [Nat.add_mul, Nat.one_mul]; omega
    have hlt : i * roundUp8 size < mem.length := by
      have := hst.2.1
      rw [hlen, e1]; omega
    have hle : i * roundUp8 size + size ≤ mem.length := by
      have := hst.2.1
      rw [hlen, e1]; omega
    obtain ⟨vs, h1, h2, h3⟩ := ih (i + 1) f (by rw [hlen]; congr 1; omega) (by omega)
    have e2 : i * roundUp8 size + roundUp8 size = (i + 1) * roundUp8 size := by
      simp only [Nat.add_mul, Nat.one_mul]
    refine ⟨(mem.drop (i * roundUp8 size)).take size :: vs, ?_, by simp [h2], ?_⟩
    · simp only [fromLoop, if_pos hlt, readAt, if_pos hle, Option.bind_eq_bind, Option.bind_some, e2, h1]
    · intro j hj
      match j with
      | 0 => simp
      | j + 1 =>
        simp only [List.getElem?_cons_succ]
        rw [h3 j (by omega)]
        congr 4
        omega

/-- **C29 (reading).** For every number of CPUs `n` and value size above 0, decoding a buffer of `n` slots
    returns `n` values, value `i` being the first `size` bytes of slot `i`. No read leaves the buffer. -/
theorem C29_read (n size stride : Nat) (hs : 0 < size) (hst : IsStride size stride) (mem : Bytes)
    (hlen : mem.length = n * stride) :
    ∃ vs, fromKernelMem size mem = some vs ∧ vs.length = n ∧
      ∀ (i : Nat), i < n → vs[i]? = some ((slot stride i mem).take size) := by
  have e := stride_unique hst
  subst e
  have hn : n ≤ mem.length := by
    have := hst.2.1
    rw [hlen]; exact Nat.le_mul_of_pos_right n (by omega)
  obtain ⟨vs, h1, h2, h3⟩ := fromLoop_eq size hs mem n 0 (mem.length + 1) (by simpa using hlen) (by omega)
  refine ⟨vs, by simpa [fromKernelMem] using h1, h2, fun i hi => ?_⟩
  rw [h3 i hi, slot, List.take_take, Nat.min_eq_left hst.2.1, Nat.zero_add]

example : fromKernelMem 3 [1, 2, 3, 0, 0, 0, 0, 9, 4, 5, 6, 0, 0, 0, 0, 7]
    = some [[1, 2, 3], [4, 5, 6]] := by decide +kernel

/-- **C29 (round trip).** Decoding the buffer built from per-CPU values gives these values back. -/
theorem C29_round_trip (nrCpus size : Nat) (values : List Bytes) (hs : 0 < size)
    (hn : values.length = nrCpus) (hv : ∀ v ∈ values, v.length = size) :
    ∃ mem, buildKernelMem nrCpus size values = some mem ∧ fromKernelMem size mem = some values := by
  obtain ⟨mem, stride, h1, h2, h3, h4⟩ := C29_layout nrCpus size values hn hv
  obtain ⟨vs, g1, g2, g3⟩ := C29_read nrCpus size stride hs h2 mem h3
  refine ⟨mem, h1, ?_⟩
  rw [g1]
  congr 1
  apply List.ext_getElem?
  intro i
  by_cases hi : i < nrCpus
  · rw [g3 i hi]
    obtain ⟨v, hvi⟩ : ∃ v, values[i]? = some v :=
      ⟨values[i]'(by omega), List.getElem?_eq_getElem (by omega)⟩
    rw [hvi, h4 i v hvi]
    have hvl : v.length = size := hv v (List.mem_of_getElem? hvi)
    rw [← hvl, List.take_left]
  · rw [List.getElem?_eq_none (by omega), List.getElem?_eq_none (by omega)]

/-- **C29 (number of values).** A list of values is accepted exactly when it has one value per CPU. -/
theorem C29_one_value_per_cpu (nrCpus : Nat) (values : List Bytes) :
    perCpuValues nrCpus values = some values ↔ values.length = nrCpus := by
  unfold perCpuValues; split <;> simp_all

/-- **C29 (through the map).** Inserting per-CPU values under a key and reading the key back returns
    them, whenever the kernel accepts the write and answers the next lookup of the key with the bytes
    last written. -/
theorem C29_insert_get (k : Kernel) (m : MapData) (nrCpus size : Nat) (key : Bytes)
    (values : List Bytes) (flags flags' : Nat) (h : Hist) (hs : 0 < size)
    (hn : values.length = nrCpus) (hv : ∀ v ∈ values, v.length = size)
    (hwrite : ∀ mem, ∃ o, k h (.update m.fd (some key) mem flags) = .ok o)
    (hread : ∀ mem, k (h ++ [.update m.fd (some key) mem flags]) (.lookup m.fd (some key) flags')
      = .ok { data := mem }) :
    ∃ h', perCpuInsert k m nrCpus size key values flags h = (some (.ok ()), h') ∧
      (perCpuGet k m size key flags' h').1 = some (.ok values) := by
  obtain ⟨mem, h1, h2⟩ := C29_round_trip nrCpus size values hs hn hv
  obtain ⟨o, ho⟩ := hwrite mem
  refine ⟨h ++ [.update m.fd (some key) mem flags], ?_, ?_⟩
  · simp [perCpuInsert, h1, bpfUpdate, sys, ho]
  · simp [perCpuGet, bpfLookup, sys, hread mem, h2]

/-- A kernel that stores one value. -/
def oneSlot : Kernel := fun h c =>
  match c with
  | .lookup _ _ _ =>
      match h.getLast? with
      | some (.update _ _ v _) => .ok { data := v }
      | _ => .error 2
  | _ => .ok {}

example : (∀ mem, ∃ o, oneSlot [] (.update 7 (some [1]) mem 0) = .ok o) ∧
    (∀ mem, oneSlot ([] ++ [.update 7 (some [1]) mem 0]) (.lookup 7 (some [1]) 0) = .ok { data := mem }) :=
  ⟨fun _ => ⟨{}, rfl⟩, fun _ => rfl⟩

/-! ## C30: iteration -/

theorem bpfNextKey_ok {k : Kernel} {fd : Nat} {key : Option Bytes} {h : Hist} {o : Out}
    (hk : k h (.nextKey fd key) = .ok o) :
    bpfNextKey k fd key h = (.ok (some o.data), h ++ [.nextKey fd key]) := by
  simp [bpfNextKey, sys, hk]

theorem bpfNextKey_end {k : Kernel} {fd : Nat} {key : Option Bytes} {h : Hist}
    (hk : k h (.nextKey fd key) = .error 2) :
    bpfNextKey k fd key h = (.ok none, h ++ [.nextKey fd key]) := by
  simp [bpfNextKey, sys, hk, ENOENT]

/-- Where the iterator stands after the first `i` keys. -/
def at_ (ks : List Bytes) (i : Nat) : Option Bytes := if i = 0 then none else ks[i - 1]?

theorem keysNext_at {k : Kernel} {fd : Nat} {ks : List Bytes} (he : Enumerates k fd ks) (i : Nat)
    (hi : i ≤ ks.length) (h : Hist) :
    keysNext k fd { err := false, key := at_ ks i } h
      = (ks[i]?.map .ok, { err := false, key := ks[i]? }, h ++ [.nextKey fd (at_ ks i)]) := by
  have key : bpfNextKey k fd (at_ ks i) h = (.ok ks[i]?, h ++ [.nextKey fd (at_ ks i)]) := by
    rcases Nat.lt_or_ge i ks.length with hlt | hge
    · have hs : ks[i]? = some (ks[i]'hlt) := List.getElem?_eq_getElem hlt
      rw [hs]
      rcases Nat.eq_zero_or_pos i with rfl | hpos
      · exact bpfNextKey_ok (o := { data := ks[0] }) (by simpa [at_] using he.first h _ hs)
      · have hp : ks[i - 1]? = some (ks[i - 1]'(by omega)) := List.getElem?_eq_getElem (by omega)
        have ha : at_ ks i = some (ks[i - 1]'(by omega)) := by simp [at_, hp, show i ≠ 0 by omega]
        rw [ha]
        refine bpfNextKey_ok (o := { data := ks[i] }) ?_
        exact he.next h (i - 1) _ _ hp (by rw [show i - 1 + 1 = i by omega]; exact hs)
    · have hieq : i = ks.length := by omega
      have hn : ks[i]? = none := List.getElem?_eq_none (by omega)
      rw [hn]
      rcases Nat.eq_zero_or_pos i with h0 | hpos
      · have hk : ks = [] := List.length_eq_zero_iff.mp (by omega)
        subst h0
        exact bpfNextKey_end (by simpa [at_] using he.empty hk h)
      · have hp : ks[i - 1]? = some (ks[i - 1]'(by omega)) := List.getElem?_eq_getElem (by omega)
        have ha : at_ ks i = some (ks[i - 1]'(by omega)) := by simp [at_, hp, show i ≠ 0 by omega]
        rw [ha]
        refine bpfNextKey_end (he.last h _ ?_)
        rw [List.getLast?_eq_getElem?, ← hp, hieq]
  simp [keysNext, key]

theorem at_succ (ks : List Bytes) (i : Nat) : at_ ks (i + 1) = ks[i]? := by simp [at_]

theorem keysAll_at {k : Kernel} {fd : Nat} {ks : List Bytes} (he : Enumerates k fd ks) :
    ∀ (n i : Nat) (h : Hist) (fuel : Nat), i + n = ks.length → n < fuel →
      ∃ h', keysAll k fd fuel { err := false, key := at_ ks i } h
        = some ((ks.drop i).map .ok, {}, h') := by
  intro n
  induction n with
  | zero =>
    intro i h fuel hi hf
    obtain ⟨f, rfl⟩ : ∃ f, fuel = f + 1 := ⟨fuel - 1, by omega⟩
    have hn : ks[i]? = none := List.getElem?_eq_none (by omega)
    refine ⟨h ++ [.nextKey fd (at_ ks i)], ?_⟩
    rw [keysAll, keysNext_at he i (by omega) h, hn]
    simp [List.drop_eq_nil_of_le (show ks.length ≤ i by omega)]
  | succ n ih =>
    intro i h fuel hi hf
    obtain ⟨f, rfl⟩ : ∃ f, fuel = f + 1 := ⟨fuel - 1, by omega⟩
    have hs : ks[i]? = some (ks[i]'(by omega)) := List.getElem?_eq_getElem (by omega)
    obtain ⟨h', hh⟩ := ih (i + 1) (h ++ [.nextKey fd (at_ ks i)]) f (by omega) (by omega)
    refine ⟨h', ?_⟩
    rw [keysAll, keysNext_at he i (by omega) h]
    rw [at_succ] at hh
    simp only [hs, Option.map_some] at hh ⊢
    rw [hh, List.drop_eq_getElem_cons (show i < ks.length by omega)]
    rfl

/-- **C30 (keys).** If the kernel enumerates the keys `ks` and nothing changes, `keys()` yields each of
    them exactly once, in that order, and ends. -/
theorem C30_keys (k : Kernel) (fd : Nat) (ks : List Bytes) (he : Enumerates k fd ks) (h : Hist) :
    ∃ h' s, keysAll k fd (ks.length + 1) {} h = some (ks.map .ok, s, h') := by
  obtain ⟨h', hh⟩ := keysAll_at he ks.length 0 h (ks.length + 1) (by omega) (by omega)
  exact ⟨h', {}, by simpa [at_] using hh⟩

/-- More rounds do not change a finished `next`. -/
theorem iterNext_mono {V : Type} {k : Kernel} {fd : Nat}
    {get : Bytes → Hist → Except MapError V × Hist} :
    ∀ (f : Nat) (s : Keys) (h : Hist) r, iterNext k fd get f s h = some r →
      ∀ f', f ≤ f' → iterNext k fd get f' s h = some r := by
  intro f
  induction f with
  | zero => intro s h r hr; simp [iterNext] at hr
  | succ f ih =>
    intro s h r hr f' hf'
    obtain ⟨g, rfl⟩ : ∃ g, f' = g + 1 := ⟨f' - 1, by omega⟩
    simp only [iterNext] at hr ⊢
    generalize keysNext k fd s h = q at hr ⊢
    obtain ⟨q1, q2, q3⟩ := q
    cases q1 with
    | none => exact hr
    | some q1 =>
      cases q1 with
      | error e => exact hr
      | ok key =>
        simp only at hr ⊢
        generalize get key q3 = w at hr ⊢
        obtain ⟨w1, w2⟩ := w
        cases w1 with
        | ok v => exact hr
        | error e =>
          cases e with
          | keyNotFound => exact ih _ _ _ hr g (by omega)
          | _ => exact hr

theorem iterAll_mono {V : Type} {k : Kernel} {fd : Nat}
    {get : Bytes → Hist → Except MapError V × Hist} :
    ∀ (f : Nat) (s : Keys) (h : Hist) r, iterAll k fd get f s h = some r →
      ∀ f', f ≤ f' → iterAll k fd get f' s h = some r := by
  intro f
  induction f with
  | zero => intro s h r hr; simp [iterAll] at hr
  | succ f ih =>
    intro s h r hr f' hf'
    obtain ⟨g, rfl⟩ : ∃ g, f' = g + 1 := ⟨f' - 1, by omega⟩
    simp only [iterAll] at hr ⊢
    cases hn : iterNext k fd get (f + 1) s h with
    | none => simp [hn] at hr
    | some q =>
      rw [iterNext_mono _ _ _ _ hn (g + 1) (by omega)]
      rw [hn] at hr
      obtain ⟨q1, q2, q3⟩ := q
      cases q1 with
      | none => exact hr
      | some item =>
        simp only at hr ⊢
        cases ha : iterAll k fd get f q2 q3 with
        | none => simp [ha] at hr
        | some w => rw [ih _ _ _ ha g (by omega)]; rw [ha] at hr; exact hr

theorem iterNext_skip {k : Kernel} {m : MapData} {ks : List Bytes} (he : Enumerates k m.fd ks)
    {i : Nat} {key : Bytes} (hi : ks[i]? = some key) (h : Hist) (f : Nat)
    (hk : k (h ++ [.nextKey m.fd (at_ ks i)]) (.lookup m.fd (some key) 0) = .error 2) :
    iterNext k m.fd (fun key h => hashGet k m key 0 h) (f + 1) { err := false, key := at_ ks i } h
      = iterNext k m.fd (fun key h => hashGet k m key 0 h) f { err := false, key := at_ ks (i + 1) }
          (h ++ [.nextKey m.fd (at_ ks i)] ++ [.lookup m.fd (some key) 0]) := by
  have hlt : i < ks.length := (List.getElem?_eq_some_iff.mp hi).1
  rw [iterNext, keysNext_at he i (by omega) h, hi]
  simp [hashGet, bpfLookup, sys, hk, ENOENT, at_succ, hi]

theorem iterNext_item {k : Kernel} {m : MapData} {ks : List Bytes} (he : Enumerates k m.fd ks)
    {i : Nat} {key : Bytes} (hi : ks[i]? = some key) (h : Hist) (f : Nat) {o : Out}
    (hk : k (h ++ [.nextKey m.fd (at_ ks i)]) (.lookup m.fd (some key) 0) = .ok o) :
    iterNext k m.fd (fun key h => hashGet k m key 0 h) (f + 1) { err := false, key := at_ ks i } h
      = some (some (.ok (key, o.data)), { err := false, key := at_ ks (i + 1) },
          h ++ [.nextKey m.fd (at_ ks i)] ++ [.lookup m.fd (some key) 0]) := by
  have hlt : i < ks.length := (List.getElem?_eq_some_iff.mp hi).1
  rw [iterNext, keysNext_at he i (by omega) h, hi]
  simp [hashGet, bpfLookup, sys, hk, ENOENT, at_succ, hi]

/-- The entries seen from position `i` on, given what a lookup of each key answers at the moment it is
    made. -/
theorem iterAll_at {k : Kernel} {m : MapData} {ks : List Bytes} (he : Enumerates k m.fd ks)
    (hl : ∀ h key, key ∈ ks →
      k h (.lookup m.fd (some key) 0) = .error 2 ∨ ∃ o, k h (.lookup m.fd (some key) 0) = .ok o) :
    ∀ (n i : Nat) (h : Hist) (fuel : Nat), i + n = ks.length → n < fuel →
      ∃ (items : List (Bytes × Bytes)) (h' : Hist) (s : Keys),
        iterAll k m.fd (fun key h => hashGet k m key 0 h) fuel { err := false, key := at_ ks i } h
          = some (items.map .ok, s, h') ∧
        (items.map Prod.fst).Sublist (ks.drop i) ∧
        (∀ key v, (key, v) ∈ items →
          ∃ h0 o, h <+: h0 ∧ h0 <+: h' ∧ k h0 (.lookup m.fd (some key) 0) = .ok o ∧ o.data = v) ∧
        (∀ key, key ∈ ks.drop i →
          (∀ h0, h <+: h0 → h0 <+: h' → k h0 (.lookup m.fd (some key) 0) ≠ .error 2) →
          key ∈ items.map Prod.fst) ∧ h <+: h' := by
  intro n
  induction n with
  | zero =>
    intro i h fuel hi hf
    obtain ⟨f, rfl⟩ : ∃ f, fuel = f + 1 := ⟨fuel - 1, by omega⟩
    have hn : ks[i]? = none := List.getElem?_eq_none (by omega)
    have hd : ks.drop i = [] := List.drop_eq_nil_of_le (by omega)
    refine ⟨[], h ++ [.nextKey m.fd (at_ ks i)], {}, ?_, by simp, by simp, by simp [hd], by simp⟩
    rw [iterAll, iterNext, keysNext_at he i (by omega) h, hn]
    simp
  | succ n ih =>
    intro i h fuel hi hf
    obtain ⟨f, rfl⟩ : ∃ f, fuel = f + 1 := ⟨fuel - 1, by omega⟩
    obtain ⟨g, rfl⟩ : ∃ g, f = g + 1 := ⟨f - 1, by omega⟩
    have hlt : i < ks.length := by omega
    have hs : ks[i]? = some (ks[i]'hlt) := List.getElem?_eq_getElem hlt
    have hdrop := List.drop_eq_getElem_cons hlt
    generalize hkey : ks[i]'hlt = key at hs hdrop
    have hmem : key ∈ ks := List.mem_of_getElem? hs
    obtain ⟨items, h', s, h1, h2, h3, h4, h5⟩ :=
      ih (i + 1) (h ++ [.nextKey m.fd (at_ ks i)] ++ [.lookup m.fd (some key) 0]) (g + 1)
        (by omega) (by omega)
    have hp1 : h <+: h ++ [.nextKey m.fd (at_ ks i)] := List.prefix_append _ _
    have hp2 : h ++ [.nextKey m.fd (at_ ks i)] <+:
        h ++ [.nextKey m.fd (at_ ks i)] ++ [.lookup m.fd (some key) 0] := List.prefix_append _ _
    have hp : h <+: h' := (hp1.trans hp2).trans h5
    rcases hl (h ++ [.nextKey m.fd (at_ ks i)]) key hmem with hk | ⟨o, hk⟩
    · refine ⟨items, h', s, ?_, ?_, ?_, ?_, hp⟩
      · rw [iterAll, iterNext_skip he hs h _ hk]
        rw [iterAll] at h1
        cases hn : iterNext k m.fd (fun key h => hashGet k m key 0 h) (g + 1)
            { err := false, key := at_ ks (i + 1) }
            (h ++ [.nextKey m.fd (at_ ks i)] ++ [.lookup m.fd (some key) 0]) with
        | none => rw [hn] at h1; simp at h1
        | some q =>
          rw [hn] at h1
          obtain ⟨q1, q2, q3⟩ := q
          cases q1 with
          | none => exact h1
          | some item =>
            simp only at h1 ⊢
            cases ha : iterAll k m.fd (fun key h => hashGet k m key 0 h) g q2 q3 with
            | none => rw [ha] at h1; simp at h1
            | some w => rw [iterAll_mono _ _ _ _ ha (g + 1) (by omega)]; rw [ha] at h1; exact h1
      · rw [hdrop]; exact h2.trans (List.sublist_cons_self _ _)
      · intro key' v hm
        obtain ⟨h0, o, a, b, c, d⟩ := h3 key' v hm
        exact ⟨h0, o, (hp1.trans hp2).trans a, b, c, d⟩
      · intro key' hm hnf
        rw [hdrop] at hm
        rcases List.mem_cons.mp hm with rfl | hm
        · exact absurd hk (hnf _ hp1 (hp2.trans h5))
        · exact h4 key' hm fun h0 a b => hnf h0 ((hp1.trans hp2).trans a) b
    · refine ⟨(key, o.data) :: items, h', s, ?_, ?_, ?_, ?_, hp⟩
      · rw [iterAll, iterNext_item he hs h _ hk]
        simp only [h1, List.map_cons]
      · rw [hdrop, List.map_cons]; exact h2.cons_cons _
      · intro key' v hm
        rcases List.mem_cons.mp hm with he' | hm
        · cases he'
          exact ⟨_, o, hp1, hp2.trans h5, hk, rfl⟩
        · obtain ⟨h0, o, a, b, c, d⟩ := h3 key' v hm
          exact ⟨h0, o, (hp1.trans hp2).trans a, b, c, d⟩
      · intro key' hm hnf
        rw [hdrop] at hm
        rcases List.mem_cons.mp hm with rfl | hm
        · simp
        · have := h4 key' hm fun h0 a b => hnf h0 ((hp1.trans hp2).trans a) b
          rw [List.map_cons]; exact List.mem_cons_of_mem _ this

theorem sublist_all {α : Type} {l ks : List α} (hs : l.Sublist ks) (hn : ks.Nodup)
    (ha : ∀ x, x ∈ ks → x ∈ l) : l = ks := by
  induction hs with
  | slnil => rfl
  | cons a hs ih =>
    rw [List.nodup_cons] at hn
    exact absurd (hs.subset (ha a (by simp))) hn.1
  | cons_cons a hs ih =>
    rw [List.nodup_cons] at hn
    rw [ih hn.2 fun x hx => ?_]
    rcases List.mem_cons.mp (ha x (List.mem_cons_of_mem _ hx)) with rfl | h
    · exact absurd hx hn.1
    · exact h

/-- **C30 (unmodified map).** If the kernel enumerates the keys `ks` and holds the value `val key` for
    each, `iter()` yields every entry exactly once, in that order, and ends. -/
theorem C30_unmodified (k : Kernel) (m : MapData) (ks : List Bytes) (val : Bytes → Bytes)
    (he : Enumerates k m.fd ks)
    (hl : ∀ h key, key ∈ ks → ∃ o, k h (.lookup m.fd (some key) 0) = .ok o ∧ o.data = val key)
    (h : Hist) :
    ∃ h' s, iterAll k m.fd (fun key h => hashGet k m key 0 h) (ks.length + 1) {} h
      = some (ks.map (fun key => .ok (key, val key)), s, h') := by
  obtain ⟨items, h', s, h1, h2, h3, h4, h5⟩ :=
    iterAll_at he (fun h key hm => .inr ⟨_, (hl h key hm).choose_spec.1⟩) ks.length 0 h
      (ks.length + 1) (by omega) (by omega)
  refine ⟨h', s, ?_⟩
  have hks : items.map Prod.fst = ks := by
    refine sublist_all (by simpa using h2) he.nodup fun key hm => ?_
    refine h4 key (by simpa using hm) fun h0 _ _ => ?_
    obtain ⟨o, ho, _⟩ := hl h0 key hm
    rw [ho]; simp
  have hit : items = ks.map fun key => (key, val key) := by
    rw [← hks, List.map_map]
    refine (List.map_id items).symm.trans (List.map_congr_left fun x hx => ?_)
    obtain ⟨key, v⟩ := x
    obtain ⟨h0, o, _, _, ho, hv⟩ := h3 key v hx
    have hm : key ∈ ks := hks ▸ List.mem_map.mpr ⟨(key, v), hx, rfl⟩
    obtain ⟨o', ho', hv'⟩ := hl h0 key hm
    rw [ho] at ho'
    cases ho'
    simp [← hv, ← hv']
  have : iterAll k m.fd (fun key h => hashGet k m key 0 h) (ks.length + 1) {} h
      = some (items.map .ok, s, h') := by simpa [at_] using h1
  rw [this, hit, List.map_map]
  rfl

/-- A kernel holding the entries `es` in this order, by the way of `bpf_map_get_next_key`. -/
def listKernel (es : List (Bytes × Bytes)) : Kernel := fun _ c =>
  match c with
  | .lookup _ (some key) _ =>
      match es.lookup key with
      | some v => .ok { data := v }
      | none => .error 2
  | .nextKey _ none =>
      match es with
      | [] => .error 2
      | e :: _ => .ok { data := e.1 }
  | .nextKey _ (some key) =>
      match (es.map Prod.fst).dropWhile (· ≠ key) with
      | _ :: n :: _ => .ok { data := n }
      | _ => .error 2
  | _ => .ok {}

example : Enumerates (listKernel [([1], [10]), ([2], [20]), ([3], [30])]) 5 [[1], [2], [3]] where
  nodup := by decide
  empty := by simp
  first := by intro h key hk; simp at hk; subst hk; rfl
  next := by
    intro h i key key' h1 h2
    match i with
    | 0 => simp at h1 h2; subst h1; subst h2; rfl
    | 1 => simp at h1 h2; subst h1; subst h2; rfl
    | i + 2 => simp at h2
  last := by intro h key hk; simp at hk; subst hk; rfl

example : (iterAll (listKernel [([1], [10]), ([2], [20])]) 5
      (fun key h => hashGet (listKernel [([1], [10]), ([2], [20])]) ⟨5, 1, 1, 8⟩ key 0 h) 3 {} []).map (·.1)
    = some [.ok ([1], [10]), .ok ([2], [20])] := by decide +kernel

/-- **C30 (concurrent removals).** While entries disappear during the iteration (a lookup of a key may
    answer `ENOENT` at any moment), `iter()` still ends and yields no error: what it yields are distinct
    keys in the kernel's order, each with the value a lookup returned during the iteration, and every
    key whose lookups during the iteration never failed is among them. -/
theorem C30_removals_skipped (k : Kernel) (m : MapData) (ks : List Bytes)
    (he : Enumerates k m.fd ks)
    (hl : ∀ h key, key ∈ ks →
      k h (.lookup m.fd (some key) 0) = .error 2 ∨ ∃ o, k h (.lookup m.fd (some key) 0) = .ok o)
    (h : Hist) :
    ∃ (items : List (Bytes × Bytes)) (h' : Hist) (s : Keys),
      iterAll k m.fd (fun key h => hashGet k m key 0 h) (ks.length + 1) {} h
        = some (items.map .ok, s, h') ∧
      (items.map Prod.fst).Sublist ks ∧ (items.map Prod.fst).Nodup ∧
      (∀ key v, (key, v) ∈ items →
        ∃ h0 o, h <+: h0 ∧ h0 <+: h' ∧ k h0 (.lookup m.fd (some key) 0) = .ok o ∧ o.data = v) ∧
      (∀ key, key ∈ ks →
        (∀ h0, h <+: h0 → h0 <+: h' → k h0 (.lookup m.fd (some key) 0) ≠ .error 2) →
        ∃ v, (key, v) ∈ items) := by
  obtain ⟨items, h', s, h1, h2, h3, h4, h5⟩ :=
    iterAll_at he hl ks.length 0 h (ks.length + 1) (by omega) (by omega)
  refine ⟨items, h', s, by simpa [at_] using h1, by simpa using h2,
    (List.drop_zero (l := ks) ▸ h2).nodup he.nodup, h3, fun key hm hf => ?_⟩
  have := h4 key (by simpa using hm) hf
  obtain ⟨⟨a, b⟩, hab, rfl⟩ := List.mem_map.mp this
  exact ⟨b, hab⟩

/-- The entries of `listKernel es`, but `gone` can no longer be looked up. -/
def removedKernel (es : List (Bytes × Bytes)) (gone : Bytes) : Kernel := fun h c =>
  match c with
  | .lookup _ (some key) _ => if key = gone then .error 2 else listKernel es h c
  | _ => listKernel es h c

example : (iterAll (removedKernel [([1], [10]), ([2], [20]), ([3], [30])] [2]) 5
      (fun key h => hashGet (removedKernel [([1], [10]), ([2], [20]), ([3], [30])] [2]) ⟨5, 1, 1, 8⟩ key 0 h)
      4 {} []).map (·.1)
    = some [.ok ([1], [10]), .ok ([3], [30])] := by decide +kernel

theorem hashGet_ok {k : Kernel} {m : MapData} {key : Bytes} {flags : Nat} {h : Hist} {v : Bytes} {h' : Hist}
    (hg : hashGet k m key flags h = (.ok v, h')) :
    h' = h ++ [.lookup m.fd (some key) flags] ∧
      ∃ o, k h (.lookup m.fd (some key) flags) = .ok o ∧ o.data = v := by
  unfold hashGet bpfLookup sys at hg
  cases hk : k h (.lookup m.fd (some key) flags) with
  | ok o => simp [hk] at hg; exact ⟨hg.2.symm, o, rfl, hg.1⟩
  | error e =>
    by_cases he : e = ENOENT <;> simp [hk, he] at hg

/-- **C30 (any kernel).** Whatever the kernel and other processes do: an entry yielded by `iter()` is a key
    whose lookup has just returned exactly that value, and "key not found" is never yielded. -/
theorem C30_item_was_read (k : Kernel) (m : MapData) (fuel : Nat) (s : Keys) (h : Hist)
    (item : Except MapError (Bytes × Bytes)) (s' : Keys) (h' : Hist)
    (hr : iterNext k m.fd (fun key h => hashGet k m key 0 h) fuel s h = some (some item, s', h')) :
    item ≠ .error .keyNotFound ∧
    ∀ key v, item = .ok (key, v) →
      ∃ h0 o, h' = h0 ++ [.lookup m.fd (some key) 0] ∧ k h0 (.lookup m.fd (some key) 0) = .ok o ∧
        o.data = v ∧ s'.key = some key := by
  induction fuel generalizing s h with
  | zero => simp [iterNext] at hr
  | succ f ih =>
    simp only [iterNext] at hr
    cases hq : keysNext k m.fd s h with
    | mk q1 q23 =>
      obtain ⟨q2, q3⟩ := q23
      rw [hq] at hr
      cases q1 with
      | none => simp at hr
      | some q1 =>
        cases q1 with
        | error e =>
          simp at hr
          obtain ⟨rfl, rfl, rfl⟩ := hr
          refine ⟨?_, by simp⟩
          intro hc
          simp only [Except.error.injEq] at hc
          subst hc
          unfold keysNext at hq
          split at hq
          · simp at hq
          · split at hq
            · simp at hq
            · rename_i key _ _
              cases key <;> simp at hq
        | ok key =>
          have hkey : q2.key = some key := by
            unfold keysNext at hq
            split at hq
            · simp at hq
            · split at hq
              · simp at hq
              · rename_i key' _ _
                cases key' <;> simp at hq
                obtain ⟨rfl, rfl, _⟩ := hq; rfl
          simp only at hr
          cases hw : hashGet k m key 0 q3 with
          | mk w1 w2 =>
            rw [hw] at hr
            cases w1 with
            | ok v =>
              simp at hr
              obtain ⟨rfl, rfl, rfl⟩ := hr
              refine ⟨by simp, ?_⟩
              intro key' v' he
              cases he
              obtain ⟨a, o, b, c⟩ := hashGet_ok hw
              exact ⟨q3, o, a, b, c, hkey⟩
            | error e =>
              cases e <;> simp at hr
              case keyNotFound => exact ih _ _ hr
              all_goals
                obtain ⟨rfl, rfl, rfl⟩ := hr
                exact ⟨by simp, by simp⟩

/-- **C30 (errors of the enumeration).** When the kernel fails to advance, `iter()` yields exactly that one
    error; every later call of `next` returns `None` without making a system call. -/
theorem C30_error_ends (k : Kernel) (m : MapData) (s : Keys) (h : Hist) (e : Nat) (he : e ≠ 2)
    (hs : s.err = false) (hk : k h (.nextKey m.fd s.key) = .error e) (fuel : Nat) :
    ∃ s', iterNext k m.fd (fun key h => hashGet k m key 0 h) (fuel + 1) s h
        = some (some (.error (.syscall "bpf_map_get_next_key" e)), s', h ++ [.nextKey m.fd s.key]) ∧
      keysNext k m.fd s h
        = (some (.error (.syscall "bpf_map_get_next_key" e)), s', h ++ [.nextKey m.fd s.key]) ∧
      ∀ h' fuel', iterNext k m.fd (fun key h => hashGet k m key 0 h) (fuel' + 1) s' h'
          = some (none, s', h') ∧
        keysNext k m.fd s' h' = (none, s', h') := by
  refine ⟨{ s with err := true }, ?_, ?_, ?_⟩
  · simp [iterNext, keysNext, hs, bpfNextKey, sys, hk, ENOENT, he]
  · simp [keysNext, hs, bpfNextKey, sys, hk, ENOENT, he]
  · intro h' fuel'
    simp [iterNext, keysNext]

example : (iterAll (fun h c => if h.length < 2 then listKernel [([1], [10]), ([2], [20])] h c else .error 14) 5
      (fun key h => hashGet (fun h c => if h.length < 2 then listKernel [([1], [10]), ([2], [20])] h c
        else .error 14) ⟨5, 1, 1, 8⟩ key 0 h) 3 {} []).map (·.1)
    = some [.ok ([1], [10]), .error (.syscall "bpf_map_get_next_key" 14)] := by decide +kernel

/-- **C30 (errors reading a value).** When the lookup of a key fails with anything but "not found",
    `iter()` yields that error in the place of the entry, and goes on with the following key. -/
theorem C30_value_error_continues (k : Kernel) (m : MapData) (ks : List Bytes)
    (hen : Enumerates k m.fd ks) (i : Nat) (key : Bytes) (hi : ks[i]? = some key) (h : Hist) (e : Nat)
    (he : e ≠ 2) (s : Keys) (hs : s = { err := false, key := if i = 0 then none else ks[i - 1]? })
    (hk : k (h ++ [.nextKey m.fd s.key]) (.lookup m.fd (some key) 0) = .error e) (fuel : Nat) :
    iterNext k m.fd (fun key h => hashGet k m key 0 h) (fuel + 1) s h
      = some (some (.error (.syscall "bpf_map_lookup_elem" e)), { err := false, key := some key },
          h ++ [.nextKey m.fd s.key, .lookup m.fd (some key) 0]) := by
  have hlt : i < ks.length := (List.getElem?_eq_some_iff.mp hi).1
  have hs' : s = { err := false, key := at_ ks i } := hs
  subst hs'
  rw [iterNext, keysNext_at hen i (by omega) h, hi]
  simp only at hk
  simp [hashGet, bpfLookup, sys, hk, ENOENT, he]

/-- A kernel hash map holding `[2]` and `[1]`, in this order. Another process removes `[1]` once it has
    been read (4 calls made). The kernel's rule is that the successor of a key that is not there is the
    first key. -/
def restartKernel : Kernel := fun h c =>
  let es : List (Bytes × Bytes) := if h.length < 4 then [([2], [20]), ([1], [10])] else [([2], [20])]
  match c with
  | .nextKey _ (some key) =>
      if key ∈ es.map Prod.fst then listKernel es h c else listKernel es h (.nextKey 0 none)
  | _ => listKernel es h c

/-- **C30 (limit).** With such a kernel an entry that was neither removed nor inserted again is yielded
    twice. (C30 promises "exactly once" only for an unmodified map.) -/
theorem C30_duplicate_after_restart_violated :
    (iterAll restartKernel 5 (fun key h => hashGet restartKernel ⟨5, 1, 1, 8⟩ key 0 h) 10 {} []).map (·.1)
      = some [.ok ([2], [20]), .ok ([1], [10]), .ok ([2], [20])] := by
  decide +kernel

/-! ## C31: ring buffer sizes -/

theorem npow2From_spec (n : Nat) :
    ∀ (fuel a : Nat), ∃ b, npow2From n fuel (2 ^ a) = 2 ^ b ∧ a ≤ b ∧ (n ≤ 2 ^ (a + fuel) → n ≤ 2 ^ b) ∧
      ∀ c, a ≤ c → n ≤ 2 ^ c → b ≤ c := by
  intro fuel
  induction fuel with
  | zero => intro a; exact ⟨a, rfl, Nat.le_refl _, by simp, fun c hc _ => hc⟩
  | succ f ih =>
    intro a
    rw [npow2From]
    by_cases hle : n ≤ 2 ^ a
    · rw [if_pos hle]; exact ⟨a, rfl, Nat.le_refl _, fun _ => hle, fun c hc _ => hc⟩
    · rw [if_neg hle]
      obtain ⟨b, h1, h2, h3, h4⟩ := ih (a + 1)
      refine ⟨b, ?_, by omega, ?_, ?_⟩
      · rw [← h1, Nat.pow_succ, Nat.mul_comm]
      · intro h; exact h3 (by rw [show a + 1 + f = a + (f + 1) by omega]; exact h)
      · intro c hc hn
        rcases Nat.eq_or_lt_of_le hc with rfl | hlt
        · exact absurd hn hle
        · exact h4 c hlt hn

theorem divCeil_le {n p m : Nat} (hp : 0 < p) : divCeil n p ≤ m ↔ n ≤ p * m := by
  have hdm := Nat.div_add_mod n p
  have hlt := Nat.mod_lt n hp
  have key : n / p < m ↔ n < p * m := by
    rw [Nat.div_lt_iff_lt_mul hp, Nat.mul_comm]
  have key2 : n / p ≤ m ↔ n < p * (m + 1) := by
    rw [← Nat.lt_succ_iff, Nat.div_lt_iff_lt_mul hp, Nat.mul_comm]
  unfold divCeil
  split
  · rename_i hc
    rw [Nat.succ_le_iff, key]
    constructor
    · omega
    · intro hle
      rcases Nat.lt_or_eq_of_le hle with h | h
      · exact h
      · exfalso; rw [h, Nat.mul_mod_right] at hc; omega
  · rename_i hc
    have h0 : n % p = 0 := by omega
    rw [h0, Nat.add_zero] at hdm
    constructor
    · intro h; rw [← hdm]; exact Nat.mul_le_mul_left p h
    · intro h; rw [← hdm] at h; exact Nat.le_of_mul_le_mul_left h hp

/-- **C31.** For every page size `p > 0` and requested size `n > 0` for which some `p * 2^i` is at least
    `n` and fits 32 bits (for a power-of-two page size up to `n`: every `n ≤ 2^31`), the size used is
    the least `p * 2^i` that is at least `n`. -/
theorem C31_rounded_partial (n p : Nat) (hn : 0 < n) (hp : 0 < p)
    (hfit : ∃ i, n ≤ p * 2 ^ i ∧ p * 2 ^ i < 2 ^ 32) :
    (∃ j, adjustToPageSize n p = p * 2 ^ j) ∧ n ≤ adjustToPageSize n p ∧
      ∀ i, n ≤ p * 2 ^ i → adjustToPageSize n p ≤ p * 2 ^ i := by
  obtain ⟨i0, hi0, hi0'⟩ := hfit
  obtain ⟨b, h1, _, h3, h4⟩ := npow2From_spec (divCeil n p) 32 0
  have hb : b ≤ i0 := h4 i0 (Nat.zero_le _) ((divCeil_le hp).mpr hi0)
  have hpow : p * 2 ^ b ≤ p * 2 ^ i0 := Nat.mul_le_mul_left p (Nat.pow_le_pow_right (by omega) hb)
  have hb32 : 2 ^ b < 2 ^ 32 := Nat.lt_of_le_of_lt (Nat.le_mul_of_pos_left _ hp) (Nat.lt_of_le_of_lt hpow hi0')
  have hd : divCeil n p ≤ 2 ^ 32 := by
    have := (divCeil_le hp).mpr hi0
    have : 2 ^ i0 < 2 ^ 32 := Nat.lt_of_le_of_lt (Nat.le_mul_of_pos_left _ hp) hi0'
    omega
  have hnb : divCeil n p ≤ 2 ^ b := h3 (by simpa using hd)
  have hval : adjustToPageSize n p = p * 2 ^ b := by
    unfold adjustToPageSize nextPow2 u32
    rw [if_neg (by omega), show (1 : Nat) = 2 ^ 0 from rfl, h1, Nat.mod_eq_of_lt hb32,
      Nat.mod_eq_of_lt (by omega)]
  rw [hval]
  refine ⟨⟨b, rfl⟩, (divCeil_le hp).mp hnb, fun i hi => ?_⟩
  exact Nat.mul_le_mul_left p (Nat.pow_le_pow_right (by omega) (h4 i (Nat.zero_le _) ((divCeil_le hp).mpr hi)))

/-- The hypothesis of `C31_rounded_partial` holds for every power-of-two page size and every request up
    to 2^31. -/
theorem C31_fits (n a : Nat) (ha : a ≤ 31) (hn : n ≤ 2 ^ 31) :
    ∃ i, n ≤ 2 ^ a * 2 ^ i ∧ 2 ^ a * 2 ^ i < 2 ^ 32 := by
  refine ⟨31 - a, ?_, ?_⟩ <;> rw [← Nat.pow_add, show a + (31 - a) = 31 by omega]
  · exact hn
  · decide

example : adjustToPageSize 5000 4096 = 8192 ∧ adjustToPageSize 4096 4096 = 4096 ∧
    adjustToPageSize 1 4096 = 4096 := by decide

/-- **C31 (zero).** A requested size of 0 stays 0. -/
theorem C31_zero (p : Nat) : adjustToPageSize 0 p = 0 := rfl

/-- **C31 (failure).** Above 2^31 bytes no such size fits 32 bits, and instead of an error the size
    becomes 0 (a debug build panics). -/
theorem C31_overflow_violated : adjustToPageSize (2 ^ 31 + 1) 4096 = 0 := by decide

/-- **C31 (use).** The number of entries a ring buffer map is created with is the requested number (the
    user's if given, else the one in the object) after rounding. -/
theorem C31_ringbuf_size (user : Option Nat) (current : Nat) (cpus : Option Nat) (p : Nat) :
    (maxEntriesOverride RINGBUF user current cpus p).map (·.getD current)
      = some (adjustToPageSize (user.getD current) p) := by
  unfold maxEntriesOverride
  rw [if_neg (by simp [RINGBUF, PERF_EVENT_ARRAY]), if_pos rfl]
  by_cases h : adjustToPageSize (user.getD current) p = user.getD current
  · rw [h]
    cases user <;> simp [Option.filter]
  · simp [Option.filter, h]

/-- **C31 (other maps).** For every other map type the user's number of entries is used if given, else the
    object's; a perf event array with 0 entries gets one per CPU. -/
theorem C31_other_sizes (ty : Nat) (user : Option Nat) (current c p : Nat) (ht : ty ≠ 27) :
    (maxEntriesOverride ty user current (some c) p).map (·.getD current)
      = some (if ty = 4 ∧ user.getD current = 0 then c else user.getD current) := by
  unfold maxEntriesOverride
  by_cases h : ty = PERF_EVENT_ARRAY ∧ user.getD current = 0
  · have h' : ty = 4 ∧ user.getD current = 0 := h
    simp [h, h']
    intro hh; exact absurd rfl hh
  · have h' : ¬ (ty = 4 ∧ user.getD current = 0) := h
    have ht' : ty ≠ RINGBUF := ht
    simp only [if_neg h, if_neg h', if_neg ht', Option.map_some]

/-! ## C32: bounds -/

/-- **C32 (out of range).** Every operation of every map indexed by numbers, on an index at or beyond the
    map's size, returns "out of bounds" and makes no system call. -/
theorem C32_out_of_bounds (k : Kernel) (m : MapData) (op : IndexedOp) (index : Nat) (h : Hist)
    (hi : m.maxEntries ≤ index) :
    runIndexed k m op index h = (.error (.outOfBounds index m.maxEntries), h) := by
  have hc : checkBounds m index = .error (.outOfBounds index m.maxEntries) := by
    simp [checkBounds, hi]
  cases op <;> simp [runIndexed, arrayGet, arraySet, fdSet, clearIndex, chainGet, chainSet, hc, Except.map]

/-- **C32 (in range).** Below the map's size, the operation makes exactly one system call: the one named by
    `indexedCall`, with exactly that index, value and flags. It returns the decoded answer, "not found"
    when a read is answered `ENOENT`, and the kernel's error otherwise. Storing a chained program on a
    kernel without support is refused without a system call. -/
theorem C32_in_bounds (k : Kernel) (m : MapData) (op : IndexedOp) (index : Nat) (h : Hist)
    (hi : index < m.maxEntries) :
    (∀ c, indexedCall m.fd index op = some c →
      (runIndexed k m op index h).2 = h ++ [c] ∧
      (∀ o, k h c = .ok o → (runIndexed k m op index h).1 = .ok (indexedOk o op)) ∧
      (∀ e, k h c = .error e →
        (isGet op = true ∧ e = 2 ∧ (runIndexed k m op index h).1 = .error .keyNotFound) ∨
        (¬ (isGet op = true ∧ e = 2) ∧
          ∃ name, (runIndexed k m op index h).1 = .error (.syscall name e)))) ∧
    (indexedCall m.fd index op = none →
      runIndexed k m op index h = (.error .chainedProgramNotSupported, h)) := by
  have hc : checkBounds m index = .ok () := by simp [checkBounds]; omega
  have hget : ∀ (key : Bytes) (fl : Nat) (c : Call), c = .lookup m.fd (some key) fl →
      bpfLookup k m.fd (some key) fl h =
        (match k h c with
          | .ok o => .ok (some o.data)
          | .error e => if e = 2 then .ok none else .error e, h ++ [c]) := by
    intro key fl c hcc
    subst hcc
    unfold bpfLookup sys ENOENT
    cases k h (.lookup m.fd (some key) fl) with
    | ok o => rfl
    | error e => by_cases he : e = 2 <;> simp [he]
  constructor
  · intro c hcall
    cases op with
    | arrayGet fl =>
      simp only [indexedCall, Option.some.injEq] at hcall
      have hl := hget (le 4 index) fl c hcall.symm
      cases hk : k h c with
      | ok o =>
        simp [runIndexed, arrayGet, hc, hashGet, idx, hl, hk, Except.map, indexedOk]
      | error e =>
        by_cases he : e = 2 <;>
          simp [runIndexed, arrayGet, hc, hashGet, idx, hl, hk, he, Except.map, isGet]
    | arraySet v fl =>
      simp only [indexedCall, Option.some.injEq] at hcall
      subst hcall
      cases hk : k h (.update m.fd (some (le 4 index)) v fl) with
      | ok o => simp [runIndexed, arraySet, hc, hashInsert, bpfUpdate, sys, idx, hk, Except.map, indexedOk]
      | error e => simp [runIndexed, arraySet, hc, hashInsert, bpfUpdate, sys, idx, hk, Except.map, isGet]
    | fdSet f fl =>
      simp only [indexedCall, Option.some.injEq] at hcall
      subst hcall
      cases hk : k h (.update m.fd (some (le 4 index)) (le 4 f) fl) with
      | ok o => simp [runIndexed, fdSet, hc, hashInsert, bpfUpdate, sys, idx, hk, Except.map, indexedOk]
      | error e => simp [runIndexed, fdSet, hc, hashInsert, bpfUpdate, sys, idx, hk, Except.map, isGet]
    | clear =>
      simp only [indexedCall, Option.some.injEq] at hcall
      subst hcall
      cases hk : k h (.delete m.fd (le 4 index)) with
      | ok o => simp [runIndexed, clearIndex, hc, hashRemove, bpfDelete, sys, idx, hk, Except.map, indexedOk]
      | error e => simp [runIndexed, clearIndex, hc, hashRemove, bpfDelete, sys, idx, hk, Except.map, isGet]
    | chainGet p fl =>
      simp only [indexedCall, Option.some.injEq] at hcall
      have hl := hget (le 4 index) fl c hcall.symm
      cases hk : k h c with
      | ok o =>
        cases p <;>
        simp [runIndexed, chainGet, hc, idx, hl, hk, Except.map, indexedOk, nonZero]
      | error e =>
        by_cases he : e = 2 <;>
          simp [runIndexed, chainGet, hc, idx, hl, hk, he, Except.map, isGet]
    | chainSet p t prog fl =>
      cases p with
      | true =>
        simp only [indexedCall, Option.some.injEq] at hcall
        subst hcall
        cases hk : k h (.update m.fd (some (le 4 index)) (le 4 t ++ le 4 (prog.getD 0)) fl) with
        | ok o => simp [runIndexed, chainSet, hc, hashInsert, bpfUpdate, sys, idx, hk, Except.map, indexedOk]
        | error e => simp [runIndexed, chainSet, hc, hashInsert, bpfUpdate, sys, idx, hk, Except.map, isGet]
      | false =>
        cases prog with
        | some x => simp [indexedCall] at hcall
        | none =>
          simp only [indexedCall, Option.some.injEq] at hcall
          subst hcall
          cases hk : k h (.update m.fd (some (le 4 index)) (le 4 t) fl) with
          | ok o => simp [runIndexed, chainSet, hc, hashInsert, bpfUpdate, sys, idx, hk, Except.map, indexedOk]
          | error e => simp [runIndexed, chainSet, hc, hashInsert, bpfUpdate, sys, idx, hk, Except.map, isGet]
  · intro hcall
    cases op with
    | chainSet p t prog fl =>
      cases p with
      | true => simp [indexedCall] at hcall
      | false =>
        cases prog with
        | none => simp [indexedCall] at hcall
        | some x => simp [runIndexed, chainSet, hc, Except.map]
    | _ => simp [indexedCall] at hcall

example : runIndexed (fun _ _ => .ok { data := [7, 0, 0, 0, 9, 0, 0, 0] }) ⟨3, 4, 8, 4⟩ (.chainGet true 0) 3 []
    = (.ok (.chain 7 (some 9)), [.lookup 3 (some [3, 0, 0, 0]) 0]) := by decide +kernel

theorem arrayContents_append (fd : Nat) (h : Hist) (c : Call) :
    ∀ (init : Nat → Bytes) (i : Nat), arrayContents fd init (h ++ [c]) i
      = arrayContents fd (arrayContents fd init h) [c] i := by
  induction h with
  | nil => intro init i; rfl
  | cons d h ih =>
    intro init i
    cases d with
    | update f key v fl =>
      cases key with
      | none => simp only [List.cons_append, arrayContents]; exact ih _ _
      | some key =>
        by_cases hf : f = fd
        · subst hf
          simp only [List.cons_append]
          rw [arrayContents, if_pos rfl, ih]
          congr 1
          funext j
          rw [arrayContents, if_pos rfl]
        · simp only [List.cons_append]
          rw [arrayContents, if_neg hf, ih]
          congr 1
          funext j
          rw [arrayContents, if_neg hf]
    | _ => simp only [List.cons_append, arrayContents]; exact ih _ _

theorem le4_inj {i j : Nat} (hi : i < 2 ^ 32) (hj : j < 2 ^ 32) (h : le 4 i = le 4 j) : i = j := by
  have h1 := ofLe_le_of_lt 4 i (by simpa using hi)
  have h2 := ofLe_le_of_lt 4 j (by simpa using hj)
  rw [← h1, ← h2, h]

/-- **C32 (reads see writes).** On a kernel array nobody else writes to, for all indexes below the size:
    after `set i v`, `get i` returns `v` and `get j` for every other `j` returns what it returned
    before. -/
theorem C32_set_then_get (k : Kernel) (m : MapData) (init : Nat → Bytes) (hm : m.maxEntries < 2 ^ 32)
    (ha : IsArray k m.fd m.maxEntries init) (i : Nat) (v : Bytes) (fl fl' : Nat) (h : Hist)
    (hi : i < m.maxEntries) :
    (arraySet k m i v fl h).1 = .ok () ∧
    (arrayGet k m i fl' (arraySet k m i v fl h).2).1 = .ok v ∧
    ∀ j, j < m.maxEntries → j ≠ i →
      (arrayGet k m j fl' (arraySet k m i v fl h).2).1 = (arrayGet k m j fl' h).1 := by
  have hcb : ∀ j, j < m.maxEntries → checkBounds m j = .ok () := by
    intro j hj; simp [checkBounds]; omega
  obtain ⟨o, ho⟩ := ha.2 h i v fl hi
  have hset : arraySet k m i v fl h = (.ok (), h ++ [.update m.fd (some (le 4 i)) v fl]) := by
    simp [arraySet, hcb i hi, hashInsert, bpfUpdate, sys, idx, ho]
  have hget : ∀ j h, j < m.maxEntries → (arrayGet k m j fl' h).1 = .ok (arrayContents m.fd init h j) := by
    intro j h hj
    simp [arrayGet, hcb j hj, hashGet, bpfLookup, sys, idx, ha.1 h j fl' hj]
  rw [hset]
  refine ⟨rfl, ?_, ?_⟩
  · rw [hget i _ hi, arrayContents_append]
    simp [arrayContents]
  · intro j hj hne
    rw [hget j _ hj, hget j _ hj, arrayContents_append]
    have : le 4 i ≠ le 4 j := fun hh => hne (le4_inj (by omega) (by omega) hh).symm
    simp [arrayContents, this]

example : IsArray (fun h c =>
    match c with
    | .lookup _ (some key) _ => .ok { data := arrayContents 3 (fun _ => [0]) h (ofLe key) }
    | _ => .ok {}) 3 100 (fun _ => [0]) := by
  refine ⟨fun h i fl hi => ?_, fun h i v fl hi => ⟨{}, rfl⟩⟩
  simp only [ofLe_le_of_lt 4 i (by omega)]

theorem arrayIterFrom_spec (k : Kernel) (m : MapData) :
    ∀ (n i : Nat) (h : Hist), i + n = m.maxEntries →
      (arrayIterFrom k m n i h).1.length = n ∧
      (arrayIterFrom k m n i h).2 =
        h ++ (List.range n).map (fun j => .lookup m.fd (some (le 4 (i + j))) 0) := by
  intro n
  induction n with
  | zero => intro i h _; simp [arrayIterFrom]
  | succ n ih =>
    intro i h hi
    have hcb : checkBounds m i = .ok () := by simp [checkBounds]; omega
    have hh : (arrayGet k m i 0 h).2 = h ++ [.lookup m.fd (some (le 4 i)) 0] := by
      simp only [arrayGet, hcb, hashGet, bpfLookup, sys, idx]
      cases k h (.lookup m.fd (some (le 4 i)) 0) with
      | ok o => rfl
      | error e => by_cases he : e = ENOENT <;> simp [he]
    obtain ⟨h1, h2⟩ := ih (i + 1) (arrayGet k m i 0 h).2 (by omega)
    simp only [arrayIterFrom]
    refine ⟨by simp [h1], ?_⟩
    rw [h2, hh, List.range_succ_eq_map]
    simp [Function.comp_def]
    intro a _
    congr 1
    omega

/-- **C32 (iteration).** Iterating an array makes one lookup per element, of each index below the size in
    order, and yields that many items, whatever the kernel answers. -/
theorem C32_iter (k : Kernel) (m : MapData) (h : Hist) :
    (arrayIter k m h).1.length = m.maxEntries ∧
    (arrayIter k m h).2 = h ++ (List.range m.maxEntries).map (fun i => .lookup m.fd (some (le 4 i)) 0) := by
  have := arrayIterFrom_spec k m m.maxEntries 0 h (by omega)
  simpa [arrayIter] using this

/-! ## C33: initial contents -/

theorem le4_zero : le 4 0 = [0, 0, 0, 0] := by decide

/-- **C33.** Preparing a map with initial bytes makes system calls from the list "write the bytes under key
    0 (if there are any), then freeze (if read-only)", in this order and from its start. It succeeds
    exactly when all of them were made and succeeded; otherwise it stops at the first failing call and
    returns its error. -/
theorem C33_fill_then_freeze (k : Kernel) (fd : Nat) (data : Bytes) (ro : Bool) (h : Hist) :
    let calls := initCalls fd data ro
    ((finalize k fd data ro h).1 = .ok () ∧ (finalize k fd data ro h).2 = h ++ calls ∧
      ∀ (i : Nat) c, calls[i]? = some c → ∃ o, k (h ++ calls.take i) c = .ok o) ∨
    (∃ (i : Nat) (c : Call) (e : Nat) (name : String), calls[i]? = some c ∧
      (∀ (j : Nat) c', j < i → calls[j]? = some c' → ∃ o, k (h ++ calls.take j) c' = .ok o) ∧
      k (h ++ calls.take i) c = .error e ∧
      finalize k fd data ro h = (.error (.syscall name e), h ++ calls.take (i + 1))) := by
  intro calls
  cases data with
  | nil =>
    cases ro with
    | false =>
      left
      simp [finalize, calls, initCalls]
    | true =>
      cases hk : k h (.freeze fd) with
      | ok o =>
        left
        refine ⟨by simp [finalize, sys, hk], by simp [finalize, sys, hk, calls, initCalls], ?_⟩
        intro i c hc
        match i with
        | 0 => simp [calls, initCalls] at hc; subst hc; exact ⟨o, by simpa using hk⟩
        | i + 1 => simp [calls, initCalls] at hc
      | error e =>
        right
        refine ⟨0, .freeze fd, e, "bpf_map_freeze", by simp [calls, initCalls], by simp, by simpa using hk, ?_⟩
        simp [finalize, sys, hk, calls, initCalls]
  | cons b bs =>
    cases hk : k h (.update fd (some [0, 0, 0, 0]) (b :: bs) 0) with
    | error e =>
      right
      refine ⟨0, .update fd (some [0, 0, 0, 0]) (b :: bs) 0, e, "bpf_map_update_elem",
        by simp [calls, initCalls], by simp, by simpa using hk, ?_⟩
      simp [finalize, bpfUpdate, sys, le4_zero, hk, calls, initCalls]
    | ok o =>
      cases ro with
      | false =>
        left
        refine ⟨by simp [finalize, bpfUpdate, sys, le4_zero, hk],
          by simp [finalize, bpfUpdate, sys, le4_zero, hk, calls, initCalls], ?_⟩
        intro i c hc
        match i with
        | 0 => simp [calls, initCalls] at hc; subst hc; exact ⟨o, by simpa using hk⟩
        | i + 1 => simp [calls, initCalls] at hc
      | true =>
        cases hf : k (h ++ [.update fd (some [0, 0, 0, 0]) (b :: bs) 0]) (.freeze fd) with
        | ok o' =>
          left
          refine ⟨by simp [finalize, bpfUpdate, sys, le4_zero, hk, hf],
            by simp [finalize, bpfUpdate, sys, le4_zero, hk, hf, calls, initCalls], ?_⟩
          intro i c hc
          match i with
          | 0 => simp [calls, initCalls] at hc; subst hc; exact ⟨o, by simpa using hk⟩
          | 1 =>
            simp [calls, initCalls] at hc; subst hc
            exact ⟨o', by simpa [calls, initCalls] using hf⟩
          | i + 2 => simp [calls, initCalls] at hc
        | error e =>
          right
          refine ⟨1, .freeze fd, e, "bpf_map_freeze", by simp [calls, initCalls], ?_, ?_, ?_⟩
          · intro j c' hj hc
            have : j = 0 := by omega
            subst this
            simp [calls, initCalls] at hc; subst hc; exact ⟨o, by simpa using hk⟩
          · simpa [calls, initCalls] using hf
          · simp [finalize, bpfUpdate, sys, le4_zero, hk, hf, calls, initCalls]

example : finalize (fun _ _ => .ok {}) 4 [1, 2] true []
    = (.ok (), [.update 4 (some [0, 0, 0, 0]) [1, 2] 0, .freeze 4]) := by decide +kernel

/-! ## C37: ids of kernel objects -/

/-- **C37 (end).** An exhausted enumeration returns nothing more and makes no system call. -/
theorem C37_fused (k : Kernel) (cmd : Nat) (h : Hist) : idsNext k cmd none h = (none, none, h) := rfl

/-- **C37 (any kernel).** Whatever the kernel answers, a finished enumeration consists of ids followed by at
    most one error, and is exhausted. -/
theorem C37_error_last (k : Kernel) (cmd : Nat) :
    ∀ (fuel : Nat) (cur : Option Nat) (h : Hist) items cur' h',
      idsAll k cmd fuel cur h = some (items, cur', h') →
      cur' = none ∧ ∃ ids : List Nat, items = ids.map .ok ∨ ∃ e, items = ids.map .ok ++ [.error e] := by
  intro fuel
  induction fuel with
  | zero => intro cur h items cur' h' hr; simp [idsAll] at hr
  | succ f ih =>
    intro cur h items cur' h' hr
    cases cur with
    | none =>
      simp [idsAll, idsNext] at hr
      obtain ⟨rfl, rfl, rfl⟩ := hr
      exact ⟨rfl, [], .inl rfl⟩
    | some id =>
      simp only [idsAll, idsNext, objNextId, sys] at hr
      cases hk : k h (.nextId cmd id) with
      | ok o =>
        simp only [hk] at hr
        cases ha : idsAll k cmd f (some o.num) (h ++ [.nextId cmd id]) with
        | none => simp [ha] at hr
        | some r =>
          obtain ⟨is, c, hh⟩ := r
          simp [ha] at hr
          obtain ⟨rfl, rfl, rfl⟩ := hr
          obtain ⟨h1, ids, h2⟩ := ih _ _ _ _ _ ha
          refine ⟨h1, o.num :: ids, ?_⟩
          rcases h2 with h2 | ⟨e, h2⟩
          · exact .inl (by simp [h2])
          · exact .inr ⟨e, by simp [h2]⟩
      | error e =>
        by_cases he : e = ENOENT
        · simp [hk, he] at hr
          obtain ⟨rfl, rfl, rfl⟩ := hr
          exact ⟨rfl, [], .inl rfl⟩
        · simp only [hk, if_neg he] at hr
          cases f with
          | zero => simp [idsAll] at hr
          | succ f =>
            simp [idsAll, idsNext] at hr
            obtain ⟨rfl, rfl, rfl⟩ := hr
            exact ⟨rfl, [], .inr ⟨e, by simp⟩⟩

theorem idsAll_live {k : Kernel} {cmd : Nat} {live : Hist → Nat → Prop} (hl : LiveIds k cmd live) :
    ∀ (n start : Nat) (h : Hist), 2 ^ 32 - start ≤ n →
      ∃ (ids : List Nat) (h' : Hist), idsAll k cmd (n + 1) (some start) h = some (ids.map .ok, none, h') ∧
        h <+: h' ∧ ids.Pairwise (· < ·) ∧ (∀ id ∈ ids, start < id) ∧
        (∀ id ∈ ids, ∃ h0, h <+: h0 ∧ h0 <+: h' ∧ live h0 id) ∧
        (∀ id, start < id → (∀ h0, h <+: h0 → h0 <+: h' → live h0 id) → id ∈ ids) := by
  intro n
  induction n with
  | zero =>
    intro start h hn
    cases hk : k h (.nextId cmd start) with
    | ok o =>
      obtain ⟨a, b, _⟩ := hl.found h start o hk
      have := hl.bound h _ a
      omega
    | error e =>
      obtain ⟨rfl, hd⟩ := hl.done h start e hk
      refine ⟨[], h ++ [.nextId cmd start], ?_, by simp, by simp, by simp, by simp, ?_⟩
      · simp [idsAll, idsNext, objNextId, sys, hk, ENOENT]
      · intro id hs hlv
        exact absurd (hlv h (List.prefix_refl _) (List.prefix_append _ _)) (hd id hs)
  | succ n ih =>
    intro start h hn
    cases hk : k h (.nextId cmd start) with
    | ok o =>
      obtain ⟨a, b, c⟩ := hl.found h start o hk
      obtain ⟨ids, h', h1, h2, h3, h4, h5, h6⟩ := ih o.num (h ++ [.nextId cmd start]) (by omega)
      have hp : h <+: h ++ [.nextId cmd start] := List.prefix_append _ _
      refine ⟨o.num :: ids, h', ?_, hp.trans h2, ?_, ?_, ?_, ?_⟩
      · rw [idsAll]
        simp [idsNext, objNextId, sys, hk, h1]
      · exact List.pairwise_cons.mpr ⟨fun id hid => h4 id hid, h3⟩
      · intro id hid
        rcases List.mem_cons.mp hid with rfl | hid
        · exact b
        · have := h4 id hid; omega
      · intro id hid
        rcases List.mem_cons.mp hid with rfl | hid
        · exact ⟨h, List.prefix_refl _, hp.trans h2, a⟩
        · obtain ⟨h0, x, y, z⟩ := h5 id hid
          exact ⟨h0, hp.trans x, y, z⟩
      · intro id hs hlv
        by_cases hlt : id < o.num
        · exact absurd (hlv h (List.prefix_refl _) (hp.trans h2)) (c id hs hlt)
        · rcases Nat.eq_or_lt_of_le (Nat.le_of_not_lt hlt) with he | hgt
          · simp [he]
          · exact List.mem_cons_of_mem _ (h6 id hgt fun h0 x y => hlv h0 (hp.trans x) y)
    | error e =>
      obtain ⟨rfl, hd⟩ := hl.done h start e hk
      refine ⟨[], h ++ [.nextId cmd start], ?_, by simp, by simp, by simp, by simp, ?_⟩
      · simp [idsAll, idsNext, objNextId, sys, hk, ENOENT]
      · intro id hs hlv
        exact absurd (hlv h (List.prefix_refl _) (List.prefix_append _ _)) (hd id hs)

/-- **C37.** While objects come and go, enumerating ids ends and yields strictly increasing ids (so each at
    most once), each of which was in use at some moment of the enumeration; every id above 0 that was in
    use throughout is among them. -/
theorem C37_enumeration (k : Kernel) (cmd : Nat) (live : Hist → Nat → Prop) (hl : LiveIds k cmd live)
    (h : Hist) :
    ∃ (ids : List Nat) (h' : Hist), idsAll k cmd (2 ^ 32 + 1) (some 0) h = some (ids.map .ok, none, h') ∧
      ids.Pairwise (· < ·) ∧
      (∀ id ∈ ids, ∃ h0, h <+: h0 ∧ h0 <+: h' ∧ live h0 id) ∧
      (∀ id, 0 < id → (∀ h0, h <+: h0 → h0 <+: h' → live h0 id) → id ∈ ids) := by
  obtain ⟨ids, h', h1, _, h3, _, h5, h6⟩ := idsAll_live hl (2 ^ 32) 0 h (by omega)
  exact ⟨ids, h', h1, h3, h5, h6⟩

/-- **C37 (unchanging set).** If the set of ids in use does not change, exactly the ids in use above 0 are
    yielded. -/
theorem C37_exact (k : Kernel) (cmd : Nat) (live : Nat → Prop) (hl : LiveIds k cmd fun _ => live)
    (h : Hist) :
    ∃ (ids : List Nat) (h' : Hist), idsAll k cmd (2 ^ 32 + 1) (some 0) h = some (ids.map .ok, none, h') ∧
      ids.Pairwise (· < ·) ∧ ∀ id, 0 < id → (id ∈ ids ↔ live id) := by
  obtain ⟨ids, h', h1, h3, h5, h6⟩ := C37_enumeration k cmd _ hl h
  refine ⟨ids, h', h1, h3, fun id hid => ⟨fun hm => ?_, fun hm => h6 id hid fun _ _ _ => hm⟩⟩
  obtain ⟨_, _, _, hh⟩ := h5 id hm
  exact hh

/-- A kernel with objects 3 and 8. -/
def idKernel : Kernel := fun _ c =>
  match c with
  | .nextId _ s => if s < 3 then .ok { num := 3 } else if s < 8 then .ok { num := 8 } else .error 2
  | _ => .ok {}

example : LiveIds idKernel 11 (fun _ id => id = 3 ∨ id = 8) where
  found := by
    intro h s o ho
    simp only [idKernel] at ho
    split at ho
    · cases ho; refine ⟨.inl rfl, by simpa, ?_⟩; intro j _ hj; simp only at hj; omega
    · split at ho
      · cases ho; refine ⟨.inr rfl, by simpa, ?_⟩; intro j _ hj; simp only at hj; omega
      · cases ho
  done := by
    intro h s e he
    simp only [idKernel] at he
    split at he
    · cases he
    · split at he
      · cases he
      · cases he; exact ⟨rfl, fun j hj => by omega⟩
  bound := by intro h j hj; omega

example : (idsAll idKernel 11 5 (some 0) []).map (·.1) = some [.ok 3, .ok 8] := by decide +kernel

end Verif.Maps
