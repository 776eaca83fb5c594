import Verif.Ebpf.RingSpec
import Verif.RingBuf.Props
import Verif.Common.Except
/-!
# What programs output to a ring buffer is what the process reads (C83)
-/
set_option linter.unusedSimpArgs false
set_option linter.unusedVariables false
namespace Verif.Ebpf.Ring
open Verif.RingBuf
open Verif.Ebpf.Ring.Spec (Output Fate after outputs Shows Each submitted start)

/-! ## Reachability -/

theorem run_append (size : Nat) (l₁ l₂ : List Act) : ∀ (s : Sys), run size s (l₁ ++ l₂) = (run size s l₁).bind (fun s => run size s l₂) := by
  induction l₁ with
  | nil => intro s; rfl
  | cons a l ih =>
    intro s
    simp only [List.cons_append, run]
    cases step size s a with
    | none => rfl
    | some s' => simp only [Option.bind_some]; exact ih s'

theorem reach_step {size : Nat} {s s' : Sys} {a : Act} (h : RingBuf.Spec.Reachable size s) (hs : step size s a = some s') :
    RingBuf.Spec.Reachable size s' := by
  obtain ⟨mem, base, sched, hb, hr⟩ := h
  refine ⟨mem, base, sched ++ [a], hb, ?_⟩
  rw [run_append, hr]
  simp [run, hs]

theorem cstep_recs {size : Nat} {s s' : Sys} {a : CAct} (h : cstep size s a = some s') : s'.recs = s.recs := by
  cases a <;> simp only [cstep] at h
  case readHdr =>
    split at h
    · split at h
      · split at h <;> (cases h; rfl)
      · cases h; rfl
      · cases h; rfl
      · cases h; rfl
    · cases h
  case daLoad =>
    split at h
    · split at h <;> (cases h; rfl)
    · cases h
  case drop =>
    split at h
    · cases h; rfl
    · cases h
  all_goals
    split at h
    · cases h; rfl
    · cases h

/-! ## The pointer of a reserved record -/

theorem start_inj {m : Nat} {k : Nat} {s : Sys} (h : Inv (2 ^ m) k s) {i j : Nat} {a b : Rec}
    (ha : s.recs[i]? = some a) (hb : s.recs[j]? = some b) (hab : a.start = b.start) : i = j := by
  rcases Nat.lt_trichotomy i j with hlt | heq | hgt
  · have := chain_lt h.chain i j a ha hlt
    have hbs := startAt_of s j b hb
    have := size_ge a
    omega
  · exact heq
  · have := chain_lt h.chain j i b hb hgt
    have hbs := startAt_of s i a ha
    have := size_ge b
    omega

theorem busy_range {m k : Nat} {s : Sys} (h : Inv (2 ^ m) k s) {i : Nat} {r : Rec} (hr : s.recs[i]? = some r)
    (hb : r.status = .busy) : s.consMem ≤ r.start ∧ r.start < s.consMem + 2 ^ m := by
  have hki : k ≤ i := by
    rcases Nat.lt_or_ge i k with hlt | hge
    · exact absurd hb (h.comm i r hlt hr)
    · exact hge
  have h1 := h.ge_lpos i r hr hki
  have h2 := h.cons_le
  have h3 := h.le_prod i r hr
  have h4 := h.room
  have h5 := size_ge r
  exact ⟨Nat.le_trans h2 h1, by omega⟩

theorem mod_inj {c n a b : Nat} (ha : c ≤ a) (ha' : a < c + n) (hb : c ≤ b) (hb' : b < c + n)
    (hab : (a + 8) % n = (b + 8) % n) : a = b := by
  rcases Nat.le_total a b with h | h
  · have h0 : (b + 8 - (a + 8)) % n = 0 := Nat.sub_mod_eq_zero_of_mod_eq hab.symm
    have h1 : b + 8 - (a + 8) < n := by omega
    rw [Nat.mod_eq_of_lt h1] at h0
    omega
  · have h0 : (a + 8 - (b + 8)) % n = 0 := Nat.sub_mod_eq_zero_of_mod_eq hab
    have h1 : a + 8 - (b + 8) < n := by omega
    rw [Nat.mod_eq_of_lt h1] at h0
    omega

theorem recordOf_eq {base m k : Nat} {s : Sys} (h : Inv (2 ^ m) k s) {i : Nat} {r : Rec} (hr : s.recs[i]? = some r)
    (hb : r.status = .busy) : recordOf base (2 ^ m) s (sampleAt base (2 ^ m) r) = some i := by
  have hi : i < s.recs.length := (List.getElem?_eq_some_iff.mp hr).1
  have hri : s.recs[i] = r := (List.getElem?_eq_some_iff.mp hr).2
  unfold recordOf
  rw [List.findIdx?_eq_some_iff_getElem]
  refine ⟨hi, by simp [hri, hb], ?_⟩
  intro j hji hp
  have hj : j < s.recs.length := by omega
  simp only [Bool.and_eq_true, beq_iff_eq] at hp
  obtain ⟨hjb, hjs⟩ := hp
  have hrj : s.recs[j]? = some s.recs[j] := List.getElem?_eq_getElem hj
  have r1 := busy_range h hr hb
  have r2 := busy_range h hrj hjb
  simp only [sampleAt, kHdrSz] at hjs
  have := mod_inj r2.1 r2.2 r1.1 r1.2 (Nat.add_left_cancel hjs)
  have := start_inj h hrj hr this
  omega

/-! ## The invariant -/

/-- What the writer has written is in the record. -/
def Agree (o : Output) (r : Rec) : Prop :=
  ∀ (j : Nat) (b : UInt8), o.bytes[j]? = some (some b) → r.content[j]? = some b

/-- Record, output and holder belong together. -/
def Rel (base size : Nat) (r : Rec) (o : Output) : Slot → Prop
  | .entry e => r.status = .busy ∧ e.ptr = sampleAt base size r ∧ e.len = r.len ∧ o.fate = .open ∧ o.announced = false ∧ Agree o r
  | .copying ptr data n => r.status = .busy ∧ ptr = sampleAt base size r ∧ o.fate = .open ∧ o.announced = false ∧
      o.bytes = data.map some ∧ n ≤ data.length ∧ ∀ j : Nat, j < n → r.content[j]? = data[j]?
  | .gone => Agree o r ∧ ∃ d : Bool, o.fate = (if d then .discarded else .submitted) ∧
      r.status = (if o.announced then .done d else .pending d)

structure WInv (base size : Nat) (w : World) (os : List Output) : Prop where
  reach : RingBuf.Spec.Reachable size w.sys
  lenH : w.held.length = w.sys.recs.length
  lenO : os.length = w.sys.recs.length
  bytes : ∀ (i : Nat) (r : Rec) (o : Output), w.sys.recs[i]? = some r → os[i]? = some o → o.bytes.length = r.len
  rel : ∀ (i : Nat) (r : Rec) (o : Output) (h : Slot), w.sys.recs[i]? = some r → os[i]? = some o → w.held[i]? = some h →
    Rel base size r o h

/-- The three at an index. -/
theorem WInv.at {base size : Nat} {w : World} {os : List Output} (h : WInv base size w os) {i : Nat} {sl : Slot}
    (hs : w.held[i]? = some sl) : ∃ (r : Rec) (o : Output), w.sys.recs[i]? = some r ∧ os[i]? = some o ∧
      o.bytes.length = r.len ∧ Rel base size r o sl := by
  have hi : i < w.held.length := (List.getElem?_eq_some_iff.mp hs).1
  have h1 : i < w.sys.recs.length := h.lenH ▸ hi
  have h2 : i < os.length := h.lenO ▸ h1
  have a := List.getElem?_eq_getElem h1
  have b := List.getElem?_eq_getElem h2
  exact ⟨_, _, a, b, h.bytes i _ _ a b, h.rel i _ _ _ a b hs⟩

/-- Steps that leave the records alone. -/
theorem WInv.same {base size : Nat} {w : World} {os : List Output} (h : WInv base size w os) {s : Sys}
    (hr : RingBuf.Spec.Reachable size s) (he : s.recs = w.sys.recs) : WInv base size { w with sys := s } os := by
  refine ⟨hr, ?_, ?_, ?_, ?_⟩
  · show w.held.length = s.recs.length
    rw [he]; exact h.lenH
  · show os.length = s.recs.length
    rw [he]; exact h.lenO
  · intro i r o a b
    exact h.bytes i r o (he ▸ a) b
  · intro i r o sl a b c
    exact h.rel i r o sl (he ▸ a) b c

/-- A new record. -/
theorem WInv.grow {base size : Nat} {w : World} {os : List Output} (h : WInv base size w os) {s : Sys} {r : Rec} {o : Output}
    {sl : Slot} (hr : RingBuf.Spec.Reachable size s) (he : s.recs = w.sys.recs ++ [r]) (hb : o.bytes.length = r.len)
    (hrel : Rel base size r o sl) : WInv base size ⟨s, w.held ++ [sl]⟩ (os ++ [o]) := by
  refine ⟨hr, ?_, ?_, ?_, ?_⟩
  · simp [he, h.lenH]
  · simp [he, h.lenO]
  · intro i r' o' a b
    simp only [he] at a
    rcases Nat.lt_trichotomy i w.sys.recs.length with hlt | heq | hgt
    · rw [List.getElem?_append_left hlt] at a
      rw [List.getElem?_append_left (h.lenO ▸ hlt)] at b
      exact h.bytes i r' o' a b
    · rw [List.getElem?_append_right (by omega)] at a
      rw [List.getElem?_append_right (by have := h.lenO; omega)] at b
      rw [show i - w.sys.recs.length = 0 by omega] at a
      rw [show i - os.length = 0 by have := h.lenO; omega] at b
      cases a; cases b
      exact hb
    · rw [List.getElem?_eq_none (by simp; omega)] at a
      cases a
  · intro i r' o' sl' a b c
    simp only [he] at a
    rcases Nat.lt_trichotomy i w.sys.recs.length with hlt | heq | hgt
    · rw [List.getElem?_append_left hlt] at a
      rw [List.getElem?_append_left (h.lenO ▸ hlt)] at b
      rw [List.getElem?_append_left (h.lenH ▸ hlt)] at c
      exact h.rel i r' o' sl' a b c
    · rw [List.getElem?_append_right (by omega)] at a
      rw [List.getElem?_append_right (by have := h.lenO; omega)] at b
      rw [List.getElem?_append_right (by have := h.lenH; omega)] at c
      rw [show i - w.sys.recs.length = 0 by omega] at a
      rw [show i - os.length = 0 by have := h.lenO; omega] at b
      rw [show i - w.held.length = 0 by have := h.lenH; omega] at c
      cases a; cases b; cases c
      exact hrel
    · rw [List.getElem?_eq_none (by simp; omega)] at a
      cases a

/-- A changed record. -/
theorem WInv.change {base size : Nat} {w : World} {os os' : List Output} (h : WInv base size w os) {s : Sys} {i : Nat} {r' : Rec}
    {o : Output} {f : Output → Output} {held : List Slot} {sl : Slot}
    (hr : RingBuf.Spec.Reachable size s) (he : s.recs = w.sys.recs.set i r') (hos : os[i]? = some o)
    (hos' : os' = os.modify i f) (hh : held = w.held.set i sl)
    (hb : (f o).bytes.length = r'.len) (hrel : Rel base size r' (f o) sl) : WInv base size ⟨s, held⟩ os' := by
  subst hos'; subst hh
  refine ⟨hr, ?_, ?_, ?_, ?_⟩
  · simp [he, h.lenH]
  · simp [he, h.lenO]
  · intro j a b ha hb'
    simp only [he] at ha
    rw [List.getElem?_modify] at hb'
    by_cases hij : i = j
    · subst hij
      rw [List.getElem?_set] at ha
      simp only [if_true, if_pos rfl] at ha hb'
      split at ha
      · cases ha
        rw [hos] at hb'
        cases hb'
        exact hb
      · cases ha
    · rw [List.getElem?_set_ne hij] at ha
      simp only [if_neg hij, id_map', Option.map_eq_map, Option.map_id'] at hb'
      exact h.bytes j a b ha hb'
  · intro j a b c ha hb' hc
    simp only [he] at ha
    rw [List.getElem?_modify] at hb'
    by_cases hij : i = j
    · subst hij
      rw [List.getElem?_set] at ha hc
      simp only [if_true, if_pos rfl] at ha hb' hc
      split at ha
      · split at hc
        · cases ha; cases hc
          rw [hos] at hb'
          cases hb'
          exact hrel
        · cases hc
      · cases ha
    · rw [List.getElem?_set_ne hij] at ha hc
      simp only [if_neg hij, id_map', Option.map_eq_map, Option.map_id'] at hb'
      exact h.rel j a b c ha hb' hc

theorem kstep_write {size : Nat} {s : Sys} {i j : Nat} {b : UInt8} {r : Rec} (hr : s.recs[i]? = some r) (hb : r.status = .busy)
    (hj : j < r.len) : ∃ s', kstep size s (.write i j b) = some s' ∧
      s'.recs = s.recs.set i { r with content := r.content.set j b } := by
  simp only [kstep, hr, hb, hj, and_self, if_true]
  exact ⟨_, rfl, rfl⟩

theorem kstep_commit {size : Nat} {s : Sys} {i : Nat} {d : Bool} {r : Rec} (hr : s.recs[i]? = some r) (hb : r.status = .busy) :
    ∃ s', kstep size s (.commit i d) = some s' ∧ s'.recs = s.recs.set i { r with status := .pending d } := by
  simp only [kstep, hr, hb, if_true]
  exact ⟨_, rfl, rfl⟩

theorem store_eq {base m : Nat} {w : World} {os : List Output} (h3 : 3 ≤ m) (hm : m ≤ 30) (h : WInv base (2 ^ m) w os)
    {i off : Nat} {b : UInt8} {r : Rec} (hr : w.sys.recs[i]? = some r) (hb : r.status = .busy) (hj : off < r.len) :
    ∃ s', kStore base (2 ^ m) w.sys (sampleAt base (2 ^ m) r) off b = some s' ∧ RingBuf.Spec.Reachable (2 ^ m) s' ∧
      s'.recs = w.sys.recs.set i { r with content := r.content.set off b } := by
  obtain ⟨k, hk⟩ := reachable_inv (2 ^ m) m rfl h3 hm h.reach
  obtain ⟨s', hs, he⟩ := kstep_write (size := 2 ^ m) (b := b) hr hb hj
  refine ⟨s', ?_, reach_step (a := .k (.write i off b)) h.reach hs, he⟩
  unfold kStore
  rw [recordOf_eq hk hr hb]
  exact hs

theorem commit_eq {base m : Nat} {w : World} {os : List Output} (h3 : 3 ≤ m) (hm : m ≤ 30) (h : WInv base (2 ^ m) w os)
    {i : Nat} (d : Bool) {r : Rec} (hr : w.sys.recs[i]? = some r) (hb : r.status = .busy) :
    ∃ s', kCommit base (2 ^ m) w.sys (sampleAt base (2 ^ m) r) d = some s' ∧ RingBuf.Spec.Reachable (2 ^ m) s' ∧
      s'.recs = w.sys.recs.set i { r with status := .pending d } := by
  obtain ⟨k, hk⟩ := reachable_inv (2 ^ m) m rfl h3 hm h.reach
  obtain ⟨s', hs, he⟩ := kstep_commit (size := 2 ^ m) (d := d) hr hb
  refine ⟨s', ?_, reach_step (a := .k (.commit i d)) h.reach hs, he⟩
  unfold kCommit
  rw [recordOf_eq hk hr hb]
  exact hs

theorem reserve_cases (base size : Nat) (s : Sys) (n flags pg : Nat) (hb : 0 < base) :
    (kReserve base size s n flags pg = (0, s) ∧ (flags ≠ 0 ∨ kstep size s (.reserve n pg) = none)) ∨
    ∃ s', flags = 0 ∧ kstep size s (.reserve n pg) = some s' ∧ kReserve base size s n flags pg = (base + (s.prod + 8) % size, s') ∧
      base + (s.prod + 8) % size ≠ 0 := by
  unfold kReserve
  by_cases hf : flags = 0
  · rw [if_neg (by simp [hf])]
    cases hk : kstep size s (.reserve n pg) with
    | none => exact Or.inl ⟨rfl, Or.inr rfl⟩
    | some s' => exact Or.inr ⟨s', hf, rfl, rfl, by omega⟩
  · rw [if_pos hf]
    exact Or.inl ⟨rfl, Or.inl hf⟩

theorem kstep_reserve {size : Nat} {s s' : Sys} {n pg : Nat} (h : kstep size s (.reserve n pg) = some s') :
    ∃ c : List UInt8, c.length = n ∧ s'.recs = s.recs ++ [⟨s.prod, n, .busy, c⟩] := by
  simp only [kstep] at h
  split at h
  · cases h
    exact ⟨_, by simp [kBytes], rfl⟩
  · cases h

/-- Reserving: nothing, or a new record with its entry. -/
theorem doReserve_cases {base size : Nat} {w : World} {os : List Output} (hb : 0 < base) (h : WInv base size w os) (n flags pg : Nat) :
    (doReserve base size w n pg (.reserve n flags) = some (w, .full) ∧ (flags ≠ 0 ∨ kstep size w.sys (.reserve n pg) = none)) ∨
    ∃ w' : World, flags = 0 ∧ doReserve base size w n pg (.reserve n flags) = some (w', .reserved) ∧
      WInv base size w' (os ++ [⟨List.replicate n none, .open, false⟩]) := by
  rcases reserve_cases base size w.sys n flags pg hb with ⟨hk, hn⟩ | ⟨s', hf, hs, hk, hp⟩
  · left
    refine ⟨?_, hn⟩
    simp only [doReserve, hk, fromRaw, if_true]
  · right
    obtain ⟨c, hc, he⟩ := kstep_reserve hs
    refine ⟨⟨s', w.held ++ [.entry ⟨base + (w.sys.prod + 8) % size, n⟩]⟩, hf, ?_, ?_⟩
    · simp only [doReserve, hk, fromRaw, if_neg hp]
    · refine h.grow (reach_step (a := .k (.reserve n pg)) h.reach hs) he (by simp) ?_
      refine ⟨rfl, rfl, rfl, rfl, rfl, ?_⟩
      intro j b hj
      simp only [List.getElem?_replicate] at hj
      split at hj <;> cases hj

theorem agree_set {o : Output} {r : Rec} (hl : o.bytes.length = r.content.length) (h : Agree o r) (off : Nat) (b : UInt8) :
    Agree { o with bytes := o.bytes.set off (some b) } { r with content := r.content.set off b } := by
  intro j c hj
  simp only [List.getElem?_set] at hj ⊢
  by_cases hoj : off = j
  · rw [if_pos hoj] at hj ⊢
    split at hj
    · cases hj
      rename_i hlt
      split
      · rfl
      · rename_i hn
        exact absurd (hl ▸ hlt) hn
    · cases hj
  · rw [if_neg hoj] at hj ⊢
    exact h j c hj

theorem content_len {m : Nat} {s : Sys} (h3 : 3 ≤ m) (hm : m ≤ 30) (h : RingBuf.Spec.Reachable (2 ^ m) s) {i : Nat} {r : Rec}
    (hr : s.recs[i]? = some r) : r.content.length = r.len := by
  obtain ⟨k, hk⟩ := reachable_inv (2 ^ m) m rfl h3 hm h
  exact (hk.lens i r hr).1

theorem set_self {α : Type} {l : List α} {i : Nat} {a : α} (h : l[i]? = some a) : l.set i a = l := by
  apply List.ext_getElem?
  intro j
  rw [List.getElem?_set]
  by_cases hij : i = j
  · subst hij
    rw [if_pos rfl, if_pos (List.getElem?_eq_some_iff.mp h).1, h]
  · rw [if_neg hij]

/-- Writing a byte of an entry. -/
theorem write_entry {base m : Nat} {w : World} {os : List Output} (h3 : 3 ≤ m) (hm : m ≤ 30) (h : WInv base (2 ^ m) w os)
    {i off : Nat} {b : UInt8} {e : Entry} (he : w.held[i]? = some (.entry e)) (hoff : off < e.len) :
    ∃ w' : World, wstep base (2 ^ m) w (.write i off b) = some (w', .done) ∧
      WInv base (2 ^ m) w' (os.modify i (fun o => { o with bytes := o.bytes.set off (some b) })) := by
  obtain ⟨r, o, hr, ho, hbl, hbusy, hptr, hlen, hfate, han, hag⟩ := h.at he
  obtain ⟨s', hs, hreach, hrecs⟩ := store_eq h3 hm h (off := off) (b := b) hr hbusy (by omega)
  refine ⟨{ w with sys := s' }, ?_, ?_⟩
  · simp only [wstep, he, if_pos hoff]
    rw [hptr, hs]
    rfl
  · have hcl := content_len h3 hm h.reach hr
    refine h.change hreach hrecs ho rfl (sl := .entry e) ?_ (by simpa using hbl) ?_
    · exact (set_self he).symm
    · exact ⟨hbusy, hptr, hlen, hfate, han, agree_set (by omega) hag off b⟩

/-- Giving an entry back. -/
theorem commit_entry {base m : Nat} {w : World} {os : List Output} (h3 : 3 ≤ m) (hm : m ≤ 30) (h : WInv base (2 ^ m) w os)
    {i : Nat} {e : Entry} (he : w.held[i]? = some (.entry e)) (d : Bool) :
    ∃ s' : Sys, kCommit base (2 ^ m) w.sys e.ptr d = some s' ∧
      WInv base (2 ^ m) ⟨s', w.held.set i .gone⟩ (os.modify i (fun o => { o with fate := if d then .discarded else .submitted })) := by
  obtain ⟨r, o, hr, ho, hbl, hbusy, hptr, hlen, hfate, han, hag⟩ := h.at he
  obtain ⟨s', hs, hreach, hrecs⟩ := commit_eq h3 hm h d hr hbusy
  refine ⟨s', by rw [hptr]; exact hs, ?_⟩
  refine h.change hreach hrecs ho rfl rfl hbl ?_
  refine ⟨hag, d, rfl, ?_⟩
  simp [han]

/-- The kernel copying a byte. -/
theorem copy_step {base m : Nat} {w : World} {os : List Output} (h3 : 3 ≤ m) (hm : m ≤ 30) (h : WInv base (2 ^ m) w os)
    {i ptr n : Nat} {data : List UInt8} (he : w.held[i]? = some (.copying ptr data n)) (hn : n < data.length) :
    ∃ w' : World, wstep base (2 ^ m) w (.copy i) = some (w', .begun) ∧ WInv base (2 ^ m) w' os := by
  obtain ⟨r, o, hr, ho, hbl, hbusy, hptr, hfate, han, hbytes, hle, hcop⟩ := h.at he
  have hrl : data.length = r.len := by rw [← hbl, hbytes, List.length_map]
  obtain ⟨s', hs, hreach, hrecs⟩ := store_eq h3 hm h (off := n) (b := data[n]) hr hbusy (by omega)
  have hcl := content_len h3 hm h.reach hr
  refine ⟨⟨s', w.held.set i (.copying ptr data (n + 1))⟩, ?_, ?_⟩
  · simp only [wstep, he, List.getElem?_eq_getElem hn]
    rw [hptr, hs]
    rfl
  · refine h.change (f := id) hreach hrecs ho ?_ rfl hbl ?_
    · simp
    · refine ⟨hbusy, hptr, hfate, han, hbytes, hn, ?_⟩
      intro j hj
      simp only [List.getElem?_set]
      by_cases hnj : n = j
      · subst hnj
        rw [if_pos rfl, if_pos (by omega), List.getElem?_eq_getElem hn]
      · rw [if_neg hnj]
        exact hcop j (by omega)

/-- The kernel committing. -/
theorem finish_step {base m : Nat} {w : World} {os : List Output} (h3 : 3 ≤ m) (hm : m ≤ 30) (h : WInv base (2 ^ m) w os)
    {i ptr : Nat} {data : List UInt8} (he : w.held[i]? = some (.copying ptr data data.length)) :
    ∃ w' : World, wstep base (2 ^ m) w (.finish i) = some (w', .done) ∧
      WInv base (2 ^ m) w' (os.modify i (fun o => { o with fate := .submitted })) := by
  obtain ⟨r, o, hr, ho, hbl, hbusy, hptr, hfate, han, hbytes, hle, hcop⟩ := h.at he
  obtain ⟨s', hs, hreach, hrecs⟩ := commit_eq h3 hm h false hr hbusy
  refine ⟨⟨s', w.held.set i .gone⟩, ?_, ?_⟩
  · simp only [wstep, he, if_true]
    rw [hptr, hs]
    rfl
  · refine h.change hreach hrecs ho rfl rfl hbl ?_
    refine ⟨?_, false, rfl, by simp [han]⟩
    intro j b hj
    simp only [hbytes, List.getElem?_map] at hj
    have hjl : j < data.length := by
      rcases Nat.lt_or_ge j data.length with hlt | hge
      · exact hlt
      · rw [List.getElem?_eq_none hge] at hj; cases hj
    show r.content[j]? = some b
    rw [hcop j hjl]
    rw [List.getElem?_eq_getElem hjl] at hj ⊢
    simpa using hj

/-- A call of `output`. -/
theorem output_cases {base size : Nat} {w : World} {os : List Output} (hb : 0 < base) (h : WInv base size w os)
    (data : List UInt8) (flags pg : Nat) :
    (4 ≤ flags ∧ doOutput base size w pg (.output data flags) = some (w, .failed (-22))) ∨
    (flags < 4 ∧ kstep size w.sys (.reserve data.length pg) = none ∧
      doOutput base size w pg (.output data flags) = some (w, .failed (-11))) ∨
    ∃ w' : World, flags < 4 ∧ doOutput base size w pg (.output data flags) = some (w', .begun) ∧
      WInv base size w' (os ++ [⟨data.map some, .open, false⟩]) := by
  have e22 : outputResult (-22) = .error (-22) := by decide +kernel
  have e11 : outputResult (-11) = .error (-11) := by decide +kernel
  by_cases hf : 4 ≤ flags
  · left
    refine ⟨hf, ?_⟩
    simp only [doOutput, if_pos hf, e22]
  · right
    rcases reserve_cases base size w.sys data.length 0 pg hb with ⟨hk, hn⟩ | ⟨s', _, hs, hk, hp⟩
    · left
      refine ⟨by omega, hn.resolve_left (by simp), ?_⟩
      simp only [doOutput, if_neg hf, hk, if_true, e11]
    · right
      obtain ⟨c, hc, he⟩ := kstep_reserve hs
      refine ⟨⟨s', w.held ++ [.copying (base + (w.sys.prod + 8) % size) data 0]⟩, by omega, ?_, ?_⟩
      · simp only [doOutput, if_neg hf, hk, if_neg hp]
      · refine h.grow (reach_step (a := .k (.reserve data.length pg)) h.reach hs) he (by simp) ?_
        exact ⟨rfl, rfl, rfl, rfl, rfl, Nat.zero_le _, fun j hj => absurd hj (Nat.not_lt_zero j)⟩

/-- The kernel deciding about a notification. -/
theorem check_step {base size : Nat} {w : World} {os : List Output} (h : WInv base size w os) {i : Nat} {s' : Sys}
    (hs : kstep size w.sys (.check i) = some s') :
    WInv base size { w with sys := s' } (os.modify i (fun o => { o with announced := true })) := by
  have hreach := reach_step (a := .k (.check i)) h.reach hs
  simp only [kstep] at hs
  split at hs
  · rename_i r hr
    split at hs
    · rename_i d hst
      have hi : i < w.sys.recs.length := (List.getElem?_eq_some_iff.mp hr).1
      have hh : w.held[i]? = some (w.held[i]'(h.lenH ▸ hi)) := List.getElem?_eq_getElem (h.lenH ▸ hi)
      obtain ⟨r', o, hr', ho, hbl, hrel⟩ := h.at hh
      rw [hr] at hr'
      cases hr'
      generalize w.held[i]'(h.lenH ▸ hi) = sl at hh hrel
      have hrecs : s'.recs = w.sys.recs.set i { r with status := .done d } := by cases hs; rfl
      refine h.change hreach hrecs ho rfl (sl := sl) (set_self hh).symm hbl ?_
      cases sl with
      | entry e => rw [hrel.1] at hst; cases hst
      | copying p dt n => rw [hrel.1] at hst; cases hst
      | gone =>
        obtain ⟨hag, d', hf, hst'⟩ := hrel
        rw [hst] at hst'
        have hdd : d' = d := by
          split at hst'
          · cases hst'
          · cases hst'; rfl
        subst hdd
        exact ⟨hag, d', hf, rfl⟩
    · cases hs
  · cases hs

theorem after_other (os : List Output) (a : CAct) : after os (.reader a, .done) = os := rfl

theorem wstep_inv {base m : Nat} (hb : 0 < base) (h3 : 3 ≤ m) (hm : m ≤ 30) {w w' : World} {os : List Output} {o : Op} {r : Res}
    (h : WInv base (2 ^ m) w os) (hs : wstep base (2 ^ m) w o = some (w', r)) : WInv base (2 ^ m) w' (after os (o, r)) := by
  cases o with
  | reserve n flags pg =>
    simp only [wstep, reserveCall] at hs
    rcases doReserve_cases hb h n flags pg with ⟨he, _⟩ | ⟨w₂, _, he, hw⟩
    · rw [he] at hs; cases hs; exact h
    · rw [he] at hs; cases hs; exact hw
  | reserveT align n flags pg =>
    simp only [wstep, reserveTyped] at hs
    by_cases ha : 8 % align = 0
    · simp only [if_pos ha] at hs
      rcases doReserve_cases hb h n flags pg with ⟨he, _⟩ | ⟨w₂, _, he, hw⟩
      · rw [he] at hs; cases hs; exact h
      · rw [he] at hs; cases hs; exact hw
    · simp only [if_neg ha] at hs
      cases hs; exact h
  | write i off b =>
    cases hh : w.held[i]? with
    | none => simp only [wstep, hh] at hs; cases hs
    | some sl =>
      cases sl with
      | entry e =>
        by_cases hoff : off < e.len
        · obtain ⟨w₂, he, hw⟩ := write_entry h3 hm h (b := b) hh hoff
          rw [he] at hs; cases hs; exact hw
        · simp only [wstep, hh, if_neg hoff] at hs
          cases hs; exact h
      | copying p d n => simp only [wstep, hh] at hs; cases hs
      | gone => simp only [wstep, hh] at hs; cases hs
  | submit i flags =>
    cases hh : w.held[i]? with
    | none => simp only [wstep, hh] at hs; cases hs
    | some sl =>
      cases sl with
      | entry e =>
        obtain ⟨s', he, hw⟩ := commit_entry h3 hm h hh false
        simp only [wstep, hh, submitCall, doCommit, he, Option.map_some] at hs
        cases hs; exact hw
      | copying p d n => simp only [wstep, hh] at hs; cases hs
      | gone => simp only [wstep, hh] at hs; cases hs
  | discard i flags =>
    cases hh : w.held[i]? with
    | none => simp only [wstep, hh] at hs; cases hs
    | some sl =>
      cases sl with
      | entry e =>
        obtain ⟨s', he, hw⟩ := commit_entry h3 hm h hh true
        simp only [wstep, hh, discardCall, doCommit, he, Option.map_some] at hs
        cases hs; exact hw
      | copying p d n => simp only [wstep, hh] at hs; cases hs
      | gone => simp only [wstep, hh] at hs; cases hs
  | output align data flags pg =>
    simp only [wstep, outputCall] at hs
    by_cases ha : 8 % align = 0
    · simp only [if_pos ha] at hs
      rcases output_cases hb h data flags pg with ⟨_, he⟩ | ⟨_, _, he⟩ | ⟨w₂, _, he, hw⟩
      · rw [he] at hs; cases hs; exact h
      · rw [he] at hs; cases hs; exact h
      · rw [he] at hs; cases hs; exact hw
    · simp only [if_neg ha] at hs
      cases hs; exact h
  | copy i =>
    cases hh : w.held[i]? with
    | none => simp only [wstep, hh] at hs; cases hs
    | some sl =>
      cases sl with
      | entry e => simp only [wstep, hh] at hs; cases hs
      | copying p d n =>
        by_cases hn : n < d.length
        · obtain ⟨w₂, he, hw⟩ := copy_step h3 hm h hh hn
          rw [he] at hs; cases hs; exact hw
        · simp only [wstep, hh, List.getElem?_eq_none (Nat.le_of_not_lt hn)] at hs
          cases hs
      | gone => simp only [wstep, hh] at hs; cases hs
  | finish i =>
    cases hh : w.held[i]? with
    | none => simp only [wstep, hh] at hs; cases hs
    | some sl =>
      cases sl with
      | entry e => simp only [wstep, hh] at hs; cases hs
      | copying p d n =>
        by_cases hn : n = d.length
        · subst hn
          obtain ⟨w₂, he, hw⟩ := finish_step h3 hm h hh
          rw [he] at hs; cases hs; exact hw
        · simp only [wstep, hh, if_neg hn] at hs
          cases hs
      | gone => simp only [wstep, hh] at hs; cases hs
  | check i =>
    simp only [wstep] at hs
    cases hk : kstep (2 ^ m) w.sys (.check i) with
    | none => rw [hk] at hs; cases hs
    | some s' => rw [hk] at hs; cases hs; exact check_step h hk
  | reader a =>
    simp only [wstep] at hs
    cases hk : cstep (2 ^ m) w.sys a with
    | none => rw [hk] at hs; cases hs
    | some s' =>
      rw [hk] at hs; cases hs
      exact h.same (reach_step (a := .c a) h.reach hk) (cstep_recs hk)
  | flush =>
    simp only [wstep] at hs
    cases hk : kstep (2 ^ m) w.sys .flush with
    | none => rw [hk] at hs; cases hs
    | some s' =>
      rw [hk] at hs; cases hs
      refine h.same (reach_step (a := .k .flush) h.reach hk) ?_
      simp only [kstep] at hk
      split at hk
      · cases hk
      · cases hk; rfl
  | spurious =>
    simp only [wstep] at hs
    cases hk : kstep (2 ^ m) w.sys .spurious with
    | none => rw [hk] at hs; cases hs
    | some s' =>
      rw [hk] at hs; cases hs
      refine h.same (reach_step (a := .k .spurious) h.reach hk) ?_
      simp only [kstep] at hk
      cases hk; rfl

theorem wrun_inv {base m : Nat} (hb : 0 < base) (h3 : 3 ≤ m) (hm : m ≤ 30) (ops : List Op) :
    ∀ (w w' : World) (os : List Output) (log : List (Op × Res)), WInv base (2 ^ m) w os → wrun base (2 ^ m) w ops = some (w', log) →
      WInv base (2 ^ m) w' (log.foldl after os) := by
  induction ops with
  | nil =>
    intro w w' os log h hr
    simp only [wrun, Option.some.injEq, Prod.mk.injEq] at hr
    obtain ⟨rfl, rfl⟩ := hr
    exact h
  | cons o ops ih =>
    intro w w' os log h hr
    simp only [wrun] at hr
    cases hs : wstep base (2 ^ m) w o with
    | none => rw [hs] at hr; cases hr
    | some p =>
      obtain ⟨w₁, r⟩ := p
      rw [hs] at hr
      simp only at hr
      cases hr2 : wrun base (2 ^ m) w₁ ops with
      | none => rw [hr2] at hr; cases hr
      | some q =>
        obtain ⟨w₂, l⟩ := q
        rw [hr2] at hr
        simp only [Option.map_some, Option.some.injEq, Prod.mk.injEq] at hr
        obtain ⟨rfl, rfl⟩ := hr
        exact ih w₁ w₂ _ l (wstep_inv hb h3 hm h hs) hr2

theorem start_inv (base m : Nat) (mem : Nat → UInt8) (pos : Nat) (hp : pos % 8 = 0) : WInv base (2 ^ m) (start mem pos) [] := by
  refine ⟨⟨mem, pos, [], hp, rfl⟩, rfl, rfl, ?_, ?_⟩
  · intro i r o h; cases h
  · intro i r o sl h; cases h

theorem outputs_inv {base m : Nat} (hb : 0 < base) (h3 : 3 ≤ m) (hm : m ≤ 30) {mem : Nat → UInt8} {pos : Nat} (hp : pos % 8 = 0)
    {ops : List Op} {w : World} {log : List (Op × Res)} (h : wrun base (2 ^ m) (start mem pos) ops = some (w, log)) :
    WInv base (2 ^ m) w (outputs log) := wrun_inv hb h3 hm ops _ _ _ _ (start_inv base m mem pos hp) h

/-! ## From records to outputs -/

theorem each_of_pointwise {α β : Type} {R : α → β → Prop} : ∀ (as : List α) (bs : List β), as.length = bs.length →
    (∀ (i : Nat) (a : α) (b : β), as[i]? = some a → bs[i]? = some b → R a b) → Each R as bs
  | [], [], _, _ => .nil
  | a :: as, b :: bs, hl, h => .cons (h 0 a b rfl rfl) (each_of_pointwise as bs (by simpa using hl) fun i x y hx hy => h (i + 1) x y hx hy)
  | [], _ :: _, hl, _ => by simp at hl
  | _ :: _, [], hl, _ => by simp at hl

theorem each_samples {base size : Nat} {os : List Output} {recs : List Rec}
    (h : Each (fun (o : Output) (r : Rec) => o.bytes.length = r.content.length ∧ ∃ sl, Rel base size r o sl) os recs) :
    Each Shows (submitted os) (recs.filterMap RingBuf.Spec.sample) := by
  induction h with
  | nil => exact .nil
  | @cons o r os recs hr ht ih =>
    obtain ⟨hl, sl, hrel⟩ := hr
    have hcase : (o.fate = .submitted ∧ RingBuf.Spec.sample r = some r.content ∧ Agree o r) ∨
        (o.fate ≠ .submitted ∧ RingBuf.Spec.sample r = none) := by
      cases sl with
      | entry e =>
        obtain ⟨hbusy, _, _, hf, _⟩ := hrel
        exact Or.inr ⟨by rw [hf]; simp, by simp [RingBuf.Spec.sample, hbusy]⟩
      | copying p d n =>
        obtain ⟨hbusy, _, hf, _⟩ := hrel
        exact Or.inr ⟨by rw [hf]; simp, by simp [RingBuf.Spec.sample, hbusy]⟩
      | gone =>
        obtain ⟨hag, d, hf, hst⟩ := hrel
        cases d with
        | true =>
          refine Or.inr ⟨by rw [hf]; simp, ?_⟩
          cases ha : o.announced <;> simp [RingBuf.Spec.sample, hst, ha]
        | false =>
          refine Or.inl ⟨by rw [hf]; simp, ?_, hag⟩
          cases ha : o.announced <;> simp [RingBuf.Spec.sample, hst, ha]
    rcases hcase with ⟨hf, hsam, hag⟩ | ⟨hf, hsam⟩
    · simp only [submitted, List.filter_cons, hf, beq_self_eq_true, if_true, List.filterMap_cons, hsam]
      exact .cons ⟨hl.symm, hag⟩ ih
    · have : (o.fate == Fate.submitted) = false := by simpa using hf
      simp only [submitted, List.filter_cons, this, List.filterMap_cons, hsam]
      exact ih

theorem shows_samples {base m : Nat} (h3 : 3 ≤ m) (hm : m ≤ 30) {w : World} {os : List Output} (h : WInv base (2 ^ m) w os) (n : Nat) :
    Each Shows (submitted (os.take n)) (RingBuf.Spec.samples w.sys.recs n) := by
  refine each_samples (base := base) (size := 2 ^ m) (each_of_pointwise _ _ (by simp [h.lenO]) ?_)
  intro i o r ho hr
  rw [List.getElem?_take] at ho hr
  by_cases hi : i < n
  · rw [if_pos hi] at ho hr
    have hl : i < w.sys.recs.length := (List.getElem?_eq_some_iff.mp hr).1
    have hh : w.held[i]? = some (w.held[i]'(h.lenH ▸ hl)) := List.getElem?_eq_getElem (h.lenH ▸ hl)
    refine ⟨?_, _, h.rel i r o _ hr ho hh⟩
    rw [h.bytes i r o hr ho, content_len h3 hm h.reach hr]
  · rw [if_neg hi] at ho; cases ho

/-- The fate of an output is the state of its record. -/
theorem fate_open {base size : Nat} {r : Rec} {o : Output} {sl : Slot} (h : Rel base size r o sl) : o.fate = .open ↔ r.status = .busy := by
  cases sl with
  | entry e => exact ⟨fun _ => h.1, fun _ => h.2.2.2.1⟩
  | copying p d n => exact ⟨fun _ => h.1, fun _ => h.2.2.1⟩
  | gone =>
    obtain ⟨_, d, hf, hst⟩ := h
    constructor
    · intro ho; rw [hf] at ho; cases d <;> cases ho
    · intro hb; rw [hst] at hb; split at hb <;> cases hb

theorem WInv.getO {base size : Nat} {w : World} {os : List Output} (h : WInv base size w os) {i : Nat} {o : Output} (ho : os[i]? = some o) :
    ∃ (r : Rec) (sl : Slot), w.sys.recs[i]? = some r ∧ w.held[i]? = some sl ∧ Rel base size r o sl := by
  have hi : i < os.length := (List.getElem?_eq_some_iff.mp ho).1
  have h1 : i < w.sys.recs.length := h.lenO ▸ hi
  have a := List.getElem?_eq_getElem h1
  have c := List.getElem?_eq_getElem (h.lenH ▸ h1 : i < w.held.length)
  exact ⟨_, _, a, c, h.rel i _ _ _ a ho c⟩

theorem decided_of {base size : Nat} {w : World} {os : List Output} (h : WInv base size w os) {n : Nat}
    (hc : ∀ r ∈ w.sys.recs.take n, RingBuf.Spec.Committed r) : ∀ o ∈ os.take n, o.fate ≠ .open := by
  intro o ho hop
  obtain ⟨i, hi, hio⟩ := List.mem_iff_getElem.mp ho
  simp only [List.length_take] at hi
  rw [List.getElem_take] at hio
  have ho' : os[i]? = some o := by rw [List.getElem?_eq_getElem (by omega), hio]
  obtain ⟨r, sl, hr, _, hrel⟩ := h.getO ho'
  refine hc r ?_ ((fate_open hrel).mp hop)
  refine List.mem_iff_getElem?.mpr ⟨i, ?_⟩
  rw [List.getElem?_take, if_pos (by omega)]
  exact hr

/-! ## C83 -/

/-- **C83 (nothing else, in order).** At any moment, the process has got the submitted outputs among the first so many, all of which
are submitted or discarded: in the order of their reservation, each as long as reserved and with the bytes written. -/
theorem C83_delivered_partial (base m : Nat) (hb : 0 < base) (h3 : 3 ≤ m) (hm : m ≤ 30) (mem : Nat → UInt8) (pos : Nat) (hp : pos % 8 = 0)
    (ops : List Op) (w : World) (log : List (Op × Res)) (h : wrun base (2 ^ m) (start mem pos) ops = some (w, log)) :
    ∃ n, n ≤ (outputs log).length ∧ (∀ o ∈ (outputs log).take n, o.fate ≠ .open) ∧
      Each Shows (submitted ((outputs log).take n)) w.sys.delivered := by
  have hw := outputs_inv hb h3 hm hp h
  obtain ⟨n, hn, hc, hd⟩ := RingBuf.C01_delivered_exact_partial m h3 hm w.sys hw.reach
  refine ⟨n, hw.lenO ▸ hn, decided_of hw hc, ?_⟩
  rw [hd]
  exact shows_samples h3 hm hw n

/-- **C83 (everything).** When the process is told that there is nothing more, it has got every output that comes before the first one
still open. -/
theorem C83_drained_partial (base m : Nat) (hb : 0 < base) (h3 : 3 ≤ m) (hm : m ≤ 30) (mem : Nat → UInt8) (pos : Nat) (hp : pos % 8 = 0)
    (ops : List Op) (w w' : World) (log : List (Op × Res)) (a : CAct) (r : Res)
    (h : wrun base (2 ^ m) (start mem pos) ops = some (w, log)) (hs : wstep base (2 ^ m) w (.reader a) = some (w', r))
    (hbefore : w.sys.sleeping = false) (hnone : w'.sys.sleeping = true) :
    ∃ n, n ≤ (outputs log).length ∧ Each Shows (submitted ((outputs log).take n)) w'.sys.delivered ∧
      (n = (outputs log).length ∨ ∃ o, (outputs log)[n]? = some o ∧ o.fate = .open) := by
  have hw := outputs_inv hb h3 hm hp h
  simp only [wstep] at hs
  cases hk : cstep (2 ^ m) w.sys a with
  | none => rw [hk] at hs; cases hs
  | some s' =>
    rw [hk] at hs; cases hs
    have hrecs := cstep_recs hk
    have hw' := hw.same (reach_step (a := .c a) hw.reach hk) hrecs
    obtain ⟨n, hn, hd, hlast⟩ := RingBuf.C01_none_means_drained_partial m h3 hm w.sys s' a hw.reach hk hbefore hnone
    refine ⟨n, by rw [hw'.lenO]; exact hn, ?_, ?_⟩
    · show Each Shows _ s'.delivered
      rw [hd]
      exact shows_samples h3 hm hw' n
    · rcases hlast with he | ⟨q, hq, hqb⟩
      · left; rw [hw'.lenO]; exact he
      · right
        have hi : n < s'.recs.length := (List.getElem?_eq_some_iff.mp hq).1
        have ho := List.getElem?_eq_getElem (show n < (outputs log).length by rw [hw'.lenO]; exact hi)
        obtain ⟨q', sl, hq', _, hrel⟩ := hw'.getO ho
        have hqq : s'.recs[n]? = some q' := hq'
        rw [hq] at hqq
        cases hqq
        exact ⟨_, ho, (fate_open hrel).mpr hqb⟩

/-- **C83 (woken).** While the process waits after being told that there is nothing more and no notification has come, the first output
it has not got is still open, or the kernel has yet to decide about notifying it. -/
theorem C83_woken_partial (base m : Nat) (hb : 0 < base) (h3 : 3 ≤ m) (hm : m ≤ 30) (mem : Nat → UInt8) (pos : Nat) (hp : pos % 8 = 0)
    (ops : List Op) (w : World) (log : List (Op × Res)) (h : wrun base (2 ^ m) (start mem pos) ops = some (w, log))
    (hsl : w.sys.sleeping = true) (hno : w.sys.notified = false) :
    ∃ n, n ≤ (outputs log).length ∧ Each Shows (submitted ((outputs log).take n)) w.sys.delivered ∧
      ∀ o, (outputs log)[n]? = some o → o.fate = .open ∨ o.announced = false := by
  have hw := outputs_inv hb h3 hm hp h
  obtain ⟨n, hn, hc, hd, hlast⟩ := RingBuf.C03_no_lost_wakeup_partial m h3 hm w.sys hw.reach hsl hno
  refine ⟨n, hw.lenO ▸ hn, ?_, ?_⟩
  · rw [hd]; exact shows_samples h3 hm hw n
  · intro o ho
    obtain ⟨r, sl, hr, _, hrel⟩ := hw.getO ho
    by_cases hop : o.fate = .open
    · exact Or.inl hop
    · right
      cases sl with
      | entry e => exact hrel.2.2.2.2.1
      | copying p d k => exact hrel.2.2.2.1
      | gone =>
        obtain ⟨_, d, _, hst⟩ := hrel
        cases ha : o.announced with
        | false => rfl
        | true =>
          rw [ha] at hst
          exact absurd hst (hlast r d hr)

/-- **C83 (entries).** Whoever holds an entry can write each of its bytes and no other, submit it and discard it, whatever happened
since it was reserved; and the entry has the length asked for. -/
theorem C83_entry (base m : Nat) (hb : 0 < base) (h3 : 3 ≤ m) (hm : m ≤ 30) (mem : Nat → UInt8) (pos : Nat) (hp : pos % 8 = 0)
    (ops : List Op) (w : World) (log : List (Op × Res)) (h : wrun base (2 ^ m) (start mem pos) ops = some (w, log))
    (i : Nat) (e : Entry) (he : w.held[i]? = some (.entry e)) :
    ∃ o, (outputs log)[i]? = some o ∧ o.fate = .open ∧
      (∀ off b, off < o.bytes.length → ∃ w', wstep base (2 ^ m) w (.write i off b) = some (w', .done)) ∧
      (∀ off b, o.bytes.length ≤ off → wstep base (2 ^ m) w (.write i off b) = some (w, .panicked)) ∧
      (∀ flags, ∃ w', wstep base (2 ^ m) w (.submit i flags) = some (w', .done) ∧ w'.held[i]? = some .gone) ∧
      (∀ flags, ∃ w', wstep base (2 ^ m) w (.discard i flags) = some (w', .done) ∧ w'.held[i]? = some .gone) := by
  have hw := outputs_inv hb h3 hm hp h
  obtain ⟨r, o, hr, ho, hbl, hbusy, hptr, hlen, hfate, han, hag⟩ := hw.at he
  have hi : i < w.held.length := (List.getElem?_eq_some_iff.mp he).1
  refine ⟨o, ho, hfate, ?_, ?_, ?_, ?_⟩
  · intro off b hoff
    obtain ⟨w', hs, _⟩ := write_entry h3 hm hw (b := b) he (show off < e.len by omega)
    exact ⟨w', hs⟩
  · intro off b hoff
    simp only [wstep, he, if_neg (show ¬off < e.len by omega)]
  · intro flags
    obtain ⟨s', hc, _⟩ := commit_entry h3 hm hw he false
    refine ⟨⟨s', w.held.set i .gone⟩, ?_, by simp [hi]⟩
    simp only [wstep, he, submitCall, doCommit, hc, Option.map_some]
  · intro flags
    obtain ⟨s', hc, _⟩ := commit_entry h3 hm hw he true
    refine ⟨⟨s', w.held.set i .gone⟩, ?_, by simp [hi]⟩
    simp only [wstep, he, discardCall, doCommit, hc, Option.map_some]

/-- **C83 (`output` completes).** A call of `output` that has begun goes on: the kernel can always copy the next byte or commit. -/
theorem C83_output_completes (base m : Nat) (hb : 0 < base) (h3 : 3 ≤ m) (hm : m ≤ 30) (mem : Nat → UInt8) (pos : Nat) (hp : pos % 8 = 0)
    (ops : List Op) (w : World) (log : List (Op × Res)) (h : wrun base (2 ^ m) (start mem pos) ops = some (w, log))
    (i ptr n : Nat) (data : List UInt8) (he : w.held[i]? = some (.copying ptr data n)) :
    (n < data.length ∧ ∃ w', wstep base (2 ^ m) w (.copy i) = some (w', .begun)) ∨
    (n = data.length ∧ ∃ w', wstep base (2 ^ m) w (.finish i) = some (w', .done)) := by
  have hw := outputs_inv hb h3 hm hp h
  obtain ⟨r, o, hr, ho, hbl, hbusy, hptr, hfate, han, hbytes, hle, hcop⟩ := hw.at he
  rcases Nat.lt_or_ge n data.length with hlt | hge
  · obtain ⟨w', hs, _⟩ := copy_step h3 hm hw he hlt
    exact Or.inl ⟨hlt, w', hs⟩
  · have hn : n = data.length := Nat.le_antisymm hle hge
    subst hn
    obtain ⟨w', hs, _⟩ := finish_step h3 hm hw he
    exact Or.inr ⟨rfl, w', hs⟩

/-- Room for a record of `n` bytes: header and data, rounded up to 8, fit besides what the process has not released. -/
def Room (size : Nat) (s : Sys) (n : Nat) : Prop := n < 1073741824 ∧ s.prod + (8 + n + 7) / 8 * 8 < s.consMem + size

theorem roundUp_eq (n : Nat) : kRoundUp8 n = (n + 7) / 8 * 8 := by
  unfold kRoundUp8
  split <;> omega

theorem room_iff (size : Nat) (s : Sys) (n pg : Nat) : kstep size s (.reserve n pg) = none ↔ ¬Room size s n := by
  have hk : kRoundUp8 (kHdrSz + n) = (8 + n + 7) / 8 * 8 := by
    exact roundUp_eq (8 + n)
  simp only [kstep, hk, Room, show (2 : Nat) ^ 30 = 1073741824 from rfl]
  split <;> simp_all

/-- **C83 (results).** `reserve` and `output` fail exactly when there is no room, or the flags or the alignment are not allowed, and
then nothing has changed; otherwise there is one more output. -/
theorem C83_results (base m : Nat) (hb : 0 < base) (h3 : 3 ≤ m) (hm : m ≤ 30) (mem : Nat → UInt8) (pos : Nat) (hp : pos % 8 = 0)
    (ops : List Op) (w : World) (log : List (Op × Res)) (h : wrun base (2 ^ m) (start mem pos) ops = some (w, log)) :
    (∀ n flags pg,
      (flags = 0 ∧ Room (2 ^ m) w.sys n → ∃ w' e, wstep base (2 ^ m) w (.reserve n flags pg) = some (w', .reserved) ∧
        w'.held = w.held ++ [.entry e]) ∧
      (¬(flags = 0 ∧ Room (2 ^ m) w.sys n) → wstep base (2 ^ m) w (.reserve n flags pg) = some (w, .full))) ∧
    (∀ align n flags pg,
      (8 % align = 0 → wstep base (2 ^ m) w (.reserveT align n flags pg) = wstep base (2 ^ m) w (.reserve n flags pg)) ∧
      (8 % align ≠ 0 → wstep base (2 ^ m) w (.reserveT align n flags pg) = some (w, .panicked))) ∧
    (∀ align data flags pg,
      (8 % align ≠ 0 → wstep base (2 ^ m) w (.output align data flags pg) = some (w, .panicked)) ∧
      (8 % align = 0 → 4 ≤ flags → wstep base (2 ^ m) w (.output align data flags pg) = some (w, .failed (-22))) ∧
      (8 % align = 0 → flags < 4 → ¬Room (2 ^ m) w.sys data.length →
        wstep base (2 ^ m) w (.output align data flags pg) = some (w, .failed (-11))) ∧
      (8 % align = 0 → flags < 4 → Room (2 ^ m) w.sys data.length →
        ∃ w' ptr, wstep base (2 ^ m) w (.output align data flags pg) = some (w', .begun) ∧
          w'.held = w.held ++ [.copying ptr data 0])) := by
  have hw := outputs_inv hb h3 hm hp h
  refine ⟨?_, ?_, ?_⟩
  · intro n flags pg
    rcases reserve_cases base (2 ^ m) w.sys n flags pg hb with ⟨hk, hn⟩ | ⟨s', hf, hs, hk, hp⟩
    · rw [room_iff] at hn
      refine ⟨fun hr => ?_, fun _ => ?_⟩
      · rcases hn with hn | hn
        · exact absurd hr.1 hn
        · exact absurd hr.2 hn
      · simp only [wstep, reserveCall, doReserve, hk, fromRaw, if_true]
    · refine ⟨fun _ => ?_, fun hr => ?_⟩
      · refine ⟨⟨s', w.held ++ [.entry ⟨base + (w.sys.prod + 8) % 2 ^ m, n⟩]⟩, _, ?_, rfl⟩
        simp only [wstep, reserveCall, doReserve, hk, fromRaw, if_neg hp]
      · exfalso
        apply hr
        refine ⟨hf, Classical.byContradiction fun hc => ?_⟩
        rw [← room_iff _ _ _ pg, hs] at hc
        cases hc
  · intro align n flags pg
    refine ⟨fun ha => ?_, fun ha => ?_⟩
    · simp only [wstep, reserveTyped, if_pos ha, reserveCall]
    · simp only [wstep, reserveTyped, if_neg ha]
  · intro align data flags pg
    refine ⟨fun ha => ?_, fun ha hf => ?_, fun ha hf hr => ?_, fun ha hf hr => ?_⟩
    · simp only [wstep, outputCall, if_neg ha]
    · simp only [wstep, outputCall, if_pos ha]
      rcases output_cases hb hw data flags pg with ⟨_, he⟩ | ⟨h4, _, _⟩ | ⟨_, h4, _⟩
      · exact he
      · omega
      · omega
    · rw [← room_iff _ _ _ pg] at hr
      have e11 : outputResult (-11) = .error (-11) := by decide +kernel
      simp only [wstep, outputCall, if_pos ha, doOutput, if_neg (show ¬4 ≤ flags by omega), kReserve, hr, ne_eq, not_true_eq_false,
        if_false, if_true, e11]
    · rcases reserve_cases base (2 ^ m) w.sys data.length 0 pg hb with ⟨hk, hn⟩ | ⟨s', _, hs, hk, hp⟩
      · rw [room_iff] at hn
        exact absurd hr (hn.resolve_left (by simp))
      · refine ⟨⟨s', w.held ++ [.copying (base + (w.sys.prod + 8) % 2 ^ m) data 0]⟩, _, ?_, rfl⟩
        simp only [wstep, outputCall, if_pos ha, doOutput, if_neg (show ¬4 ≤ flags by omega), hk, if_neg hp]

/-! ## A run meeting the hypotheses

In a ring of 64 bytes, a program reserves 3 bytes and another one calls `output`; the first writes and discards, a third reserves and
submits, all while the process reads. -/

def demoOps : List Op :=
  [.reader .newPos, .reader .newCache,
   .reserve 3 0 0, .output 1 [7, 8] 0 0, .copy 1, .write 0 1 9, .write 0 3 1, .copy 1, .finish 1,
   .reader .callNext, .reader .daLoad, .reader .readHdr,
   .submit 0 0, .check 0, .check 1,
   .reserve 2 0 0, .reserve 20 0 0, .reserve 1 5 0, .reserveT 16 16 0 0, .output 8 [1] 4 0,
   .reader .callNext, .reader .readHdr, .reader .drop, .flush, .reader .callNext, .reader .readHdr, .reader .drop,
   .discard 2 0, .check 2, .flush]

def demoView (x : Option (World × List (Op × Res))) : Option (List (List UInt8) × List Res × List Output) :=
  x.map fun (w, log) => (w.sys.delivered, log.map Prod.snd, outputs log)

example : demoView (wrun 4096 64 (start (fun _ => 0) 0) demoOps) =
    some ([[0, 9, 0], [7, 8]],
      [.done, .done, .reserved, .begun, .begun, .done, .panicked, .begun, .done, .done, .done, .done, .done, .done, .done,
        .reserved, .full, .full, .panicked, .failed (-22), .done, .done, .done, .done, .done, .done, .done, .done, .done, .done],
      [⟨[none, some 9, none], .submitted, true⟩, ⟨[some 7, some 8], .submitted, true⟩, ⟨[none, none], .discarded, true⟩]) := by
  decide +kernel

end Verif.Ebpf.Ring
