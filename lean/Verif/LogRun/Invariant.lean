import Verif.LogRun.Spec
import Verif.Log.Records
import Verif.Ebpf.RingProps
/-!
# The invariant of log statements at work
-/
set_option linter.unusedSimpArgs false
set_option linter.unusedVariables false
namespace Verif.LogRun
open Verif.Bytes Verif.Log Verif.Log.Spec Verif.LogRun.Spec
open Verif.Ebpf.Ring (World Slot wstep wrun WInv outputs_inv wstep_inv)
open Verif.Ebpf.Ring.Spec (Output Fate outputs)

/-! ## The slices are the record -/

theorem slices_fields : ∀ (kvs : List (UInt8 × Bytes)) (ss : List Bytes), slices kvs = some ss → fields kvs = some ss.flatten
  | [], ss, h => by simp only [slices, Option.some.injEq] at h; subst h; rfl
  | (k, v) :: r, ss, h => by
    simp only [slices, slicesOf] at h
    by_cases hv : v.length < 65536
    · simp only [if_pos hv] at h
      cases hr : slices r with
      | none => rw [hr] at h; cases h
      | some b =>
        rw [hr] at h
        simp only [Option.some.injEq] at h
        subst h
        simp only [fields, field, if_pos hv, slices_fields r b hr]
        simp
    · simp only [if_neg hv] at h; cases h

theorem fields_slices : ∀ (kvs : List (UInt8 × Bytes)) (b : Bytes), fields kvs = some b → ∃ ss, slices kvs = some ss ∧ ss.flatten = b
  | [], b, h => by simp only [fields, Option.some.injEq] at h; subst h; exact ⟨[], rfl, rfl⟩
  | (k, v) :: r, b, h => by
    simp only [fields, field] at h
    by_cases hv : v.length < 65536
    · simp only [if_pos hv] at h
      cases hr : fields r with
      | none => rw [hr] at h; cases h
      | some c =>
        rw [hr] at h
        simp only [Option.some.injEq] at h
        obtain ⟨ss, hs, hf⟩ := fields_slices r c hr
        refine ⟨[[k], le 2 v.length, v] ++ ss, by simp only [slices, slicesOf, if_pos hv, hs], ?_⟩
        rw [← h, ← hf]; simp
    · simp only [if_neg hv] at h; cases h

theorem foldl_len : ∀ (ss : List Bytes) (n : Nat), ss.foldl (fun n s => n + s.length) n = n + ss.flatten.length
  | [], n => by simp
  | s :: ss, n => by rw [List.foldl_cons, foldl_len ss]; simp; omega

theorem measure_eq (ss : List Bytes) : measure ss = 2 + ss.flatten.length := foldl_len ss 2

theorem prefix_of {body buf : Bytes} {n : Nat} (hn : body.length = n)
    (hb : ∀ (j : Nat) (b : UInt8), body[j]? = some b → buf[j]? = some b) : buf.take n = body := by
  apply List.ext_getElem?
  intro j
  rcases Nat.lt_or_ge j n with hj | hj
  · rw [List.getElem?_take, if_pos hj]
    have hjl : j < body.length := by omega
    rw [List.getElem?_eq_getElem hjl]
    exact hb j _ (List.getElem?_eq_getElem hjl)
  · rw [List.getElem?_eq_none (by rw [List.length_take]; omega), List.getElem?_eq_none (by omega)]

/-- A buffer as long as asked for and beginning with what is written is what the statement submits. -/
theorem prepare_submitted {enabled cap : Nat} {h : Header} {items : List Item} {ss : List Bytes} {buf : Bytes}
    (hp : prepare enabled h items = some (cap, ss)) (hl : buf.length = cap)
    (hb : ∀ (j : Nat) (b : UInt8), ss.flatten[j]? = some b → buf[j]? = some b) :
    logStatement enabled (fun _ => some buf) h items = .submitted buf := by
  unfold prepare at hp
  unfold logStatement
  split at hp
  · rename_i hen
    rw [if_pos hen]
    cases hs : slices (recordFields h items) with
    | none => rw [hs] at hp; cases hp
    | some ss' =>
      rw [hs] at hp
      simp only at hp
      rw [slices_fields _ _ hs]
      simp only
      rw [measure_eq] at hp
      by_cases hlt : 2 + ss'.flatten.length < 65536
      · rw [if_pos hlt] at hp
        rw [if_pos hlt]
        cases hc : capacityFor 9 64 (2 + ss'.flatten.length) with
        | none => rw [hc] at hp; cases hp
        | some c =>
          rw [hc] at hp
          simp only [Option.some.injEq, Prod.mk.injEq] at hp
          obtain ⟨rfl, rfl⟩ := hp
          simp only
          have hpre := prefix_of (body := le 2 (2 + ss'.flatten.length) ++ ss'.flatten) (n := 2 + ss'.flatten.length)
            (by rw [List.length_append, le_length]) (by rw [← List.flatten_cons]; exact hb)
          have hlen : 2 + ss'.flatten.length ≤ buf.length := by
            have := congrArg List.length hpre
            rw [List.length_take, List.length_append, le_length] at this
            omega
          rw [if_pos hlen, ← hpre, List.take_append_drop]
      · rw [if_neg hlt] at hp; cases hp
  · cases hp

theorem capacityFor_ge : ∀ (f cap size c : Nat), capacityFor f cap size = some c → size ≤ c
  | 0, _, _, _, h => by cases h
  | f + 1, cap, size, c, h => by
    rw [capacityFor] at h
    split at h
    · split at h
      · cases h
      · exact capacityFor_ge f _ _ _ h
    · cases h; omega

theorem prepare_fits {enabled cap : Nat} {h : Header} {items : List Item} {ss : List Bytes}
    (hp : prepare enabled h items = some (cap, ss)) : ss.flatten.length ≤ cap := by
  unfold prepare at hp
  split at hp
  · cases hs : slices (recordFields h items) with
    | none => rw [hs] at hp; cases hp
    | some ss' =>
      rw [hs] at hp
      simp only at hp
      split at hp
      · cases hc : capacityFor 9 64 (measure ss') with
        | none => rw [hc] at hp; cases hp
        | some c =>
          rw [hc] at hp
          simp only [Option.some.injEq, Prod.mk.injEq] at hp
          obtain ⟨rfl, rfl⟩ := hp
          have := capacityFor_ge _ _ _ _ hc
          rw [measure_eq] at this
          rw [List.flatten_cons, List.length_append, le_length]
          exact this
      · cases hp
  · cases hp

/-! ## What the process has been given -/

theorem kstep_delivered {size : Nat} {s s' : RingBuf.Sys} {a : RingBuf.KAct} (h : RingBuf.kstep size s a = some s') :
    s'.delivered = s.delivered := by
  cases a with
  | flush =>
    simp only [RingBuf.kstep] at h
    split at h
    · cases h
    · cases h; rfl
  | reserve len pg =>
    simp only [RingBuf.kstep] at h
    split at h
    · cases h; rfl
    · cases h
  | write i j b =>
    simp only [RingBuf.kstep] at h
    split at h
    · split at h
      · cases h; rfl
      · cases h
    · cases h
  | commit i d =>
    simp only [RingBuf.kstep] at h
    split at h
    · split at h
      · cases h; rfl
      · cases h
    · cases h
  | check i =>
    simp only [RingBuf.kstep] at h
    split at h
    · split at h
      · cases h; rfl
      · cases h
    · cases h
  | spurious => simp only [RingBuf.kstep] at h; cases h; rfl

theorem enterLoop_pc (c : RingBuf.Consumer) (bs : Bytes) : (RingBuf.enterLoop c).pc ≠ .held bs := by
  unfold RingBuf.enterLoop
  repeat' split
  all_goals simp

theorem cstep_delivered {size : Nat} {s s' : RingBuf.Sys} {a : RingBuf.CAct} (h : RingBuf.cstep size s a = some s') :
    (a = .readHdr ∧ ∃ bs, s'.con.pc = .held bs ∧ s'.delivered = s.delivered ++ [bs]) ∨
    (s'.delivered = s.delivered ∧ (a = .readHdr → ∀ bs, s'.con.pc ≠ .held bs)) := by
  cases a with
  | readHdr =>
    simp only [RingBuf.cstep] at h
    split at h
    · split at h
      · split at h
        · cases h
          exact Or.inr ⟨rfl, fun _ bs => by simp [RingBuf.returnNone]⟩
        · cases h
          exact Or.inr ⟨rfl, fun _ bs => by simp⟩
      · cases h
        exact Or.inr ⟨rfl, fun _ bs => enterLoop_pc _ bs⟩
      · cases h
        exact Or.inl ⟨rfl, _, rfl, rfl⟩
      · cases h
        exact Or.inr ⟨rfl, fun _ bs => by simp⟩
    · cases h
  | daLoad =>
    right
    refine ⟨?_, fun h => by cases h⟩
    simp only [RingBuf.cstep] at h
    split at h
    · split at h <;> (cases h; rfl)
    · cases h
  | drop =>
    right
    refine ⟨?_, fun h => by cases h⟩
    simp only [RingBuf.cstep] at h
    split at h
    · cases h; rfl
    · cases h
  | _ =>
    right
    refine ⟨?_, fun h => by cases h⟩
    simp only [RingBuf.cstep] at h
    split at h
    · cases h; rfl
    · cases h

/-! ## Statement, output, entry and thread belong together -/

/-- A statement reserves `cap` bytes and writes `ss`. -/
def Makes (enabled : Nat) (utf8 : List Char → Bytes) (st : Stmt) (cap : Nat) (ss : List Bytes) : Prop :=
  ∃ items, compile utf8 st = some items ∧ prepare enabled st.header items = some (cap, ss)

/-- The first `n` bytes of `bs` are in the output. -/
def Has (o : Output) (bs : Bytes) (n : Nat) : Prop :=
  ∀ (j : Nat) (b : UInt8), j < n → bs[j]? = some b → o.bytes[j]? = some (some b)

def Holds (enabled : Nat) (utf8 : List Char → Bytes) (k : Nat) (e : Entry) (o : Output) (sl : Slot) : Option Thread → Prop
  | some t => e.finished = false ∧ o.fate = .open ∧ t.slot = k ∧ (∃ en, sl = .entry en ∧ en.len = t.len) ∧ o.bytes.length = t.len ∧
      e.announced = o.announced ∧
      ∃ ss, Makes enabled utf8 e.stmt t.len ss ∧ Has o ss.flatten t.pos ∧ t.pos ≤ ss.flatten.length ∧
        ss.flatten.drop t.pos = t.cur ++ t.todo.flatten
  | none => e.finished = true ∧ o.fate = .submitted ∧ sl = .gone ∧ e.announced = o.announced ∧
      ∃ ss, Makes enabled utf8 e.stmt o.bytes.length ss ∧ Has o ss.flatten ss.flatten.length

structure Inv (base size enabled : Nat) (utf8 : List Char → Bytes) (std : Std) (mem : Nat → UInt8) (pos : Nat)
    (s : State) (es : List Entry) (os : List Output) : Prop where
  ring : ∃ ops log, wrun base size (Verif.Ebpf.Ring.Spec.start mem pos) ops = some (s.ring, log) ∧ os = outputs log
  lenE : es.length = os.length
  lenT : s.threads.length = os.length
  lenH : s.ring.held.length = os.length
  holds : ∀ (k : Nat) (e : Entry) (o : Output) (sl : Slot) (t : Option Thread), es[k]? = some e → os[k]? = some o →
    s.ring.held[k]? = some sl → s.threads[k]? = some t → Holds enabled utf8 k e o sl t
  shown : s.shown = s.ring.sys.delivered.map (flushOne std)
  stopped : s.logger = .stopped ↔ ∃ x ∈ s.shown, ∀ r, x ≠ .logged r

theorem wrun_snoc {base size : Nat} (o : Verif.Ebpf.Ring.Op) (r : Verif.Ebpf.Ring.Res) (w₂ : World) :
    ∀ (ops : List Verif.Ebpf.Ring.Op) (w w₁ : World) (log : List (Verif.Ebpf.Ring.Op × Verif.Ebpf.Ring.Res)),
      wrun base size w ops = some (w₁, log) → wstep base size w₁ o = some (w₂, r) →
      wrun base size w (ops ++ [o]) = some (w₂, log ++ [(o, r)])
  | [], w, w₁, log, h, hs => by
    simp only [wrun, Option.some.injEq, Prod.mk.injEq] at h
    obtain ⟨rfl, rfl⟩ := h
    simp [wrun, hs]
  | p :: ops, w, w₁, log, h, hs => by
    simp only [wrun] at h
    cases hp : wstep base size w p with
    | none => rw [hp] at h; cases h
    | some x =>
      obtain ⟨w₀, r₀⟩ := x
      rw [hp] at h
      simp only at h
      cases hq : wrun base size w₀ ops with
      | none => rw [hq] at h; cases h
      | some y =>
        obtain ⟨w', l⟩ := y
        rw [hq] at h
        simp only [Option.map_some, Option.some.injEq, Prod.mk.injEq] at h
        obtain ⟨rfl, rfl⟩ := h
        have := wrun_snoc o r w₂ ops w₀ w' l hq hs
        simp only [List.cons_append, wrun, hp, this, Option.map_some]

theorem ring_next {base size : Nat} {mem : Nat → UInt8} {pos : Nat} {w w' : World} {os : List Output}
    {o : Verif.Ebpf.Ring.Op} {r : Verif.Ebpf.Ring.Res}
    (h : ∃ ops log, wrun base size (Verif.Ebpf.Ring.Spec.start mem pos) ops = some (w, log) ∧ os = outputs log)
    (hs : wstep base size w o = some (w', r)) :
    ∃ ops log, wrun base size (Verif.Ebpf.Ring.Spec.start mem pos) ops = some (w', log) ∧
      Verif.Ebpf.Ring.Spec.after os (o, r) = outputs log := by
  obtain ⟨ops, log, h1, rfl⟩ := h
  refine ⟨ops ++ [o], log ++ [(o, r)], wrun_snoc o r w' ops _ _ _ h1 hs, ?_⟩
  simp [outputs]

section
variable {base m enabled : Nat} {utf8 : List Char → Bytes} {std : Std} {mem : Nat → UInt8} {pos : Nat}

theorem Inv.winv {s : State} {es : List Entry} {os : List Output} (hb : 0 < base) (h3 : 3 ≤ m) (hm : m ≤ 30) (hp : pos % 8 = 0)
    (h : Inv base (2 ^ m) enabled utf8 std mem pos s es os) : WInv base (2 ^ m) s.ring os := by
  obtain ⟨ops, log, hr, rfl⟩ := h.ring
  exact outputs_inv hb h3 hm hp hr

/-- The four at an index of a thread. -/
theorem Inv.at {base size : Nat} {s : State} {es : List Entry} {os : List Output} (h : Inv base size enabled utf8 std mem pos s es os) {k : Nat}
    {t : Option Thread} (ht : s.threads[k]? = some t) : ∃ (e : Entry) (o : Output) (sl : Slot), es[k]? = some e ∧ os[k]? = some o ∧
      s.ring.held[k]? = some sl ∧ Holds enabled utf8 k e o sl t := by
  have hi : k < s.threads.length := (List.getElem?_eq_some_iff.mp ht).1
  have a := List.getElem?_eq_getElem (show k < es.length by have := h.lenE; have := h.lenT; omega)
  have b := List.getElem?_eq_getElem (show k < os.length by have := h.lenT; omega)
  have c := List.getElem?_eq_getElem (show k < s.ring.held.length by have := h.lenH; have := h.lenT; omega)
  exact ⟨_, _, _, a, b, c, h.holds k _ _ _ _ a b c ht⟩

/-- And of an entry. -/
theorem Inv.atE {base size : Nat} {s : State} {es : List Entry} {os : List Output} (h : Inv base size enabled utf8 std mem pos s es os) {k : Nat}
    {e : Entry} (he : es[k]? = some e) : ∃ (o : Output) (sl : Slot) (t : Option Thread), os[k]? = some o ∧ s.ring.held[k]? = some sl ∧
      s.threads[k]? = some t ∧ Holds enabled utf8 k e o sl t := by
  have hi : k < es.length := (List.getElem?_eq_some_iff.mp he).1
  have b := List.getElem?_eq_getElem (show k < os.length by have := h.lenE; omega)
  have c := List.getElem?_eq_getElem (show k < s.ring.held.length by have := h.lenH; have := h.lenE; omega)
  have d := List.getElem?_eq_getElem (show k < s.threads.length by have := h.lenT; have := h.lenE; omega)
  exact ⟨_, _, _, b, c, d, h.holds k _ _ _ _ he b c d⟩

theorem getElem?_grow {α : Type} {l : List α} {a b : α} {k n : Nat} (hl : l.length = n) (h : (l ++ [a])[k]? = some b) :
    (k < n ∧ l[k]? = some b) ∨ (k = n ∧ b = a) := by
  rcases Nat.lt_trichotomy k l.length with hk | hk | hk
  · rw [List.getElem?_append_left hk] at h; exact Or.inl ⟨hl ▸ hk, h⟩
  · subst hk; simp at h; exact Or.inr ⟨hl, h.symm⟩
  · rw [List.getElem?_eq_none (by simp; omega)] at h; cases h

theorem getElem?_at_set {α : Type} {l : List α} {a b : α} {k j : Nat} (h : (l.set j a)[k]? = some b) :
    (k = j ∧ b = a) ∨ (k ≠ j ∧ l[k]? = some b) := by
  rw [List.getElem?_set] at h
  by_cases hkj : j = k
  · rw [if_pos hkj] at h
    split at h
    · cases h; exact Or.inl ⟨hkj.symm, rfl⟩
    · cases h
  · rw [if_neg hkj] at h; exact Or.inr ⟨Ne.symm hkj, h⟩

theorem getElem?_at_modify {α : Type} {l : List α} {f : α → α} {b : α} {k j : Nat} (h : (l.modify j f)[k]? = some b) :
    (k = j ∧ ∃ a, l[k]? = some a ∧ b = f a) ∨ (k ≠ j ∧ l[k]? = some b) := by
  rw [List.getElem?_modify] at h
  by_cases hkj : j = k
  · simp only [if_pos hkj] at h
    cases hl : l[k]? with
    | none => rw [hl] at h; cases h
    | some a => rw [hl] at h; cases h; exact Or.inl ⟨hkj.symm, a, rfl, rfl⟩
  · simp only [if_neg hkj, id_map', Option.map_eq_map, Option.map_id'] at h
    exact Or.inr ⟨Ne.symm hkj, h⟩

/-! ### Beginning -/

theorem wstep_reserve {w : World} {os : List Output} (hb : 0 < base) (h : WInv base (2 ^ m) w os) (n pg : Nat) :
    (wstep base (2 ^ m) w (.reserve n 0 pg) = some (w, .full) ∧ ¬Verif.Ebpf.Ring.Room (2 ^ m) w.sys n) ∨
    (Verif.Ebpf.Ring.Room (2 ^ m) w.sys n ∧ ∃ w' en, wstep base (2 ^ m) w (.reserve n 0 pg) = some (w', .reserved) ∧
      w'.held = w.held ++ [.entry en] ∧ en.len = n ∧ w'.sys.delivered = w.sys.delivered) := by
  rcases Verif.Ebpf.Ring.reserve_cases base (2 ^ m) w.sys n 0 pg hb with ⟨hk, hn⟩ | ⟨s', hf, hs, hk, hp⟩
  · rw [Verif.Ebpf.Ring.room_iff] at hn
    left
    refine ⟨?_, hn.resolve_left (by simp)⟩
    simp only [wstep, Verif.Ebpf.Ring.reserveCall, Verif.Ebpf.Ring.doReserve, hk, Verif.Ebpf.Ring.fromRaw, if_true]
  · right
    refine ⟨Classical.byContradiction fun hc => ?_,
      ⟨s', w.held ++ [.entry ⟨base + (w.sys.prod + 8) % 2 ^ m, n⟩]⟩, ⟨_, n⟩, ?_, rfl, rfl, kstep_delivered hs⟩
    · rw [← Verif.Ebpf.Ring.room_iff _ _ _ pg, hs] at hc
      cases hc
    · simp only [wstep, Verif.Ebpf.Ring.reserveCall, Verif.Ebpf.Ring.doReserve, hk, Verif.Ebpf.Ring.fromRaw, if_neg hp]

theorem begin_inv {s s' : State} {es : List Entry} {os : List Output} {st : Stmt} {items : List Item} {pg : Nat} {r : Res}
    (hb : 0 < base) (h3 : 3 ≤ m) (hm : m ≤ 30) (hp : pos % 8 = 0)
    (h : Inv base (2 ^ m) enabled utf8 std mem pos s es os) (hc : compile utf8 st = some items)
    (hs : begin base (2 ^ m) enabled s st.header items pg = some (s', r)) :
    (r = .dropped ∧ s' = s) ∨
    (r = .placed ∧ ∃ os', Inv base (2 ^ m) enabled utf8 std mem pos s' (es ++ [⟨st, false, false⟩]) os') := by
  unfold begin at hs
  cases hpr : prepare enabled st.header items with
  | none => rw [hpr] at hs; cases hs; exact Or.inl ⟨rfl, rfl⟩
  | some p =>
    obtain ⟨cap, ss⟩ := p
    rw [hpr] at hs
    simp only at hs
    rcases wstep_reserve hb (h.winv hb h3 hm hp) cap pg with ⟨hw, _⟩ | ⟨_, w', en, hw, hheld, hlen, hdel⟩
    · rw [hw] at hs; cases hs; exact Or.inl ⟨rfl, rfl⟩
    · rw [hw] at hs
      simp only [Option.some.injEq, Prod.mk.injEq] at hs
      obtain ⟨rfl, rfl⟩ := hs
      right
      refine ⟨rfl, os ++ [⟨List.replicate cap none, .open, false⟩], ?_⟩
      obtain ⟨ops, log, h1, h2⟩ := ring_next h.ring hw
      refine ⟨⟨ops, log, h1, h2⟩, by simp [h.lenE], by simp [h.lenT], by simp [hheld, h.lenH], ?_, ?_, h.stopped⟩
      · intro k e o sl t he ho hsl ht
        simp only [hheld] at hsl
        rcases getElem?_grow h.lenE he with ⟨hk, he⟩ | ⟨hk, rfl⟩
        · rcases getElem?_grow rfl ho with ⟨_, ho⟩ | ⟨hk', _⟩
          · rcases getElem?_grow h.lenH hsl with ⟨_, hsl⟩ | ⟨hk', _⟩
            · rcases getElem?_grow h.lenT ht with ⟨_, ht⟩ | ⟨hk', _⟩
              · exact h.holds k e o sl t he ho hsl ht
              · omega
            · omega
          · omega
        · rcases getElem?_grow rfl ho with ⟨hk', ho⟩ | ⟨_, rfl⟩
          · omega
          · rcases getElem?_grow h.lenH hsl with ⟨hk', hsl⟩ | ⟨_, rfl⟩
            · omega
            · rcases getElem?_grow h.lenT ht with ⟨hk', ht⟩ | ⟨_, rfl⟩
              · omega
              · refine ⟨rfl, rfl, ?_, ⟨en, rfl, hlen⟩, by simp, rfl, ss, ⟨items, hc, hpr⟩, ?_, Nat.zero_le _, by simp⟩
                · simp only; rw [h.lenH]; exact hk.symm
                · intro j b hj; exact absurd hj (Nat.not_lt_zero j)
      · simp only [hdel]; exact h.shown

/-! ### Going on -/

theorem wstep_write {w : World} {os : List Output} (h3 : 3 ≤ m) (hm : m ≤ 30) (h : WInv base (2 ^ m) w os) {i off : Nat} {b : UInt8}
    {en : Verif.Ebpf.Ring.Entry} (he : w.held[i]? = some (.entry en)) (hoff : off < en.len) :
    ∃ w' : World, wstep base (2 ^ m) w (.write i off b) = some (w', .done) ∧ w'.held = w.held ∧ w'.sys.delivered = w.sys.delivered := by
  obtain ⟨w', hw, _⟩ := Verif.Ebpf.Ring.write_entry h3 hm h (b := b) he hoff
  refine ⟨w', hw, ?_⟩
  simp only [wstep, he, if_pos hoff, Verif.Ebpf.Ring.kStore] at hw
  rcases hr : Verif.Ebpf.Ring.recordOf base (2 ^ m) w.sys en.ptr with _ | idx
  · rw [hr] at hw; cases hw
  · rw [hr] at hw
    simp only [Option.bind_some] at hw
    cases hk : RingBuf.kstep (2 ^ m) w.sys (.write idx off b) with
    | none => rw [hk] at hw; cases hw
    | some s' =>
      rw [hk] at hw; cases hw
      exact ⟨rfl, kstep_delivered hk⟩

theorem wstep_submit {w : World} {os : List Output} (h3 : 3 ≤ m) (hm : m ≤ 30) (h : WInv base (2 ^ m) w os) {i : Nat}
    {en : Verif.Ebpf.Ring.Entry} (he : w.held[i]? = some (.entry en)) :
    ∃ w' : World, wstep base (2 ^ m) w (.submit i 0) = some (w', .done) ∧ w'.held = w.held.set i .gone ∧
      w'.sys.delivered = w.sys.delivered := by
  obtain ⟨s', hk, _⟩ := Verif.Ebpf.Ring.commit_entry h3 hm h he false
  refine ⟨⟨s', w.held.set i .gone⟩, ?_, rfl, ?_⟩
  · simp only [wstep, he, Verif.Ebpf.Ring.submitCall, Verif.Ebpf.Ring.doCommit, hk, Option.map_some]
  · simp only [Verif.Ebpf.Ring.kCommit] at hk
    rcases hr : Verif.Ebpf.Ring.recordOf base (2 ^ m) w.sys en.ptr with _ | idx
    · rw [hr] at hk; cases hk
    · rw [hr] at hk
      simp only [Option.bind_some] at hk
      exact kstep_delivered (s' := s') hk

theorem flatten_get {ss : List Bytes} {p : Nat} {b : UInt8} {cur : Bytes} {todo : List Bytes}
    (h : ss.flatten.drop p = (b :: cur) ++ todo.flatten) : ss.flatten[p]? = some b ∧ p < ss.flatten.length ∧
      ss.flatten.drop (p + 1) = cur ++ todo.flatten := by
  have h0 : ss.flatten[p]? = some b := by
    have := congrArg (fun l => l[0]?) h
    simpa using this
  refine ⟨h0, (List.getElem?_eq_some_iff.mp h0).1, ?_⟩
  rw [← List.drop_drop, h]
  simp

/-- What the next step of a statement is. -/
theorem continue_inv {s : State} {es : List Entry} {os : List Output} {k : Nat} {t : Thread}
    (hb : 0 < base) (h3 : 3 ≤ m) (hm : m ≤ 30) (hp : pos % 8 = 0)
    (h : Inv base (2 ^ m) enabled utf8 std mem pos s es os) (ht : s.threads[k]? = some (some t)) :
    (∃ s' t' os', continue_ base (2 ^ m) s k t = some (s', .going) ∧ s'.threads[k]? = some (some t') ∧
      t'.cur.length + t'.todo.flatten.length + t'.todo.length < t.cur.length + t.todo.flatten.length + t.todo.length ∧
      Inv base (2 ^ m) enabled utf8 std mem pos s' es os') ∨
    (∃ s' os', t.cur = [] ∧ t.todo = [] ∧ continue_ base (2 ^ m) s k t = some (s', .sent) ∧
      Inv base (2 ^ m) enabled utf8 std mem pos s' (es.modify k (fun e => { e with finished := true })) os') := by
  obtain ⟨e, o, sl, he, ho, hsl, hfin, hopen, hslot, ⟨en, rfl, hen⟩, hbl, han, ss, hmk, hhas, hple, hdrop⟩ := h.at ht
  have hk : k < s.threads.length := (List.getElem?_eq_some_iff.mp ht).1
  obtain ⟨items, hcomp, hprep⟩ := hmk
  have hfit := prepare_fits hprep
  have hlen : ss.flatten.length = t.pos + t.cur.length + t.todo.flatten.length := by
    have := congrArg List.length hdrop
    rw [List.length_drop, List.length_append] at this
    omega
  rcases hcur : t.cur with _ | ⟨b, cur⟩
  · rcases htodo : t.todo with _ | ⟨slice, todo⟩
    · -- submit
      right
      obtain ⟨w', hw, hheld, hdel⟩ := wstep_submit h3 hm (h.winv hb h3 hm hp) (i := k) hsl
      refine ⟨{ s with ring := w', threads := s.threads.set k none }, os.modify k (fun o => { o with fate := .submitted }), rfl, rfl,
        ?_, ?_⟩
      · simp only [continue_, hcur, htodo, hslot, hw]
      · obtain ⟨ops, log, h1, h2⟩ := ring_next h.ring hw
        refine ⟨⟨ops, log, h1, h2⟩, by simp [h.lenE], by simp [h.lenT], by simp [hheld, h.lenH], ?_, ?_, h.stopped⟩
        · intro k' e' o' sl' t' he' ho' hsl' ht'
          simp only [hheld] at hsl'
          rcases getElem?_at_modify he' with ⟨rfl, e₀, he₀, rfl⟩ | ⟨hne, he'⟩
          · rw [he] at he₀; cases he₀
            rcases getElem?_at_modify ho' with ⟨_, o₀, ho₀, rfl⟩ | ⟨hne, _⟩
            · rw [ho] at ho₀; cases ho₀
              rcases getElem?_at_set hsl' with ⟨_, rfl⟩ | ⟨hne, _⟩
              · rcases getElem?_at_set ht' with ⟨_, rfl⟩ | ⟨hne, _⟩
                · refine ⟨rfl, rfl, rfl, han, ss, ⟨items, hcomp, ?_⟩, ?_⟩
                  · simp only [hbl]; exact hprep
                  · have : t.pos = ss.flatten.length := by
                      rw [hcur, htodo, List.length_nil, List.flatten_nil, List.length_nil] at hlen; omega
                    rw [← this]
                    exact hhas
                · exact absurd rfl hne
              · exact absurd rfl hne
            · exact absurd rfl hne
          · rcases getElem?_at_modify ho' with ⟨hk', _⟩ | ⟨_, ho'⟩
            · exact absurd hk' hne
            · rcases getElem?_at_set hsl' with ⟨hk', _⟩ | ⟨_, hsl'⟩
              · exact absurd hk' hne
              · rcases getElem?_at_set ht' with ⟨hk', _⟩ | ⟨_, ht'⟩
                · exact absurd hk' hne
                · exact h.holds k' e' o' sl' t' he' ho' hsl' ht'
        · simp only [hdel]; exact h.shown
    · -- the next slice
      left
      rw [hcur, htodo] at hlen
      simp only [List.length_nil, List.flatten_cons, List.length_append] at hlen
      have hroom : t.pos + slice.length ≤ t.len := by omega
      refine ⟨{ s with threads := s.threads.set k (some { t with cur := slice, todo := todo }) }, { t with cur := slice, todo := todo },
        os, ?_, by simp [hk], by simp, ?_⟩
      · simp only [continue_, hcur, htodo, if_pos hroom]
      · refine ⟨h.ring, h.lenE, by simp [h.lenT], h.lenH, ?_, h.shown, h.stopped⟩
        intro k' e' o' sl' t' he' ho' hsl' ht'
        rcases getElem?_at_set ht' with ⟨rfl, rfl⟩ | ⟨_, ht'⟩
        · rw [he] at he'; cases he'
          rw [ho] at ho'; cases ho'
          rw [hsl] at hsl'; cases hsl'
          refine ⟨hfin, hopen, hslot, ⟨en, rfl, hen⟩, hbl, han, ss, ⟨items, hcomp, hprep⟩, hhas, hple, ?_⟩
          rw [hdrop, hcur, htodo]; simp
        · exact h.holds k' e' o' sl' t' he' ho' hsl' ht'
  · -- a byte
    left
    rw [hcur] at hdrop hlen
    obtain ⟨hget, hlt, hrest⟩ := flatten_get hdrop
    obtain ⟨w', hw, hheld, hdel⟩ := wstep_write h3 hm (h.winv hb h3 hm hp) (i := k) (off := t.pos) (b := b) hsl (by omega)
    refine ⟨{ s with ring := w', threads := s.threads.set k (some { t with pos := t.pos + 1, cur := cur }) },
      { t with pos := t.pos + 1, cur := cur }, os.modify k (fun o => { o with bytes := o.bytes.set t.pos (some b) }), ?_, by simp [hk],
      by simp, ?_⟩
    · simp only [continue_, hcur, hslot, hw]
    · obtain ⟨ops, log, h1, h2⟩ := ring_next h.ring hw
      refine ⟨⟨ops, log, h1, h2⟩, by simp [h.lenE], by simp [h.lenT], by simp [hheld, h.lenH], ?_, ?_, h.stopped⟩
      · intro k' e' o' sl' t' he' ho' hsl' ht'
        simp only [hheld] at hsl'
        rcases getElem?_at_set ht' with ⟨rfl, rfl⟩ | ⟨hne, ht'⟩
        · rw [he] at he'; cases he'
          rw [hsl] at hsl'; cases hsl'
          rcases getElem?_at_modify ho' with ⟨_, o₀, ho₀, rfl⟩ | ⟨hne, _⟩
          · rw [ho] at ho₀; cases ho₀
            refine ⟨hfin, hopen, hslot, ⟨en, rfl, hen⟩, by simpa using hbl, han, ss, ⟨items, hcomp, hprep⟩, ?_, hlt, hrest⟩
            intro j c hj hc
            simp only
            rw [List.getElem?_set]
            by_cases hjp : t.pos = j
            · subst hjp
              rw [hget] at hc; cases hc
              rw [if_pos rfl, if_pos (by omega)]
            · rw [if_neg hjp]
              exact hhas j c (by simp only at hj; omega) hc
          · exact absurd rfl hne
        · rcases getElem?_at_modify ho' with ⟨hk', _⟩ | ⟨_, ho'⟩
          · exact absurd hk' hne
          · exact h.holds k' e' o' sl' t' he' ho' hsl' ht'
      · simp only [hdel]; exact h.shown

/-! ### The rest -/

theorem ringOnly_inv {s s' : State} {es : List Entry} {os : List Output} {o : Verif.Ebpf.Ring.Op} {r : Res}
    (h : Inv base (2 ^ m) enabled utf8 std mem pos s es os) (hs : ringOnly base (2 ^ m) s o = some (s', r))
    (ho : o = .flush ∨ o = .spurious) : r = .done ∧ Inv base (2 ^ m) enabled utf8 std mem pos s' es os := by
  unfold ringOnly at hs
  cases hw : wstep base (2 ^ m) s.ring o with
  | none => rw [hw] at hs; cases hs
  | some p =>
    obtain ⟨w', r'⟩ := p
    rw [hw] at hs
    have hr' : r' = .done ∧ w'.held = s.ring.held ∧ w'.sys.delivered = s.ring.sys.delivered := by
      rcases ho with rfl | rfl
      all_goals
        simp only [wstep] at hw
        rcases hk : RingBuf.kstep (2 ^ m) s.ring.sys _ with _ | sys
        · rw [hk] at hw; cases hw
        · rw [hk] at hw
          cases hw
          exact ⟨rfl, rfl, kstep_delivered hk⟩
    obtain ⟨rfl, hheld, hdel⟩ := hr'
    simp only [Option.some.injEq, Prod.mk.injEq] at hs
    obtain ⟨rfl, rfl⟩ := hs
    obtain ⟨ops, log, h1, h2⟩ := ring_next h.ring hw
    have : Verif.Ebpf.Ring.Spec.after os (o, .done) = os := by rcases ho with rfl | rfl <;> rfl
    rw [this] at h2
    refine ⟨rfl, ⟨ops, log, h1, h2⟩, h.lenE, h.lenT, by simp only [hheld]; exact h.lenH, ?_, by simp only [hdel]; exact h.shown, h.stopped⟩
    simp only [hheld]; exact h.holds

theorem decide_inv {s s' : State} {es : List Entry} {os : List Output} {k : Nat} {r : Res}
    (h : Inv base (2 ^ m) enabled utf8 std mem pos s es os) (hs : ringOnly base (2 ^ m) s (.check k) = some (s', r)) :
    r = .done ∧ ∃ os', Inv base (2 ^ m) enabled utf8 std mem pos s' (es.modify k (fun e => { e with announced := true })) os' := by
  unfold ringOnly at hs
  cases hw : wstep base (2 ^ m) s.ring (.check k) with
  | none => rw [hw] at hs; cases hs
  | some p =>
    obtain ⟨w', r'⟩ := p
    rw [hw] at hs
    have hr' : r' = .done ∧ w'.held = s.ring.held ∧ w'.sys.delivered = s.ring.sys.delivered := by
      simp only [wstep] at hw
      rcases hk : RingBuf.kstep (2 ^ m) s.ring.sys _ with _ | sys
      · rw [hk] at hw; cases hw
      · rw [hk] at hw
        cases hw
        exact ⟨rfl, rfl, kstep_delivered hk⟩
    obtain ⟨rfl, hheld, hdel⟩ := hr'
    simp only [Option.some.injEq, Prod.mk.injEq] at hs
    obtain ⟨rfl, rfl⟩ := hs
    obtain ⟨ops, log, h1, h2⟩ := ring_next h.ring hw
    refine ⟨rfl, os.modify k (fun o => { o with announced := true }), ⟨ops, log, h1, h2⟩, by simp [h.lenE], by simp [h.lenT],
      by simp only [hheld]; simp [h.lenH], ?_, by simp only [hdel]; exact h.shown, h.stopped⟩
    intro k' e o sl t he ho hsl ht
    simp only [hheld] at hsl
    rcases getElem?_at_modify he with ⟨rfl, e₀, he₀, rfl⟩ | ⟨hne, he⟩
    · rcases getElem?_at_modify ho with ⟨_, o₀, ho₀, rfl⟩ | ⟨hne, _⟩
      · have := h.holds k' e₀ o₀ sl t he₀ ho₀ hsl ht
        cases t with
        | none =>
          obtain ⟨a, b, c, d, f⟩ := this
          exact ⟨a, b, c, rfl, f⟩
        | some t =>
          obtain ⟨a, b, c, d, e', f, g⟩ := this
          exact ⟨a, b, c, d, e', rfl, g⟩
      · exact absurd rfl hne
    · rcases getElem?_at_modify ho with ⟨hk', _⟩ | ⟨_, ho⟩
      · exact absurd hk' hne
      · exact h.holds k' e o sl t he ho hsl ht

theorem read_inv {s s' : State} {es : List Entry} {os : List Output} {a : RingBuf.CAct} {r : Res}
    (h : Inv base (2 ^ m) enabled utf8 std mem pos s es os) (hs : read base (2 ^ m) std s a = some (s', r)) :
    r = .done ∧ Inv base (2 ^ m) enabled utf8 std mem pos s' es os ∧ s'.threads = s.threads ∧
      ∃ w', wstep base (2 ^ m) s.ring (.reader a) = some (w', .done) ∧ s'.ring = w' := by
  unfold read at hs
  cases hlg : s.logger with
  | stopped => rw [hlg] at hs; cases hs
  | working =>
    rw [hlg] at hs
    simp only at hs
    cases hw : wstep base (2 ^ m) s.ring (.reader a) with
    | none => rw [hw] at hs; cases hs
    | some p =>
      obtain ⟨w', r'⟩ := p
      rw [hw] at hs
      have hw2 := hw
      simp only [wstep] at hw2
      cases hk : RingBuf.cstep (2 ^ m) s.ring.sys a with
      | none => rw [hk] at hw2; cases hw2
      | some sys =>
        rw [hk] at hw2
        simp only [Option.map_some, Option.some.injEq, Prod.mk.injEq] at hw2
        obtain ⟨rfl, rfl⟩ := hw2
        simp only at hs
        obtain ⟨ops, log, h1, h2⟩ := ring_next h.ring hw
        have h2 : os = outputs log := h2
        have hnot : ¬∃ x ∈ s.shown, ∀ r, x ≠ .logged r := fun hx => by
          have := h.stopped.mpr hx
          rw [hlg] at this; cases this
        have plain : ∀ s'', s'' = { s with ring := { s.ring with sys := sys } } → sys.delivered = s.ring.sys.delivered →
            Inv base (2 ^ m) enabled utf8 std mem pos s'' es os := by
          intro s'' e1 e2
          subst e1
          exact ⟨⟨ops, log, h1, h2⟩, h.lenE, h.lenT, h.lenH, h.holds, by simp only [e2]; exact h.shown, h.stopped⟩
        rcases cstep_delivered hk with ⟨rfl, bs, hpc, hdel⟩ | ⟨hdel, hno⟩
        · simp only [hpc, Option.some.injEq, Prod.mk.injEq] at hs
          obtain ⟨rfl, rfl⟩ := hs
          unfold handle
          rcases hf : flushOne std bs with x | _ | _
          · refine ⟨rfl, ⟨⟨ops, log, h1, h2⟩, h.lenE, h.lenT, h.lenH, h.holds, ?_, ?_⟩, rfl, _, rfl, rfl⟩
            · simp only [hdel, List.map_append, List.map_cons, List.map_nil, hf, h.shown]
            · refine ⟨fun hc => ?_, ?_⟩
              · simp only [hlg] at hc; cases hc
              rintro ⟨y, hy, hn⟩
              simp only [List.mem_append, List.mem_singleton] at hy
              rcases hy with hy | rfl
              · exact absurd ⟨y, hy, hn⟩ hnot
              · exact absurd rfl (hn x)
          · refine ⟨rfl, ⟨⟨ops, log, h1, h2⟩, h.lenE, h.lenT, h.lenH, h.holds, ?_, ?_⟩, rfl, _, rfl, rfl⟩
            · simp only [hdel, List.map_append, List.map_cons, List.map_nil, hf, h.shown]
            · exact ⟨fun _ => ⟨.panic, by simp, by simp⟩, fun _ => rfl⟩
          · refine ⟨rfl, ⟨⟨ops, log, h1, h2⟩, h.lenE, h.lenT, h.lenH, h.holds, ?_, ?_⟩, rfl, _, rfl, rfl⟩
            · simp only [hdel, List.map_append, List.map_cons, List.map_nil, hf, h.shown]
            · exact ⟨fun _ => ⟨.ub, by simp, by simp⟩, fun _ => rfl⟩
        · have hs' : s' = { s with ring := { s.ring with sys := sys } } ∧ r = .done := by
            split at hs
            · rename_i bs hpc
              exact absurd hpc (hno rfl bs)
            · simp only [Option.some.injEq, Prod.mk.injEq] at hs
              refine ⟨?_, hs.2.symm⟩
              rw [← hs.1]
              simp only [hlg]
          obtain ⟨rfl, rfl⟩ := hs'
          exact ⟨rfl, plain _ rfl hdel, rfl, _, rfl, rfl⟩

/-- Every step keeps it. -/
theorem step_inv {s s' : State} {es : List Entry} {os : List Output} {o : Op} {r : Res}
    (hb : 0 < base) (h3 : 3 ≤ m) (hm : m ≤ 30) (hp : pos % 8 = 0)
    (h : Inv base (2 ^ m) enabled utf8 std mem pos s es os)
    (hs : step base (2 ^ m) enabled utf8 std s o = some (s', r)) :
    ∃ os', Inv base (2 ^ m) enabled utf8 std mem pos s' (after es (o, r)) os' := by
  cases o with
  | log st pg =>
    simp only [step] at hs
    cases hc : compile utf8 st with
    | none => rw [hc] at hs; cases hs
    | some items =>
      rw [hc] at hs
      rcases begin_inv hb h3 hm hp h hc hs with ⟨rfl, rfl⟩ | ⟨rfl, os', hi⟩
      · exact ⟨os, h⟩
      · exact ⟨os', hi⟩
  | run k =>
    simp only [step] at hs
    rcases ht : s.threads[k]? with _ | _ | t
    · rw [ht] at hs; cases hs
    · rw [ht] at hs; cases hs
    · rw [ht] at hs
      simp only at hs
      rcases continue_inv hb h3 hm hp h ht with ⟨s₁, t', os', hc, _, _, hi⟩ | ⟨s₁, os', _, _, hc, hi⟩
      · rw [hc] at hs; cases hs; exact ⟨os', hi⟩
      · rw [hc] at hs; cases hs; exact ⟨os', hi⟩
  | decide k =>
    obtain ⟨rfl, os', hi⟩ := decide_inv h hs
    exact ⟨os', hi⟩
  | reader a =>
    obtain ⟨rfl, hi, _⟩ := read_inv h hs
    exact ⟨os, hi⟩
  | visible =>
    simp only [step] at hs
    obtain ⟨rfl, hi⟩ := ringOnly_inv h hs (Or.inl rfl)
    exact ⟨os, hi⟩
  | spurious =>
    simp only [step] at hs
    obtain ⟨rfl, hi⟩ := ringOnly_inv h hs (Or.inr rfl)
    exact ⟨os, hi⟩

theorem start_inv : Inv base (2 ^ m) enabled utf8 std mem pos (start mem pos) [] [] := by
  refine ⟨⟨[], [], rfl, rfl⟩, rfl, rfl, rfl, ?_, rfl, ?_⟩
  · intro k e o sl t he; cases he
  · simp [start]

theorem run_inv (hb : 0 < base) (h3 : 3 ≤ m) (hm : m ≤ 30) (hp : pos % 8 = 0) : ∀ (ops : List Op) (s s' : State) (es : List Entry)
    (os : List Output) (log : List (Op × Res)), Inv base (2 ^ m) enabled utf8 std mem pos s es os →
    run base (2 ^ m) enabled utf8 std s ops = some (s', log) →
    ∃ os', Inv base (2 ^ m) enabled utf8 std mem pos s' (log.foldl after es) os'
  | [], s, s', es, os, log, h, hr => by
    simp only [run, Option.some.injEq, Prod.mk.injEq] at hr
    obtain ⟨rfl, rfl⟩ := hr
    exact ⟨os, h⟩
  | o :: ops, s, s', es, os, log, h, hr => by
    simp only [run] at hr
    cases hs : step base (2 ^ m) enabled utf8 std s o with
    | none => rw [hs] at hr; cases hr
    | some p =>
      obtain ⟨s₁, r⟩ := p
      rw [hs] at hr
      simp only at hr
      cases hr2 : run base (2 ^ m) enabled utf8 std s₁ ops with
      | none => rw [hr2] at hr; cases hr
      | some q =>
        obtain ⟨s₂, l⟩ := q
        rw [hr2] at hr
        simp only [Option.map_some, Option.some.injEq, Prod.mk.injEq] at hr
        obtain ⟨rfl, rfl⟩ := hr
        obtain ⟨os₁, h1⟩ := step_inv hb h3 hm hp h hs
        exact run_inv hb h3 hm hp ops s₁ s₂ _ os₁ l h1 hr2

theorem entries_inv (hb : 0 < base) (h3 : 3 ≤ m) (hm : m ≤ 30) (hp : pos % 8 = 0) {ops : List Op} {s : State} {log : List (Op × Res)}
    (h : run base (2 ^ m) enabled utf8 std (start mem pos) ops = some (s, log)) :
    ∃ os, Inv base (2 ^ m) enabled utf8 std mem pos s (entries log) os := run_inv hb h3 hm hp ops _ _ _ _ _ start_inv h

end

end Verif.LogRun
