import Verif.Stacks.Spec
import Verif.Common.Except

set_option linter.unusedSimpArgs false
set_option linter.unusedVariables false

/-!
# C107: stack traces
-/
namespace Verif.Stacks
open Verif Verif.Bytes Verif.Stacks.Spec

/-! ## Values -/

theorem entries_value (b : List Nat) : ∀ (n : Nat) (z : List UInt8), b.length ≤ n → (∀ ip ∈ b, ip < 2 ^ 64) →
    entries n (b.flatMap (le 8) ++ z) = b ++ entries (n - b.length) z := by
  induction b with
  | nil => intro n z _ _; simp
  | cons x xs ih =>
    intro n z hn hx
    rcases n with _ | n
    · simp at hn
    · have hl : (le 8 x).length = 8 := le_length 8 x
      have h1 : List.take 8 (le 8 x ++ (xs.flatMap (le 8) ++ z)) = le 8 x := by
        rw [← hl]; exact List.take_left
      have h2 : List.drop 8 (le 8 x ++ (xs.flatMap (le 8) ++ z)) = xs.flatMap (le 8) ++ z := by
        rw [← hl]; exact List.drop_left
      have hof : ofLe (le 8 x) = x := ofLe_le_of_lt 8 x (by
        have := hx x (by simp)
        have e : (256 : Nat) ^ 8 = 2 ^ 64 := by decide
        omega)
      simp only [List.flatMap_cons, List.append_assoc, entries, h1, h2, hof, List.cons_append, List.cons.injEq, true_and]
      rw [ih n z (by simp at hn; omega) (fun ip h => hx ip (by simp [h]))]
      simp

theorem ofLe_zeros (n : Nat) : ofLe (List.replicate n 0) = 0 := by
  induction n with
  | zero => rfl
  | succ n ih => simp [List.replicate_succ, ofLe, ih]

theorem entries_zeros : ∀ n : Nat, entries n (List.replicate (8 * n) 0) = List.replicate n 0 := by
  intro n
  induction n with
  | zero => rfl
  | succ n ih =>
    have : 8 * (n + 1) = 8 + 8 * n := by omega
    simp only [entries, this, List.take_replicate, List.drop_replicate]
    rw [show min 8 (8 + 8 * n) = 8 by omega, show 8 + 8 * n - 8 = 8 * n by omega, ih, ofLe_zeros]
    rfl

theorem takeWhile_zeros (n : Nat) : (List.replicate n 0).takeWhile (fun x : Nat => decide (x ≠ 0)) = [] := by
  cases n <;> simp [List.replicate_succ]

theorem takeWhile_append_zeros (b : List Nat) (n : Nat) :
    (b ++ List.replicate n 0).takeWhile (fun x : Nat => decide (x ≠ 0)) = b.takeWhile (fun x : Nat => decide (x ≠ 0)) := by
  induction b with
  | nil => simpa using takeWhile_zeros n
  | cons x xs ih =>
    rcases Nat.decEq x 0 with h | h
    · simp only [List.cons_append, List.takeWhile_cons, h, ne_eq, not_false_eq_true, decide_true, if_true, ih]
    · simp [List.takeWhile_cons, h]

theorem flatMap_le_length (b : List Nat) : (b.flatMap (le 8)).length = 8 * b.length := by
  induction b with
  | nil => rfl
  | cons x xs ih => simp [ih]; omega

theorem value_length (c : Conf) (b : List Nat) (h : b.length ≤ c.depth) : (value c b).length = 8 * c.depth := by
  simp only [value, List.length_append, flatMap_le_length, List.length_replicate]
  omega

/-- What is read from a value. -/
theorem read_value (c : Conf) (b : List Nat) (h : b.length ≤ c.depth) (hx : ∀ ip ∈ b, ip < 2 ^ 64) :
    ∃ mem, written (List.replicate (8 * c.depth) 0) (value c b) = some mem ∧
      (entries c.depth mem).takeWhile (fun x : Nat => decide (x ≠ 0)) = b.takeWhile (fun x : Nat => decide (x ≠ 0)) := by
  refine ⟨value c b, ?_, ?_⟩
  · simp [written, value_length c b h]
  · simp only [value]
    rw [entries_value b c.depth _ h hx, entries_zeros, takeWhile_append_zeros]

theorem kept_length (c : Conf) (flags : Nat) (stack : List Nat) : (kept c flags stack).length ≤ c.depth := by
  simp only [kept, List.length_drop, List.length_take]
  omega

theorem kept_mem {c : Conf} {flags : Nat} {stack : List Nat} {ip : Nat} (h : ip ∈ kept c flags stack) : ip ∈ stack :=
  List.mem_of_mem_take (List.mem_of_mem_drop h)

/-! ## What buckets hold -/

/-- Whatever is in a bucket, or in the hands of a reader or program, was taken. -/
structure Inv (c : Conf) (evs : List Ev) (w : W) : Prop where
  bucket : ∀ id b, w.bucket id = some b → Taken c evs id b
  hold : ∀ r id b, w.hold r = some (id, b) → Taken c evs id b
  pend : ∀ p id b, w.pend p = some (id, b) → Taken c evs id b

theorem taken_mono {c : Conf} {evs evs' : List Ev} {id : Nat} {b : List Nat} (h : Taken c evs id b) (hs : ∀ e ∈ evs, e ∈ evs') :
    Taken c evs' id b := by
  obtain ⟨p, st, f, n, h1, h2⟩ := h
  exact ⟨p, st, f, n, hs _ h1, h2⟩

theorem Inv.mono {c : Conf} {evs evs' : List Ev} {w : W} (h : Inv c evs w) (hs : ∀ e ∈ evs, e ∈ evs') : Inv c evs' w :=
  ⟨fun _ _ e => taken_mono (h.bucket _ _ e) hs, fun _ _ _ e => taken_mono (h.hold _ _ _ e) hs, fun _ _ _ e => taken_mono (h.pend _ _ _ e) hs⟩

theorem takeOut_inv {c : Conf} {evs : List Ev} {w : W} (h : Inv c evs w) (r id : Nat) : Inv c evs (takeOut r id w) := by
  simp only [takeOut]
  rcases e : w.bucket id with _ | b
  · exact h
  · refine ⟨fun i b' hb => ?_, fun r' i b' hb => ?_, h.pend⟩
    · simp only [upd] at hb
      split at hb
      · cases hb
      · exact h.bucket _ _ hb
    · simp only [upd] at hb
      split at hb
      · cases hb
        exact h.bucket _ _ e
      · exact h.hold _ _ _ hb

theorem putBack_inv {c : Conf} {evs : List Ev} {w : W} (h : Inv c evs w) (r : Nat) : Inv c evs (putBack r w) := by
  simp only [putBack]
  rcases e : w.hold r with _ | ⟨id, b⟩
  · exact h
  · refine ⟨fun i b' hb => ?_, fun r' i b' hb => ?_, h.pend⟩
    · simp only [upd] at hb
      split at hb
      · rename_i hi
        cases hb
        rw [hi]
        exact h.hold _ _ _ e
      · exact h.bucket _ _ hb
    · simp only [upd] at hb
      split at hb
      · cases hb
      · exact h.hold _ _ _ hb

theorem step_inv {c : Conf} {evs : List Ev} {w : W} (h : Inv c evs w) (e : Ev) : Inv c (evs ++ [e]) (step c e w).1 := by
  have h' : Inv c (evs ++ [e]) w := h.mono (fun x hx => by simp [hx])
  rcases e with ⟨p, stack, flags, nomem⟩ | p | ⟨r, id⟩ | r | id
  · simp only [step]
    split
    · exact h'
    · simp only [looked]
      (repeat' split) <;> try exact h'
      refine ⟨h'.bucket, h'.hold, fun q i b hb => ?_⟩
      simp only [upd] at hb
      split at hb
      · cases hb
        exact ⟨p, stack, flags, nomem, by simp, rfl, by assumption, rfl⟩
      · exact h'.pend _ _ _ hb
  · simp only [step]
    rcases e : w.pend p with _ | ⟨i, b⟩
    · exact h'
    · refine ⟨fun i' b' hb => ?_, h'.hold, fun q i' b' hb => ?_⟩
      · simp only [upd] at hb
        split at hb
        · rename_i hi
          cases hb
          rw [hi]
          exact h'.pend _ _ _ e
        · exact h'.bucket _ _ hb
      · simp only [upd] at hb
        split at hb
        · cases hb
        · exact h'.pend _ _ _ hb
  · simp only [step]
    split
    · exact h'
    · exact takeOut_inv h' _ _
  · exact putBack_inv h' _
  · refine ⟨fun i' b' hb => ?_, h'.hold, h'.pend⟩
    simp only [step, upd] at hb
    split at hb
    · cases hb
    · exact h'.bucket _ _ hb

theorem run_inv {c : Conf} : ∀ (es evs : List Ev) (w : W), Inv c evs w → Inv c (evs ++ es) (run c es w)
  | [], evs, w, h => by simpa [run] using h
  | e :: es, evs, w, h => by
    have := run_inv es (evs ++ [e]) _ (step_inv h e)
    simpa [run] using this

theorem reached_inv (c : Conf) (evs : List Ev) : Inv c evs (run c evs {}) := by
  have : Inv c [] {} := ⟨fun _ _ h => (nomatch h), fun _ _ _ h => (nomatch h), fun _ _ _ h => (nomatch h)⟩
  simpa using run_inv evs [] {} this

theorem Inv.small {c : Conf} {evs : List Ev} {id : Nat} {b : List Nat} (h : Taken c evs id b) (ha : Addresses evs) :
    b.length ≤ c.depth ∧ ∀ ip ∈ b, ip < 2 ^ 64 := by
  obtain ⟨p, st, f, n, h1, rfl, -, -⟩ := h
  exact ⟨kept_length .., fun ip hip => ha _ _ _ _ h1 ip (kept_mem hip)⟩

theorem ofLe_id (id : BitVec 32) : ofLe (le 4 id.toNat) = id.toNat :=
  ofLe_le_of_lt 4 _ (by have := id.isLt; have e : (256 : Nat) ^ 4 = 2 ^ 32 := by decide
                        omega)

theorem depth_of {d : Handles.Data} {h : Handles.Handle} {n : Nat} (hh : Handles.newStackTrace d = .ok h) (hv : d.obj.valueSize = 8 * n) :
    h.depth = n := by
  simp only [Handles.newStackTrace] at hh
  (repeat' split at hh) <;> cases hh
  simp [hv]

/-- What `get` returns, in terms of the bucket when it begins. -/
theorem get_eq (c : Conf) (evs : List Ev) (ha : Addresses evs) (w : W) (hi : Inv c evs w) (script : List Ev) (id : BitVec 32) :
    get (sys c) c.depth id 0 { w, next := [script] } =
      (if c.buckets ≤ id.toNat then (.error .keyNotFound, { w, next := [script] })
       else
        match w.bucket id.toNat with
        | none => (.error .keyNotFound, { w, next := [script] })
        | some b => (.ok ⟨id.toNat, b.takeWhile (fun x : Nat => decide (x ≠ 0))⟩, ⟨putBack 0 (run c script (takeOut 0 id.toNat w)), []⟩)) := by
  simp only [get, sys, ofLe_id, ne_eq, not_true_eq_false, if_false]
  by_cases h : c.buckets ≤ id.toNat
  · simp only [if_pos h, if_true]
  · simp only [if_neg h]
    rcases e : w.bucket id.toNat with _ | b
    · simp only [if_true]
    · obtain ⟨h1, h2⟩ := Inv.small (hi.bucket _ _ e) ha
      obtain ⟨mem, h3, h4⟩ := read_value c b h1 h2
      simp only [List.headD_cons, List.tail_cons]
      rw [h3]
      simp only [← h4]

theorem takeWhile_all {b : List Nat} (h : 0 ∉ b) : b.takeWhile (fun x : Nat => decide (x ≠ 0)) = b := by
  induction b with
  | nil => rfl
  | cons x xs ih =>
    have hx : x ≠ 0 := by rintro rfl; simp at h
    have := ih (fun hm => h (by simp [hm]))
    simp only [List.takeWhile_cons, hx, ne_eq, not_false_eq_true, decide_true, if_true]
    simp only [ne_eq] at this
    rw [this]

/-- **C107** (what is got was taken), partial: frames after one at address 0 are missing. Whatever programs and other processes have done and do
meanwhile, a trace that `get` returns has the id asked for, and its frames are those, innermost first, of one stack a program asked an id for
before, which belongs to that id; nothing is written outside of the buffer. -/
theorem C107_got_partial (c : Conf) (d : Handles.Data) (h : Handles.Handle) (hh : Handles.newStackTrace d = .ok h)
    (hv : d.obj.valueSize = 8 * c.depth) (evs : List Ev) (ha : Addresses evs) (script : List Ev) (id : BitVec 32) (flags : Nat) :
    (get (sys c) h.depth id flags { w := run c evs {}, next := [script] }).1 ≠ .error .ub ∧
    ∀ t, (get (sys c) h.depth id flags { w := run c evs {}, next := [script] }).1 = .ok t →
      t.id = id.toNat ∧ ∃ frames, Taken c evs id.toNat frames ∧ t.frames <+: frames ∧ (0 ∉ frames → t.frames = frames) := by
  rw [depth_of hh hv]
  rcases Nat.eq_zero_or_pos flags with rfl | hf
  · rw [get_eq c evs ha _ (reached_inv c evs)]
    split
    · exact ⟨(fun hx => by cases hx), (fun t hx => by cases hx)⟩
    · split
      · exact ⟨(fun hx => by cases hx), (fun t hx => by cases hx)⟩
      · rename_i b hb
        refine ⟨(fun hx => by cases hx), fun t hx => ?_⟩
        cases hx
        exact ⟨rfl, b, (reached_inv c evs).bucket _ _ hb, List.takeWhile_prefix _, takeWhile_all⟩
  · have : get (sys c) c.depth id flags { w := run c evs {}, next := [script] } =
        (.error (.syscall "bpf_map_lookup_elem" 22), { w := run c evs {}, next := [script] }) := by
      simp only [get, sys, ne_eq, if_pos (show ¬ flags = 0 by omega)]
      rfl
    rw [this]
    exact ⟨(fun hx => by cases hx), (fun t hx => by cases hx)⟩

/-! ## What stays -/

/-- The bucket holds the frames, or one reader has taken them out. -/
structure Has (id : Nat) (b : List Nat) (w : W) : Prop where
  pend : ∀ p x, w.pend p = some x → x.1 ≠ id
  held : (w.bucket id = some b ∧ ∀ r x, w.hold r = some x → x.1 ≠ id) ∨
    (w.bucket id = none ∧ ∃ r, w.hold r = some (id, b) ∧ ∀ r' x, w.hold r' = some x → x.1 = id → r' = r)

theorem Has.idle {id : Nat} {b : List Nat} {w : W} (h : Has id b w) (hi : Idle id w) : w.bucket id = some b := by
  rcases h.held with h | ⟨-, r, hr, -⟩
  · exact h.1
  · exact absurd rfl (hi.2 _ _ hr)

theorem takeOut_has {id : Nat} {b : List Nat} {w : W} (h : Has id b w) (r i : Nat) (hr : w.hold r = none) (hs : i = id → Idle id w) :
    Has id b (takeOut r i w) := by
  simp only [takeOut]
  rcases e : w.bucket i with _ | x
  · exact h
  · refine ⟨h.pend, ?_⟩
    by_cases hi : i = id
    · have hb := h.idle (hs hi)
      have hid := hs hi
      subst hi
      rw [e] at hb
      cases hb
      refine .inr ⟨by simp [upd], r, by simp [upd], fun r' x hx hx1 => ?_⟩
      simp only [upd] at hx
      split at hx
      · assumption
      · exact absurd hx1 (hid.2 _ _ hx)
    · rcases h.held with ⟨h1, h2⟩ | ⟨h1, q, h2, h3⟩
      · refine .inl ⟨by simp [upd, Ne.symm hi, h1], fun r' x hx => ?_⟩
        simp only [upd] at hx
        split at hx
        · cases hx; exact hi
        · exact h2 _ _ hx
      · have hq : q ≠ r := by rintro rfl; rw [hr] at h2; cases h2
        refine .inr ⟨by simp [upd, Ne.symm hi, h1], q, by simp [upd, hq, h2], fun r' x hx hx1 => ?_⟩
        simp only [upd] at hx
        split at hx
        · cases hx; exact absurd hx1 hi
        · exact h3 _ _ hx hx1

theorem putBack_has {id : Nat} {b : List Nat} {w : W} (h : Has id b w) (r : Nat) : Has id b (putBack r w) := by
  simp only [putBack]
  rcases e : w.hold r with _ | ⟨i, x⟩
  · exact h
  · refine ⟨h.pend, ?_⟩
    rcases h.held with ⟨h1, h2⟩ | ⟨h1, q, h2, h3⟩
    · have hi : i ≠ id := h2 _ _ e
      refine .inl ⟨by simp [upd, Ne.symm hi, h1], fun r' x' hx => ?_⟩
      simp only [upd] at hx
      split at hx
      · cases hx
      · exact h2 _ _ hx
    · by_cases hi : i = id
      · have hq := h3 _ _ e hi
        subst hq
        rw [h2] at e
        cases e
        refine .inl ⟨by simp [upd], fun r' x' hx hx1 => ?_⟩
        simp only [upd] at hx
        split at hx
        · cases hx
        · exact absurd (h3 _ _ hx hx1) (by assumption)
      · have hq : q ≠ r := by rintro rfl; rw [h2] at e; cases e; exact hi rfl
        refine .inr ⟨by simp [upd, Ne.symm hi, h1], q, by simp [upd, hq, h2], fun r' x' hx hx1 => ?_⟩
        simp only [upd] at hx
        split at hx
        · cases hx
        · exact h3 _ _ hx hx1

theorem step_has {c : Conf} {id : Nat} {b : List Nat} {w : W} (h : Has id b w) (e : Ev) (ht : Starts c id e → Idle id w) (hs : Stays c id e) :
    Has id b (step c e w).1 := by
  rcases e with ⟨p, stack, flags, nomem⟩ | p | ⟨r, i⟩ | r | i
  · simp only [step]
    split
    · exact h
    · simp only [looked]
      split
      · exact h
      split
      · exact h
      split
      · exact h
      split
      · exact h
      split
      · exact h
      split
      · exact h
      · rename_i hno _
        refine ⟨fun q x hx => ?_, h.held⟩
        simp only [upd] at hx
        split at hx
        · cases hx
          intro hid
          simp only at hid
          have hb := h.idle (ht hid)
          have := hs.2 _ _ _ _ rfl hid
          exact hno ⟨by rw [hid, hb]; rfl, this⟩
        · exact h.pend _ _ hx
  · simp only [step]
    rcases e : w.pend p with _ | ⟨i, x⟩
    · exact h
    · have hi : i ≠ id := h.pend _ _ e
      refine ⟨fun q y hy => ?_, ?_⟩
      · simp only [upd] at hy
        split at hy
        · cases hy
        · exact h.pend _ _ hy
      · rcases h.held with ⟨h1, h2⟩ | ⟨h1, q, h2, h3⟩
        · exact .inl ⟨by simp [upd, Ne.symm hi, h1], h2⟩
        · exact .inr ⟨by simp [upd, Ne.symm hi, h1], q, h2, h3⟩
  · simp only [step]
    rcases hr : w.hold (r + 1) with _ | y
    · simp only [Option.isSome, Bool.false_eq_true, if_false]
      exact takeOut_has h _ _ hr ht
    · simp only [Option.isSome, if_true]
      exact h
  · exact putBack_has h _
  · have hi : i ≠ id := by rintro rfl; exact hs.1 rfl
    refine ⟨h.pend, ?_⟩
    rcases h.held with ⟨h1, h2⟩ | ⟨h1, q, h2, h3⟩
    · exact .inl ⟨by simp [step, upd, Ne.symm hi, h1], h2⟩
    · exact .inr ⟨by simp [step, upd, Ne.symm hi, h1], q, h2, h3⟩

theorem run_has {c : Conf} {id : Nat} {b : List Nat} : ∀ (es : List Ev) (w : W), Has id b w → Turns c id w es → (∀ e ∈ es, Stays c id e) →
    Has id b (run c es w)
  | [], w, h, _, _ => h
  | e :: es, w, h, ht, hs => run_has es _ (step_has h e ht.1 (hs e (by simp))) ht.2 (fun x hx => hs x (by simp [hx]))

theorem run_append (c : Conf) : ∀ (a b : List Ev) (w : W), run c (a ++ b) w = run c b (run c a w)
  | [], _, _ => rfl
  | e :: a, b, w => run_append c a b _

/-- A stack a program was given an id for is in the bucket. -/
theorem answered_has {c : Conf} (hc : c.Ok) {evs : List Ev} {e : Ev} {id : Nat} {b : List Nat} (h : Answered c (run c evs {}) e id b)
    (hi : Idle id (step c e (run c evs {})).1) : Has id b (step c e (run c evs {})).1 := by
  generalize hw : run c evs {} = w at *
  obtain ⟨h1, ⟨p, st, f, n, rfl, hf, rfl⟩ | ⟨p, rfl, hp⟩⟩ := h
  · refine ⟨hi.1, .inl ⟨?_, hi.2⟩⟩
    simp only [step] at h1 ⊢
    split at h1
    · cases h1
    · rename_i hn
      rw [if_neg hn]
      simp only [looked] at h1 ⊢
      split at h1
      · simp at h1
      rename_i a1
      rw [if_neg a1]
      split at h1
      · simp at h1
      rename_i a2
      rw [if_neg a2]
      split at h1
      · rename_i a3
        omega
      rename_i a3
      rw [if_neg a3]
      split at h1
      · rename_i a4
        rw [if_pos a4]
        simp only [Option.some.injEq] at h1
        have : idOf c (kept c f st) = id := by omega
        rw [← this]
        exact a4
      split at h1
      · simp at h1
      split at h1
      · simp at h1
      · cases h1
  · refine ⟨hi.1, .inl ⟨?_, hi.2⟩⟩
    rcases ep : w.pend p with _ | ⟨i, x⟩
    · rw [ep] at hp; cases hp
    · rw [ep] at hp
      simp only [Option.map_some, Option.some.injEq] at hp
      subst hp
      simp only [step, ep, Option.some.injEq] at h1 ⊢
      have : i = id := by omega
      subst this
      simp [upd]

theorem answered_small {c : Conf} (hc : c.Ok) {evs : List Ev} {e : Ev} {id : Nat} {b : List Nat} (h : Answered c (run c evs {}) e id b)
    (hi : Idle id (step c e (run c evs {})).1) : id < c.buckets := by
  have hb := (answered_has hc h hi).idle hi
  have hr : Inv c (evs ++ [e]) (step c e (run c evs {})).1 := step_inv (reached_inv c evs) e
  obtain ⟨_, _, _, _, _, _, _, rfl⟩ := hr.bucket _ _ hb
  exact Nat.mod_lt _ hc.buckets

/-- **C107** (an id stands for its stack), partial: calls for the same bucket must not overlap. The id a program was given for a stack, compared
in full, gives the frames of that stack, as long as it is not removed, no program asks for another to take its place, and calls for this id are
made one after another; frames after one at address 0 are missing. Calls for other ids may do what they like. -/
theorem C107_kept_partial (c : Conf) (hc : c.Ok) (d : Handles.Data) (h : Handles.Handle) (hh : Handles.newStackTrace d = .ok h)
    (hv : d.obj.valueSize = 8 * c.depth) (evs post script : List Ev) (e : Ev) (id : Nat) (frames : List Nat)
    (ha : Addresses (evs ++ e :: post))
    (given : Answered c (run c evs {}) e id frames) (idle : Idle id (step c e (run c evs {})).1)
    (turns : Turns c id (step c e (run c evs {})).1 post) (stays : ∀ x ∈ post, Stays c id x)
    (now : Idle id (run c (evs ++ e :: post) {})) :
    (get (sys c) h.depth (BitVec.ofNat 32 id) 0 { w := run c (evs ++ e :: post) {}, next := [script] }).1 =
      .ok ⟨id, frames.takeWhile (fun ip : Nat => decide (ip ≠ 0))⟩ := by
  rw [depth_of hh hv]
  have hlt := answered_small hc given idle
  have hid : (BitVec.ofNat 32 id).toNat = id := by
    rw [BitVec.toNat_ofNat]
    exact Nat.mod_eq_of_lt (Nat.lt_of_lt_of_le hlt hc.ids)
  have hrun : run c (evs ++ e :: post) {} = run c post (step c e (run c evs {})).1 := by
    rw [run_append]; rfl
  have has := run_has post _ (answered_has hc given idle) turns stays
  rw [← hrun] at has
  rw [get_eq c (evs ++ e :: post) ha _ (reached_inv c _), hid, if_neg (Nat.not_le.mpr hlt), has.idle now]

/-! ## Missing stacks and removal -/

/-- **C107** (missing stacks). `get` returns `KeyNotFound` exactly if there is no stack of this id at the moment of the call, and changes
nothing then. -/
theorem C107_missing (c : Conf) (hc : c.Ok) (d : Handles.Data) (h : Handles.Handle) (hh : Handles.newStackTrace d = .ok h)
    (hv : d.obj.valueSize = 8 * c.depth) (evs : List Ev) (ha : Addresses evs) (script : List Ev) (id : BitVec 32) :
    ((get (sys c) h.depth id 0 { w := run c evs {}, next := [script] }).1 = .error .keyNotFound ↔ (run c evs {}).bucket id.toNat = none) ∧
    ((run c evs {}).bucket id.toNat = none →
      (get (sys c) h.depth id 0 { w := run c evs {}, next := [script] }).2 = { w := run c evs {}, next := [script] }) := by
  rw [depth_of hh hv, get_eq c evs ha _ (reached_inv c evs)]
  by_cases hb : c.buckets ≤ id.toNat
  · have hn : (run c evs {}).bucket id.toNat = none := by
      rcases e : (run c evs {}).bucket id.toNat with _ | b
      · rfl
      · obtain ⟨_, _, _, _, _, _, _, he⟩ := (reached_inv c evs).bucket _ _ e
        have : idOf c b < c.buckets := Nat.mod_lt _ hc.buckets
        omega
    simp only [if_pos hb, hn, true_iff, iff_true, implies_true, and_self]
  · simp only [if_neg hb]
    rcases e : (run c evs {}).bucket id.toNat with _ | b
    · simp
    · simp

/-- **C107** (reading leaves things as they are). If nobody else does anything meanwhile, `get` changes nothing. -/
theorem C107_get_leaves (c : Conf) (d : Handles.Data) (h : Handles.Handle) (hh : Handles.newStackTrace d = .ok h)
    (hv : d.obj.valueSize = 8 * c.depth) (evs : List Ev) (ha : Addresses evs) (id : BitVec 32) (i : Nat) :
    (get (sys c) h.depth id 0 { w := run c evs {}, next := [[]] }).2.w.bucket i = (run c evs {}).bucket i := by
  rw [depth_of hh hv, get_eq c evs ha _ (reached_inv c evs)]
  split
  · rfl
  · split
    · rfl
    · rename_i b hb
      simp only [run, takeOut, hb, putBack, upd, if_true]
      split
      · rename_i hi
        rw [hi, hb]
      · rfl

/-- **C107** (removal). `remove` succeeds exactly if there is a stack of this id; afterwards there is none, and all others are there. -/
theorem C107_removed (c : Conf) (hc : c.Ok) (evs : List Ev) (next : List (List Ev)) (id : BitVec 32) :
    ((remove (sys c) id { w := run c evs {}, next }).1 = .ok () ↔ (run c evs {}).bucket id.toNat ≠ none) ∧
    (remove (sys c) id { w := run c evs {}, next }).2.w.bucket id.toNat = none ∧
    ∀ i, i ≠ id.toNat → (remove (sys c) id { w := run c evs {}, next }).2.w.bucket i = (run c evs {}).bucket i := by
  simp only [remove, sys, ofLe_id]
  by_cases hb : c.buckets ≤ id.toNat
  · have hn : (run c evs {}).bucket id.toNat = none := by
      rcases e : (run c evs {}).bucket id.toNat with _ | b
      · rfl
      · obtain ⟨_, _, _, _, _, _, _, he⟩ := (reached_inv c evs).bucket _ _ e
        have : idOf c b < c.buckets := Nat.mod_lt _ hc.buckets
        omega
    simp only [if_pos hb, hn, ne_eq, not_true_eq_false, iff_false, reduceCtorEq, not_false_eq_true, implies_true, and_self]
  · simp only [if_neg hb]
    rcases e : (run c evs {}).bucket id.toNat with _ | b
    · simp only [if_true, e]
      exact ⟨by simp, trivial, fun _ _ => trivial⟩
    · simp only [reduceCtorEq, if_false]
      refine ⟨by simp, by simp [upd], fun i hi => by simp [upd, hi]⟩

/-! ## Iteration -/

theorem nextFrom_some {c : Conf} {w : W} {s id : Nat} (h : nextFrom c w s = some id) :
    s ≤ id ∧ id < c.buckets ∧ (w.bucket id).isSome ∧ ∀ i, s ≤ i → i < id → w.bucket i = none := by
  simp only [nextFrom] at h
  rw [List.find?_range'_eq_some] at h
  obtain ⟨h1, h2, h3⟩ := h
  simp only [List.mem_range'_1] at h2
  refine ⟨by omega, by omega, h1, fun i hi hl => ?_⟩
  have := h3 i hi hl
  simpa using this

theorem nextFrom_none {c : Conf} {w : W} {s : Nat} (h : nextFrom c w s = none) : ∀ i, s ≤ i → i < c.buckets → w.bucket i = none := by
  simp only [nextFrom, List.find?_eq_none, List.mem_range'_1] at h
  intro i hi hl
  have := h i ⟨hi, by omega⟩
  simpa using this

/-- The stacks from an id on, in the order of their ids. -/
def listed (w : W) : Nat → Nat → List (Except Error (BitVec 32 × StackTrace))
  | _, 0 => []
  | s, n + 1 =>
      (match w.bucket s with
       | none => []
       | some b => [.ok (BitVec.ofNat 32 s, ⟨s, b.takeWhile (fun ip : Nat => decide (ip ≠ 0))⟩)]) ++ listed w (s + 1) n

theorem listed_skip (w : W) : ∀ (k s n : Nat), (∀ i, s ≤ i → i < s + k → w.bucket i = none) → listed w s (k + n) = listed w (s + k) n
  | 0, s, n, _ => by simp
  | k + 1, s, n, h => by
    rw [show k + 1 + n = (k + n) + 1 by omega]
    simp only [listed, h s (Nat.le_refl _) (by omega), List.nil_append]
    rw [listed_skip w k (s + 1) n (fun i h1 h2 => h i (by omega) (by omega))]
    congr 1
    omega

theorem quiet_get (c : Conf) (hc : c.Ok) (evs : List Ev) (ha : Addresses evs) (w : W) (hi : Inv c evs w) (id : Nat) (hid : id < c.buckets)
    (b : List Nat) (hb : w.bucket id = some b) :
    ∃ w', get (sys c) c.depth (BitVec.ofNat 32 id) 0 { w } = (.ok ⟨id, b.takeWhile (fun x : Nat => decide (x ≠ 0))⟩, { w := w' }) ∧
      w'.bucket = w.bucket ∧ Inv c evs w' := by
  have hto : (BitVec.ofNat 32 id).toNat = id := by
    rw [BitVec.toNat_ofNat]
    exact Nat.mod_eq_of_lt (Nat.lt_of_lt_of_le hid hc.ids)
  obtain ⟨h1, h2⟩ := Inv.small (hi.bucket _ _ hb) ha
  obtain ⟨mem, h3, h4⟩ := read_value c b h1 h2
  refine ⟨putBack 0 (takeOut 0 id w), ?_, ?_, putBack_inv (takeOut_inv hi _ _) _⟩
  · have hof := ofLe_id (BitVec.ofNat 32 id)
    rw [hto] at hof
    simp only [get, sys, hto, hof, ne_eq, not_true_eq_false, if_false, if_neg (Nat.not_le.mpr hid), hb, h3, ← h4, List.headD_nil, run, List.tail_nil]
  · funext i
    simp only [takeOut, hb, putBack, upd, if_true]
    split
    · rename_i h; rw [h, hb]
    · rfl

theorem collect_quiet (c : Conf) (hc : c.Ok) (evs : List Ev) (ha : Addresses evs) (rounds : Nat) :
    ∀ (n : Nat) (w : W) (k : Option (BitVec 32)) (s : Nat), Inv c evs w → start c w (k.map fun id => le 4 id.toNat) = s → s ≤ c.buckets →
      c.buckets - s < n →
      (collect (sys c) c.depth (rounds + 1) n (false, k) { w }).1 = listed w s (c.buckets - s) ∧
      (collect (sys c) c.depth (rounds + 1) n (false, k) { w }).2.1 = true ∧
      (collect (sys c) c.depth (rounds + 1) n (false, k) { w }).2.2.w.bucket = w.bucket := by
  intro n
  induction n with
  | zero => intro w k s _ _ _ h; omega
  | succ n ih =>
    intro w k s hi hs hle hn
    rcases hx : nextFrom c w s with _ | id
    · have hk : keysNext (sys c) (false, k) { w } = (none, (false, none), { w }) := by
        simp only [keysNext, Bool.false_eq_true, if_false]
        simp only [sys, hs, hx, if_true]
      have hl : listed w s (c.buckets - s) = [] := by
        have := listed_skip w (c.buckets - s) s 0 (fun i h1 h2 => nextFrom_none hx i h1 (by omega))
        simpa [listed] using this
      simp only [collect, iterNext, hk, hl]
      exact ⟨trivial, trivial, trivial⟩
    · obtain ⟨h1, h2, h3, h4⟩ := nextFrom_some hx
      rcases hb : w.bucket id with _ | b
      · rw [hb] at h3; cases h3
      · have hof : ofLe (le 4 id) = id := ofLe_le_of_lt 4 id (by
          have := hc.ids
          have e : (256 : Nat) ^ 4 = 2 ^ 32 := by decide
          omega)
        have hto : (BitVec.ofNat 32 id).toNat = id := by
          rw [BitVec.toNat_ofNat]
          exact Nat.mod_eq_of_lt (Nat.lt_of_lt_of_le h2 hc.ids)
        have hk : keysNext (sys c) (false, k) { w } = (some (.ok (BitVec.ofNat 32 id)), (false, some (BitVec.ofNat 32 id)), { w }) := by
          simp only [keysNext, Bool.false_eq_true, if_false]
          simp only [sys, hs, hx, hof]
        obtain ⟨w', g1, g2, g3⟩ := quiet_get c hc evs ha w hi id h2 b hb
        have hit : iterNext (sys c) c.depth (rounds + 1) (false, k) { w } =
            some (some (.ok (BitVec.ofNat 32 id, ⟨id, b.takeWhile (fun x : Nat => decide (x ≠ 0))⟩)), (false, some (BitVec.ofNat 32 id)), { w := w' }) := by
          simp only [iterNext, hk, g1]
        have hst : start c w' ((some (BitVec.ofNat 32 id)).map fun i => le 4 i.toNat) = id + 1 := by
          simp only [Option.map_some, start, hto, hof, g2, hb, reduceCtorEq, or_false, if_neg (Nat.not_le.mpr h2)]
        obtain ⟨r1, r2, r3⟩ := ih w' (some (BitVec.ofNat 32 id)) (id + 1) g3 hst (by omega) (by omega)
        have hl : listed w s (c.buckets - s) =
            .ok (BitVec.ofNat 32 id, ⟨id, b.takeWhile (fun x : Nat => decide (x ≠ 0))⟩) :: listed w (id + 1) (c.buckets - (id + 1)) := by
          have := listed_skip w (id - s) s (c.buckets - id) (fun i a1 a2 => h4 i a1 (by omega))
          rw [show id - s + (c.buckets - id) = c.buckets - s by omega, show s + (id - s) = id by omega] at this
          rw [this, show c.buckets - id = (c.buckets - (id + 1)) + 1 by omega]
          simp only [listed, hb, List.singleton_append]
        have hw : ∀ (m s : Nat), listed w' s m = listed w s m := by
          intro m
          induction m with
          | zero => intro s; rfl
          | succ m ihm => intro s; simp only [listed, g2, ihm]
        simp only [collect, hit, hl]
        rw [hw] at r1
        rw [r1]
        exact ⟨rfl, r2, by rw [r3, g2]⟩

theorem listed_eq (w : W) : ∀ n s : Nat, listed w s n = (List.range' s n).filterMap fun id =>
    (w.bucket id).map fun b => .ok (BitVec.ofNat 32 id, ⟨id, b.takeWhile (fun ip : Nat => decide (ip ≠ 0))⟩)
  | 0, s => rfl
  | n + 1, s => by
    simp only [listed, List.range'_succ, List.filterMap_cons, listed_eq w n (s + 1)]
    rcases w.bucket s with _ | b <;> rfl

/-- **C107** (iteration). While nobody changes the map, iterating over it yields every stack there is, with its id, once and in the order of the
ids, comes to an end, and leaves the map as it is; also stacks whose id is not less than the number of entries asked for, which the kernel rounds up. -/
theorem C107_iterated (c : Conf) (hc : c.Ok) (d : Handles.Data) (h : Handles.Handle) (hh : Handles.newStackTrace d = .ok h)
    (hv : d.obj.valueSize = 8 * c.depth) (evs : List Ev) (ha : Addresses evs) (rounds n : Nat) (hr : 0 < rounds) (hn : c.buckets < n) :
    (collect (sys c) h.depth rounds n (false, none) { w := run c evs {} }).1 =
      ((List.range c.buckets).filterMap fun id => ((run c evs {}).bucket id).map fun b =>
        .ok (BitVec.ofNat 32 id, ⟨id, b.takeWhile (fun ip : Nat => decide (ip ≠ 0))⟩)) ∧
    (collect (sys c) h.depth rounds n (false, none) { w := run c evs {} }).2.1 = true ∧
    (collect (sys c) h.depth rounds n (false, none) { w := run c evs {} }).2.2.w.bucket = (run c evs {}).bucket := by
  rw [depth_of hh hv]
  obtain ⟨m, rfl⟩ : ∃ m, rounds = m + 1 := ⟨rounds - 1, by omega⟩
  have := collect_quiet c hc evs ha m n (run c evs {}) none 0 (reached_inv c evs) rfl (Nat.zero_le _) (by omega)
  rw [listed_eq, Nat.sub_zero, ← List.range_eq_range'] at this
  exact this

/-! ## Programs -/

/-- **C107** (results of programs). What `get_stackid` gives a program is what the helper returned: the id, or the error with its number. -/
theorem C107_stackid (n : Nat) :
    (n < 2 ^ 32 → getStackid (BitVec.ofInt 64 n) = .ok (n : Int)) ∧
    (0 < n → n < 4096 → getStackid (BitVec.ofInt 64 (-n)) = .error (-n : Int)) := by
  constructor
  · intro h
    have : (BitVec.ofInt 64 (n : Int)).toInt = n := by
      rw [BitVec.toInt_ofInt]
      exact Int.bmod_eq_of_le (by omega) (by omega)
    simp only [getStackid, this]
    rw [if_neg (by omega)]
  · intro h0 h
    have : (BitVec.ofInt 64 (-n : Int)).toInt = -n := by
      rw [BitVec.toInt_ofInt]
      exact Int.bmod_eq_of_le (by omega) (by omega)
    have h2 : ((BitVec.ofInt 64 (-n : Int)).truncate 32).toInt = -n := by
      rw [BitVec.truncate_eq_setWidth, BitVec.toInt_setWidth, BitVec.toNat_ofInt]
      have e : ((-(n : Int)) % (2 ^ 64 : Nat)).toNat = 2 ^ 64 - n := by omega
      rw [e]
      rw [show ((2 ^ 64 - n : Nat) : Int) = -(n : Int) + (2 ^ 32 : Nat) * (2 ^ 32 : Nat) by omega, Int.add_mul_bmod_self_left]
      exact Int.bmod_eq_of_le (by omega) (by omega)
    simp only [getStackid, this, h2]
    rw [if_pos (by omega)]

end Verif.Stacks
