import Verif.LogRun.Invariant
import Verif.Common.Except
/-!
# What programs log is what the logger is given (C93)
-/
set_option linter.unusedSimpArgs false
set_option linter.unusedVariables false
namespace Verif.LogRun
open Verif.Bytes Verif.Log Verif.Log.Spec Verif.LogRun.Spec
open Verif.Ebpf.Ring (World Slot wstep wrun WInv outputs_inv wstep_inv)
open Verif.Ebpf.Ring.Spec (Output Fate outputs Each Shows submitted)

theorem each_get {α β : Type} {R : α → β → Prop} {as : List α} {bs : List β} (h : Each R as bs) :
    as.length = bs.length ∧ ∀ (i : Nat) (a : α) (b : β), as[i]? = some a → bs[i]? = some b → R a b := by
  induction h with
  | nil => exact ⟨rfl, fun i a b ha => by cases ha⟩
  | cons hr _ ih =>
    refine ⟨by simp [ih.1], fun i a b ha hb => ?_⟩
    cases i with
    | zero => cases ha; cases hb; exact hr
    | succ i => exact ih.2 i a b ha hb

section
variable {base m enabled : Nat} {std : Std} {mem : Nat → UInt8} {pos : Nat}

/-- A record read back says what the statement says. -/
theorem told {utf8 : Char → Bytes} (hu : ∀ s : List Char, std.utf8 (s.flatMap utf8) = true) {st : Stmt} {ss : List Bytes} {o : Output}
    {bs : Bytes} (hmk : Makes enabled (fun s => s.flatMap utf8) st o.bytes.length ss) (hhas : Has o ss.flatten ss.flatten.length)
    (hsh : Shows o bs) : Told std utf8 st (flushOne std bs) := by
  intro ps hpl
  obtain ⟨items, hc, hp⟩ := hmk
  have hsent := prepare_submitted hp hsh.1 (fun j b hj => hsh.2 j b (hhas j b (List.getElem?_eq_some_iff.mp hj).1 hj))
  unfold compile at hc
  cases hparse : parse st.format with
  | error e => rw [hparse] at hc; cases hc
  | ok fs =>
    rw [hparse] at hc
    simp only at hc
    cases hexp : expand (fun s => s.flatMap utf8) fs st.args with
    | none => rw [hexp] at hc; cases hc
    | some items' =>
      rw [hexp] at hc
      simp only at hc
      split at hc
      · rename_i hcount
        cases hc
        rw [hpl.format] at hparse
        exact C42_logged_as_written_partial std utf8 hu st.header hpl.target hpl.module hpl.file hpl.line ps hpl.ordinary st.args hpl.values
          hpl.noHex fs hparse items hexp hcount enabled _ bs hsent
      · cases hc

/-- The first `n` outputs are submitted when they are not open. -/
theorem told_all {utf8 : Char → Bytes} (hu : ∀ s : List Char, std.utf8 (s.flatMap utf8) = true) {s : State} {es : List Entry}
    {os : List Output} (h : Inv base (2 ^ m) enabled (fun s => s.flatMap utf8) std mem pos s es os) {n : Nat}
    (hn : n ≤ os.length) (hopen : ∀ o ∈ os.take n, o.fate ≠ .open)
    (hd : Each Shows (submitted (os.take n)) s.ring.sys.delivered) :
    (∀ e ∈ es.take n, e.finished = true) ∧ Each (Told std utf8) ((es.take n).map (·.stmt)) s.shown := by
  have hholds : ∀ (i : Nat) (e : Entry) (o : Output), (es.take n)[i]? = some e → (os.take n)[i]? = some o →
      Holds enabled (fun s => s.flatMap utf8) i e o .gone none := by
    intro i e o he ho
    have hi : i < n := by
      rcases Nat.lt_or_ge i n with hlt | hge
      · exact hlt
      · rw [List.getElem?_take, if_neg (by omega)] at he; cases he
    have homem := List.mem_of_getElem? ho
    rw [List.getElem?_take, if_pos hi] at he ho
    obtain ⟨o', sl, t, ho', _, _, hh⟩ := h.atE he
    rw [ho] at ho'; cases ho'
    cases t with
    | some t => exact absurd hh.2.1 (hopen o homem)
    | none =>
      obtain ⟨a, b, c, d⟩ := hh
      exact ⟨a, b, rfl, d⟩
  have hlenE : (es.take n).length = (os.take n).length := by simp [h.lenE]
  have hpair : ∀ (i : Nat) (e : Entry), (es.take n)[i]? = some e → ∃ o, (os.take n)[i]? = some o := by
    intro i e he
    have hi := (List.getElem?_eq_some_iff.mp he).1
    exact ⟨_, List.getElem?_eq_getElem (hlenE ▸ hi)⟩
  have hsub : submitted (os.take n) = os.take n := by
    unfold submitted
    rw [List.filter_eq_self]
    intro o ho
    obtain ⟨i, hi⟩ := List.getElem?_of_mem ho
    have hil := (List.getElem?_eq_some_iff.mp hi).1
    have he := List.getElem?_eq_getElem (show i < (es.take n).length by rw [hlenE]; exact hil)
    have := (hholds i _ o he hi).2.1
    simp [this]
  rw [hsub] at hd
  obtain ⟨hl, hpt⟩ := each_get hd
  refine ⟨?_, ?_⟩
  · intro e he
    obtain ⟨i, hi⟩ := List.getElem?_of_mem he
    obtain ⟨o, ho⟩ := hpair i e hi
    exact (hholds i e o hi ho).1
  · rw [h.shown]
    apply Verif.Ebpf.Ring.each_of_pointwise
    · simp only [List.length_map]; omega
    · intro i st x hst hx
      rw [List.getElem?_map] at hst hx
      cases he : (es.take n)[i]? with
      | none => rw [he] at hst; cases hst
      | some e =>
        rw [he] at hst
        simp only [Option.map_some, Option.some.injEq] at hst
        subst hst
        cases hb : s.ring.sys.delivered[i]? with
        | none => rw [hb] at hx; cases hx
        | some bs =>
          rw [hb] at hx
          simp only [Option.map_some, Option.some.injEq] at hx
          subst hx
          obtain ⟨o, ho⟩ := hpair i e he
          obtain ⟨_, _, _, _, ss, hmk, hhas⟩ := hholds i e o he ho
          exact told hu hmk hhas (hpt i o bs ho hb)

/-- Where the process is: all before is carried out, and if what the ring has given it ends later, the next one is not. -/
theorem told_upto {utf8 : Char → Bytes} (hb : 0 < base) (h3 : 3 ≤ m) (hm : m ≤ 30) (hp : pos % 8 = 0)
    (hu : ∀ s : List Char, std.utf8 (s.flatMap utf8) = true) {s : State} {es : List Entry}
    {os : List Output} (h : Inv base (2 ^ m) enabled (fun s => s.flatMap utf8) std mem pos s es os) {n : Nat} (hn : n ≤ os.length)
    (hd : Each Shows (submitted (os.take n)) s.ring.sys.delivered) :
    ∃ k, k ≤ n ∧ Each (Told std utf8) ((es.take k).map (·.stmt)) s.shown ∧
      (k < n → ∃ e, es[k]? = some e ∧ e.finished = false) := by
  obtain ⟨rops, rlog, hr, hos⟩ := h.ring
  obtain ⟨k, hk, hopen, hd'⟩ := Verif.Ebpf.Ring.C83_delivered_partial base m hb h3 hm mem pos hp rops s.ring rlog hr
  rw [← hos] at hk hopen hd'
  obtain ⟨_, he⟩ := told_all hu h hk hopen hd'
  have hsub : submitted (os.take k) = os.take k := by
    unfold submitted
    rw [List.filter_eq_self]
    intro o ho
    obtain ⟨i, hio⟩ := List.getElem?_of_mem ho
    have hil := (List.getElem?_eq_some_iff.mp hio).1
    have hin : i < k := by simp at hil; omega
    rw [List.getElem?_take, if_pos hin] at hio
    have hos := (List.getElem?_eq_some_iff.mp hio).1
    have hee := List.getElem?_eq_getElem (show i < es.length by rw [h.lenE]; exact hos)
    obtain ⟨o', sl, t, ho', _, _, hh⟩ := h.atE hee
    rw [hio] at ho'; cases ho'
    cases t with
    | some t => exact absurd hh.2.1 (hopen o ho)
    | none => simp [hh.2.1]
  rw [hsub] at hd'
  have hl' := (each_get hd').1
  have hl := (each_get hd).1
  rw [List.length_take] at hl'
  have hcount : (submitted (os.take n)).length = k := by omega
  have hle : k ≤ n := by
    have := List.length_filter_le (fun o : Output => o.fate == .submitted) (os.take n)
    rw [List.length_take] at this
    unfold submitted at hcount
    omega
  refine ⟨k, hle, he, fun hlt => ?_⟩
  have hee := List.getElem?_eq_getElem (show k < es.length by rw [h.lenE]; omega)
  refine ⟨_, hee, ?_⟩
  obtain ⟨o, sl, t, ho, _, _, hh⟩ := h.atE hee
  cases t with
  | some t => exact hh.1
  | none =>
    exfalso
    have hsplit : os.take n = os.take k ++ (os.take n).drop k := by
      have := (List.take_append_drop k (os.take n)).symm
      rw [List.take_take, Nat.min_eq_left hle] at this
      exact this
    have hm : o ∈ submitted ((os.take n).drop k) := by
      unfold submitted
      rw [List.mem_filter]
      refine ⟨?_, by simp [hh.2.1]⟩
      rw [List.mem_iff_getElem?]
      exact ⟨0, by rw [List.getElem?_drop, List.getElem?_take, if_pos (by omega)]; exact ho⟩
    have hlen : (submitted (os.take n)).length = (submitted (os.take k)).length + (submitted ((os.take n).drop k)).length := by
      rw [hsplit]
      unfold submitted
      rw [List.filter_append, List.length_append, ← hsplit]
    rw [hsub, List.length_take, hcount] at hlen
    have hz : (submitted ((os.take n).drop k)).length = 0 := by omega
    rw [List.eq_nil_of_length_eq_zero hz] at hm
    cases hm

theorem after_stmts {es : List Entry} {o : Op} {r : Res} {e : Entry} (h : e ∈ after es (o, r)) :
    (∃ e' ∈ es, e'.stmt = e.stmt) ∨ ∃ pg, o = .log e.stmt pg := by
  have modify_mem : ∀ (k : Nat) (f : Entry → Entry), (∀ e, (f e).stmt = e.stmt) → e ∈ es.modify k f → ∃ e' ∈ es, e'.stmt = e.stmt := by
    intro k f hf hm
    obtain ⟨i, hi⟩ := List.getElem?_of_mem hm
    rcases getElem?_at_modify hi with ⟨_, a, ha, rfl⟩ | ⟨_, ha⟩
    · exact ⟨a, List.mem_of_getElem? ha, (hf a).symm⟩
    · exact ⟨e, List.mem_of_getElem? ha, rfl⟩
  unfold after at h
  split at h
  · rename_i st pg heq
    simp only [List.mem_append, List.mem_singleton] at h
    rcases h with h | rfl
    · exact Or.inl ⟨e, h, rfl⟩
    · cases heq; exact Or.inr ⟨_, rfl⟩
  · refine Or.inl (modify_mem _ _ ?_ h)
    intro e; rfl
  · refine Or.inl (modify_mem _ _ ?_ h)
    intro e; rfl
  · exact Or.inl ⟨e, h, rfl⟩

theorem run_ops {base size : Nat} {utf8 : List Char → Bytes} : ∀ (ops : List Op) (s s' : State) (log : List (Op × Res)),
    run base size enabled utf8 std s ops = some (s', log) → log.map Prod.fst = ops
  | [], s, s', log, h => by
    simp only [run, Option.some.injEq, Prod.mk.injEq] at h
    obtain ⟨_, rfl⟩ := h
    rfl
  | o :: ops, s, s', log, h => by
    simp only [run] at h
    cases hs : step base size enabled utf8 std s o with
    | none => rw [hs] at h; cases h
    | some p =>
      obtain ⟨s₁, r⟩ := p
      rw [hs] at h
      simp only at h
      cases hr : run base size enabled utf8 std s₁ ops with
      | none => rw [hr] at h; cases h
      | some q =>
        obtain ⟨s₂, l⟩ := q
        rw [hr] at h
        simp only [Option.map_some, Option.some.injEq, Prod.mk.injEq] at h
        obtain ⟨rfl, rfl⟩ := h
        simp [run_ops ops s₁ s₂ l hr]

theorem entries_stmts : ∀ (log : List (Op × Res)) (es : List Entry) (e : Entry), e ∈ log.foldl after es →
    (∃ e' ∈ es, e'.stmt = e.stmt) ∨ ∃ pg, Op.log e.stmt pg ∈ log.map Prod.fst
  | [], es, e, h => Or.inl ⟨e, h, rfl⟩
  | (o, r) :: log, es, e, h => by
    rw [List.foldl_cons] at h
    rcases entries_stmts log _ e h with ⟨e', he', hst⟩ | ⟨pg, hpg⟩
    · rcases after_stmts he' with ⟨e'', he'', hst'⟩ | ⟨pg, rfl⟩
      · exact Or.inl ⟨e'', he'', hst'.trans hst⟩
      · exact Or.inr ⟨pg, by simp [hst]⟩
    · exact Or.inr ⟨pg, by simp only [List.map_cons, List.mem_cons]; exact Or.inr hpg⟩

/-! ## C93 -/

/-- **C93 (what is logged).** However statements of programs on any CPUs are interleaved with one another and with the process: what the
logger has been given are the messages of the first so many statements that were given a place, in that order, each once, all of them
carried out to the end, each with its own text, level, target, module, file and line.  When all statements are like that, the logger
never panics. -/
theorem C93_logged_partial (base m : Nat) (hb : 0 < base) (h3 : 3 ≤ m) (hm : m ≤ 30) (mem : Nat → UInt8) (pos : Nat) (hp : pos % 8 = 0)
    (std : Std) (utf8 : Char → Bytes) (hu : ∀ s : List Char, std.utf8 (s.flatMap utf8) = true) (enabled : Nat)
    (ops : List Op) (s : State) (log : List (Op × Res))
    (h : run base (2 ^ m) enabled (fun s => s.flatMap utf8) std (start mem pos) ops = some (s, log)) :
    (∃ n, n ≤ (entries log).length ∧ (∀ e ∈ (entries log).take n, e.finished = true) ∧
      Each (Told std utf8) (((entries log).take n).map (·.stmt)) s.shown) ∧
    (AllPlain std utf8 ops → s.logger = .working) := by
  obtain ⟨os, hi⟩ := entries_inv hb h3 hm hp h
  obtain ⟨rops, rlog, hr, hos⟩ := hi.ring
  obtain ⟨n, hn, hopen, hd⟩ := Verif.Ebpf.Ring.C83_delivered_partial base m hb h3 hm mem pos hp rops s.ring rlog hr
  rw [← hos] at hn hopen hd
  obtain ⟨hf, he⟩ := told_all hu hi hn hopen hd
  refine ⟨⟨n, by rw [hi.lenE]; exact hn, hf, he⟩, ?_⟩
  intro hall
  cases hl : s.logger with
  | working => rfl
  | stopped =>
    exfalso
    obtain ⟨x, hx, hnot⟩ := hi.stopped.mp hl
    obtain ⟨i, hi'⟩ := List.getElem?_of_mem hx
    obtain ⟨hlen, hpt⟩ := each_get he
    have hil := (List.getElem?_eq_some_iff.mp hi').1
    have hst := List.getElem?_eq_getElem (show i < (((entries log).take n).map (·.stmt)).length by omega)
    have htold := hpt i _ x hst hi'
    have hmem := List.mem_of_getElem? hst
    simp only [List.mem_map] at hmem
    obtain ⟨e, hem, hes⟩ := hmem
    rcases entries_stmts log [] e (List.mem_of_mem_take hem) with ⟨_, hc, _⟩ | ⟨pg, hpg⟩
    · cases hc
    · rw [run_ops ops _ _ _ h] at hpg
      obtain ⟨ps, hps⟩ := hall _ _ hpg
      rw [hes] at hps
      obtain ⟨msg, _, hx'⟩ := htold ps hps
      exact hnot _ hx'

/-- **C93 (nothing is left behind).** When `flush` returns, the logger has been given every statement that was given a place, up to the
first one that is not yet carried out. -/
theorem C93_flushed_partial (base m : Nat) (hb : 0 < base) (h3 : 3 ≤ m) (hm : m ≤ 30) (mem : Nat → UInt8) (pos : Nat) (hp : pos % 8 = 0)
    (std : Std) (utf8 : Char → Bytes) (hu : ∀ s : List Char, std.utf8 (s.flatMap utf8) = true) (enabled : Nat)
    (ops : List Op) (s s' : State) (log : List (Op × Res)) (a : RingBuf.CAct) (r : Res)
    (h : run base (2 ^ m) enabled (fun s => s.flatMap utf8) std (start mem pos) ops = some (s, log))
    (hs : step base (2 ^ m) enabled (fun s => s.flatMap utf8) std s (.reader a) = some (s', r)) (hret : Returns s s') :
    ∃ n, n ≤ (entries log).length ∧ Each (Told std utf8) (((entries log).take n).map (·.stmt)) s'.shown ∧
      (n = (entries log).length ∨ ∃ e, (entries log)[n]? = some e ∧ e.finished = false) := by
  obtain ⟨os, hi⟩ := entries_inv hb h3 hm hp h
  simp only [step] at hs
  obtain ⟨rfl, hi', hthr, w', hw, hring⟩ := read_inv hi hs
  obtain ⟨rops, rlog, hr, hos⟩ := hi.ring
  obtain ⟨n, hn, hd, hlast⟩ := Verif.Ebpf.Ring.C83_drained_partial base m hb h3 hm mem pos hp rops s.ring w' rlog a .done hr hw hret.1
    (hring ▸ hret.2)
  rw [← hos] at hn hd hlast
  rw [← hring] at hd
  obtain ⟨k, hk, he, hnext⟩ := told_upto hb h3 hm hp hu hi' hn hd
  refine ⟨k, by rw [hi'.lenE]; omega, he, ?_⟩
  rcases Nat.lt_or_eq_of_le hk with hlt | rfl
  · exact Or.inr (hnext hlt)
  · rcases hlast with hl | ⟨o, ho, hof⟩
    · left; rw [hi'.lenE]; exact hl
    · right
      have hil := (List.getElem?_eq_some_iff.mp ho).1
      have hee := List.getElem?_eq_getElem (show k < (entries log).length by rw [hi'.lenE]; exact hil)
      refine ⟨_, hee, ?_⟩
      obtain ⟨o', sl, t, ho', _, _, hh⟩ := hi'.atE hee
      rw [ho] at ho'; cases ho'
      cases t with
      | some t => exact hh.1
      | none => rw [hh.2.1] at hof; cases hof

/-- **C93 (no waiting in vain).** While the process waits after `flush` has returned and no notification has come, the first statement
not logged is still being carried out, or the kernel has yet to decide about notifying the process of it. -/
theorem C93_woken_partial (base m : Nat) (hb : 0 < base) (h3 : 3 ≤ m) (hm : m ≤ 30) (mem : Nat → UInt8) (pos : Nat) (hp : pos % 8 = 0)
    (std : Std) (utf8 : Char → Bytes) (hu : ∀ s : List Char, std.utf8 (s.flatMap utf8) = true) (enabled : Nat)
    (ops : List Op) (s : State) (log : List (Op × Res))
    (h : run base (2 ^ m) enabled (fun s => s.flatMap utf8) std (start mem pos) ops = some (s, log)) (hw : Waiting s) :
    ∃ n, n ≤ (entries log).length ∧ Each (Told std utf8) (((entries log).take n).map (·.stmt)) s.shown ∧
      ∀ e, (entries log)[n]? = some e → e.finished = false ∨ e.announced = false := by
  obtain ⟨os, hi⟩ := entries_inv hb h3 hm hp h
  obtain ⟨rops, rlog, hr, hos⟩ := hi.ring
  obtain ⟨n, hn, hd, hlast⟩ := Verif.Ebpf.Ring.C83_woken_partial base m hb h3 hm mem pos hp rops s.ring rlog hr hw.1 hw.2
  rw [← hos] at hn hd hlast
  obtain ⟨k, hk, he, hnext⟩ := told_upto hb h3 hm hp hu hi hn hd
  refine ⟨k, by rw [hi.lenE]; omega, he, ?_⟩
  intro e hek
  rcases Nat.lt_or_eq_of_le hk with hlt | rfl
  · obtain ⟨e', he', hf⟩ := hnext hlt
    rw [hek] at he'; cases he'
    exact Or.inl hf
  · obtain ⟨o, sl, t, ho, _, _, hh⟩ := hi.atE hek
    rcases hlast o ho with hof | hna
    · cases t with
      | some t => exact Or.inl hh.1
      | none => rw [hh.2.1] at hof; cases hof
    · cases t with
      | some t => exact Or.inl hh.1
      | none => exact Or.inr (hh.2.2.2.1.trans hna)

/-! ### What becomes of a statement -/

theorem prepare_of_sent {h : Header} {items : List Item} {buf : Bytes}
    (hs : logStatement enabled (fun n => some (List.replicate n 0)) h items = .submitted buf) :
    ∃ ss, prepare enabled h items = some (buf.length, ss) := by
  unfold logStatement at hs
  unfold prepare
  split at hs
  · rename_i hen
    rw [if_pos hen]
    cases hf : fields (recordFields h items) with
    | none => rw [hf] at hs; cases hs
    | some body =>
      rw [hf] at hs
      obtain ⟨ss, hss, hfl⟩ := fields_slices _ _ hf
      rw [hss]
      simp only [measure_eq, hfl] at hs ⊢
      split at hs
      · rename_i hlt
        rw [if_pos hlt]
        cases hc : capacityFor 9 64 (2 + body.length) with
        | none => rw [hc] at hs; cases hs
        | some cap =>
          rw [hc] at hs
          simp only at hs ⊢
          split at hs
          · rename_i hfit
            cases hs
            refine ⟨le 2 (2 + body.length) :: ss, ?_⟩
            rw [List.length_replicate] at hfit
            simp only [List.length_append, le_length, List.length_drop, List.length_replicate]
            rw [show 2 + body.length + (cap - (2 + body.length)) = cap by omega]
          · cases hs
      · cases hs
  · cases hs

theorem sent_of_prepare {h : Header} {items : List Item} {cap : Nat} {ss : List Bytes} (hp : prepare enabled h items = some (cap, ss)) :
    ∃ buf, logStatement enabled (fun n => some (List.replicate n 0)) h items = .submitted buf := by
  unfold prepare at hp
  unfold logStatement
  split at hp
  · rename_i hen
    rw [if_pos hen]
    cases hs : slices (recordFields h items) with
    | none => rw [hs] at hp; cases hp
    | some ss' =>
      rw [hs] at hp
      simp only [measure_eq] at hp
      rw [slices_fields _ _ hs]
      simp only
      split at hp
      · rename_i hlt
        rw [if_pos hlt]
        cases hc : capacityFor 9 64 (2 + ss'.flatten.length) with
        | none => rw [hc] at hp; cases hp
        | some c =>
          simp only
          rw [if_pos (by rw [List.length_replicate]; exact capacityFor_ge _ _ _ _ hc)]
          exact ⟨_, rfl⟩
      · cases hp
  · cases hp

/-- **C93 (dropped or placed).** A statement is given a place at once exactly when its level is enabled, its record has at most 8192 bytes
and the ring has room for the least power of two, from 64 on, that is enough; otherwise it ends at once and nothing at all has changed. -/
theorem C93_placed (base m : Nat) (hb : 0 < base) (h3 : 3 ≤ m) (hm : m ≤ 30) (mem : Nat → UInt8) (pos : Nat) (hp : pos % 8 = 0)
    (std : Std) (utf8 : Char → Bytes) (enabled : Nat) (ops : List Op) (s : State) (log : List (Op × Res))
    (h : run base (2 ^ m) enabled (fun s => s.flatMap utf8) std (start mem pos) ops = some (s, log))
    (st : Stmt) (pg : Nat) (ps : List Piece) (hf : st.format = written ps) (ho : ∀ p ∈ ps, p.Ordinary)
    (hc : (compile (fun s => s.flatMap utf8) st).isSome = true) :
    (severity st.header.level ≤ enabled ∧ recordSize utf8 st.header ps st.args ≤ 8192 ∧
        Room (2 ^ m) s (slot (recordSize utf8 st.header ps st.args)) →
      ∃ s', step base (2 ^ m) enabled (fun s => s.flatMap utf8) std s (.log st pg) = some (s', .placed)) ∧
    (¬(severity st.header.level ≤ enabled ∧ recordSize utf8 st.header ps st.args ≤ 8192 ∧
        Room (2 ^ m) s (slot (recordSize utf8 st.header ps st.args))) →
      step base (2 ^ m) enabled (fun s => s.flatMap utf8) std s (.log st pg) = some (s, .dropped)) := by
  obtain ⟨os, hi⟩ := entries_inv hb h3 hm hp h
  obtain ⟨items, hc⟩ := Option.isSome_iff_exists.mp hc
  have hc' := hc
  unfold compile at hc'
  cases hparse : parse st.format with
  | error e => rw [hparse] at hc'; cases hc'
  | ok fs =>
    rw [hparse] at hc'
    simp only at hc'
    cases hexp : expand (fun s => s.flatMap utf8) fs st.args with
    | none => rw [hexp] at hc'; cases hc'
    | some items' =>
      rw [hexp] at hc'
      simp only at hc'
      split at hc'
      · cases hc'
        rw [hf] at hparse
        obtain ⟨hiff, hlen⟩ := C42_sent utf8 st.header ps ho st.args fs hparse items hexp enabled (fun n => some (List.replicate n 0))
          (by intro n b hb; cases hb; simp)
        simp only [Option.isSome_some, and_true] at hiff
        simp only [step, hc, begin]
        cases hpr : prepare enabled st.header items with
        | none =>
          refine ⟨fun hx => ?_, fun _ => rfl⟩
          obtain ⟨buf, hbuf⟩ := hiff.mpr ⟨hx.1, hx.2.1⟩
          obtain ⟨ss, hss⟩ := prepare_of_sent hbuf
          rw [hpr] at hss; cases hss
        | some p =>
          obtain ⟨cap, ss⟩ := p
          obtain ⟨buf, hbuf⟩ := sent_of_prepare hpr
          obtain ⟨ss', hss⟩ := prepare_of_sent hbuf
          rw [hpr] at hss
          simp only [Option.some.injEq, Prod.mk.injEq] at hss
          have hcap : cap = slot (recordSize utf8 st.header ps st.args) := by rw [hss.1, hlen buf hbuf]
          have hcond := hiff.mp ⟨buf, hbuf⟩
          rcases wstep_reserve hb (hi.winv hb h3 hm hp) cap pg with ⟨hw, hno⟩ | ⟨hroom, w', en, hw, _⟩
          · refine ⟨fun hx => absurd (hcap ▸ hx.2.2) hno, fun _ => ?_⟩
            simp only [hw]
          · refine ⟨fun _ => ?_, fun hx => absurd ⟨hcond.1, hcond.2, hcap ▸ hroom⟩ hx⟩
            simp only [hw]
            exact ⟨_, rfl⟩
      · cases hc'

theorem run_cons {base size : Nat} {utf8 : List Char → Bytes} {s s₁ s₂ : State} {o : Op} {r : Res} {ops : List Op} {l : List (Op × Res)}
    (h1 : step base size enabled utf8 std s o = some (s₁, r)) (h2 : run base size enabled utf8 std s₁ ops = some (s₂, l)) :
    run base size enabled utf8 std s (o :: ops) = some (s₂, (o, r) :: l) := by
  simp only [run, h1, h2, Option.map_some]

theorem finish {utf8 : List Char → Bytes} (hb : 0 < base) (h3 : 3 ≤ m) (hm : m ≤ 30) (hp : pos % 8 = 0) : ∀ (n : Nat) (s : State) (es : List Entry)
    (os : List Output) (k : Nat) (t : Thread) (e₀ : Entry), Inv base (2 ^ m) enabled utf8 std mem pos s es os →
    s.threads[k]? = some (some t) → es[k]? = some e₀ → t.cur.length + t.todo.flatten.length + t.todo.length = n →
    ∃ j s' log', j ≤ n ∧ run base (2 ^ m) enabled utf8 std s (List.replicate (j + 1) (.run k)) = some (s', log') ∧
      ∃ e, (log'.foldl after es)[k]? = some e ∧ e.stmt = e₀.stmt ∧ e.finished = true := by
  intro n
  induction n using Nat.strongRecOn with
  | ind n ih =>
    intro s es os k t e₀ h ht h₀ hn
    rcases continue_inv hb h3 hm hp h ht with ⟨s', t', os', hc, ht', hlt, hi⟩ | ⟨s', os', _, _, hc, hi⟩
    · obtain ⟨j, s'', log', hj, hr, hfin⟩ := ih _ (by omega) s' es os' k t' e₀ hi ht' h₀ rfl
      refine ⟨j + 1, s'', (.run k, .going) :: log', by omega, ?_, hfin⟩
      rw [List.replicate_succ]
      refine run_cons ?_ hr
      simp only [step, ht, hc]
    · refine ⟨0, s', [(.run k, .sent)], Nat.zero_le _, ?_, ?_⟩
      · simp only [List.replicate_succ, List.replicate_zero, run, step, ht, hc, Option.map_some]
      · refine ⟨{ e₀ with finished := true }, ?_, rfl, rfl⟩
        show (es.modify k _)[k]? = _
        rw [List.getElem?_modify, h₀]
        simp

/-- **C93 (carried out).** A statement that has been given a place is carried out to its end by its own steps alone, whatever the other
programs and the process do or do not do: each of them is possible, and it is never withdrawn. -/
theorem C93_carried_out (base m : Nat) (hb : 0 < base) (h3 : 3 ≤ m) (hm : m ≤ 30) (mem : Nat → UInt8) (pos : Nat) (hp : pos % 8 = 0)
    (std : Std) (utf8 : List Char → Bytes) (enabled : Nat) (ops : List Op) (s : State) (log : List (Op × Res))
    (h : run base (2 ^ m) enabled utf8 std (start mem pos) ops = some (s, log))
    (k : Nat) (e : Entry) (he : (entries log)[k]? = some e) (hopen : e.finished = false) :
    (∃ s' r, step base (2 ^ m) enabled utf8 std s (.run k) = some (s', r) ∧ (r = .going ∨ r = .sent)) ∧
    ∃ n s' log' e', run base (2 ^ m) enabled utf8 std s (List.replicate n (.run k)) = some (s', log') ∧
      (entries (log ++ log'))[k]? = some e' ∧ e'.stmt = e.stmt ∧ e'.finished = true := by
  obtain ⟨os, hi⟩ := entries_inv hb h3 hm hp h
  obtain ⟨o, sl, t, ho, hsl, ht, hh⟩ := hi.atE he
  cases t with
  | none => rw [hh.1] at hopen; cases hopen
  | some t =>
    refine ⟨?_, ?_⟩
    · rcases continue_inv hb h3 hm hp hi ht with ⟨s', t', os', hc, _⟩ | ⟨s', os', _, _, hc, _⟩
      · exact ⟨s', .going, by simp only [step, ht, hc], Or.inl rfl⟩
      · exact ⟨s', .sent, by simp only [step, ht, hc], Or.inr rfl⟩
    · obtain ⟨j, s', log', _, hr, e', he', hst, hf⟩ := finish hb h3 hm hp _ s _ os k t e hi ht he rfl
      refine ⟨j + 1, s', log', e', hr, ?_, hst, hf⟩
      simp only [entries, List.foldl_append]; exact he'

/-- Once stopped, the logger is given nothing more. -/
theorem stopped_run {base size : Nat} {utf8 : List Char → Bytes} : ∀ (ops : List Op) (s s' : State) (log : List (Op × Res)),
    s.logger = .stopped → run base size enabled utf8 std s ops = some (s', log) → s'.shown = s.shown
  | [], s, s', log, hl, h => by
    simp only [run, Option.some.injEq, Prod.mk.injEq] at h
    rw [h.1]
  | o :: ops, s, s', log, hl, h => by
    simp only [run] at h
    cases hs : step base size enabled utf8 std s o with
    | none => rw [hs] at h; cases h
    | some p =>
      obtain ⟨s₁, r⟩ := p
      rw [hs] at h
      simp only at h
      cases hr : run base size enabled utf8 std s₁ ops with
      | none => rw [hr] at h; cases h
      | some q =>
        obtain ⟨s₂, l⟩ := q
        rw [hr] at h
        simp only [Option.map_some, Option.some.injEq, Prod.mk.injEq] at h
        obtain ⟨rfl, rfl⟩ := h
        have hring : ∀ (x : Verif.Ebpf.Ring.Op), ringOnly base size s x = some (s₁, r) → s₁.shown = s.shown ∧ s₁.logger = s.logger := by
          intro x hx
          unfold ringOnly at hx
          split at hx
          · cases hx; exact ⟨rfl, rfl⟩
          · cases hx
        have hkeep : s₁.shown = s.shown ∧ s₁.logger = s.logger := by
          cases o with
          | log st pg =>
            simp only [step] at hs
            split at hs
            · cases hs
            · unfold begin at hs
              split at hs
              · cases hs; exact ⟨rfl, rfl⟩
              · split at hs
                · cases hs; exact ⟨rfl, rfl⟩
                · cases hs; exact ⟨rfl, rfl⟩
                · cases hs
          | run k =>
            simp only [step] at hs
            split at hs
            · unfold continue_ at hs
              split at hs
              · split at hs
                · cases hs; exact ⟨rfl, rfl⟩
                · cases hs
              · split at hs
                · cases hs; exact ⟨rfl, rfl⟩
                · split at hs
                  · cases hs; exact ⟨rfl, rfl⟩
                  · cases hs
              · split at hs
                · cases hs; exact ⟨rfl, rfl⟩
                · cases hs
            · cases hs
          | decide k => exact hring _ hs
          | reader a => simp only [step, read, hl] at hs; cases hs
          | visible => simp only [step] at hs; exact hring _ hs
          | spurious => simp only [step] at hs; exact hring _ hs
        rw [stopped_run ops s₁ s₂ l (hkeep.2.trans hl) hr, hkeep.1]

end

/-! ## Runs

A ring of 4096 bytes; the statements of `Verif.Log.Records`. -/

/-- What is seen of a run. -/
def view (x : Option (State × List (Op × Res))) : Option (List Shown × Logger × List Entry) :=
  x.map fun (s, log) => (s.shown, s.logger, entries log)

def toyStmt : Stmt := ⟨⟨[116], .info, [109], [102], 7⟩, "a{}".toList, [.int .u8 5]⟩
def toyDebug : Stmt := ⟨⟨[116], .debug, [109], [102], 8⟩, "b".toList, []⟩
def hexStmt : Stmt := ⟨⟨[116], .error, [109], [102], 9⟩, "{:x}".toList, [.refArr [1, 2, 3, 4]]⟩

/-- One statement is begun, another one is begun and carried out, a third is not enabled, then the first goes on; the process reads before
and after. -/
def toyOps : List Op :=
  [.reader .newPos, .reader .newCache, .log toyStmt 0, .log toyStmt 0, .log toyDebug 0] ++ List.replicate 73 (.run 1) ++
  [.decide 1, .reader .callNext, .reader .daLoad, .reader .readHdr] ++ List.replicate 73 (.run 0) ++
  [.decide 0,  .reader .callNext, .reader .readHdr, .reader .drop, .visible,
   .reader .callNext, .reader .readHdr]

/-- Two statements, the first of which shows a `&[u8; 4]` in hexadecimal; both are carried out, then the process reads. -/
def hexOps : List Op :=
  [.log hexStmt 0, .log toyStmt 0] ++ List.replicate 69 (.run 0) ++ List.replicate 73 (.run 1) ++
  [.reader .newPos, .reader .newCache, .reader .callNext, .reader .readHdr]

/-- The logger gets both statements, in the order they were begun; the one that is not enabled leaves nothing. -/
example : view (run 4096 4096 3 (fun s => s.flatMap toyUtf8) toyStd (start (fun _ => 0) 0) toyOps) =
    some ([.logged ⟨[116], .info, [109], [102], 7, "a5".toUTF8.toList⟩, .logged ⟨[116], .info, [109], [102], 7, "a5".toUTF8.toList⟩],
      .working, [⟨toyStmt, true, true⟩, ⟨toyStmt, true, true⟩]) := by decide +kernel

/-- Then `flush` takes the other item, finds nothing more and returns; a third statement has no place in a ring that is full. -/
example : (run 4096 4096 3 (fun s => s.flatMap toyUtf8) toyStd (start (fun _ => 0) 0)
      (toyOps ++ [.reader .drop, .visible, .reader .callNext, .reader .daFence])).bind (fun x =>
      (step 4096 4096 3 (fun s => s.flatMap toyUtf8) toyStd x.1 (.reader .daLoad)).map fun y =>
        (x.1.ring.sys.sleeping, y.1.ring.sys.sleeping, y.1.ring.sys.notified, y.1.shown.length)) = some (false, true, false, 2) ∧
    (run 4096 64 3 (fun s => s.flatMap toyUtf8) toyStd (start (fun _ => 0) 0) [.log toyStmt 0]).map (fun x => x.2) =
      some [(.log toyStmt 0, .dropped)] := by decide +kernel

/-- `toyStmt` is like any other. -/
example : Plain toyStd toyUtf8 toyStmt [.chr 'a', .param .dflt] ∧ (compile (fun s => s.flatMap toyUtf8) toyStmt).isSome = true := by
  refine ⟨⟨rfl, rfl, rfl, by decide, by decide, by decide, ?_, by decide⟩, by decide +kernel⟩
  intro v hv
  simp only [toyStmt, List.mem_cons, List.not_mem_nil, or_false] at hv
  subst hv
  exact ⟨by decide, by decide⟩

/-- **C93 (violated).** One statement that shows a `&[u8; 4]` in hexadecimal ends the log of all programs: it compiles and is sent; the
logger panics at it and is never given anything again, although another statement was given its place and carried out. -/
theorem C93_one_ends_all_violated : ∃ s log, run 4096 (2 ^ 12) 3 (fun s => s.flatMap toyUtf8) toyStd (start (fun _ => 0) 0) hexOps =
      some (s, log) ∧ entries log = [⟨hexStmt, true, false⟩, ⟨toyStmt, true, false⟩] ∧ s.shown = [.panic] ∧
    ∀ ops s' log', run 4096 (2 ^ 12) 3 (fun s => s.flatMap toyUtf8) toyStd s ops = some (s', log') → s'.shown = [.panic] := by
  have h : view (run 4096 (2 ^ 12) 3 (fun s => s.flatMap toyUtf8) toyStd (start (fun _ => 0) 0) hexOps) =
      some ([.panic], .stopped, [⟨hexStmt, true, false⟩, ⟨toyStmt, true, false⟩]) := by decide +kernel
  rcases hr : run 4096 (2 ^ 12) 3 (fun s => s.flatMap toyUtf8) toyStd (start (fun _ => 0) 0) hexOps with _ | ⟨s, log⟩
  · rw [hr] at h; cases h
  · rw [hr] at h
    simp only [view, Option.map_some, Option.some.injEq, Prod.mk.injEq] at h
    obtain ⟨h1, h2, h3⟩ := h
    refine ⟨s, log, rfl, h3, h1, ?_⟩
    intro ops s' log' hx
    rw [stopped_run ops s s' log' h2 hx, h1]

end Verif.LogRun
