import Verif.Redirect.Steps

/-!
# Packets are redirected where the maps say (C101)

`run` is a history of a process on a system, from nothing. Beside it goes a book of what is known from what was done and what the calls gave: where each
map sends each key. `Fairly` leaves out what goes wrong, shown at the end.
-/
set_option linter.unusedSimpArgs false
set_option linter.unusedVariables false
namespace Verif.Redirect
open Spec (K KMap Op Out Thing Target Env Use Chosen Fate upd Book forget others)
open Verif.Bytes

/-! ## What the promise says of reading -/

/-- What is seen of a target: interface or size of the queue, and id of the program. -/
def _root_.Verif.Redirect.Spec.Target.seen : Target → Option Value
  | .dev x p => some ⟨x, p⟩
  | .cpu n p => some ⟨n, p⟩
  | .sock _ => none

/-- The result of `get` for an entry. -/
def _root_.Verif.Redirect.Spec.gets (t : Option Target) : Out := ((t.bind Target.seen).map Out.got).getD (.failed .keyNotFound)

/-- The interface of a target. -/
def _root_.Verif.Redirect.Spec.Target.ifindex : Target → Option Nat
  | .dev x _ => some x
  | _ => none

open Spec (gets)

/-! ## Reading -/

theorem idok_getD {p : Option Nat} (h : IdOk p) : nonZero (p.getD 0) = p ∧ p.getD 0 < 4294967296 := by
  cases p with
  | none => exact ⟨rfl, by decide⟩
  | some id =>
    obtain ⟨h1, h2⟩ := h id rfl
    refine ⟨?_, h2⟩
    simp only [nonZero, Option.getD_some]
    rw [if_neg (by omega)]

theorem value_shown {n : Nat} {p : Option Nat} (hn : n < 4294967296) (hp : IdOk p) (prog : Bool) (hv : prog = false → p = none) :
    value prog ((le 4 n ++ le 4 (p.getD 0)).take (if prog then 8 else 4)) = ⟨n, p⟩ := by
  obtain ⟨h1, h2⟩ := idok_getD hp
  cases prog with
  | true =>
    have : (le 4 n ++ le 4 (p.getD 0)).take 8 = le 4 n ++ le 4 (p.getD 0) :=
      List.take_of_length_le (by rw [List.length_append, le4_len, le4_len]; omega)
    simp only [value, if_true]
    rw [this, both_first _ _ hn, both_second _ _ h2, h1]
  | false =>
    simp only [value, Bool.false_eq_true, if_false]
    rw [hv rfl]
    have : (le 4 n ++ le 4 ((none : Option Nat).getD 0)).take 4 = le 4 n := by
      rw [List.take_append_of_le_length (Nat.le_of_eq (le4_len n).symm), List.take_of_length_le (Nat.le_of_eq (le4_len n))]
    rw [this, one_first n hn]

theorem found_at {E : Env} {w : W} {b : Book} (h : Inv E w b) {m : Nat} {d : Data} {km : KMap} (hfd : d.fd = m) (hm : w.k.maps m = some km)
    (hk : km.kind ≠ .xsk) {prog : Bool} (hv : km.vsize = if prog then 8 else 4) (i : BitVec 32) :
    outGot (found (sysOf E 0) d prog i 0 w.k) = gets (b.table m i.toNat) := by
  subst hfd
  have hi : ofLe (le 4 i.toNat) = i.toNat := le4_of _ i.isLt
  have he : km.entries i.toNat = b.table d.fd i.toNat := by rw [h.k.table _ _ hm]
  simp only [found, bpfLookup, sysOf, Spec.lookup, hm, hk, if_false, hi, ne_eq, not_true_eq_false]
  rcases e : km.entries i.toNat with _ | t
  · rw [← he, e]; rfl
  · have g := (h.k.good _ _ _ _ hm e).1
    rw [← he, e]
    cases t with
    | dev x p =>
      obtain ⟨-, -, hx, hp, hnone⟩ := g
      simp only [Spec.shown, hv, gets, Target.seen, Option.bind_some, Option.map_some, Option.getD_some, outGot]
      rw [value_shown hx hp prog (by rintro rfl; exact hnone hv)]
    | cpu x p =>
      obtain ⟨-, hx, hp, hnone⟩ := g
      simp only [Spec.shown, hv, gets, Target.seen, Option.bind_some, Option.map_some, Option.getD_some, outGot]
      rw [value_shown hx hp prog (by rintro rfl; exact hnone hv)]
    | sock n => exact (hk g.1).elim

theorem bounds_ok {d : Data} {i : BitVec 32} (h : i.toNat < d.max) : checkBounds d i = .ok () := by
  simp only [checkBounds]; rw [if_neg (by omega)]

theorem bounds_no {d : Data} {i : BitVec 32} (h : d.max ≤ i.toNat) : checkBounds d i = .error (.outOfBounds i.toNat d.max) := by
  simp only [checkBounds]; rw [if_pos h]

/-- What holds after a history. -/
theorem reached {E : Env} (hE : E.limit ≤ 2147483648) {ops : List Op} (hf : Fairly E ops ({}, {})) {w : W} {b : Book} (hw : run E ops ({}, {}) = (w, b)) :
    Inv E w b := by
  have := run_inv hE ops ({}, {}) (inv_init E) hf
  rw [hw] at this
  exact this

/-- C101, `get` gives what was set last, with the id of the program that was given, unless it was removed or the interface is gone; nothing else. -/
theorem C101_get_partial (E : Env) (hE : E.limit ≤ 2147483648) (ops : List Op) (hf : Fairly E ops ({}, {})) (w : W) (b : Book)
    (hw : run E ops ({}, {}) = (w, b)) (m : Nat) (d : Data) (i : BitVec 32) :
    (w.typed .dev m = some d → i.toNat < d.max → (wstep E w (.devGet m i)).2 = gets (b.table m i.toNat)) ∧
    (w.typed .hash m = some d → (wstep E w (.hashGet m i)).2 = gets (b.table m i.toNat)) ∧
    (w.typed .cpu m = some d → i.toNat < d.max → (wstep E w (.cpuGet m i)).2 = gets (b.table m i.toNat)) ∧
    (w.typed .dev m = some d → d.max ≤ i.toNat → (wstep E w (.devGet m i)).2 = .failed (.outOfBounds i.toNat d.max)) ∧
    (w.typed .cpu m = some d → d.max ≤ i.toNat → (wstep E w (.cpuGet m i)).2 = .failed (.outOfBounds i.toNat d.max)) := by
  have h := reached hE hf hw
  refine ⟨fun hd hi => ?_, fun hd => ?_, fun hd hi => ?_, fun hd hi => ?_, fun hd hi => ?_⟩
  · obtain ⟨hfd, -, hs, -, km, hm, hk, hv, -⟩ := h.at hd
    simp only [wstep, hd, devGet, bounds_ok hi]
    exact found_at h hfd hm (by rw [hk]; decide) (by rw [hv, hs]; rfl) i
  · obtain ⟨hfd, -, hs, -, km, hm, hk, hv, -⟩ := h.at hd
    simp only [wstep, hd, hashGet]
    exact found_at h hfd hm (by rw [hk]; decide) (by rw [hv, hs]; rfl) i
  · obtain ⟨hfd, -, hs, -, km, hm, hk, hv, -⟩ := h.at hd
    simp only [wstep, hd, cpuGet, bounds_ok hi]
    exact found_at h hfd hm (by rw [hk]; decide) (by rw [hv, hs]; rfl) i
  · simp only [wstep, hd, devGet, bounds_no hi]; rfl
  · simp only [wstep, hd, cpuGet, bounds_no hi]; rfl

/-- C101, iterating gives the same, for every index. -/
theorem C101_iter_partial (E : Env) (hE : E.limit ≤ 2147483648) (ops : List Op) (hf : Fairly E ops ({}, {})) (w : W) (b : Book)
    (hw : run E ops ({}, {}) = (w, b)) (m : Nat) (d : Data) :
    (w.typed .dev m = some d → ∃ vs : List (Except Error Value), (wstep E w (.devIter m)).2 = .all vs ∧ vs.length = d.max ∧
      ∀ (i : Nat) (r : Except Error Value), vs[i]? = some r → outGot r = gets (b.table m i)) ∧
    (w.typed .cpu m = some d → ∃ vs : List (Except Error Value), (wstep E w (.cpuIter m)).2 = .all vs ∧ vs.length = d.max ∧
      ∀ (i : Nat) (r : Except Error Value), vs[i]? = some r → outGot r = gets (b.table m i)) := by
  have h := reached hE hf hw
  have get := C101_get_partial E hE ops hf w b hw m d
  refine ⟨fun hd => ?_, fun hd => ?_⟩ <;> obtain ⟨-, -, -, hlt, -⟩ := h.at hd
  · refine ⟨devIter (sysOf E 0) (features E) d w.k, by simp only [wstep, hd], by simp only [devIter, List.length_map, List.length_range], ?_⟩
    intro i r e
    simp only [devIter, List.getElem?_map, Option.map_eq_some_iff] at e
    obtain ⟨j, e1, rfl⟩ := e
    obtain ⟨hj, rfl⟩ := List.getElem?_eq_some_iff.1 e1
    simp only [List.length_range] at hj
    rw [List.getElem_range]
    have hi : (BitVec.ofNat 32 i).toNat = i := by rw [BitVec.toNat_ofNat]; exact Nat.mod_eq_of_lt (by omega)
    have := (get (BitVec.ofNat 32 i)).1 hd (by rw [hi]; exact hj)
    rw [hi] at this
    simp only [wstep, hd] at this
    exact this
  · refine ⟨cpuIter (sysOf E 0) (features E) d w.k, by simp only [wstep, hd], by simp only [cpuIter, List.length_map, List.length_range], ?_⟩
    intro i r e
    simp only [cpuIter, List.getElem?_map, Option.map_eq_some_iff] at e
    obtain ⟨j, e1, rfl⟩ := e
    obtain ⟨hj, rfl⟩ := List.getElem?_eq_some_iff.1 e1
    simp only [List.length_range] at hj
    rw [List.getElem_range]
    have hi : (BitVec.ofNat 32 i).toNat = i := by rw [BitVec.toNat_ofNat]; exact Nat.mod_eq_of_lt (by omega)
    have := (get (BitVec.ofNat 32 i)).2.2.1 hd (by rw [hi]; exact hj)
    rw [hi] at this
    simp only [wstep, hd] at this
    exact this

theorem word_first (x : Nat) (hx : x < 4294967296) (r : Bytes) : word (le 4 x ++ r) 0 = .read x := by
  simp only [word, List.length_append, le4_len]
  rw [if_pos (by omega), List.drop_zero, List.take_append_of_le_length (Nat.le_of_eq (le4_len x).symm), one_first x hx]

theorem shown_word {x v : Nat} {p : Option Nat} (hx : x < 4294967296) (hv : v = 4 ∨ v = 8) :
    word ((le 4 x ++ le 4 (p.getD 0)).take v) 0 = .read x := by
  rcases hv with rfl | rfl
  · rw [List.take_append_of_le_length (Nat.le_of_eq (le4_len x).symm), List.take_of_length_le (Nat.le_of_eq (le4_len x)), ← List.append_nil (le 4 x)]
    exact word_first x hx []
  · rw [List.take_of_length_le (by rw [List.length_append, le4_len, le4_len]; omega)]
    exact word_first x hx _

theorem shown_second {x : Nat} {p : Option Nat} (hp : IdOk p) : word ((le 4 x ++ le 4 (p.getD 0)).take 8) 4 = .read (p.getD 0) := by
  rw [List.take_of_length_le (by rw [List.length_append, le4_len, le4_len]; omega)]
  simp only [word, List.length_append, le4_len]
  rw [if_pos (by omega), both_second _ _ (idok_getD hp).2]

/-- A typed map of devices. -/
theorem dev_map {E : Env} {w : W} {b : Book} (h : Inv E w b) {m : Nat} (hd : (w.typed .dev m).isSome ∨ (w.typed .hash m).isSome) :
    ∃ km : KMap, w.k.maps m = some km ∧ (km.kind = .dev ∨ km.kind = .hash) ∧ km.vsize = if E.devProg then 8 else 4 := by
  rcases hd with hd | hd <;> obtain ⟨d, hd⟩ := Option.isSome_iff_exists.1 hd <;> obtain ⟨hfd, -, hs, -, km, hm, hk, hv, -⟩ := h.at hd
  · exact ⟨km, hm, .inl hk, by rw [hv, hs]; rfl⟩
  · exact ⟨km, hm, .inr hk, by rw [hv, hs]; rfl⟩

/-- C101, programs see the same: interface and program on kernels that know programs in maps, the interface on all kernels, and of a socket the queue
    it is bound to. -/
theorem C101_program_partial (E : Env) (hE : E.limit ≤ 2147483648) (ops : List Op) (hf : Fairly E ops ({}, {})) (w : W) (b : Book)
    (hw : run E ops ({}, {}) = (w, b)) (m : Nat) (i : BitVec 32) :
    ((w.typed .dev m).isSome ∨ (w.typed .hash m).isSome → E.devProg = true →
      (wstep E w (.progGet m i)).2 = .saw (.read ((b.table m i.toNat).bind Target.seen))) ∧
    ((w.typed .dev m).isSome ∨ (w.typed .hash m).isSome →
      (wstep E w (.progIfindex m i)).2 = .number (.read ((b.table m i.toNat).bind Target.ifindex))) ∧
    ((w.typed .xsk m).isSome → ∀ n x q : Nat, b.table m i.toNat = some (.sock n) → w.k.socks n = some (x, q) →
      (wstep E w (.progQueue m i)).2 = .number (.read (some q))) ∧
    ((w.typed .xsk m).isSome → b.table m i.toNat = none → (wstep E w (.progQueue m i)).2 = .number (.read none)) := by
  have h := reached hE hf hw
  have hi : ofLe (le 4 i.toNat) = i.toNat := le4_of _ i.isLt
  refine ⟨fun hd hp => ?_, fun hd => ?_, fun hd n x q ht hq => ?_, fun hd ht => ?_⟩
  · obtain ⟨km, hm, hk, hv⟩ := dev_map h hd
    have he : km.entries i.toNat = b.table m i.toNat := by rw [h.k.table _ _ hm]
    simp only [hp, if_true] at hv
    simp only [wstep, hd, if_true, progGet, lookup, helpersOf, Spec.progLookup, hm, hi]
    rw [← he]
    rcases e : km.entries i.toNat with _ | t
    · rfl
    · have g := (h.k.good _ _ _ _ hm e).1
      cases t with
      | dev x p =>
        obtain ⟨-, -, hx, hp, -⟩ := g
        simp only [Spec.shown, hv, shown_word hx (.inr rfl), shown_second hp, (idok_getD hp).1]
        rfl
      | cpu x p => rw [g.1] at hk; rcases hk with hk | hk <;> exact nomatch hk
      | sock x => rw [g.1] at hk; rcases hk with hk | hk <;> exact nomatch hk
  · obtain ⟨km, hm, hk, hv⟩ := dev_map h hd
    have he : km.entries i.toNat = b.table m i.toNat := by rw [h.k.table _ _ hm]
    have hv' : km.vsize = 4 ∨ km.vsize = 8 := by rw [hv]; cases E.devProg <;> decide
    simp only [wstep, hd, if_true, progIfindex, lookup, helpersOf, Spec.progLookup, hm, hi]
    rw [← he]
    rcases e : km.entries i.toNat with _ | t
    · rfl
    · have g := (h.k.good _ _ _ _ hm e).1
      cases t with
      | dev x p =>
        obtain ⟨-, -, hx, hp, -⟩ := g
        simp only [Spec.shown, shown_word hx hv']
        rfl
      | cpu x p => rw [g.1] at hk; rcases hk with hk | hk <;> exact nomatch hk
      | sock x => rw [g.1] at hk; rcases hk with hk | hk <;> exact nomatch hk
  · obtain ⟨d, hd'⟩ := Option.isSome_iff_exists.1 hd
    obtain ⟨hfd, -, hs, -, km, hm, hk, hv, -⟩ := h.at hd'
    have he : km.entries i.toNat = some (.sock n) := by rw [h.k.table _ _ hm]; exact ht
    obtain ⟨-, -, q', h1, h2⟩ := (h.k.good _ _ _ _ hm he).1
    rw [hq] at h1
    cases h1
    simp only [wstep, hd, if_true, progQueue, lookup, helpersOf, Spec.progLookup, hm, hi, he, hq, Option.map_some]
    have := word_first q h2 []
    rw [List.append_nil] at this
    rw [this]
  · obtain ⟨d, hd'⟩ := Option.isSome_iff_exists.1 hd
    obtain ⟨hfd, -, hs, -, km, hm, hk, hv, -⟩ := h.at hd'
    have he : km.entries i.toNat = none := by rw [h.k.table _ _ hm]; exact ht
    simp only [wstep, hd, if_true, progQueue, lookup, helpersOf, Spec.progLookup, hm, hi, he]

/-! ## Redirecting -/

theorem redirect_at {w : W} {m : Nat} {kd : Kind × Data} (hd : w.maps m = some kd) (E : Env) (i : BitVec 32) (flags : BitVec 64) (x q : Nat) :
    (wstep E w (.redirect m i flags x q)).2 = returned w.k x q (redirect (helpersOf x) m i flags (w.k, none)) := by
  simp only [wstep, hd, Option.isSome_some, if_true]

/-- C101, a packet goes where the entry says: out of the interface, to the CPU or to the socket, after the program that was given; a socket gets it if the
    packet came from the interface and queue the socket is bound to. If there is no entry, the program is told, with the action in the flags. -/
theorem C101_redirect_partial (E : Env) (hE : E.limit ≤ 2147483648) (ops : List Op) (hf : Fairly E ops ({}, {})) (w : W) (b : Book)
    (hw : run E ops ({}, {}) = (w, b)) (m : Nat) (kd : Kind × Data) (hd : w.maps m = some kd) (i : BitVec 32) (flags : BitVec 64)
    (hfl : flags.toNat < 4) (x q : Nat) :
    (b.table m i.toNat = none → (wstep E w (.redirect m i flags x q)).2 = .packet (.error flags.toNat) (.acted flags.toNat)) ∧
    (∀ (y : Nat) (p : Option Nat), b.table m i.toNat = some (.dev y p) → (wstep E w (.redirect m i flags x q)).2 = .packet (.ok 4) (.sent y p)) ∧
    (∀ (n : Nat) (p : Option Nat), b.table m i.toNat = some (.cpu n p) →
      (wstep E w (.redirect m i flags x q)).2 = .packet (.ok 4) (.queued i.toNat n p)) ∧
    (∀ n : Nat, b.table m i.toNat = some (.sock n) → w.k.socks n = some (x, q) →
      (wstep E w (.redirect m i flags x q)).2 = .packet (.ok 4) (.received n)) ∧
    (∀ n : Nat, b.table m i.toNat = some (.sock n) → w.k.socks n ≠ some (x, q) →
      (wstep E w (.redirect m i flags x q)).2 = .packet (.ok 4) .dropped) := by
  have h := reached hE hf hw
  obtain ⟨kind, d⟩ := kd
  obtain ⟨hfd, -, hs, -, km, hm, hk, hv, -⟩ := h.at (typed_of hd)
  have he : km.entries i.toNat = b.table m i.toNat := by rw [h.k.table _ _ hm]
  have hal : Spec.allowed km.kind flags.toNat = true := by simp only [Spec.allowed, decide_eq_true hfl, Bool.true_or]
  have hb : ¬ flags.toNat / 8 % 2 = 1 := by omega
  rw [redirect_at hd E]
  simp only [redirect, helpersOf, Spec.redirectMap, hm, hal, Bool.true_eq_false, hb, if_false, he]
  refine ⟨fun ht => ?_, fun y p ht => ?_, fun n p ht => ?_, fun n ht hq => ?_, fun n ht hq => ?_⟩ <;> simp only [ht]
  · have h4 : ((flags.toNat % 4 : Nat) : Int).natAbs % 4294967296 = flags.toNat := by
      rw [Int.natAbs_natCast]; omega
    have hne : flags.toNat ≠ 4 := by omega
    simp only [h4, hne, if_false, returned]
  · rfl
  · rfl
  · simp only [returned]
    have h4 : (4 : Int).natAbs % 4294967296 = 4 := rfl
    simp only [h4, if_true, Spec.deliver, hq]
  · simp only [returned]
    have h4 : (4 : Int).natAbs % 4294967296 = 4 := rfl
    simp only [h4, if_true, Spec.deliver, hq, if_false]

/-- C101, a packet for all goes out of all interfaces in the map and no others, each after its program; but not back, if so asked for. -/
theorem C101_broadcast_partial (E : Env) (hE : E.limit ≤ 2147483648) (ops : List Op) (hf : Fairly E ops ({}, {})) (w : W) (b : Book)
    (hw : run E ops ({}, {}) = (w, b)) (m : Nat) (kind : Kind) (d : Data) (hd : w.maps m = some (kind, d)) (hk : kind = .dev ∨ kind = .hash)
    (i : BitVec 32) (x q : Nat) :
    (∃ tos : List (Nat × Option Nat), (wstep E w (.redirect m i 8 x q)).2 = .packet (.ok 4) (.sentAll tos) ∧
      ∀ (y : Nat) (p : Option Nat), (y, p) ∈ tos ↔ ∃ key : Nat, b.table m key = some (.dev y p)) ∧
    (∃ tos : List (Nat × Option Nat), (wstep E w (.redirect m i 24 x q)).2 = .packet (.ok 4) (.sentAll tos) ∧
      ∀ (y : Nat) (p : Option Nat), (y, p) ∈ tos ↔ y ≠ x ∧ ∃ key : Nat, b.table m key = some (.dev y p)) := by
  have h := reached hE hf hw
  obtain ⟨hfd, -, hs, -, km, hm, hkk, hv, -⟩ := h.at (typed_of hd)
  have he : km.entries = b.table m := h.k.table _ _ hm
  have outs : ∀ (y : Nat) (p : Option Nat), (y, p) ∈ km.outs ↔ ∃ key : Nat, b.table m key = some (.dev y p) := by
    intro y p
    have one : ∀ t : Option Target, t.bind Target.out = some (y, p) ↔ t = some (.dev y p) := by
      intro t
      rcases t with _ | t
      · exact ⟨fun h => (nomatch h), fun h => (nomatch h)⟩
      · cases t <;> simp only [Option.bind_some, Target.out, Option.some.injEq, Prod.mk.injEq, Target.dev.injEq, reduceCtorEq]
    simp only [KMap.outs]
    rw [← hkk] at hk
    rcases hk with hk | hk <;> simp only [hk, List.mem_filterMap, List.mem_range, one, he]
    · exact ⟨fun ⟨key, _, e⟩ => ⟨key, e⟩, fun ⟨key, e⟩ =>
        ⟨key, (h.k.good m km key _ hm (by rw [he]; exact e)).2.1 (by rw [hk]; decide), e⟩⟩
    · exact ⟨fun ⟨key, _, e⟩ => ⟨key, e⟩, fun ⟨key, e⟩ =>
        ⟨key, (h.k.good m km key _ hm (by rw [he]; exact e)).2.2 hk, e⟩⟩
  have h8 : (8 : BitVec 64).toNat = 8 := rfl
  have h24 : (24 : BitVec 64).toNat = 24 := rfl
  have a8 : Spec.allowed km.kind 8 = true := by rw [hkk]; rcases hk with rfl | rfl <;> rfl
  have a24 : Spec.allowed km.kind 24 = true := by rw [hkk]; rcases hk with rfl | rfl <;> rfl
  refine ⟨⟨km.outs.filter fun t => ¬ (8 / 16 % 2 = 1 ∧ t.1 = x), ?_, ?_⟩, ⟨km.outs.filter fun t => ¬ (24 / 16 % 2 = 1 ∧ t.1 = x), ?_, ?_⟩⟩
  · rw [redirect_at hd E]
    simp only [redirect, helpersOf, Spec.redirectMap, hm, h8, a8, Bool.true_eq_false, if_false]
    rfl
  · intro y p
    rw [List.mem_filter, outs]
    simp
  · rw [redirect_at hd E]
    simp only [redirect, helpersOf, Spec.redirectMap, hm, h24, a24, Bool.true_eq_false, if_false]
    rfl
  · intro y p
    rw [List.mem_filter, outs]
    simp [and_comm]

/-- C101, flags that are not allowed give the error 0, as if the program had failed, and send the packet nowhere. -/
theorem C101_flags (E : Env) (hE : E.limit ≤ 2147483648) (ops : List Op) (hf : Fairly E ops ({}, {})) (w : W) (b : Book)
    (hw : run E ops ({}, {}) = (w, b)) (m : Nat) (kind : Kind) (d : Data) (hd : w.maps m = some (kind, d)) (i : BitVec 32) (flags : BitVec 64)
    (hfl : Spec.allowed kind flags.toNat = false) (x q : Nat) :
    (wstep E w (.redirect m i flags x q)).2 = .packet (.error 0) (.acted 0) := by
  have h := reached hE hf hw
  obtain ⟨hfd, -, hs, -, km, hm, hkk, hv, -⟩ := h.at (typed_of hd)
  rw [redirect_at hd E]
  rw [← hkk] at hfl
  simp only [redirect, helpersOf, Spec.redirectMap, hm, hfl, if_true]
  rfl

/-! ## Setting -/

/-- C101, what is in a map exists: an interface that is there, a socket that is open. -/
theorem C101_exists_partial (E : Env) (hE : E.limit ≤ 2147483648) (ops : List Op) (hf : Fairly E ops ({}, {})) (w : W) (b : Book)
    (hw : run E ops ({}, {}) = (w, b)) (m : Nat) (kd : Kind × Data) (hd : w.maps m = some kd) (key : Nat) :
    (∀ (x : Nat) (p : Option Nat), b.table m key = some (.dev x p) → w.k.devs x = true) ∧
    (∀ n : Nat, b.table m key = some (.sock n) → ∃ fd : Nat, b.files fd = some (.sock n)) := by
  have h := reached hE hf hw
  obtain ⟨kind, d⟩ := kd
  obtain ⟨hfd, -, hs, -, km, hm, hkk, hv, -⟩ := h.at (typed_of hd)
  have he : km.entries = b.table m := h.k.table _ _ hm
  refine ⟨fun x p ht => ?_, fun n ht => ?_⟩
  · obtain ⟨-, hdev, -⟩ := (h.k.good m km key _ hm (by rw [he]; exact ht)).1
    exact hdev
  · obtain ⟨-, ⟨fd, hfd⟩, -⟩ := (h.k.good m km key _ hm (by rw [he]; exact ht)).1
    exact ⟨fd, by rw [← h.k.files]; exact hfd⟩

/-- The value that is put. -/
theorem put_value {E : Env} {w : W} {b : Book} {m : Nat} {d : Data} {km : KMap} (hfd : d.fd = m) (hm : w.k.maps m = some km) {prog : Bool}
    (hv : km.vsize = if prog then 8 else 4) {p : Option Nat} (hp : p.isSome → prog = true) (hpl : p.getD 0 < 4294967296) (i x : BitVec 32) (flags : Nat) :
    ∃ v : Bytes, ofLe (v.take 4) = x.toNat ∧ Spec.second v = p.getD 0 ∧
      (∀ t : Option Target, Spec.entry E w.k km i.toNat v flags = .ok t →
        (put (sysOf E 0) d prog i x p flags w.k).1 = .ok ()) ∧
      (∀ e : Nat, Spec.entry E w.k km i.toNat v flags = .error e →
        put (sysOf E 0) d prog i x p flags w.k = (.error (.syscall "bpf_map_update_elem" e), w.k)) := by
  subst hfd
  have hi : ofLe (le 4 i.toNat) = i.toNat := le4_of _ i.isLt
  cases prog with
  | true =>
    refine ⟨le 4 x.toNat ++ le 4 (p.getD 0), both_first _ _ x.isLt, both_second _ _ hpl, fun t e => ?_, fun e' e => ?_⟩ <;>
      simp only [put, if_true, sysOf, Spec.update, hm, hi, hv] <;>
      rw [List.take_of_length_le (by rw [List.length_append, le4_len, le4_len]; omega), e]
  | false =>
    have hpn : p = none := by
      cases p with
      | none => rfl
      | some y => exact nomatch hp rfl
    subst hpn
    refine ⟨le 4 x.toNat, one_first _ x.isLt, one_second _, fun t e => ?_, fun e' e => ?_⟩ <;>
      simp only [put, Bool.false_eq_true, if_false, Option.isSome_none, sysOf, Spec.update, hm, hi, hv] <;>
      rw [List.take_of_length_le (Nat.le_of_eq (le4_len _)), e]

/-- A program that may be given to a map: made for the purpose, on a kernel that knows of it. -/
def Chainable (w : W) (b : Book) (supported : Bool) (use : Use) (p : Option Nat) : Prop :=
  ∀ fd : Nat, p = some fd → supported = true ∧ fd ≠ 0 ∧ ∃ id : Nat, b.files fd = some (.prog id) ∧ w.k.progs id = some use

theorem chainable {E : Env} (hE : E.limit ≤ 2147483648) {w : W} {b : Book} (h : Inv E w b) {supported : Bool} {use : Use} {p : Option Nat}
    (hp : Chainable w b supported use p) :
    w.isProg p = true ∧ (p.isSome → supported = true) ∧ p.getD 0 < 4294967296 ∧ ∃ q : Option Nat, Spec.chained w.k use (p.getD 0) = .ok q := by
  cases p with
  | none => exact ⟨rfl, fun q => (nomatch q), by decide, none, rfl⟩
  | some fd =>
    obtain ⟨h1, h2, id, h3, h4⟩ := hp fd rfl
    rw [← h.k.files] at h3
    have hpr : w.isProg (some fd) = true := by simp only [W.isProg, h3]
    refine ⟨hpr, fun _ => h1, prog_small hE h hpr, some id, ?_⟩
    simp only [Spec.chained, Option.getD_some, h2, if_false, h3, h4, if_true]

/-- C101, setting an entry succeeds if the index is in bounds, the interface is there (or the queue is not too long), and the program is one made for
    this; a socket that is open can be set. -/
theorem C101_sets_partial (E : Env) (hE : E.limit ≤ 2147483648) (ops : List Op) (hf : Fairly E ops ({}, {})) (w : W) (b : Book)
    (hw : run E ops ({}, {}) = (w, b)) (m : Nat) (d : Data) (i x : BitVec 32) (p : Option Nat) (hx : x ≠ 0) :
    (w.typed .dev m = some d → i.toNat < d.max → w.k.devs x.toNat = true → Chainable w b E.devProg .devmap p →
      (wstep E w (.devSet m i x p 0)).2 = .done) ∧
    (w.typed .hash m = some d → b.table m i.toNat ≠ none → w.k.devs x.toNat = true → Chainable w b E.devProg .devmap p →
      (wstep E w (.hashInsert m i x p 0)).2 = .done) ∧
    (w.typed .cpu m = some d → i.toNat < d.max → i.toNat < E.cpus → x.toNat ≤ 16384 → Chainable w b E.cpuProg .cpumap p →
      (wstep E w (.cpuSet m i x p 0)).2 = .done) ∧
    (∀ fd n : Nat, w.typed .xsk m = some d → i.toNat < d.max → b.files fd = some (.sock n) → (wstep E w (.xskSet m i fd 0)).2 = .done) := by
  have h := reached hE hf hw
  have hx' : x.toNat ≠ 0 := fun q => hx (BitVec.eq_of_toNat_eq q)
  refine ⟨fun hd hi hdev hp => ?_, fun hd hi hdev hp => ?_, fun hd hi hc hn hp => ?_, fun fd n hd hi hs => ?_⟩ <;>
    obtain ⟨hfd, -, hs', -, km, hm, hkk, hv, hmax⟩ := h.at hd
  · obtain ⟨h1, h2, h3, q, h4⟩ := chainable hE h hp
    obtain ⟨v, g1, g2, g3, -⟩ := put_value (E := E) (b := b) hfd hm (prog := E.devProg) (by rw [hv, hs']; rfl) h2 h3 i x 0
    simp only [wstep, hd, h1, if_true, devSet, bounds_ok hi, acted, features]
    rw [g3 (some (.dev x.toNat q))]
    · rfl
    · simp only [Spec.entry, hkk, g1, g2, hx', hdev, h4, if_true, if_false]
      rw [if_neg (by omega), if_neg (by omega), if_neg (by omega)]
  · obtain ⟨h1, h2, h3, q, h4⟩ := chainable hE h hp
    obtain ⟨v, g1, g2, g3, -⟩ := put_value (E := E) (b := b) hfd hm (prog := E.devProg) (by rw [hv, hs']; rfl) h2 h3 i x 0
    have he : (km.entries i.toNat).isNone = false := by
      rw [h.k.table _ _ hm]
      cases e : b.table m i.toNat with
      | none => exact (hi e).elim
      | some _ => rfl
    simp only [wstep, hd, h1, if_true, hashInsert, acted, features]
    rw [g3 (some (.dev x.toNat q))]
    · rfl
    · simp only [Spec.entry, hkk, g1, g2, hx', hdev, h4, if_true, if_false, he, Bool.false_eq_true, false_and]
      rw [if_neg (by omega), if_neg (by omega)]
  · obtain ⟨h1, h2, h3, q, h4⟩ := chainable hE h hp
    obtain ⟨v, g1, g2, g3, -⟩ := put_value (E := E) (b := b) hfd hm (prog := E.cpuProg) (by rw [hv, hs']; rfl) h2 h3 i x 0
    simp only [wstep, hd, h1, if_true, cpuSet, bounds_ok hi, acted, features]
    rw [g3 (some (.cpu x.toNat q))]
    · rfl
    · simp only [Spec.entry, hkk, g1, g2, hx', h4, if_false]
      rw [if_neg (by omega), if_neg (by omega), if_neg (by omega), if_neg (by omega), if_neg (by omega)]
  · rw [← h.k.files] at hs
    have hl : fd < 4294967296 := by
      have := h.k.small fd (by rw [hs]; exact Option.some_ne_none _)
      omega
    have hk : ofLe (le 4 i.toNat) = i.toNat := le4_of _ i.isLt
    have hl' : (le 4 fd).take km.vsize = le 4 fd := by
      rw [hv, hs']; exact List.take_of_length_le (Nat.le_of_eq (le4_len _))
    have hent : Spec.entry E w.k km i.toNat (le 4 fd) 0 = .ok (some (.sock n)) := by
      simp only [Spec.entry, hkk, le4_of fd hl, hs]
      rw [if_neg (by omega), if_neg (by omega)]
      split
      · rfl
      · rw [if_neg (by omega), if_neg (by omega)]
    simp only [wstep, hd, hl, if_true, xskSet, bounds_ok hi, sysOf, Spec.update, hfd, hm, hk, hl', hent, acted, outOf]

/-- C101, a program that was not made for maps of this kind is refused, as is an interface that is not there; on kernels that do not know programs in maps
    every program is refused. Nothing changes. -/
theorem C101_refused (E : Env) (hE : E.limit ≤ 2147483648) (ops : List Op) (hf : Fairly E ops ({}, {})) (w : W) (b : Book)
    (hw : run E ops ({}, {}) = (w, b)) (m : Nat) (d : Data) (i x : BitVec 32) (fd id : Nat) (h0 : fd ≠ 0) (hfd : b.files fd = some (.prog id))
    (hx : x ≠ 0) (flags : Nat) :
    (w.typed .dev m = some d → E.devProg = true → w.k.progs id ≠ some .devmap →
      ∃ e : Error, wstep E w (.devSet m i x (some fd) flags) = (w, .failed e)) ∧
    (w.typed .hash m = some d → E.devProg = true → w.k.progs id ≠ some .devmap →
      ∃ e : Error, wstep E w (.hashInsert m i x (some fd) flags) = (w, .failed e)) ∧
    (w.typed .cpu m = some d → E.cpuProg = true → w.k.progs id ≠ some .cpumap →
      ∃ e : Error, wstep E w (.cpuSet m i x (some fd) flags) = (w, .failed e)) ∧
    (w.typed .dev m = some d → E.devProg = false → i.toNat < d.max →
      wstep E w (.devSet m i x (some fd) flags) = (w, .failed .chainedProgramNotSupported)) ∧
    (w.typed .hash m = some d → E.devProg = false →
      wstep E w (.hashInsert m i x (some fd) flags) = (w, .failed .chainedProgramNotSupported)) ∧
    (w.typed .cpu m = some d → E.cpuProg = false → i.toNat < d.max →
      wstep E w (.cpuSet m i x (some fd) flags) = (w, .failed .chainedProgramNotSupported)) := by
  have h := reached hE hf hw
  have hx' : x.toNat ≠ 0 := fun q => hx (BitVec.eq_of_toNat_eq q)
  have hfile := hfd
  rw [← h.k.files] at hfile
  have hpr : w.isProg (some fd) = true := by simp only [W.isProg, hfile]
  have hsm := prog_small hE h hpr
  have chn : ∀ use : Use, w.k.progs id ≠ some use → Spec.chained w.k use fd = .error 22 := by
    intro use hu
    simp only [Spec.chained, h0, if_false, hfile, hu]
  refine ⟨fun hd hP hu => ?_, fun hd hP hu => ?_, fun hd hP hu => ?_, fun hd hP hi => ?_, fun hd hP => ?_, fun hd hP hi => ?_⟩ <;>
    obtain ⟨hdf, -, hs', -, km, hm, hkk, hv, hmax⟩ := h.at hd
  · obtain ⟨v, g1, g2, -, g4⟩ := put_value (E := E) (b := b) hdf hm (prog := E.devProg) (p := some fd) (by rw [hv, hs']; rfl) (fun _ => hP) hsm i x flags
    simp only [wstep, hd, hpr, if_true, devSet, acted, features]
    rcases hb : checkBounds d i with e | ⟨⟩
    · exact ⟨e, rfl⟩
    · simp only
      have : ∃ e : Nat, Spec.entry E w.k km i.toNat v flags = .error e := by
        simp only [Spec.entry, hkk, g1, g2, hx', if_false, Option.getD_some, chn _ hu]
        repeat' split
        all_goals exact ⟨_, rfl⟩
      obtain ⟨e, he⟩ := this
      rw [g4 e he]
      exact ⟨_, rfl⟩
  · obtain ⟨v, g1, g2, -, g4⟩ := put_value (E := E) (b := b) hdf hm (prog := E.devProg) (p := some fd) (by rw [hv, hs']; rfl) (fun _ => hP) hsm i x flags
    simp only [wstep, hd, hpr, if_true, hashInsert, acted, features]
    have : ∃ e : Nat, Spec.entry E w.k km i.toNat v flags = .error e := by
      simp only [Spec.entry, hkk, g1, g2, hx', if_false, Option.getD_some, chn _ hu]
      repeat' split
      all_goals exact ⟨_, rfl⟩
    obtain ⟨e, he⟩ := this
    rw [g4 e he]
    exact ⟨_, rfl⟩
  · obtain ⟨v, g1, g2, -, g4⟩ := put_value (E := E) (b := b) hdf hm (prog := E.cpuProg) (p := some fd) (by rw [hv, hs']; rfl) (fun _ => hP) hsm i x flags
    simp only [wstep, hd, hpr, if_true, cpuSet, acted, features]
    rcases hb : checkBounds d i with e | ⟨⟩
    · exact ⟨e, rfl⟩
    · simp only
      have : ∃ e : Nat, Spec.entry E w.k km i.toNat v flags = .error e := by
        simp only [Spec.entry, hkk, g1, g2, hx', if_false, Option.getD_some, chn _ hu]
        repeat' split
        all_goals exact ⟨_, rfl⟩
      obtain ⟨e, he⟩ := this
      rw [g4 e he]
      exact ⟨_, rfl⟩
  · simp only [wstep, hd, hpr, if_true, devSet, bounds_ok hi, acted, features, put, hP, Bool.false_eq_true, if_false, Option.isSome_some, outOf]
  · simp only [wstep, hd, hpr, if_true, hashInsert, acted, features, put, hP, Bool.false_eq_true, if_false, Option.isSome_some, outOf]
  · simp only [wstep, hd, hpr, if_true, cpuSet, bounds_ok hi, acted, features, put, hP, Bool.false_eq_true, if_false, Option.isSome_some, outOf]

/-- C101, whatever an object says about the size of values, its maps are made as the kernel has them and can be used. -/
theorem C101_load (E : Env) (w : W) (fd vsize max : Nat) (hfree : w.free E fd = true) (hmax : 0 < max ∧ max < 4294967296) :
    (wstep E w (.load fd .dev vsize max)).2 = .done ∧ (wstep E w (.load fd .hash vsize max)).2 = .done ∧
    (max ≤ E.cpus → (wstep E w (.load fd .cpu vsize max)).2 = .done) ∧ (wstep E w (.load fd .xsk 4 max)).2 = .done := by
  have hm0 : (max != 0) = true := by simp only [bne_iff_ne, ne_eq]; omega
  have hml : decide (max < 4294967296) = true := decide_eq_true hmax.2
  refine ⟨?_, ?_, fun hc => ?_, ?_⟩
  · simp only [wstep, hfree, if_true, load, valueSizeOverride, features]
    rcases Bool.eq_false_or_eq_true E.devProg with e | e <;>
      simp [create, sysOf, Spec.createMap, Spec.creatable, hm0, hml, e, typed, new, checkKvSize, opened]
  · simp only [wstep, hfree, if_true, load, valueSizeOverride, features]
    rcases Bool.eq_false_or_eq_true E.devProg with e | e <;>
      simp [create, sysOf, Spec.createMap, Spec.creatable, hm0, hml, e, typed, new, checkKvSize, opened]
  · simp only [wstep, hfree, if_true, load, valueSizeOverride, features]
    rcases Bool.eq_false_or_eq_true E.cpuProg with e | e <;>
      simp [create, sysOf, Spec.createMap, Spec.creatable, hm0, hml, e, typed, new, checkKvSize, opened, hc]
  · simp [wstep, hfree, load, valueSizeOverride, create, sysOf, Spec.createMap, Spec.creatable, hm0, hml, typed, new, checkKvSize, opened]

/-! ## Histories that meet this -/

/-- A machine, and a history: an interface, a program for maps of devices, whose descriptor is closed once it is in two maps; a queue for a CPU; a socket. -/
def machine : Env := ⟨true, true, 4, 16⟩

def history : List Op :=
  [.plug 7, .plug 9, .load 3 .dev 4 2, .load 4 .hash 4 2, .load 5 .cpu 4 4, .load 6 .xsk 4 2, .program 8 77 .devmap, .program 9 78 .cpumap,
   .socket 10 1 7 3, .devSet 3 1 7 (some 8) 0, .hashInsert 4 1000 9 none 0, .hashInsert 4 1001 7 (some 8) 0, .cpuSet 5 2 192 (some 9) 0,
   .dup 10 11, .xskSetOwned 6 0 11 0, .close 8]

theorem history_fair : Fairly machine history ({}, {}) := by
  refine ⟨trivial, trivial, trivial, trivial, trivial, trivial, trivial, trivial, trivial, ⟨by decide, by decide⟩, ?_, ?_, ⟨by decide, by decide⟩,
    trivial, ⟨10, by decide, by decide +kernel⟩, trivial, trivial⟩
  · exact fun h => nomatch h
  · exact fun h => nomatch h

/-- The hypotheses of the theorems hold after it. -/
example : (run machine history ({}, {})).1.typed .dev 3 = some ⟨3, 4, 8, 2⟩ ∧ (run machine history ({}, {})).1.typed .hash 4 = some ⟨4, 4, 8, 2⟩ ∧
    (run machine history ({}, {})).1.typed .cpu 5 = some ⟨5, 4, 8, 4⟩ ∧ (run machine history ({}, {})).1.typed .xsk 6 = some ⟨6, 4, 4, 2⟩ ∧
    (run machine history ({}, {})).2.table 3 1 = some (.dev 7 (some 77)) ∧ (run machine history ({}, {})).2.table 5 2 = some (.cpu 192 (some 78)) ∧
    (run machine history ({}, {})).2.table 6 0 = some (.sock 1) ∧ (run machine history ({}, {})).1.k.socks 1 = some (7, 3) ∧
    (run machine history ({}, {})).2.files 9 = some (.prog 78) ∧ (run machine history ({}, {})).1.k.progs 78 = some .cpumap ∧
    machine.limit ≤ 2147483648 := by decide +kernel

/-- All succeed, and then packets go where they should; a packet from another queue than that of the socket is dropped. -/
example : outs machine (history ++ [.devGet 3 1, .devGet 3 0, .devGet 3 2, .hashGet 4 1001, .cpuGet 5 2, .progGet 3 1, .progIfindex 4 1000, .progQueue 6 0,
      .redirect 3 1 0 9 0, .redirect 3 0 2 9 0, .redirect 4 0 24 9 0, .redirect 5 2 0 9 0, .redirect 6 0 0 7 3, .redirect 6 0 0 7 4,
      .unplug 7, .redirect 3 1 2 9 0, .hashGet 4 1001, .close 10, .redirect 6 0 1 7 3]) {} =
    List.replicate 16 .done ++ [.got ⟨7, some 77⟩, .failed .keyNotFound, .failed (.outOfBounds 2 2), .got ⟨7, some 77⟩, .got ⟨192, some 78⟩,
      .saw (.read (some ⟨7, some 77⟩)), .number (.read (some 9)), .number (.read (some 3)),
      .packet (.ok 4) (.sent 7 (some 77)), .packet (.error 2) (.acted 2), .packet (.ok 4) (.sentAll [(7, some 77)]),
      .packet (.ok 4) (.queued 2 192 (some 78)), .packet (.ok 4) (.received 1), .packet (.ok 4) .dropped,
      .done, .packet (.error 2) (.acted 2), .failed .keyNotFound, .done, .packet (.error 1) (.acted 1)] := by decide +kernel

/-- Programs made for the wrong kind of map, and interfaces that are not there, are refused; flags that are not allowed abort. -/
example : outs machine (history ++ [.devSet 3 0 7 (some 9) 0, .devSet 3 0 8 none 0, .cpuSet 5 1 192 none 0, .redirect 5 1 10 0 0, .devIter 3]) {} =
    List.replicate 16 .done ++ [.failed (.syscall "bpf_map_update_elem" 22), .failed (.syscall "bpf_map_update_elem" 22), .done,
      .packet (.error 0) (.acted 0), .all [.error .keyNotFound, .ok ⟨7, some 77⟩]] := by decide +kernel

/-- An old kernel. -/
example : outs ⟨false, false, 4, 16⟩ [.plug 7, .load 3 .dev 8 2, .program 4 77 .devmap, .devSet 3 0 7 (some 4) 0, .devSet 3 0 7 none 0, .devGet 3 0,
      .progIfindex 3 0, .redirect 3 0 0 1 0] {} =
    [.done, .done, .done, .failed .chainedProgramNotSupported, .done, .got ⟨7, none⟩, .number (.read (some 7)), .packet (.ok 4) (.sent 7 none)] := by
  decide +kernel

/-! ## What goes wrong -/

/-- C101, a program whose descriptor is 0, as it can be in a process without standard input, is left out though setting succeeds: packets go out without
    passing it. -/
theorem C101_program_violated :
    outs machine [.plug 7, .program 0 77 .devmap, .load 3 .dev 8 2, .devSet 3 1 7 (some 0) 0, .devGet 3 1, .redirect 3 1 0 9 0] {} =
      [.done, .done, .done, .done, .got ⟨7, none⟩, .packet (.ok 4) (.sent 7 none)] := by decide +kernel

/-- C101, an interface numbered 0, and a queue of size 0, are set with success, but take away the entry that was there. -/
theorem C101_zero_violated :
    outs machine [.plug 7, .load 3 .dev 8 2, .load 4 .cpu 8 2, .devSet 3 1 7 none 0, .devSet 3 1 0 none 0, .devGet 3 1, .redirect 3 1 2 9 0,
        .cpuSet 4 1 192 none 0, .cpuSet 4 1 0 none 0, .cpuGet 4 1, .redirect 4 1 2 9 0] {} =
      [.done, .done, .done, .done, .done, .failed .keyNotFound, .packet (.error 2) (.acted 2),
        .done, .done, .failed .keyNotFound, .packet (.error 2) (.acted 2)] := by decide +kernel

/-- C101, a socket that is given to a map by value, as the signature allows, is closed by the call, and so is not in the map though the call succeeded. -/
theorem C101_socket_violated :
    outs machine [.load 3 .xsk 4 2, .socket 4 1 7 3, .xskSetOwned 3 0 4 0, .redirect 3 0 2 7 3, .progQueue 3 0] {} =
      [.done, .done, .done, .packet (.error 2) (.acted 2), .number (.read none)] := by decide +kernel

/-- C101, maps of devices and CPUs that another program made with values of four bytes, as it may, cannot be used on kernels that know programs in maps. -/
theorem C101_adopt_violated :
    outs machine [.adopt 3 .dev 4 2, .adopt 3 .hash 4 2, .adopt 3 .cpu 4 2] {} =
      [.failed (.invalidValueSize 8 4), .failed (.invalidValueSize 8 4), .failed (.invalidValueSize 8 4)] := by decide +kernel

/-- C101, programs that read entries with `get` are rejected on kernels that do not know programs in maps, though the map has entries. -/
theorem C101_old_violated :
    outs ⟨false, false, 4, 16⟩ [.plug 7, .load 3 .dev 8 2, .devSet 3 0 7 none 0, .progGet 3 0] {} = [.done, .done, .done, .saw .rejected] := by
  decide +kernel

end Verif.Redirect
