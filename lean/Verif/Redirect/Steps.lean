import Verif.Redirect.Inv

/-!
# Maps that packets are redirected with: each step
-/
set_option linter.unusedSimpArgs false
set_option linter.unusedVariables false
namespace Verif.Redirect
open Spec (K KMap Op Out Thing Target Env Use Chosen upd Book forget others)
open Verif.Bytes

/-- The size of values of a typed map. -/
def sizeOf (E : Env) : Kind → Nat
  | .dev => if E.devProg then 8 else 4
  | .hash => if E.devProg then 8 else 4
  | .cpu => if E.cpuProg then 8 else 4
  | .xsk => 4

structure Inv (E : Env) (w : W) (b : Book) : Prop where
  k : KInv E w.k b
  typed : ∀ (m : Nat) (kind : Kind) (d : Data), w.maps m = some (kind, d) → d.fd = m ∧ w.k.files m = some .map ∧ d.vsize = sizeOf E kind ∧
    d.max < 4294967296 ∧ ∃ km : KMap, w.k.maps m = some km ∧ km.kind = kind ∧ km.vsize = d.vsize ∧ km.max = d.max

theorem inv_init (E : Env) : Inv E {} {} :=
  ⟨⟨rfl, fun _ h => (h rfl).elim, fun _ _ h => (nomatch h), fun _ _ h => (nomatch h), fun _ _ _ _ h => (nomatch h), fun _ _ h => (nomatch h)⟩,
    fun _ _ _ h => (nomatch h)⟩

theorem typed_some {w : W} {kind : Kind} {m : Nat} {d : Data} (h : w.typed kind m = some d) : w.maps m = some (kind, d) := by
  simp only [W.typed] at h
  rcases e : w.maps m with _ | ⟨kind', d'⟩
  · rw [e] at h; exact nomatch h
  · rw [e] at h
    simp only at h
    split at h
    · next q => rw [q, Option.some.inj h]
    · exact nomatch h

theorem typed_of {w : W} {kind : Kind} {m : Nat} {d : Data} (h : w.maps m = some (kind, d)) : w.typed kind m = some d := by
  simp only [W.typed, h, if_true]

/-- The system changes, but no map as such. -/
theorem Inv.keep {E : Env} {w : W} {b b' : Book} (h : Inv E w b) {k' : K} (hk : KInv E k' b')
    (hf : ∀ m : Nat, w.k.files m = some .map → k'.files m = some .map)
    (hm : ∀ (m : Nat) (km : KMap), w.k.files m = some .map → w.k.maps m = some km → ∃ km' : KMap, k'.maps m = some km' ∧ km'.kind = km.kind ∧ km'.vsize = km.vsize ∧ km'.max = km.max) :
    Inv E { w with k := k' } b' := by
  refine ⟨hk, fun m kind d e => ?_⟩
  obtain ⟨h1, h2, h3, h4, km, h5, h6, h7, h8⟩ := h.typed m kind d e
  obtain ⟨km', g1, g2, g3, g4⟩ := hm m km h2 h5
  exact ⟨h1, hf m h2, h3, h4, km', g1, g2.trans h6, g3.trans h7, g4.trans h8⟩

/-! ## Making maps -/

theorem kv_size {d : Data} {n : Nat} (h : checkKvSize d 4 n = .ok ()) : d.vsize = n := by
  simp only [checkKvSize] at h
  split at h
  · exact nomatch h
  · split at h
    · exact nomatch h
    · next q => simp only [ne_eq, Decidable.not_not] at q; exact q.symm

theorem new_size {E : Env} {kind : Kind} {d : Data} (h : new (features E) kind d = .ok ()) : d.vsize = sizeOf E kind := by
  simp only [new, features] at h
  cases kind <;> simp only [sizeOf] at h ⊢
  · rcases e : E.devProg with _ | _ <;> simp only [e, Bool.false_eq_true, if_false, if_true] at h ⊢ <;> exact kv_size h
  · rcases e : E.devProg with _ | _ <;> simp only [e, Bool.false_eq_true, if_false, if_true] at h ⊢ <;> exact kv_size h
  · rcases e : E.cpuProg with _ | _ <;> simp only [e, Bool.false_eq_true, if_false, if_true] at h ⊢ <;> exact kv_size h
  · exact kv_size h

/-- A map that is made and typed, or neither. -/
theorem typed_inv {E : Env} {w : W} {b : Book} (h : Inv E w b) {fd : Nat} (hfree : w.free E fd = true) (kind : Kind) (vsize max : Nat)
    (r : Except Error Data × K)
    (hr : r = match create (sysOf E fd) kind 4 vsize max w.k with
      | (.error e, s) => (.error e, s)
      | (.ok d, s) => typed (sysOf E fd) (features E) kind d s) :
    ((opened w kind r).2 = .done ∧
      Inv E (opened w kind r).1 { files := upd b.files fd (some .map), table := upd b.table fd fun _ => none }) ∨
    ((∃ e : Error, (opened w kind r).2 = .failed e) ∧ Inv E (opened w kind r).1 b) := by
  simp only [W.free, Bool.and_eq_true, decide_eq_true_eq, beq_iff_eq] at hfree
  obtain ⟨hl, hn⟩ := hfree
  simp only [create, sysOf, Spec.createMap] at hr
  rcases hc : Spec.creatable E kind 4 vsize max with _ | _
  · simp only [hc, Bool.false_eq_true, if_false] at hr
    subst hr
    exact .inr ⟨⟨_, rfl⟩, h⟩
  · have hmax : max < 4294967296 := by
      simp only [Spec.creatable, Bool.and_eq_true, decide_eq_true_eq] at hc
      exact hc.1.2
    simp only [hc, if_true, typed] at hr
    rcases hnew : new (features E) kind ⟨fd, 4, vsize, max⟩ with e | ⟨⟩
    · simp only [hnew] at hr
      subst hr
      refine .inr ⟨⟨_, rfl⟩, ?_⟩
      have he : Spec.close E fd { w.k with files := upd w.k.files fd (some .map), maps := upd w.k.maps fd (some { kind := kind, vsize := vsize, max := max }) } =
          { w.k with maps := upd w.k.maps fd none } := by
        simp only [Spec.close, upd_same, upd_upd w.k.files fd none hn]
        congr 1
        funext x
        by_cases q : x = fd
        · subst q; simp only [upd_same]
        · simp only [upd_other _ _ q]
      simp only [opened, he]
      refine h.keep (h.k.noMap fd) (fun _ h => h) ?_
      intro m km e' e
      by_cases q : m = fd
      · subst q; rw [hn] at e'; exact nomatch e'
      · exact ⟨km, by simp only [upd_other _ _ q]; exact e, rfl, rfl, rfl⟩
    · simp only [hnew] at hr
      subst hr
      refine .inl ⟨rfl, ?_⟩
      have hk := (h.k.give hl hn (t := .map) (fun _ q => nomatch q) (fun _ q => nomatch q)).newMap fd kind vsize max
      refine ⟨hk, ?_⟩
      intro m kind' d e
      simp only [opened, upd] at e
      split at e
      · next q =>
        subst q
        cases Option.some.inj e
        refine ⟨rfl, by simp only [opened, upd_same], new_size hnew, hmax, _, by simp only [opened, upd_same]; rfl, rfl, rfl, rfl⟩
      · next q =>
        obtain ⟨h1, h2, h3, h4, km, h5, h6⟩ := h.typed m kind' d e
        exact ⟨h1, by simp only [opened, upd_other _ _ q]; exact h2, h3, h4, km, by simp only [opened, upd_other _ _ q]; exact h5, h6⟩

/-! ## Setting entries -/

theorem le4_of (n : Nat) (h : n < 4294967296) : ofLe (le 4 n) = n := ofLe_le_of_lt 4 n (by simpa using h)

theorem le4_len (n : Nat) : (le 4 n).length = 4 := le_length 4 n

theorem both_first (x y : Nat) (hx : x < 4294967296) : ofLe ((le 4 x ++ le 4 y).take 4) = x := by
  rw [List.take_append_of_le_length (Nat.le_of_eq (le4_len x).symm)]
  rw [List.take_of_length_le (Nat.le_of_eq (le4_len _))]
  exact le4_of x hx

theorem both_second (x y : Nat) (hy : y < 4294967296) : ofLe (((le 4 x ++ le 4 y).drop 4).take 4) = y := by
  rw [List.drop_append_of_le_length (Nat.le_of_eq (le4_len x).symm), List.drop_of_length_le (Nat.le_of_eq (le4_len x)), List.nil_append,
    List.take_of_length_le (Nat.le_of_eq (le4_len _))]
  exact le4_of y hy

theorem one_first (x : Nat) (hx : x < 4294967296) : ofLe ((le 4 x).take 4) = x := by
  rw [List.take_of_length_le (Nat.le_of_eq (le4_len _))]
  exact le4_of x hx

theorem one_second (x : Nat) : ofLe (((le 4 x).drop 4).take 4) = 0 := by
  rw [List.drop_of_length_le (Nat.le_of_eq (le4_len _))]; rfl

/-- The program behind a `ProgramFd`. -/
theorem chained_ok {E : Env} {w : W} {b : Book} (h : KInv E w.k b) {use : Use} {p q : Option Nat} (hp : w.isProg p = true) (h0 : p ≠ some 0)
    (hc : Spec.chained w.k use (p.getD 0) = .ok q) :
    q = p.bind b.progAt ∧ IdOk q ∧ (p = none → q = none) ∧ ∀ id : Nat, q = some id → w.k.progs id = some use := by
  cases p with
  | none =>
    simp only [Spec.chained, Option.getD_none, if_true] at hc
    obtain rfl := Except.ok.inj hc
    exact ⟨rfl, fun _ e => (nomatch e), fun _ => rfl, fun _ e => (nomatch e)⟩
  | some fd =>
    have hfd : fd ≠ 0 := fun e => h0 (by rw [e])
    simp only [Spec.chained, Option.getD_some, hfd, if_false] at hc
    simp only [W.isProg] at hp
    rcases e : w.k.files fd with _ | t
    · rw [e] at hp; exact nomatch hp
    · cases t with
      | prog id =>
        simp only [e] at hc
        split at hc
        · next hu =>
          obtain rfl := Except.ok.inj hc
          refine ⟨?_, ?_, fun q => (nomatch q), ?_⟩
          · simp only [Option.bind_some, Book.progAt, ← h.files, e]
          · intro id' q
            cases q
            exact h.ids fd _ e
          · intro id' q
            cases q
            exact hu
        · exact nomatch hc
      | sock n => rw [e] at hp; exact nomatch hp
      | map => rw [e] at hp; exact nomatch hp

/-- What `put` does: an error and nothing else, or the entry the system makes of interface (or size) and descriptor. -/
theorem put_cases {E : Env} {k : K} {d : Data} {km : KMap} (hm : k.maps d.fd = some km) (hv : km.vsize = d.vsize) {prog : Bool}
    (hs : d.vsize = if prog then 8 else 4) (key target : BitVec 32) (program : Option Nat) (hp : program.getD 0 < 4294967296) (flags : Nat) (fd : Nat) :
    (∃ e : Error, put (sysOf E fd) d prog key target program flags k = (.error e, k)) ∨
    (∃ (v : Bytes) (t : Option Target), ofLe (v.take 4) = target.toNat ∧ Spec.second v = program.getD 0 ∧ (km.vsize = 4 → program = none) ∧
      Spec.entry E k km key.toNat v flags = .ok t ∧
      put (sysOf E fd) d prog key target program flags k = (.ok (), { k with maps := upd k.maps d.fd (some (km.put key.toNat t)) })) := by
  have hk : ofLe (le 4 key.toNat) = key.toNat := le4_of _ key.isLt
  cases prog with
  | true =>
    simp only [if_true] at hs
    have hl : (le 4 target.toNat ++ le 4 (program.getD 0)).take km.vsize = le 4 target.toNat ++ le 4 (program.getD 0) := by
      rw [hv, hs]; exact List.take_of_length_le (by rw [List.length_append, le4_len, le4_len]; omega)
    simp only [put, if_true, sysOf, Spec.update, hm, hk, hl]
    rcases e : Spec.entry E k km key.toNat (le 4 target.toNat ++ le 4 (program.getD 0)) flags with e' | t
    · exact .inl ⟨_, rfl⟩
    · refine .inr ⟨_, t, both_first _ _ target.isLt, both_second _ _ hp, fun q => ?_, e, rfl⟩
      rw [hv, hs] at q; exact nomatch q
  | false =>
    simp only [Bool.false_eq_true, if_false] at hs
    cases program with
    | some p => exact .inl ⟨_, rfl⟩
    | none =>
      have hl : (le 4 target.toNat).take km.vsize = le 4 target.toNat := by
        rw [hv, hs]; exact List.take_of_length_le (Nat.le_of_eq (le4_len _))
      simp only [put, Bool.false_eq_true, if_false, Option.isSome_none, sysOf, Spec.update, hm, hk, hl]
      rcases e : Spec.entry E k km key.toNat (le 4 target.toNat) flags with e' | t
      · exact .inl ⟨_, rfl⟩
      · exact .inr ⟨_, t, one_first _ target.isLt, one_second _, by simp, e, rfl⟩

theorem entry_dev {E : Env} {k : K} {m : KMap} {key : Nat} {v : Bytes} {flags : Nat} {t : Option Target} (hk : m.kind = .dev)
    (hx : ofLe (v.take 4) ≠ 0) (h : Spec.entry E k m key v flags = .ok t) :
    ∃ q : Option Nat, t = some (.dev (ofLe (v.take 4)) q) ∧ Spec.chained k .devmap (Spec.second v) = .ok q ∧ k.devs (ofLe (v.take 4)) = true ∧ key < m.max := by
  simp only [Spec.entry, hk, hx, if_false] at h
  split at h
  · exact nomatch h
  · split at h
    · exact nomatch h
    · split at h
      · exact nomatch h
      · split at h
        · split at h
          · exact nomatch h
          · next q hq => exact ⟨q, (Except.ok.inj h).symm, hq, by assumption, by omega⟩
        · exact nomatch h

theorem entry_hash {E : Env} {k : K} {m : KMap} {key : Nat} {v : Bytes} {flags : Nat} {t : Option Target} (hk : m.kind = .hash)
    (h : Spec.entry E k m key v flags = .ok t) :
    ∃ q : Option Nat, t = some (.dev (ofLe (v.take 4)) q) ∧ Spec.chained k .devmap (Spec.second v) = .ok q ∧ k.devs (ofLe (v.take 4)) = true := by
  simp only [Spec.entry, hk] at h
  split at h
  · exact nomatch h
  · split at h
    · exact nomatch h
    · split at h
      · exact nomatch h
      · split at h
        · split at h
          · exact nomatch h
          · next q hq =>
            split at h
            · exact nomatch h
            · exact ⟨q, (Except.ok.inj h).symm, hq, by assumption⟩
        · exact nomatch h

theorem entry_cpu {E : Env} {k : K} {m : KMap} {key : Nat} {v : Bytes} {flags : Nat} {t : Option Target} (hk : m.kind = .cpu)
    (hx : ofLe (v.take 4) ≠ 0) (h : Spec.entry E k m key v flags = .ok t) :
    ∃ q : Option Nat, t = some (.cpu (ofLe (v.take 4)) q) ∧ Spec.chained k .cpumap (Spec.second v) = .ok q ∧ key < m.max := by
  simp only [Spec.entry, hk, hx, if_false] at h
  split at h
  · exact nomatch h
  · split at h
    · exact nomatch h
    · split at h
      · exact nomatch h
      · split at h
        · exact nomatch h
        · split at h
          · exact nomatch h
          · split at h
            · exact nomatch h
            · next q hq => exact ⟨q, (Except.ok.inj h).symm, hq, by omega⟩

theorem entry_xsk {E : Env} {k : K} {m : KMap} {key : Nat} {v : Bytes} {flags : Nat} {t : Option Target} (hk : m.kind = .xsk)
    (h : Spec.entry E k m key v flags = .ok t) : ∃ n : Nat, t = some (.sock n) ∧ k.files (ofLe v) = some (.sock n) ∧ key < m.max := by
  simp only [Spec.entry, hk] at h
  split at h
  · exact nomatch h
  · split at h
    · exact nomatch h
    · split at h
      · exact nomatch h
      · next n hn =>
        refine ⟨n, ?_, hn, by omega⟩
        repeat' split at h
        all_goals first
          | (cases h; done)
          | exact (Except.ok.inj h).symm
      · exact nomatch h

/-! ## Every step -/

/-- An entry of a typed map is set. -/
theorem Inv.set {E : Env} {w : W} {b : Book} (h : Inv E w b) {m : Nat} {km : KMap} (hm : w.k.maps m = some km) {key : BitVec 32} {t : Option Target}
    (ht : ∀ u : Target, t = some u → Good w.k km u ∧ (km.kind ≠ .hash → key.toNat < km.max)) :
    Inv E { w with k := { w.k with maps := upd w.k.maps m (some (km.put key.toNat t)) } } (b.set m key t) := by
  refine h.keep (h.k.set hm ht) (fun _ h => h) ?_
  intro m' km' _ e
  by_cases q : m' = m
  · subst q
    rw [hm] at e
    obtain rfl := Option.some.inj e
    exact ⟨km.put key.toNat t, by simp only [upd_same], rfl, rfl, rfl⟩
  · exact ⟨km', by simp only [upd_other _ _ q]; exact e, rfl, rfl, rfl⟩

theorem prog_small {E : Env} {w : W} {b : Book} (hE : E.limit ≤ 2147483648) (h : Inv E w b) {p : Option Nat} (hp : w.isProg p = true) :
    p.getD 0 < 4294967296 := by
  cases p with
  | none => simp only [Option.getD_none]; omega
  | some fd =>
    simp only [W.isProg] at hp
    have : w.k.files fd ≠ none := by intro e; rw [e] at hp; exact nomatch hp
    have := h.k.small fd this
    simp only [Option.getD_some]; omega

/-- Closing keeps all maps. -/
theorem close_keep {E : Env} {w : W} {fd : Nat} (hf : w.k.files fd ≠ some .map) :
    (∀ m : Nat, w.k.files m = some .map → (Spec.close E fd w.k).files m = some .map) ∧
    (∀ (m : Nat) (km : KMap), w.k.files m = some .map → w.k.maps m = some km →
      ∃ km' : KMap, (Spec.close E fd w.k).maps m = some km' ∧ km'.kind = km.kind ∧ km'.vsize = km.vsize ∧ km'.max = km.max) := by
  have hne : ∀ m : Nat, w.k.files m = some .map → m ≠ fd := by rintro m e rfl; exact hf e
  rcases e : w.k.files fd with _ | t
  · simp only [Spec.close, e]
    exact ⟨fun m h => by rw [upd_other _ _ (hne m h)]; exact h, fun m km _ h => ⟨km, h, rfl, rfl, rfl⟩⟩
  · cases t with
    | map => exact (hf e).elim
    | prog id =>
      simp only [Spec.close, e]
      exact ⟨fun m h => by rw [upd_other _ _ (hne m h)]; exact h, fun m km _ h => ⟨km, h, rfl, rfl, rfl⟩⟩
    | sock n =>
      simp only [Spec.close, e]
      refine ⟨fun m h => by rw [upd_other _ _ (hne m h)]; exact h, fun m km _ h => ?_⟩
      rcases others E.limit w.k.files fd (.sock n) with _ | _
      · simp only [Bool.false_eq_true, if_false, K.drop, h, Option.map_some]
        exact ⟨_, rfl, rfl, rfl, rfl⟩
      · simp only [if_true]
        exact ⟨km, h, rfl, rfl, rfl⟩

theorem Inv.close {E : Env} {w : W} {b : Book} (h : Inv E w b) {fd : Nat} (hf : w.k.files fd ≠ some .map) :
    Inv E { w with k := Spec.close E fd w.k } (b.close E.limit fd) := by
  obtain ⟨h1, h2⟩ := close_keep (E := E) hf
  exact h.keep (h.k.close hf) h1 h2

/-- A descriptor is given out for something that is no map. -/
theorem Inv.give {E : Env} {w : W} {b : Book} (h : Inv E w b) {fd : Nat} (hfree : w.free E fd = true) {t : Thing} {k' : K}
    (hk : KInv E k' { b with files := upd b.files fd (some t) }) (hf : k'.files = upd w.k.files fd (some t)) (hm : k'.maps = w.k.maps) :
    Inv E { w with k := k' } { b with files := upd b.files fd (some t) } := by
  simp only [W.free, Bool.and_eq_true, decide_eq_true_eq, beq_iff_eq] at hfree
  refine h.keep hk ?_ fun m km _ e => ⟨km, by rw [hm]; exact e, rfl, rfl, rfl⟩
  intro m e
  rw [hf, upd_other _ _ (by rintro rfl; rw [hfree.2] at e; exact nomatch e)]
  exact e

/-- What is known of a typed map. -/
theorem Inv.at {E : Env} {w : W} {b : Book} (h : Inv E w b) {kind : Kind} {m : Nat} {d : Data} (e : w.typed kind m = some d) :
    d.fd = m ∧ w.k.files m = some .map ∧ d.vsize = sizeOf E kind ∧ d.max < 4294967296 ∧
    ∃ km : KMap, w.k.maps m = some km ∧ km.kind = kind ∧ km.vsize = d.vsize ∧ km.max = d.max := h.typed m kind d (typed_some e)

theorem inv_devSet {E : Env} (hE : E.limit ≤ 2147483648) {w : W} {b : Book} (h : Inv E w b) {m : Nat} {d : Data} (hd : w.typed .dev m = some d)
    {p : Option Nat} (hp : w.isProg p = true) (h0 : p ≠ some 0) {i x : BitVec 32} (hx : x ≠ 0) (flags : Nat) :
    Inv E (acted w (devSet (sysOf E 0) (features E) d i x p flags w.k)).1
      (b.after E.limit (.devSet m i x p flags) (acted w (devSet (sysOf E 0) (features E) d i x p flags w.k)).2) := by
  obtain ⟨rfl, -, hs, -, km, hm, hkind, hv, hmax⟩ := h.at hd
  simp only [devSet]
  rcases hb : checkBounds d i with e | ⟨⟩
  · exact h
  · simp only
    rcases put_cases hm hv (prog := (features E).devProg) hs i x p (prog_small hE h hp) flags 0 with ⟨e, he⟩ | ⟨v, t, h1, h2, h3, h4, he⟩
    · rw [he]; exact h
    · rw [he]
      have hx' : ofLe (v.take 4) ≠ 0 := by rw [h1]; intro q; exact hx (BitVec.eq_of_toNat_eq q)
      obtain ⟨q, rfl, hc, hdev, hlt⟩ := entry_dev hkind hx' h4
      rw [h2] at hc
      obtain ⟨rfl, hid, hnone, -⟩ := chained_ok h.k hp h0 hc
      have := h.set hm (key := i) (t := some (.dev (ofLe (v.take 4)) (p.bind b.progAt))) (by
        intro u hu
        cases hu
        exact ⟨⟨.inl hkind, hdev, by rw [h1]; exact x.isLt, hid, fun q => hnone (h3 q)⟩, fun _ => hlt⟩)
      rw [h1] at this
      rw [h1]
      exact this

theorem inv_hashInsert {E : Env} (hE : E.limit ≤ 2147483648) {w : W} {b : Book} (h : Inv E w b) {m : Nat} {d : Data} (hd : w.typed .hash m = some d)
    {p : Option Nat} (hp : w.isProg p = true) (h0 : p ≠ some 0) {i x : BitVec 32} (flags : Nat) :
    Inv E (acted w (hashInsert (sysOf E 0) (features E) d i x p flags w.k)).1
      (b.after E.limit (.hashInsert m i x p flags) (acted w (hashInsert (sysOf E 0) (features E) d i x p flags w.k)).2) := by
  obtain ⟨rfl, -, hs, -, km, hm, hkind, hv, hmax⟩ := h.at hd
  simp only [hashInsert]
  rcases put_cases hm hv (prog := (features E).devProg) hs i x p (prog_small hE h hp) flags 0 with ⟨e, he⟩ | ⟨v, t, h1, h2, h3, h4, he⟩
  · rw [he]; exact h
  · rw [he]
    obtain ⟨q, rfl, hc, hdev⟩ := entry_hash hkind h4
    rw [h2] at hc
    obtain ⟨rfl, hid, hnone, -⟩ := chained_ok h.k hp h0 hc
    have := h.set hm (key := i) (t := some (.dev (ofLe (v.take 4)) (p.bind b.progAt))) (by
      intro u hu
      cases hu
      exact ⟨⟨.inr hkind, hdev, by rw [h1]; exact x.isLt, hid, fun q => hnone (h3 q)⟩, fun q => (q hkind).elim⟩)
    rw [h1] at this
    rw [h1]
    exact this

theorem inv_cpuSet {E : Env} (hE : E.limit ≤ 2147483648) {w : W} {b : Book} (h : Inv E w b) {m : Nat} {d : Data} (hd : w.typed .cpu m = some d)
    {p : Option Nat} (hp : w.isProg p = true) (h0 : p ≠ some 0) {i x : BitVec 32} (hx : x ≠ 0) (flags : Nat) :
    Inv E (acted w (cpuSet (sysOf E 0) (features E) d i x p flags w.k)).1
      (b.after E.limit (.cpuSet m i x p flags) (acted w (cpuSet (sysOf E 0) (features E) d i x p flags w.k)).2) := by
  obtain ⟨rfl, -, hs, -, km, hm, hkind, hv, hmax⟩ := h.at hd
  simp only [cpuSet]
  rcases hb : checkBounds d i with e | ⟨⟩
  · exact h
  · simp only
    rcases put_cases hm hv (prog := (features E).cpuProg) hs i x p (prog_small hE h hp) flags 0 with ⟨e, he⟩ | ⟨v, t, h1, h2, h3, h4, he⟩
    · rw [he]; exact h
    · rw [he]
      have hx' : ofLe (v.take 4) ≠ 0 := by rw [h1]; intro q; exact hx (BitVec.eq_of_toNat_eq q)
      obtain ⟨q, rfl, hc, hlt⟩ := entry_cpu hkind hx' h4
      rw [h2] at hc
      obtain ⟨rfl, hid, hnone, -⟩ := chained_ok h.k hp h0 hc
      have := h.set hm (key := i) (t := some (.cpu (ofLe (v.take 4)) (p.bind b.progAt))) (by
        intro u hu
        cases hu
        exact ⟨⟨hkind, by rw [h1]; exact x.isLt, hid, fun q => hnone (h3 q)⟩, fun _ => hlt⟩)
      rw [h1] at this
      rw [h1]
      exact this

theorem xskSet_cases {E : Env} {w : W} {b : Book} (h : Inv E w b) {m : Nat} {d : Data} (hd : w.typed .xsk m = some d) {fd : Nat} (hf : fd < 4294967296)
    (i : BitVec 32) (flags : Nat) :
    (∃ e : Error, xskSet (sysOf E 0) d i fd flags w.k = (.error e, w.k)) ∨
    (∃ (n : Nat) (km : KMap), w.k.maps m = some km ∧ km.kind = .xsk ∧ i.toNat < km.max ∧ w.k.files fd = some (.sock n) ∧
      xskSet (sysOf E 0) d i fd flags w.k =
        (.ok (), { w.k with maps := upd w.k.maps m (some (km.put i.toNat (some (.sock n)))) })) := by
  obtain ⟨rfl, -, hs, -, km, hm, hkind, hv, hmax⟩ := h.at hd
  have hk : ofLe (le 4 i.toNat) = i.toNat := le4_of _ i.isLt
  have hl : (le 4 fd).take km.vsize = le 4 fd := by
    rw [hv, hs]; exact List.take_of_length_le (Nat.le_of_eq (le4_len _))
  simp only [xskSet]
  rcases hb : checkBounds d i with e | ⟨⟩
  · exact .inl ⟨e, rfl⟩
  · simp only [sysOf, Spec.update, hm, hk, hl]
    rcases e : Spec.entry E w.k km i.toNat (le 4 fd) flags with e' | t
    · exact .inl ⟨_, rfl⟩
    · obtain ⟨n, rfl, hn, hlt⟩ := entry_xsk hkind e
      rw [le4_of fd hf] at hn
      exact .inr ⟨n, km, rfl, hkind, hlt, hn, rfl⟩

theorem remove_cases {E : Env} {w : W} {d : Data} {km : KMap} (hm : w.k.maps d.fd = some km) (i : BitVec 32) :
    (∃ e : Error, mapRemove (sysOf E 0) d (le 4 i.toNat) w.k = (.error e, w.k)) ∨
    mapRemove (sysOf E 0) d (le 4 i.toNat) w.k = (.ok (), { w.k with maps := upd w.k.maps d.fd (some (km.put i.toNat none)) }) := by
  have hk : ofLe (le 4 i.toNat) = i.toNat := le4_of _ i.isLt
  simp only [mapRemove, sysOf, Spec.delete, hm, hk]
  by_cases e1 : km.kind = .hash
  · simp only [e1, if_true]
    by_cases e2 : (km.entries i.toNat).isNone = true
    · simp only [e2, if_true]; exact .inl ⟨_, rfl⟩
    · simp [e2]
  · simp only [e1, if_false]
    by_cases e2 : i.toNat ≥ km.max
    · simp only [e2, if_true]; exact .inl ⟨_, rfl⟩
    · simp [e2]

theorem step_inv {E : Env} (hE : E.limit ≤ 2147483648) {w : W} {b : Book} (h : Inv E w b) (op : Op) (hf : Fair b op) :
    Inv E (wstep E w op).1 (b.after E.limit op (wstep E w op).2) := by
  cases op with
  | load fd kind vsize max =>
    simp only [wstep]
    split
    · next hfree =>
      rcases typed_inv h hfree kind ((valueSizeOverride (features E) kind).getD vsize) max (load (sysOf E fd) (features E) kind vsize max w.k)
        (by simp only [load]; rcases create (sysOf E fd) kind 4 ((valueSizeOverride (features E) kind).getD vsize) max w.k with ⟨_ | _, _⟩ <;> rfl) with
        ⟨h1, h2⟩ | ⟨⟨e, h1⟩, h2⟩
      · rw [h1]; exact h2
      · rw [h1]; exact h2
    · exact h
  | adopt fd kind vsize max =>
    simp only [wstep]
    split
    · next hfree =>
      rcases typed_inv h hfree kind vsize max (adopt (sysOf E fd) (features E) kind vsize max w.k)
        (by simp only [adopt]; rcases create (sysOf E fd) kind 4 vsize max w.k with ⟨_ | _, _⟩ <;> rfl) with
        ⟨h1, h2⟩ | ⟨⟨e, h1⟩, h2⟩
      · rw [h1]; exact h2
      · rw [h1]; exact h2
    · exact h
  | program fd id use =>
    simp only [wstep]
    split
    · next hc =>
      obtain ⟨hfree, h0, h1, -⟩ := hc
      have hfree' := hfree
      simp only [W.free, Bool.and_eq_true, decide_eq_true_eq, beq_iff_eq] at hfree'
      have g := h.k.give hfree'.1 hfree'.2 (t := .prog id) (fun id' q => by cases q; exact ⟨h0, h1⟩) (fun _ q => nomatch q)
      exact h.give hfree ⟨g.files, g.small, g.ids, g.table, fun m km key t e et =>
        let ⟨a, c⟩ := g.good m km key t e et
        ⟨a.mono (fun _ h => h) (fun _ h => h) fun _ _ h => h, c⟩, g.socks⟩ rfl rfl
    · exact h
  | socket fd n x q =>
    simp only [wstep]
    split
    · next hc =>
      obtain ⟨hfree, h0, h1⟩ := hc
      have hfree' := hfree
      simp only [W.free, Bool.and_eq_true, decide_eq_true_eq, beq_iff_eq] at hfree'
      have hs : ∀ (n' : Nat) (q' : Nat × Nat), w.k.socks n' = some q' → upd w.k.socks n (some (x, q)) n' = some q' := by
        intro n' q' e
        rw [upd_other _ _ (by rintro rfl; rw [h0] at e; exact nomatch e)]
        exact e
      have base : KInv E { w.k with socks := upd w.k.socks n (some (x, q)) } b :=
        ⟨h.k.files, h.k.small, h.k.ids, h.k.table, fun m km key t e et =>
          let ⟨a, c⟩ := h.k.good m km key t e et
          ⟨a.mono (fun _ h => h) (fun _ h => h) hs, c⟩, fun fd' n' e =>
          let ⟨q', a, c⟩ := h.k.socks fd' n' e
          ⟨q', hs n' q' a, c⟩⟩
      have g := base.give hfree'.1 hfree'.2 (t := .sock n) (fun id' q => nomatch q)
        (fun n' e => by cases e; exact ⟨(x, q), by simp only [upd_same], h1⟩)
      exact h.give hfree g rfl rfl
    · exact h
  | dup fd fd' =>
    simp only [wstep]
    split
    · next hc =>
      obtain ⟨hfree, h0, h1⟩ := hc
      have hfree' := hfree
      simp only [W.free, Bool.and_eq_true, decide_eq_true_eq, beq_iff_eq] at hfree'
      rcases e : w.k.files fd with _ | t
      · rw [e] at h0; exact nomatch h0
      · have eb : b.files fd = some t := by rw [← h.k.files]; exact e
        simp only [Book.after, eb]
        refine h.give hfree (h.k.give hfree'.1 hfree'.2 (t := t) ?_ ?_) rfl rfl
        · rintro id rfl; exact h.k.ids fd id e
        · rintro n rfl; exact h.k.socks fd n e
    · exact h
  | close fd =>
    simp only [wstep]
    split
    · next hc => exact h.close hc.2
    · exact h
  | plug x =>
    refine h.keep ⟨h.k.files, h.k.small, h.k.ids, h.k.table, fun m km key t e et =>
      let ⟨a, c⟩ := h.k.good m km key t e et
      ⟨a.mono (fun y hy => ?_) (fun _ h => h) fun _ _ h => h, c⟩, h.k.socks⟩ (fun _ h => h) fun m km _ e => ⟨km, e, rfl, rfl, rfl⟩
    simp only
    split
    · rfl
    · exact hy
  | unplug x =>
    refine h.keep (h.k.unplug x) (fun _ h => h) fun m km _ e => ⟨km.drop (Target.isDev x), ?_, rfl, rfl, rfl⟩
    simp only [Spec.unplug, K.drop, e, Option.map_some]
  | devSet m i x p flags =>
    simp only [wstep]
    rcases e : w.typed .dev m with _ | d
    · exact h
    · simp only
      split
      · next hp => exact inv_devSet hE h e hp hf.2 hf.1 flags
      · exact h
  | devGet m i =>
    simp only [wstep]
    rcases e : w.typed .dev m with _ | d
    · exact h
    · simp only [Book.after]; exact h
  | devIter m =>
    simp only [wstep]
    rcases e : w.typed .dev m with _ | d
    · exact h
    · exact h
  | hashInsert m i x p flags =>
    simp only [wstep]
    rcases e : w.typed .hash m with _ | d
    · exact h
    · simp only
      split
      · next hp => exact inv_hashInsert hE h e hp hf flags
      · exact h
  | hashGet m i =>
    simp only [wstep]
    rcases e : w.typed .hash m with _ | d
    · exact h
    · simp only [Book.after]; exact h
  | hashRemove m i =>
    simp only [wstep]
    rcases e : w.typed .hash m with _ | d
    · exact h
    · obtain ⟨rfl, -, -, -, km, hm, -⟩ := h.at e
      simp only [hashRemove]
      rcases remove_cases (E := E) hm i with ⟨e', he⟩ | he
      · rw [he]; exact h
      · rw [he]; exact h.set hm fun _ q => nomatch q
  | cpuSet m i x p flags =>
    simp only [wstep]
    rcases e : w.typed .cpu m with _ | d
    · exact h
    · simp only
      split
      · next hp => exact inv_cpuSet hE h e hp hf.2 hf.1 flags
      · exact h
  | cpuGet m i =>
    simp only [wstep]
    rcases e : w.typed .cpu m with _ | d
    · exact h
    · simp only [Book.after]; exact h
  | cpuIter m =>
    simp only [wstep]
    rcases e : w.typed .cpu m with _ | d
    · exact h
    · exact h
  | xskSet m i fd flags =>
    simp only [wstep]
    rcases e : w.typed .xsk m with _ | d
    · exact h
    · simp only
      split
      · next hl =>
        rcases xskSet_cases h e hl i flags with ⟨e', he⟩ | ⟨n, km, hm, hkind, hlt, hn, he⟩
        · rw [he]; exact h
        · rw [he]
          have hb : b.files fd = some (.sock n) := by rw [← h.k.files]; exact hn
          simp only [acted, outOf, Book.after, hb]
          exact h.set hm fun u q => by cases q; exact ⟨⟨hkind, ⟨fd, hn⟩, h.k.socks fd n hn⟩, fun _ => hlt⟩
      · exact h
  | xskSetOwned m i fd flags =>
    simp only [wstep]
    rcases e : w.typed .xsk m with _ | d
    · exact h
    · simp only
      split
      · next hc =>
        have hl : fd < 4294967296 := by
          have := h.k.small fd (fun q => by rw [q] at hc; exact nomatch hc.1)
          omega
        simp only [xskSetOwned]
        rcases xskSet_cases h e hl i flags with ⟨e', he⟩ | ⟨n, km, hm, hkind, hlt, hn, he⟩
        · rw [he]; exact h.close hc.2
        · rw [he]
          have hb : b.files fd = some (.sock n) := by rw [← h.k.files]; exact hn
          have hset := h.set hm (key := i) (t := some (.sock n)) fun u q => by
            cases q; exact ⟨⟨hkind, ⟨fd, hn⟩, h.k.socks fd n hn⟩, fun _ => hlt⟩
          have hcl := hset.close (fd := fd) hc.2
          simp only [acted, outOf, Book.after, hb]
          obtain ⟨f, hne, hf⟩ := hf
          have ho : others E.limit b.files fd (.sock n) = true := by
            simp only [others, List.any_eq_true, Bool.and_eq_true, bne_iff_ne, beq_iff_eq]
            refine ⟨f, List.mem_range.2 (h.k.small f ?_), hne, hf.trans hb⟩
            rw [h.k.files, hf, hb]; exact Option.some_ne_none _
          have hb' : (b.set m i (some (.sock n))).files fd = some (.sock n) := hb
          have ho' : others E.limit (b.set m i (some (.sock n))).files fd (.sock n) = true := ho
          simp only [Book.close, hb', ho', if_true] at hcl
          exact hcl
      · exact h
  | xskUnset m i =>
    simp only [wstep]
    rcases e : w.typed .xsk m with _ | d
    · exact h
    · obtain ⟨rfl, -, -, -, km, hm, -⟩ := h.at e
      simp only [xskUnset]
      rcases hb : checkBounds d i with e' | ⟨⟩
      · exact h
      · simp only
        rcases remove_cases (E := E) hm i with ⟨e', he⟩ | he
        · rw [he]; exact h
        · rw [he]; exact h.set hm fun _ q => nomatch q
  | progGet m i => simp only [wstep]; split <;> exact h
  | progIfindex m i => simp only [wstep]; split <;> exact h
  | progQueue m i => simp only [wstep]; split <;> exact h
  | redirect m i flags x q => simp only [wstep]; split <;> exact h

theorem run_inv {E : Env} (hE : E.limit ≤ 2147483648) : ∀ (ops : List Op) (s : W × Book), Inv E s.1 s.2 → Fairly E ops s →
    Inv E (run E ops s).1 (run E ops s).2 := by
  intro ops
  induction ops with
  | nil => intro s h _; exact h
  | cons op ops ih =>
    intro s h hf
    exact ih _ (step_inv hE h op hf.1) hf.2

end Verif.Redirect
