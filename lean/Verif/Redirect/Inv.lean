import Verif.Redirect.Run

/-!
# Maps that packets are redirected with: what always holds
-/
set_option linter.unusedSimpArgs false
set_option linter.unusedVariables false
namespace Verif.Redirect
open Spec (K KMap Op Out Thing Target Env Use Chosen upd Book forget others)
open Verif.Bytes

theorem upd_same {α : Type} (f : Nat → α) (k : Nat) (v : α) : upd f k v k = v := by simp only [upd, if_true]

theorem upd_other {α : Type} (f : Nat → α) {k k' : Nat} (v : α) (h : k' ≠ k) : upd f k v k' = f k' := by simp only [upd, h, if_false]

theorem upd_upd {α : Type} (f : Nat → α) (k : Nat) (v : α) (h : f k = v) (u : α) : upd (upd f k u) k v = f := by
  funext x
  by_cases e : x = k
  · subst e; rw [upd_same, h]
  · rw [upd_other _ _ e, upd_other _ _ e]

/-- The id of a program, if any. -/
def IdOk (p : Option Nat) : Prop := ∀ id : Nat, p = some id → 0 < id ∧ id < 4294967296

/-- A target that fits the map it is in and exists. -/
def Good (k : K) (m : KMap) : Target → Prop
  | .dev x p => (m.kind = .dev ∨ m.kind = .hash) ∧ k.devs x = true ∧ x < 4294967296 ∧ IdOk p ∧ (m.vsize = 4 → p = none)
  | .cpu n p => m.kind = .cpu ∧ n < 4294967296 ∧ IdOk p ∧ (m.vsize = 4 → p = none)
  | .sock n => m.kind = .xsk ∧ (∃ fd : Nat, k.files fd = some (.sock n)) ∧ ∃ q : Nat × Nat, k.socks n = some q ∧ q.2 < 4294967296

/-- An entry that is where entries are. -/
def Placed (m : KMap) (key : Nat) : Prop := (m.kind ≠ .hash → key < m.max) ∧ (m.kind = .hash → key ∈ m.keys)

structure KInv (E : Env) (k : K) (b : Book) : Prop where
  files : k.files = b.files
  small : ∀ fd : Nat, k.files fd ≠ none → fd < E.limit
  ids : ∀ fd id : Nat, k.files fd = some (.prog id) → 0 < id ∧ id < 4294967296
  table : ∀ (m : Nat) (km : KMap), k.maps m = some km → km.entries = b.table m
  good : ∀ (m : Nat) (km : KMap) (key : Nat) (t : Target), k.maps m = some km → km.entries key = some t → Good k km t ∧ Placed km key
  socks : ∀ fd n : Nat, k.files fd = some (.sock n) → ∃ q : Nat × Nat, k.socks n = some q ∧ q.2 < 4294967296

theorem Good.mono {k k' : K} {m : KMap} {t : Target} (h : Good k m t) (hd : ∀ x : Nat, k.devs x = true → k'.devs x = true)
    (hf : ∀ n : Nat, (∃ fd : Nat, k.files fd = some (.sock n)) → ∃ fd : Nat, k'.files fd = some (.sock n))
    (hs : ∀ (n : Nat) (q : Nat × Nat), k.socks n = some q → k'.socks n = some q) : Good k' m t := by
  cases t with
  | dev x p => exact ⟨h.1, hd x h.2.1, h.2.2⟩
  | cpu n p => exact h
  | sock n =>
    obtain ⟨h1, h2, q, h3, h4⟩ := h
    exact ⟨h1, hf n h2, q, hs n q h3, h4⟩

/-- A map is the same to targets if kind and size of values are. -/
theorem Good.map {k : K} {m m' : KMap} {t : Target} (h : Good k m t) (hk : m'.kind = m.kind) (hv : m'.vsize = m.vsize) : Good k m' t := by
  cases t <;> simpa only [Good, hk, hv] using h

theorem put_entry {m : KMap} {key key' : Nat} {t : Option Target} {u : Target} (h : (m.put key t).entries key' = some u) :
    (key' = key ∧ t = some u) ∨ (key' ≠ key ∧ m.entries key' = some u) := by
  simp only [KMap.put, upd] at h
  split at h
  · next e => exact .inl ⟨e, h⟩
  · next e => exact .inr ⟨e, h⟩

theorem put_placed {m : KMap} {key key' : Nat} {t : Option Target} (h : Placed m key') : Placed (m.put key t) key' := by
  refine ⟨h.1, fun e => ?_⟩
  have := h.2 e
  simp only [KMap.put]
  split
  · exact this
  · exact List.mem_cons_of_mem _ this

theorem put_here {m : KMap} {key : Nat} {t : Option Target} (h : m.kind ≠ .hash → key < m.max) : Placed (m.put key t) key := by
  refine ⟨h, fun e => ?_⟩
  simp only [KMap.put]
  split
  · next e => exact e
  · exact List.mem_cons_self

/-- An entry is set. -/
theorem KInv.set {E : Env} {k : K} {b : Book} (h : KInv E k b) {m : Nat} {km : KMap} (hm : k.maps m = some km) {key : BitVec 32} {t : Option Target}
    (ht : ∀ u : Target, t = some u → Good k km u ∧ (km.kind ≠ .hash → key.toNat < km.max)) :
    KInv E { k with maps := upd k.maps m (some (km.put key.toNat t)) } (b.set m key t) := by
  refine ⟨h.files, h.small, h.ids, ?_, ?_, h.socks⟩
  · intro m' km' e
    simp only [upd] at e
    split at e
    · next e' =>
      subst e'
      obtain rfl := Option.some.inj e
      simp only [Book.set, upd_same, KMap.put, h.table _ _ hm]
    · next e' =>
      simp only [Book.set, upd_other _ _ e']
      exact h.table _ _ e
  · intro m' km' key' u e eu
    simp only [upd] at e
    split at e
    · next e' =>
      subst e'
      obtain rfl := Option.some.inj e
      rcases put_entry eu with ⟨rfl, rfl⟩ | ⟨ne, eu⟩
      · exact ⟨((ht u rfl).1.mono (fun _ h => h) (fun _ h => h) fun _ _ h => h).map rfl rfl, put_here (ht u rfl).2⟩
      · obtain ⟨g, p⟩ := h.good _ _ _ _ hm eu
        exact ⟨(g.mono (fun _ h => h) (fun _ h => h) fun _ _ h => h).map rfl rfl, put_placed p⟩
    · next e' =>
      obtain ⟨g, p⟩ := h.good _ _ _ _ e eu
      exact ⟨g.mono (fun _ h => h) (fun _ h => h) fun _ _ h => h, p⟩

theorem drop_entries (m : KMap) (p : Target → Bool) (key : Nat) (t : Target) (h : (m.drop p).entries key = some t) :
    m.entries key = some t ∧ p t = false := by
  simp only [KMap.drop, forget] at h
  rcases e : m.entries key with _ | u
  · rw [e] at h; exact nomatch h
  · rw [e] at h
    simp only at h
    split at h
    · exact nomatch h
    · next hp =>
      obtain rfl := Option.some.inj h
      exact ⟨rfl, by simpa using hp⟩

/-- A target is gone. -/
theorem KInv.drop {E : Env} {k : K} {b : Book} (h : KInv E k b) (p : Target → Bool) : KInv E (k.drop p) { b with table := forget b.table p } := by
  refine ⟨h.files, h.small, h.ids, ?_, ?_, h.socks⟩
  · intro m km e
    simp only [K.drop] at e
    rcases e' : k.maps m with _ | km'
    · rw [e'] at e; exact nomatch e
    · rw [e'] at e
      obtain rfl := Option.some.inj e
      funext key
      simp only [KMap.drop, forget, h.table _ _ e']
  · intro m km key t e et
    simp only [K.drop] at e
    rcases e' : k.maps m with _ | km'
    · rw [e'] at e; exact nomatch e
    · rw [e'] at e
      obtain rfl := Option.some.inj e
      obtain ⟨et, -⟩ := drop_entries _ _ _ _ et
      obtain ⟨g, q⟩ := h.good _ _ _ _ e' et
      exact ⟨(g.mono (fun _ h => h) (fun _ h => h) fun _ _ h => h).map rfl rfl, q⟩

/-- After that, nothing goes there. -/
theorem drop_none {k : K} {p : Target → Bool} {m : Nat} {km : KMap} {key : Nat} {t : Target} (e : (k.drop p).maps m = some km)
    (et : km.entries key = some t) : p t = false := by
  simp only [K.drop] at e
  rcases e' : k.maps m with _ | km'
  · rw [e'] at e; exact nomatch e
  · rw [e'] at e
    obtain rfl := Option.some.inj e
    exact (drop_entries _ _ _ _ et).2

theorem KInv.unplug {E : Env} {k : K} {b : Book} (h : KInv E k b) (x : Nat) :
    KInv E (Spec.unplug x k) { b with table := forget b.table (Target.isDev x) } := by
  have d := h.drop (Target.isDev x)
  refine ⟨d.files, d.small, d.ids, d.table, ?_, d.socks⟩
  intro m km key t e et
  obtain ⟨g, q⟩ := d.good m km key t e et
  refine ⟨?_, q⟩
  have hp := drop_none e et
  cases t with
  | dev y p =>
    obtain ⟨g1, g2, g3⟩ := g
    refine ⟨g1, ?_, g3⟩
    simp only [Target.isDev, beq_eq_false_iff_ne, ne_eq] at hp
    simp only [Spec.unplug, hp, if_false]
    exact g2
  | cpu n p => exact g
  | sock n => exact g

theorem others_true {limit : Nat} {files : Nat → Option Thing} {fd : Nat} {t : Thing} (h : others limit files fd t = true) :
    ∃ f : Nat, f ≠ fd ∧ files f = some t := by
  simp only [others, List.any_eq_true, Bool.and_eq_true, bne_iff_ne, beq_iff_eq] at h
  obtain ⟨f, -, h1, h2⟩ := h
  exact ⟨f, h1, h2⟩

theorem others_false {limit : Nat} {files : Nat → Option Thing} {fd : Nat} {t : Thing} (h : others limit files fd t = false)
    (hs : ∀ f : Nat, files f ≠ none → f < limit) : ∀ f : Nat, f ≠ fd → files f ≠ some t := by
  intro f hf e
  have : others limit files fd t = true := by
    simp only [others, List.any_eq_true, Bool.and_eq_true, bne_iff_ne, beq_iff_eq]
    exact ⟨f, List.mem_range.2 (hs f (by rw [e]; exact Option.some_ne_none _)), hf, e⟩
  rw [h] at this
  exact nomatch this

theorem upd_none_some {files : Nat → Option Thing} {fd f : Nat} {t : Thing} (h : upd files fd none f = some t) : files f = some t := by
  simp only [upd] at h
  split at h
  · exact nomatch h
  · exact h

/-- A descriptor that is no socket's and no map's is closed. -/
theorem KInv.close_plain {E : Env} {k : K} {b : Book} (h : KInv E k b) {fd : Nat} (hf : ∀ n : Nat, k.files fd ≠ some (.sock n)) :
    KInv E { k with files := upd k.files fd none } { b with files := upd b.files fd none } := by
  refine ⟨by simp only [h.files], ?_, ?_, h.table, ?_, ?_⟩
  · intro f hn
    rcases e : upd k.files fd none f with _ | t
    · exact (hn e).elim
    · exact h.small f (by rw [upd_none_some e]; exact Option.some_ne_none _)
  · intro f id e
    exact h.ids f id (upd_none_some e)
  · intro m km key t e et
    obtain ⟨g, p⟩ := h.good m km key t e et
    refine ⟨g.mono (fun _ h => h) (fun n ⟨f, e⟩ => ⟨f, ?_⟩) fun _ _ h => h, p⟩
    have : f ≠ fd := fun q => hf n (q ▸ e)
    simp only [upd_other _ _ this]
    exact e
  · intro f n e
    exact h.socks f n (upd_none_some e)

/-- A descriptor that is no map's is closed. -/
theorem KInv.close {E : Env} {k : K} {b : Book} (h : KInv E k b) {fd : Nat} (hf : k.files fd ≠ some .map) :
    KInv E (Spec.close E fd k) (b.close E.limit fd) := by
  rcases e : k.files fd with _ | t
  · simp only [Spec.close, e, Book.close, ← h.files]
    have := h.close_plain (fd := fd) fun n q => by rw [e] at q; exact nomatch q
    rw [← h.files] at this
    exact this
  · cases t with
    | map => exact (hf e).elim
    | prog id =>
      simp only [Spec.close, e, Book.close, ← h.files]
      have := h.close_plain (fd := fd) fun n q => by rw [e] at q; exact nomatch q
      rw [← h.files] at this
      exact this
    | sock n =>
      have hb : b.files fd = some (.sock n) := by rw [← h.files]; exact e
      rcases ho : others E.limit k.files fd (.sock n) with _ | _
      · have d := h.drop (Target.isSock n)
        have none' := others_false ho h.small
        simp only [Spec.close, e, Book.close, hb, ← h.files, ho, Bool.false_eq_true, if_false]
        refine ⟨rfl, ?_, ?_, d.table, ?_, ?_⟩
        · intro f hn
          rcases e : upd k.files fd none f with _ | t
          · exact (hn e).elim
          · exact h.small f (by rw [upd_none_some e]; exact Option.some_ne_none _)
        · intro f id e
          exact h.ids f id (upd_none_some e)
        · intro m km key t em et
          obtain ⟨g, p⟩ := d.good m km key t em et
          refine ⟨?_, p⟩
          have hp := drop_none em et
          cases t with
          | dev x p => exact g
          | cpu x p => exact g
          | sock n' =>
            simp only [Target.isSock, beq_eq_false_iff_ne, ne_eq] at hp
            obtain ⟨g1, ⟨f, g2⟩, g3⟩ := g
            refine ⟨g1, ⟨f, ?_⟩, g3⟩
            have : f ≠ fd := by
              rintro rfl
              have g2' : k.files f = some (.sock n') := g2
              rw [e] at g2'
              cases g2'
              exact hp rfl
            simp only [upd_other _ _ this]
            exact g2
        · intro f n' e
          exact h.socks f n' (upd_none_some e)
      · obtain ⟨f', ne', e'⟩ := others_true ho
        simp only [Spec.close, e, Book.close, hb, ← h.files, ho, if_true]
        refine ⟨rfl, ?_, ?_, h.table, ?_, ?_⟩
        · intro f hn
          rcases e : upd k.files fd none f with _ | t
          · exact (hn e).elim
          · exact h.small f (by rw [upd_none_some e]; exact Option.some_ne_none _)
        · intro f id e
          exact h.ids f id (upd_none_some e)
        · intro m km key t em et
          obtain ⟨g, p⟩ := h.good m km key t em et
          refine ⟨g.mono (fun _ h => h) (fun n' ⟨f, g2⟩ => ?_) fun _ _ h => h, p⟩
          by_cases q : f = fd
          · subst q
            rw [e] at g2
            cases g2
            exact ⟨f', by simp only [upd_other _ _ ne']; exact e'⟩
          · exact ⟨f, by simp only [upd_other _ _ q]; exact g2⟩
        · intro f n' e
          exact h.socks f n' (upd_none_some e)

/-- A descriptor is given out. -/
theorem KInv.give {E : Env} {k : K} {b : Book} (h : KInv E k b) {fd : Nat} (hl : fd < E.limit) (hf : k.files fd = none) {t : Thing}
    (hi : ∀ id : Nat, t = .prog id → 0 < id ∧ id < 4294967296) (hs : ∀ n : Nat, t = .sock n → ∃ q : Nat × Nat, k.socks n = some q ∧ q.2 < 4294967296) :
    KInv E { k with files := upd k.files fd (some t) } { b with files := upd b.files fd (some t) } := by
  have key : ∀ (f : Nat) (u : Thing), upd k.files fd (some t) f = some u → (f = fd ∧ u = t) ∨ (f ≠ fd ∧ k.files f = some u) := by
    intro f u e
    simp only [upd] at e
    split at e
    · next q => exact .inl ⟨q, (Option.some.inj e).symm⟩
    · next q => exact .inr ⟨q, e⟩
  refine ⟨by simp only [h.files], ?_, ?_, h.table, ?_, ?_⟩
  · intro f hn
    rcases e : upd k.files fd (some t) f with _ | u
    · exact (hn e).elim
    · rcases key f u e with ⟨rfl, -⟩ | ⟨-, e⟩
      · exact hl
      · exact h.small f (by rw [e]; exact Option.some_ne_none _)
  · intro f id e
    rcases key f _ e with ⟨-, e⟩ | ⟨-, e⟩
    · exact hi id e.symm
    · exact h.ids f id e
  · intro m km key' u e eu
    obtain ⟨g, p⟩ := h.good m km key' u e eu
    refine ⟨g.mono (fun _ h => h) (fun n ⟨f, e'⟩ => ⟨f, ?_⟩) fun _ _ h => h, p⟩
    have : f ≠ fd := by rintro rfl; rw [hf] at e'; exact nomatch e'
    simp only [upd_other _ _ this]
    exact e'
  · intro f n e
    rcases key f _ e with ⟨-, e⟩ | ⟨-, e⟩
    · exact hs n e.symm
    · exact h.socks f n e

/-- A map is there that was not. -/
theorem KInv.newMap {E : Env} {k : K} {b : Book} (h : KInv E k b) (fd : Nat) (kind : Kind) (vsize max : Nat) :
    KInv E { k with maps := upd k.maps fd (some { kind := kind, vsize := vsize, max := max }) } { b with table := upd b.table fd fun _ => none } := by
  refine ⟨h.files, h.small, h.ids, ?_, ?_, h.socks⟩
  · intro m km e
    simp only [upd] at e
    split at e
    · next q =>
      subst q
      obtain rfl := Option.some.inj e
      simp only [upd_same]
    · next q =>
      simp only [upd_other _ _ q]
      exact h.table _ _ e
  · intro m km key t e et
    simp only [upd] at e
    split at e
    · next q =>
      obtain rfl := Option.some.inj e
      exact nomatch et
    · obtain ⟨g, p⟩ := h.good m km key t e et
      exact ⟨g.mono (fun _ h => h) (fun _ h => h) fun _ _ h => h, p⟩

/-- A map is gone. -/
theorem KInv.noMap {E : Env} {k : K} {b : Book} (h : KInv E k b) (fd : Nat) : KInv E { k with maps := upd k.maps fd none } b := by
  refine ⟨h.files, h.small, h.ids, ?_, ?_, h.socks⟩
  · intro m km e
    simp only [upd] at e
    split at e
    · exact nomatch e
    · exact h.table _ _ e
  · intro m km key t e et
    simp only [upd] at e
    split at e
    · exact nomatch e
    · obtain ⟨g, p⟩ := h.good m km key t e et
      exact ⟨g.mono (fun _ h => h) (fun _ h => h) fun _ _ h => h, p⟩

end Verif.Redirect
