import Verif.Core.Model
import Verif.Core.Spec
import Verif.Btf.Lookup
/-! Lemmas shared by the theorems on CO-RE relocations. -/
set_option linter.unusedSimpArgs false
set_option linter.unusedVariables false
namespace Verif.Core
open Verif.Btf Verif.Btf.Spec Verif.Core.Spec

theorem bind_ok {α β : Type} {x : Except RFail α} {f : α → Except RFail β} {b : β} :
    (x >>= f) = .ok b ↔ ∃ a, x = .ok a ∧ f a = .ok b := by
  cases x with
  | error e => constructor
               · intro h; cases h
               · rintro ⟨a, h, _⟩; cases h
  | ok a => constructor
            · intro h; exact ⟨a, rfl, h⟩
            · rintro ⟨a', h, h'⟩; cases h; exact h'

theorem ok_bind {α β : Type} (a : α) (f : α → Except RFail β) : (Except.ok a >>= f) = f a := rfl

theorem error_bind {α β : Type} (e : RFail) (f : α → Except RFail β) :
    (Except.error e >>= f : Except RFail β) = .error e := rfl

theorem lift_okk {α : Type} (a : α) : lift (.ok a) = .ok a := rfl

theorem lift_error {α : Type} (e : Fail) : (lift (.error e) : Except RFail α) = .error (.btf e) := rfl

theorem lift_ok {α : Type} {x : Except Fail α} {a : α} : lift x = .ok a ↔ x = .ok a := by
  cases x with
  | error e => simp [lift]
  | ok a' => simp [lift]

theorem typeById_ok {ts : List BtfType} {id : Nat} {t : BtfType} : typeById ts id = .ok t ↔ ts[id]? = some t := by
  unfold typeById
  cases h : ts[id]? <;> simp

theorem resolve_ok {ts : List BtfType} {a r : Nat} {t : BtfType} (h : resolveType ts a = .ok r) (ht : ts[r]? = some t) :
    Resolves ts a r t := by
  obtain ⟨k, hk, hl, t', ht', hn⟩ := ((C15_resolve ts a).1 r).mp h
  rw [ht] at ht'; cases ht'
  exact ⟨k, hk, hl, ht, hn⟩

theorem resolve_of {ts : List BtfType} {a r : Nat} {t : BtfType} (h : Resolves ts a r t) : resolveType ts a = .ok r := by
  obtain ⟨k, hk, hl, ht, hn⟩ := h
  exact ((C15_resolve ts a).1 r).mpr ⟨k, hk, hl, t, ht, hn⟩

theorem resolves_unique {ts : List BtfType} {a r r' : Nat} {t t' : BtfType} (h : Resolves ts a r t)
    (h' : Resolves ts a r' t') : r = r' ∧ t = t' := by
  have h1 := resolve_of h
  have h2 := resolve_of h'
  rw [h1] at h2; cases h2
  obtain ⟨_, _, _, ht, _⟩ := h
  obtain ⟨_, _, _, ht', _⟩ := h'
  rw [ht] at ht'; cases ht'
  exact ⟨rfl, rfl⟩

theorem hasMember_members {ty : BtfType} {i info : Nat} {m : Member} (h : HasMember ty i info m) :
    ∃ ms, members ty = some ms ∧ ms[i]? = some m ∧ compInfo ty = info := by
  rcases h with ⟨n, s, ms, rfl, h⟩ | ⟨n, s, ms, f, rfl, h⟩
  · exact ⟨ms, rfl, h, rfl⟩
  · exact ⟨ms, rfl, h, rfl⟩

theorem members_hasMember {ty : BtfType} {i : Nat} {ms : List Member} {m : Member} (h : members ty = some ms)
    (hm : ms[i]? = some m) : HasMember ty i (compInfo ty) m := by
  unfold members at h
  split at h
  · cases h; exact .inl ⟨_, _, _, rfl, hm⟩
  · cases h; exact .inr ⟨_, _, _, _, rfl, hm⟩
  · cases h

theorem memberBitOffset_eq {info : Nat} {m : Member} (h : info < 2 ^ 32) : memberBitOffset info m = memberOffset info m := by
  unfold memberBitOffset memberOffset
  by_cases h' : info < 2 ^ 31
  · rw [if_neg (by omega), if_pos h']
  · rw [if_pos (by omega), if_neg h']

theorem memberBitSize_eq {info : Nat} {m : Member} (h : info < 2 ^ 32) : memberBitSize info m = memberWidth info m := by
  unfold memberBitSize memberWidth
  by_cases h' : info < 2 ^ 31
  · rw [if_neg (by omega), if_pos h']
  · rw [if_pos (by omega), if_neg h']

theorem sizeOf_size {ts : List BtfType} {id d dims n s : Nat} {t : BtfType} (h : SizeOf ts id d dims n)
    (ht : ts[id]? = some t) (hn : through t = none) (hs : t.size = some s) : s = n := by
  cases h with
  | int h => rw [ht] at h; cases h; cases hs; rfl
  | float h => rw [ht] at h; cases h; cases hs; rfl
  | enum h => rw [ht] at h; cases h; cases hs; rfl
  | enum64 h => rw [ht] at h; cases h; cases hs; rfl
  | struct h => rw [ht] at h; cases h; cases hs; rfl
  | union h => rw [ht] at h; cases h; cases hs; rfl
  | dataSec h => rw [ht] at h; cases h; cases hs; rfl
  | ptr h => rw [ht] at h; cases h; cases hs; rfl
  | array h => rw [ht] at h; cases h; cases hs
  | through h h2 => rw [ht] at h; cases h; rw [hn] at h2; cases h2
  | var h => rw [ht] at h; cases h; cases hs

end Verif.Core
