import Verif.Log.Records
/-!
# C45: malformed log records
-/
set_option linter.unusedSimpArgs false
set_option linter.unusedVariables false
namespace Verif.Log
open Spec Verif.Bytes

theorem encoded_append (a b : List (UInt8 × Bytes)) : encoded (a ++ b) = encoded a ++ encoded b := by
  induction a with
  | nil => rfl
  | cons x r ih => obtain ⟨k, v⟩ := x; simp [encoded, ih]

/-- What a successful read consumed. -/
theorem tryRead_ok {kinds : Nat} {buf : Bytes} {t : Nat} {v rest : Bytes}
    (h : tryRead kinds buf = .ok (t, v, rest)) :
    ∃ k : UInt8, k.toNat = t ∧ t < kinds ∧ v.length < 65536 ∧ buf = encoded [(k, v)] ++ rest := by
  match buf, h with
  | [], h => simp [tryRead] at h
  | [_], h => simp [tryRead] at h
  | [_, _], h => simp [tryRead] at h
  | k :: l0 :: l1 :: more, h =>
    rw [tryRead] at h
    split at h
    · rename_i hk
      split at h
      · cases h
      · rename_i hl
        simp only [Res.ok.injEq, Prod.mk.injEq] at h
        obtain ⟨h1, h2, h3⟩ := h
        have hlt := ofLe_lt [l0, l1]
        simp only [List.length_cons, List.length_nil] at hlt
        have hvl : v.length = ofLe [l0, l1] := by
          rw [← h2, List.length_take]; omega
        have hb0 := l0.toNat_lt
        have hb1 := l1.toNat_lt
        have ho : ofLe [l0, l1] = l0.toNat + 256 * l1.toNat := by simp [ofLe]
        refine ⟨k, h1, h1 ▸ hk, by omega, ?_⟩
        have e0 : UInt8.ofNat (v.length % 256) = l0 := by
          rw [hvl, ho, show (l0.toNat + 256 * l1.toNat) % 256 = l0.toNat by omega]; simp
        have e1 : UInt8.ofNat (v.length / 256) = l1 := by
          rw [hvl, ho, show (l0.toNat + 256 * l1.toNat) / 256 = l1.toNat by omega]; simp
        simp only [encoded, e0, e1, List.cons_append, List.append_nil]
        rw [← h2, ← h3, List.take_append_drop]
    · cases h

theorem tryRead_ub {kinds : Nat} {buf : Bytes} (h : tryRead kinds buf = .ub) (sp good) :
    Bad kinds sp good buf := by
  match buf, h with
  | [], h => simp [tryRead] at h
  | [_], h => simp [tryRead] at h
  | [_, _], h => simp [tryRead] at h
  | k :: l0 :: l1 :: more, h =>
    rw [tryRead] at h
    split at h
    · split at h <;> cases h
    · rename_i hk
      exact ⟨k, l0, l1, more, rfl, Or.inl (by omega)⟩

/-- A field whose value does not begin with a good byte. -/
theorem bad_of_field {kinds sp : Nat} {good : UInt8 → Prop} {buf : Bytes} {t : Nat} {v rest : Bytes}
    (h : tryRead kinds buf = .ok (t, v, rest)) (ht : t = sp) (hv : ∀ b r, v = b :: r → ¬ good b) :
    Bad kinds sp good buf := by
  match buf, h with
  | [], h => simp [tryRead] at h
  | [_], h => simp [tryRead] at h
  | [_, _], h => simp [tryRead] at h
  | k :: l0 :: l1 :: more, h =>
    rw [tryRead] at h
    split at h
    · split at h
      · cases h
      · simp only [Res.ok.injEq, Prod.mk.injEq] at h
        obtain ⟨h1, h2, h3⟩ := h
        exact ⟨k, l0, l1, more, rfl, Or.inr ⟨by rw [h1, ht], by rw [h2]; exact hv⟩⟩
    · cases h

theorem readLevel_ok {v l} (h : readLevel v = .ok l) : ∃ b r, v = b :: r ∧ b.toNat = severity l := by
  cases v with
  | nil => cases h
  | cons b r =>
    refine ⟨b, r, rfl, ?_⟩
    simp only [readLevel] at h
    repeat' (split at h)
    all_goals first
      | (cases h; rename_i hb; subst hb; rfl)
      | cases h

theorem readLevel_ub {v} (h : readLevel v = .ub) : ∀ b r, v = b :: r → ¬ IsLevel b := by
  rintro b r rfl ⟨h1, h2⟩
  simp only [readLevel] at h
  have : b = 1 ∨ b = 2 ∨ b = 3 ∨ b = 4 ∨ b = 5 := by
    have : b.toNat = 1 ∨ b.toNat = 2 ∨ b.toNat = 3 ∨ b.toNat = 4 ∨ b.toNat = 5 := by omega
    rcases this with h | h | h | h | h
    · exact Or.inl (UInt8.toNat_inj.mp h)
    · exact Or.inr (Or.inl (UInt8.toNat_inj.mp h))
    · exact Or.inr (Or.inr (Or.inl (UInt8.toNat_inj.mp h)))
    · exact Or.inr (Or.inr (Or.inr (Or.inl (UInt8.toNat_inj.mp h))))
    · exact Or.inr (Or.inr (Or.inr (Or.inr (UInt8.toNat_inj.mp h))))
  rcases this with rfl | rfl | rfl | rfl | rfl <;> simp at h

theorem readHint_ok {v h} (hr : readHint v = .ok h) : ∃ b r, v = b :: r ∧ IsHint b := by
  cases v with
  | nil => cases hr
  | cons b r =>
    refine ⟨b, r, rfl, ?_⟩
    simp only [readHint] at hr
    repeat' (split at hr)
    all_goals first
      | (cases hr; rename_i hb; subst hb; exact ⟨by decide, by decide⟩)
      | cases hr

theorem readHint_ub {v} (h : readHint v = .ub) : ∀ b r, v = b :: r → ¬ IsHint b := by
  rintro b r rfl ⟨h1, h2⟩
  simp only [readHint] at h
  have : b.toNat = 1 ∨ b.toNat = 2 ∨ b.toNat = 3 ∨ b.toNat = 4 ∨ b.toNat = 5 ∨ b.toNat = 6 ∨ b.toNat = 7 := by
    omega
  have key : ∀ n : UInt8, b.toNat = n.toNat → b = n := fun n hn => UInt8.toNat_inj.mp hn
  rcases this with hb | hb | hb | hb | hb | hb | hb
  · rw [key 1 hb] at h; simp at h
  · rw [key 2 hb] at h; simp at h
  · rw [key 3 hb] at h; simp at h
  · rw [key 4 hb] at h; simp at h
  · rw [key 5 hb] at h; simp at h
  · rw [key 6 hb] at h; simp at h
  · rw [key 7 hb] at h; simp at h

/-! ## The header -/

/-- A field that has been read, if it has been. -/
def opt (k : UInt8) : Option Bytes → List (UInt8 × Bytes)
  | none => []
  | some v => [(k, v)]

/-- What has been read so far. -/
def Seen (done : List (UInt8 × Bytes)) (p : Partial) : Prop :=
  ∃ lv ln na : Option Bytes,
    (match lv, p.level with
      | none, none => True
      | some (b :: _), some l => b.toNat = severity l
      | _, _ => False) ∧
    (ln.map fun v => (v.length, ofLe v)) = p.line.map (fun n => (4, n)) ∧
    (na.map fun v => (v.length, ofLe v)) = p.numArgs.map (fun n => (4, n)) ∧
    done.Perm (opt 0 p.target ++ opt 1 lv ++ opt 2 p.module ++ opt 3 p.file ++ opt 4 ln ++ opt 5 na)

theorem seen_nil : Seen [] {} := ⟨none, none, none, trivial, rfl, rfl, by simp [opt]⟩

theorem bind_ok {α β : Type} {x : Res α} {f : α → Res β} {b : β} (h : x.bind f = .ok b) :
    ∃ a, x = .ok a ∧ f a = .ok b := by
  cases x with
  | ok a => exact ⟨a, rfl, h⟩
  | err => cases h
  | ub => cases h

theorem setOnce_ok {α : Type} {old : Option α} {new : α} {x} (h : setOnce old new = .ok x) :
    old = none ∧ x = some new := by
  unfold setOnce at h
  cases old with
  | none => simp at h; exact ⟨rfl, h.symm⟩
  | some a => simp at h

/-- Six fields in a row, one of which is new: it can be put in front. -/
theorem perm_last {α : Type} {done l : List α} (x : α) (h : (x :: done).Perm l) : (done ++ [x]).Perm l :=
  (List.perm_append_comm (l₁ := done) (l₂ := [x])).trans h

theorem perm_mid {α : Type} {done a b : List α} (x : α) (h : done.Perm (a ++ b)) :
    (done ++ [x]).Perm (a ++ ([x] ++ b)) := by
  apply perm_last
  have h1 : (x :: done).Perm (x :: (a ++ b)) := h.cons x
  exact h1.trans (by simpa using (List.perm_middle (a := x) (l₁ := a) (l₂ := b)).symm)

theorem headerField_seen {std : Std} {p p' : Partial} {k : UInt8} {v : Bytes} {done}
    (hs : Seen done p) (hk : k.toNat < 6) (h : headerField std p k.toNat v = .ok p') :
    Seen (done ++ [(k, v)]) p' := by
  obtain ⟨lv, ln, na, h1, h2, h3, hp⟩ := hs
  have hcases : k = 0 ∨ k = 1 ∨ k = 2 ∨ k = 3 ∨ k = 4 ∨ k = 5 := by
    have key : ∀ n : UInt8, k.toNat = n.toNat → k = n := fun n hn => UInt8.toNat_inj.mp hn
    have : k.toNat = 0 ∨ k.toNat = 1 ∨ k.toNat = 2 ∨ k.toNat = 3 ∨ k.toNat = 4 ∨ k.toNat = 5 := by omega
    rcases this with h | h | h | h | h | h
    · exact Or.inl (key 0 h)
    · exact Or.inr (Or.inl (key 1 h))
    · exact Or.inr (Or.inr (Or.inl (key 2 h)))
    · exact Or.inr (Or.inr (Or.inr (Or.inl (key 3 h))))
    · exact Or.inr (Or.inr (Or.inr (Or.inr (Or.inl (key 4 h)))))
    · exact Or.inr (Or.inr (Or.inr (Or.inr (Or.inr (key 5 h)))))
  rcases hcases with rfl | rfl | rfl | rfl | rfl | rfl
  · obtain ⟨s, hs, h⟩ := bind_ok (α := Bytes) h
    obtain ⟨x, hx, h⟩ := bind_ok h
    obtain ⟨ho, rfl⟩ := setOnce_ok hx
    cases h
    have hv : s = v := by unfold fromUtf8 at hs; split at hs <;> cases hs; rfl
    subst hv
    refine ⟨lv, ln, na, h1, h2, h3, ?_⟩
    rw [ho] at hp
    simpa [opt] using perm_mid (a := []) (0, s) hp
  · obtain ⟨s, hs, h⟩ := bind_ok (α := Level) h
    obtain ⟨x, hx, h⟩ := bind_ok h
    obtain ⟨ho, rfl⟩ := setOnce_ok hx
    cases h
    obtain ⟨b, r, rfl, hb⟩ := readLevel_ok hs
    rw [ho] at h1
    cases lv with
    | some l => cases l <;> exact h1.elim
    | none =>
      refine ⟨some (b :: r), ln, na, hb, h2, h3, ?_⟩
      have := perm_mid (a := opt 0 p.target) (b := opt 2 p.module ++ opt 3 p.file ++ opt 4 ln ++ opt 5 na)
        ((1 : UInt8), b :: r) (by simpa [opt] using hp)
      simpa [opt] using this
  · obtain ⟨s, hs, h⟩ := bind_ok (α := Bytes) h
    obtain ⟨x, hx, h⟩ := bind_ok h
    obtain ⟨ho, rfl⟩ := setOnce_ok hx
    cases h
    have hv : s = v := by unfold fromUtf8 at hs; split at hs <;> cases hs; rfl
    subst hv
    refine ⟨lv, ln, na, h1, h2, h3, ?_⟩
    rw [ho] at hp
    have := perm_mid (a := opt 0 p.target ++ opt 1 lv) (b := opt 3 p.file ++ opt 4 ln ++ opt 5 na)
      ((2 : UInt8), s) (by simpa [opt] using hp)
    simpa [opt] using this
  · obtain ⟨s, hs, h⟩ := bind_ok (α := Bytes) h
    obtain ⟨x, hx, h⟩ := bind_ok h
    obtain ⟨ho, rfl⟩ := setOnce_ok hx
    cases h
    have hv : s = v := by unfold fromUtf8 at hs; split at hs <;> cases hs; rfl
    subst hv
    refine ⟨lv, ln, na, h1, h2, h3, ?_⟩
    rw [ho] at hp
    have := perm_mid (a := opt 0 p.target ++ opt 1 lv ++ opt 2 p.module) (b := opt 4 ln ++ opt 5 na)
      ((3 : UInt8), s) (by simpa [opt] using hp)
    simpa [opt] using this
  · obtain ⟨s, hs, h⟩ := bind_ok (α := Nat) h
    obtain ⟨x, hx, h⟩ := bind_ok h
    obtain ⟨ho, rfl⟩ := setOnce_ok hx
    cases h
    unfold fromU32 at hs
    split at hs
    · rename_i hl
      cases hs
      rw [ho] at h2
      cases ln with
      | some l => simp at h2
      | none =>
        refine ⟨lv, some v, na, h1, by simp [hl], h3, ?_⟩
        have := perm_mid (a := opt 0 p.target ++ opt 1 lv ++ opt 2 p.module ++ opt 3 p.file) (b := opt 5 na)
          ((4 : UInt8), v) (by simpa [opt] using hp)
        simpa [opt] using this
    · cases hs
  · obtain ⟨s, hs, h⟩ := bind_ok (α := Nat) h
    obtain ⟨x, hx, h⟩ := bind_ok h
    obtain ⟨ho, rfl⟩ := setOnce_ok hx
    cases h
    unfold fromU32 at hs
    split at hs
    · rename_i hl
      cases hs
      rw [ho] at h3
      cases na with
      | some l => simp at h3
      | none =>
        refine ⟨lv, ln, some v, h1, h2, by simp [hl], ?_⟩
        have := perm_mid (a := opt 0 p.target ++ opt 1 lv ++ opt 2 p.module ++ opt 3 p.file ++ opt 4 ln) (b := [])
          ((5 : UInt8), v) (by simpa [opt] using hp)
        simpa [opt] using this
    · cases hs

theorem headerLoop_ok {std : Std} : ∀ (fuel : Nat) (p : Partial) (buf : Bytes) (done) (q : Partial) (rest),
    Seen done p → headerLoop std fuel p buf = .ok (q, rest) →
    ∃ more, buf = encoded more ++ rest ∧ Seen (done ++ more) q ∧ q.complete = true
  | 0, _, _, _, _, _, _, h => by cases h
  | fuel + 1, p, buf, done, q, rest, hs, h => by
    rw [headerLoop] at h
    split at h
    · rename_i hc
      simp only [Res.ok.injEq, Prod.mk.injEq] at h
      obtain ⟨rfl, rfl⟩ := h
      exact ⟨[], by simp [encoded], by simpa using hs, hc⟩
    · obtain ⟨⟨t, v, r⟩, hr, h⟩ := bind_ok h
      obtain ⟨p', hp', hrec⟩ := bind_ok h
      obtain ⟨k, rfl, hk, _, rfl⟩ := tryRead_ok hr
      have hs' := headerField_seen hs hk hp'
      obtain ⟨more, h1, h2, h3⟩ := headerLoop_ok fuel p' r (done ++ [(k, v)]) q rest hs' hrec
      -- the rest of the buffer
      refine ⟨(k, v) :: more, ?_, by simpa using h2, h3⟩
      rw [h1, ← List.append_assoc, ← encoded_append]; rfl

/-! ## The arguments -/

theorem intOfKind_some {n t} (h : intOfKind n = some t) : (n = 1 ∧ t = .i8) ∨ (n = 2 ∧ t = .i16) ∨
    (n = 3 ∧ t = .i32) ∨ (n = 4 ∧ t = .i64) ∨ (n = 5 ∧ t = .isize) ∨ (n = 6 ∧ t = .u8) ∨ (n = 7 ∧ t = .u16) ∨
    (n = 8 ∧ t = .u32) ∨ (n = 9 ∧ t = .u64) ∨ (n = 10 ∧ t = .usize) := by
  unfold intOfKind at h
  split at h <;> simp_all

theorem argField_ok {std : Std} {hint : Option Hint} {k : UInt8} {v : Bytes} {a}
    (hk : k.toNat < 22) (h : argField std hint k.toNat v = .ok a) : GoodArg (k, v) := by
  unfold argField at h
  unfold GoodArg
  cases hi : intOfKind k.toNat with
  | some t =>
    rw [hi] at h
    simp only at h
    split at h
    · rename_i hl
      rcases intOfKind_some hi with ⟨h1, rfl⟩ | ⟨h1, rfl⟩ | ⟨h1, rfl⟩ | ⟨h1, rfl⟩ | ⟨h1, rfl⟩ | ⟨h1, rfl⟩ |
        ⟨h1, rfl⟩ | ⟨h1, rfl⟩ | ⟨h1, rfl⟩ | ⟨h1, rfl⟩ <;> simp only [h1] <;> exact hl
    · cases h
  | none =>
    rw [hi] at h
    simp only at h ⊢
    have hlt : k.toNat = 0 ∨ k.toNat = 11 ∨ k.toNat = 12 ∨ k.toNat = 13 ∨ k.toNat = 14 ∨ k.toNat = 15 ∨
        k.toNat = 16 ∨ k.toNat = 17 ∨ k.toNat = 18 ∨ k.toNat = 19 ∨ k.toNat = 20 ∨ k.toNat = 21 := by
      have hn : ∀ m, intOfKind m = none → m < 22 → m = 0 ∨ 11 ≤ m := by
        intro m hm _
        match m, hm with
        | 0, _ => exact Or.inl rfl
        | m + 11, _ => exact Or.inr (by omega)
      have := hn _ hi hk
      omega
    rcases hlt with h1 | h1 | h1 | h1 | h1 | h1 | h1 | h1 | h1 | h1 | h1 | h1 <;>
      simp only [h1] at h ⊢
    · obtain ⟨x, hx, _⟩ := bind_ok h
      exact readHint_ok hx
    all_goals first
      | trivial
      | (split at h
         · rename_i hl; exact hl
         · cases h)

theorem argLoop_ok {std : Std} : ∀ (n : Nat) (hint : Option Hint) (buf msg text : Bytes),
    argLoop std n hint buf msg = .ok text →
    ∃ args rest, buf = encoded args ++ rest ∧ args.length = n ∧ ∀ a ∈ args, GoodArg a
  | 0, _, buf, _, _, _ => ⟨[], buf, rfl, rfl, by simp⟩
  | n + 1, hint, buf, msg, text, h => by
    rw [argLoop] at h
    obtain ⟨⟨t, v, r⟩, hr, h⟩ := bind_ok h
    obtain ⟨a, ha, hrec⟩ := bind_ok h
    obtain ⟨k, rfl, hk, _, rfl⟩ := tryRead_ok hr
    obtain ⟨args, rest, h1, h2, h3⟩ := argLoop_ok n _ _ _ _ hrec
    simp only at h1
    refine ⟨(k, v) :: args, rest, ?_, by simp [h2], ?_⟩
    · rw [h1, ← List.append_assoc, ← encoded_append]; rfl
    · intro x hx
      rcases List.mem_cons.mp hx with rfl | hx
      · exact argField_ok hk ha
      · exact h3 x hx

theorem logBuf_payload {std : Std} {buf : Bytes} {r : Record} (h : logBuf std buf = .ok r) :
    ∃ l0 l1 payload tail, buf = l0 :: l1 :: (payload ++ tail) ∧ ofLe [l0, l1] = 2 + payload.length ∧
      (headerLoop std ((payload ++ tail).length + 1) {} payload).bind (logArgs std) = .ok r := by
  match buf, h with
  | [], h => simp [logBuf] at h
  | [_], h => simp [logBuf] at h
  | l0 :: l1 :: rest, h =>
    rw [logBuf] at h
    split at h
    · rename_i hc
      refine ⟨l0, l1, rest.take (ofLe [l0, l1] - 2), rest.drop (ofLe [l0, l1] - 2), by simp, ?_, ?_⟩
      · rw [List.length_take]; omega
      · rw [List.take_append_drop]; exact h
    · cases h

/-- **C45** What is accepted is well formed, and read inside the record only.  The first two bytes give
the size of the record, which lies inside the buffer; in the record come six header fields, one of each
kind, which hold what the logger is given, and then as many argument fields as the header announces, each of
a known kind with a value of the size of its kind.  A record that is not like this is never accepted. -/
theorem C45_accepted (std : Std) (buf : Bytes) (r : Record) (h : logBuf std buf = .ok r) :
    ∃ l0 l1 hdr args slack tail,
      buf = l0 :: l1 :: (encoded hdr ++ encoded args ++ slack ++ tail) ∧
      ofLe [l0, l1] = 2 + (encoded hdr ++ encoded args ++ slack).length ∧
      GoodHeader r args.length hdr ∧ ∀ a ∈ args, GoodArg a := by
  obtain ⟨l0, l1, payload, tail, hbuf, hsz, h⟩ := logBuf_payload h
  obtain ⟨⟨q, rest⟩, hh, h⟩ := bind_ok h
  obtain ⟨hdr, h1, hseen, hc⟩ := headerLoop_ok _ _ _ [] _ _ seen_nil hh
  simp only [List.nil_append] at hseen
  unfold logArgs at h
  obtain ⟨n, hn, h⟩ := bind_ok h
  obtain ⟨msg, hm, h⟩ := bind_ok h
  obtain ⟨tg, htg, h⟩ := bind_ok h
  obtain ⟨lv, hlv, h⟩ := bind_ok h
  obtain ⟨md, hmd, h⟩ := bind_ok h
  obtain ⟨fl, hfl, h⟩ := bind_ok h
  obtain ⟨li, hli, h⟩ := bind_ok h
  simp only [Res.ok.injEq] at h
  subst h
  have ho : ∀ {α : Type} {o : Option α} {a : α}, orErr o = .ok a → o = some a := by
    intro α o a h; cases o <;> simp_all [orErr]
  obtain ⟨args, slack, ha1, ha2, ha3⟩ := argLoop_ok _ _ _ _ _ hm
  simp only at ha1
  refine ⟨l0, l1, hdr, args, slack, tail, ?_, ?_, ?_, ha3⟩
  · rw [hbuf, h1, ha1]; simp
  · rw [hsz, h1, ha1]; simp
  · obtain ⟨lvo, ln, na, g1, g2, g3, hp⟩ := hseen
    have hn := ho hn
    have htg := ho htg
    have hlv := ho hlv
    have hmd := ho hmd
    have hfl := ho hfl
    have hli := ho hli
    simp only at hn htg hlv hmd hfl hli
    rw [hlv] at g1
    rw [hli] at g2
    rw [hn] at g3
    rw [htg, hmd, hfl] at hp
    match lvo, g1 with
    | some (b :: junk), g1 =>
      cases ln with
      | none => simp at g2
      | some ln =>
        cases na with
        | none => simp at g3
        | some na =>
          simp only [Option.map_some, Option.some.injEq, Prod.mk.injEq] at g2 g3
          exact ⟨b, junk, ln, na, g1, g2.1, g2.2, g3.1, by rw [g3.2, ha2], by simpa [opt] using hp⟩

example : ∃ r, logBuf toyStd (37 :: 0 :: encoded [(5, [1, 0, 0, 0]), (0, [116]), (1, [2, 9]),
    (2, [109]), (3, [102]), (4, [7, 0, 0, 0]), (6, [200])] ++ [1, 2, 3]) = .ok r ∧ r.level = .warn :=
  ⟨⟨[116], .warn, [109], [102], 7, "200".toUTF8.toList⟩, by decide +kernel, rfl⟩

/-! ## The order of the header -/

theorem tryRead_encoded {kinds : Nat} {k : UInt8} {v rest : Bytes} (hk : k.toNat < kinds)
    (hv : v.length < 65536) : tryRead kinds (encoded [(k, v)] ++ rest) = .ok (k.toNat, v, rest) := by
  have e : ofLe [UInt8.ofNat (v.length % 256), UInt8.ofNat (v.length / 256)] = v.length := by
    simp [ofLe]; omega
  simp only [encoded, List.append_nil, List.cons_append, List.nil_append, tryRead, e, if_pos hk]
  rw [if_neg (by simp)]
  simp

/-- What is still to come: the fields not set in `p`. -/
def missing {α : Type} (k : UInt8) (v : Bytes) : Option α → List (UInt8 × Bytes)
  | none => [(k, v)]
  | some _ => []

/-- The fields set in `p` are those of the record, and the others come in `todo`. -/
def Pending (q p : Partial) (f : UInt8 → Bytes) (todo : List (UInt8 × Bytes)) : Prop :=
  (p.target = none ∨ p.target = q.target) ∧ (p.level = none ∨ p.level = q.level) ∧
  (p.module = none ∨ p.module = q.module) ∧ (p.file = none ∨ p.file = q.file) ∧
  (p.line = none ∨ p.line = q.line) ∧ (p.numArgs = none ∨ p.numArgs = q.numArgs) ∧
  todo.Perm (missing 0 (f 0) p.target ++ (missing 1 (f 1) p.level ++ (missing 2 (f 2) p.module ++
    (missing 3 (f 3) p.file ++ (missing 4 (f 4) p.line ++ missing 5 (f 5) p.numArgs)))))

theorem missing_mem {α : Type} {k : UInt8} {v : Bytes} {o : Option α} {x} (h : x ∈ missing k v o) :
    o = none ∧ x = (k, v) := by
  cases o with
  | none => simpa [missing] using h
  | some _ => simp [missing] at h

theorem pending_step {std : Std} {q p : Partial} {f : UInt8 → Bytes} {k : UInt8} {v : Bytes} {todo}
    (hf : ∀ k : UInt8, k.toNat < 6 → ∀ p' : Partial, Pending q p' f ((k, f k) :: todo) →
      ∃ p'', headerField std p' k.toNat (f k) = .ok p'' ∧ Pending q p'' f todo)
    (h : Pending q p f ((k, v) :: todo)) :
    k.toNat < 6 ∧ v = f k ∧ ∃ p'', headerField std p k.toNat v = .ok p'' ∧ Pending q p'' f todo := by
  have hm : (k, v) ∈ missing 0 (f 0) p.target ++ (missing 1 (f 1) p.level ++ (missing 2 (f 2) p.module ++
    (missing 3 (f 3) p.file ++ (missing 4 (f 4) p.line ++ missing 5 (f 5) p.numArgs)))) :=
    h.2.2.2.2.2.2.mem_iff.mp (by simp)
  have hkv : k.toNat < 6 ∧ v = f k := by
    simp only [List.mem_append] at hm
    rcases hm with h | h | h | h | h | h
    all_goals
      obtain ⟨_, h⟩ := missing_mem h
      simp only [Prod.mk.injEq] at h
      obtain ⟨rfl, rfl⟩ := h
      exact ⟨by decide, rfl⟩
  obtain ⟨hk, rfl⟩ := hkv
  exact ⟨hk, rfl, hf k hk p h⟩

theorem perm_drop {α : Type} {x : α} {todo a b : List α} (h : (x :: todo).Perm (a ++ (x :: b))) :
    todo.Perm (a ++ b) :=
  (h.trans List.perm_middle).cons_inv

/-- The fields of a good header, by kind. -/
def fieldsOf (r : Record) (lv : Bytes) (ln na : Bytes) (k : UInt8) : Bytes :=
  if k = 0 then r.target else if k = 1 then lv else if k = 2 then r.module else if k = 3 then r.file
  else if k = 4 then ln else na

theorem field_step {std : Std} {r : Record} {n : Nat} {lv : UInt8} {junk ln na : Bytes}
    (hlv : lv.toNat = severity r.level) (hln : ln.length = 4) (hln' : ofLe ln = r.line)
    (hna : na.length = 4) (hna' : ofLe na = n) (ht : std.utf8 r.target = true)
    (hm : std.utf8 r.module = true) (hfl : std.utf8 r.file = true) {todo}
    (k : UInt8) (hk : k.toNat < 6) (p : Partial)
    (h : Pending ⟨some r.target, some r.level, some r.module, some r.file, some r.line, some n⟩ p
      (fieldsOf r (lv :: junk) ln na) ((k, fieldsOf r (lv :: junk) ln na k) :: todo)) :
    ∃ p', headerField std p k.toNat (fieldsOf r (lv :: junk) ln na k) = .ok p' ∧
      Pending ⟨some r.target, some r.level, some r.module, some r.file, some r.line, some n⟩ p'
        (fieldsOf r (lv :: junk) ln na) todo := by
  obtain ⟨h0, h1, h2, h3, h4, h5, hp⟩ := h
  have hmem := hp.mem_iff.mp (List.mem_cons_self ..)
  have hlev : readLevel (lv :: junk) = .ok r.level := by
    have key : ∀ n : UInt8, lv.toNat = n.toNat → lv = n := fun n hn => UInt8.toNat_inj.mp hn
    cases hl : r.level <;> rw [hl] at hlv
    · rw [key 1 hlv]; rfl
    · rw [key 2 hlv]; rfl
    · rw [key 3 hlv]; rfl
    · rw [key 4 hlv]; rfl
    · rw [key 5 hlv]; rfl
  simp only [List.mem_append] at hmem
  rcases hmem with h | h | h | h | h | h
  · obtain ⟨ho, h⟩ := missing_mem h
    obtain rfl : k = 0 := (Prod.mk.inj h).1
    refine ⟨{ p with target := some r.target }, ?_, .inr rfl, h1, h2, h3, h4, h5, ?_⟩
    · show (fromUtf8 std r.target).bind _ = _
      simp [fromUtf8, ht, Res.bind, setOnce, ho]
    · rw [ho] at hp
      simpa [missing] using perm_drop (a := []) hp
  · obtain ⟨ho, h⟩ := missing_mem h
    obtain rfl : k = 1 := (Prod.mk.inj h).1
    refine ⟨{ p with level := some r.level }, ?_, h0, .inr rfl, h2, h3, h4, h5, ?_⟩
    · show (readLevel (lv :: junk)).bind _ = _
      simp [hlev, Res.bind, setOnce, ho]
    · rw [ho] at hp
      exact perm_drop (a := missing 0 _ p.target) hp
  · obtain ⟨ho, h⟩ := missing_mem h
    obtain rfl : k = 2 := (Prod.mk.inj h).1
    refine ⟨{ p with module := some r.module }, ?_, h0, h1, .inr rfl, h3, h4, h5, ?_⟩
    · show (fromUtf8 std r.module).bind _ = _
      simp [fromUtf8, hm, Res.bind, setOnce, ho]
    · rw [ho] at hp
      have := perm_drop (a := missing 0 _ p.target ++ missing 1 _ p.level)
        (b := missing 3 _ p.file ++ (missing 4 _ p.line ++ missing 5 _ p.numArgs))
        (by simpa [missing, List.append_assoc] using hp)
      simpa [missing, List.append_assoc] using this
  · obtain ⟨ho, h⟩ := missing_mem h
    obtain rfl : k = 3 := (Prod.mk.inj h).1
    refine ⟨{ p with file := some r.file }, ?_, h0, h1, h2, .inr rfl, h4, h5, ?_⟩
    · show (fromUtf8 std r.file).bind _ = _
      simp [fromUtf8, hfl, Res.bind, setOnce, ho]
    · rw [ho] at hp
      have := perm_drop (a := missing 0 _ p.target ++ missing 1 _ p.level ++ missing 2 _ p.module)
        (b := missing 4 _ p.line ++ missing 5 _ p.numArgs)
        (by simpa [missing, List.append_assoc] using hp)
      simpa [missing, List.append_assoc] using this
  · obtain ⟨ho, h⟩ := missing_mem h
    obtain rfl : k = 4 := (Prod.mk.inj h).1
    refine ⟨{ p with line := some r.line }, ?_, h0, h1, h2, h3, .inr rfl, h5, ?_⟩
    · show (fromU32 ln).bind _ = _
      simp [fromU32, hln, hln', Res.bind, setOnce, ho]
    · rw [ho] at hp
      have := perm_drop (a := missing 0 _ p.target ++ missing 1 _ p.level ++ missing 2 _ p.module ++
          missing 3 _ p.file) (b := missing 5 _ p.numArgs)
        (by simpa [missing, List.append_assoc] using hp)
      simpa [missing, List.append_assoc] using this
  · obtain ⟨ho, h⟩ := missing_mem h
    obtain rfl : k = 5 := (Prod.mk.inj h).1
    refine ⟨{ p with numArgs := some n }, ?_, h0, h1, h2, h3, h4, .inr rfl, ?_⟩
    · show (fromU32 na).bind _ = _
      simp [fromU32, hna, hna', Res.bind, setOnce, ho]
    · rw [ho] at hp
      have := perm_drop (a := missing 0 _ p.target ++ missing 1 _ p.level ++ missing 2 _ p.module ++
          missing 3 _ p.file ++ missing 4 _ p.line) (b := [])
        (by simpa [missing, List.append_assoc] using hp)
      simpa [missing, List.append_assoc] using this

theorem missing_nil {α : Type} {k : UInt8} {v : Bytes} {o : Option α} (h : missing k v o = []) :
    o.isSome = true := by
  cases o <;> simp_all [missing]

theorem headerLoop_pending {std : Std} {q : Partial} {f : UInt8 → Bytes}
    (hf : ∀ (k : UInt8), k.toNat < 6 → ∀ (todo) (p' : Partial), Pending q p' f ((k, f k) :: todo) →
      ∃ p'', headerField std p' k.toNat (f k) = .ok p'' ∧ Pending q p'' f todo) (rest : Bytes) :
    ∀ (todo : List (UInt8 × Bytes)) (fuel : Nat) (p : Partial), todo.length < fuel →
      (∀ kv ∈ todo, kv.2.length < 65536) → Pending q p f todo →
      headerLoop std fuel p (encoded todo ++ rest) = .ok (q, rest)
  | [], 0, _, hfu, _, _ => by simp at hfu
  | [], fuel + 1, p, _, _, h => by
    obtain ⟨h0, h1, h2, h3, h4, h5, hp⟩ := h
    have hn := List.nil_perm.mp hp
    simp only [List.append_eq_nil_iff] at hn
    obtain ⟨n0, n1, n2, n3, n4, n5⟩ := hn
    have e0 := missing_nil n0
    have e1 := missing_nil n1
    have e2 := missing_nil n2
    have e3 := missing_nil n3
    have e4 := missing_nil n4
    have e5 := missing_nil n5
    have hne : ∀ {α : Type} {o : Option α} {x : Option α}, o.isSome = true → (o = none ∨ o = x) → o = x := by
      intro α o x h1 h2
      rcases h2 with h2 | h2
      · rw [h2] at h1; simp at h1
      · exact h2
    have : p = q := by
      cases p; cases q
      simp only [Partial.mk.injEq]
      exact ⟨hne e0 h0, hne e1 h1, hne e2 h2, hne e3 h3, hne e4 h4, hne e5 h5⟩
    rw [headerLoop, if_pos (by simp [Partial.complete, e0, e1, e2, e3, e4, e5])]
    rw [this]; rfl
  | _ :: _, 0, _, hfu, _, _ => by simp at hfu
  | (k, v) :: todo, fuel + 1, p, hfu, hlen, h => by
    obtain ⟨hk, rfl, p', hp', hpend⟩ := pending_step (std := std) (fun k hk p' => hf k hk todo p') h
    have hmem := h.2.2.2.2.2.2.mem_iff.mp (List.mem_cons_self ..)
    have hc : p.complete = false := by
      simp only [List.mem_append] at hmem
      unfold Partial.complete
      rcases hmem with h | h | h | h | h | h
      all_goals
        obtain ⟨ho, _⟩ := missing_mem h
        simp [ho]
    rw [headerLoop, hc]
    simp only [Bool.false_eq_true, if_false]
    have e : encoded ((k, f k) :: todo) ++ rest = encoded [(k, f k)] ++ (encoded todo ++ rest) := by
      rw [← List.append_assoc, ← encoded_append]; rfl
    rw [e, tryRead_encoded hk (hlen _ (List.mem_cons_self ..))]
    simp only [Res.bind, hp']
    exact headerLoop_pending hf rest todo fuel p' (by simpa using hfu)
      (fun x hx => hlen x (List.mem_cons_of_mem _ hx)) hpend

theorem encoded_length_ge (l : List (UInt8 × Bytes)) : l.length ≤ (encoded l).length := by
  induction l with
  | nil => simp
  | cons x r ih => obtain ⟨k, v⟩ := x; simp [encoded]; omega

theorem logBuf_header (std : Std) (r : Record) (n : Nat) (hdr : List (UInt8 × Bytes))
    (h : GoodHeader r n hdr) (ht : std.utf8 r.target = true) (hm : std.utf8 r.module = true)
    (hf : std.utf8 r.file = true) (hlen : ∀ kv ∈ hdr, kv.2.length < 65536) (body tail : Bytes) (l0 l1 : UInt8)
    (hsz : ofLe [l0, l1] = 2 + (encoded hdr ++ body).length) :
    logBuf std (l0 :: l1 :: (encoded hdr ++ body ++ tail))
      = logArgs std (⟨some r.target, some r.level, some r.module, some r.file, some r.line, some n⟩, body) := by
  obtain ⟨lv, junk, ln, na, h1, h2, h3, h4, h5, hp⟩ := h
  have htake : (encoded hdr ++ body ++ tail).take (ofLe [l0, l1] - 2) = encoded hdr ++ body := by
    rw [hsz, Nat.add_sub_cancel_left, List.take_left']; rfl
  have hloop := headerLoop_pending (std := std)
    (q := ⟨some r.target, some r.level, some r.module, some r.file, some r.line, some n⟩)
    (f := fieldsOf r (lv :: junk) ln na)
    (fun k hk todo p' hp' => field_step h1 h2 h3 h4 h5 ht hm hf k hk p' hp') body hdr
    ((encoded hdr ++ body ++ tail).length + 1) {} (by
      have := encoded_length_ge hdr
      simp only [List.length_append]; omega) hlen
    ⟨.inl rfl, .inl rfl, .inl rfl, .inl rfl, .inl rfl, .inl rfl, hp⟩
  rw [logBuf, if_pos (by rw [hsz]; simp only [List.length_append]; omega), htake, hloop]
  rfl

/-- **C45** The order of the header fields does not matter: a record whose header has the six fields, each
once, is decoded alike whatever order they come in, the line or any other field last. -/
theorem C45_any_order (std : Std) (r : Record) (n : Nat) (hdr hdr' : List (UInt8 × Bytes))
    (h : GoodHeader r n hdr) (hp : hdr'.Perm hdr) (ht : std.utf8 r.target = true)
    (hm : std.utf8 r.module = true) (hf : std.utf8 r.file = true)
    (hlen : ∀ kv ∈ hdr, kv.2.length < 65536) (body tail : Bytes) (l0 l1 : UInt8)
    (hsz : ofLe [l0, l1] = 2 + (encoded hdr ++ body).length) :
    logBuf std (l0 :: l1 :: (encoded hdr' ++ body ++ tail))
      = logBuf std (l0 :: l1 :: (encoded hdr ++ body ++ tail)) := by
  have h' : GoodHeader r n hdr' := by
    obtain ⟨lv, junk, ln, na, h1, h2, h3, h4, h5, hq⟩ := h
    exact ⟨lv, junk, ln, na, h1, h2, h3, h4, h5, hp.trans hq⟩
  have hl : (encoded hdr').length = (encoded hdr).length := by
    clear h h' hsz hlen
    induction hp with
    | nil => rfl
    | cons x _ ih => obtain ⟨k, v⟩ := x; simp [encoded, ih]
    | swap x y l => obtain ⟨k, v⟩ := x; obtain ⟨k', v'⟩ := y; simp [encoded]; omega
    | trans _ _ ih1 ih2 => exact ih1.trans ih2
  rw [logBuf_header std r n hdr h ht hm hf hlen body tail l0 l1 hsz,
    logBuf_header std r n hdr' h' ht hm hf (fun kv hkv => hlen kv (hp.mem_iff.mp hkv)) body tail l0 l1
      (by rw [hsz]; simp [hl])]

/-- **C45** A well-formed header without arguments is accepted, and gives the record with an empty message:
nothing but what `C45_accepted` asks for is needed. -/
theorem C45_empty_message (std : Std) (r : Record) (hdr : List (UInt8 × Bytes))
    (h : GoodHeader r 0 hdr) (ht : std.utf8 r.target = true)
    (hm : std.utf8 r.module = true) (hf : std.utf8 r.file = true) (hmsg : r.text = [])
    (hlen : ∀ kv ∈ hdr, kv.2.length < 65536) (body tail : Bytes) (l0 l1 : UInt8)
    (hsz : ofLe [l0, l1] = 2 + (encoded hdr ++ body).length) :
    logBuf std (l0 :: l1 :: (encoded hdr ++ body ++ tail)) = .ok r := by
  rw [logBuf_header std r 0 hdr h ht hm hf hlen body tail l0 l1 hsz]
  cases r
  simp only at hmsg
  subst hmsg
  rfl

/-! ## Undefined behaviour -/

theorem bind_ub {α β : Type} {x : Res α} {f : α → Res β} (h : x.bind f = .ub) :
    x = .ub ∨ ∃ a, x = .ok a ∧ f a = .ub := by
  cases x with
  | ok a => exact Or.inr ⟨a, rfl, h⟩
  | err => cases h
  | ub => exact Or.inl rfl

theorem setOnce_not_ub {α : Type} (old : Option α) (new : α) : setOnce old new ≠ .ub := by
  unfold setOnce; split <;> simp

theorem headerField_ub {std : Std} {p : Partial} {t : Nat} {v : Bytes} (h : headerField std p t v = .ub) :
    t = 1 ∧ readLevel v = .ub := by
  have hu : ∀ v, fromUtf8 std v ≠ .ub := by intro v; unfold fromUtf8; split <;> simp
  have h32 : ∀ v, fromU32 v ≠ .ub := by intro v; unfold fromU32; split <;> simp
  unfold headerField at h
  split at h
  all_goals
    rcases bind_ub h with h | ⟨x, hx, h⟩
    · first
        | exact absurd h (hu _)
        | exact absurd h (h32 _)
        | exact ⟨rfl, h⟩
    · rcases bind_ub h with h | ⟨y, hy, h⟩
      · exact absurd h (setOnce_not_ub _ _)
      · cases h

theorem headerLoop_ub {std : Std} : ∀ (fuel : Nat) (p : Partial) (buf : Bytes),
    headerLoop std fuel p buf = .ub →
    ∃ more rest, buf = encoded more ++ rest ∧ Bad 6 1 IsLevel rest
  | 0, _, _, h => by cases h
  | fuel + 1, p, buf, h => by
    rw [headerLoop] at h
    split at h
    · cases h
    · rcases bind_ub h with h | ⟨⟨t, v, r⟩, hr, h⟩
      · exact ⟨[], buf, rfl, tryRead_ub h _ _⟩
      · rcases bind_ub h with h | ⟨p', hp', hrec⟩
        · obtain ⟨h1, h2⟩ := headerField_ub h
          exact ⟨[], buf, rfl, bad_of_field hr h1 (readLevel_ub h2)⟩
        · obtain ⟨k, rfl, hk, _, rfl⟩ := tryRead_ok hr
          obtain ⟨more, rest, h1, h2⟩ := headerLoop_ub fuel p' r hrec
          -- the rest of the buffer
          refine ⟨(k, v) :: more, rest, ?_, h2⟩
          rw [h1, ← List.append_assoc, ← encoded_append]; rfl

theorem argField_ub {std : Std} {hint : Option Hint} {t : Nat} {v : Bytes} (h : argField std hint t v = .ub) :
    t = 0 ∧ readHint v = .ub := by
  have f1 : ∀ s h, formatFloat s h ≠ .ub := by intro s h; unfold formatFloat; split <;> simp
  have f2 : ∀ s h, formatAddr s h ≠ .ub := by intro s h; unfold formatAddr; split <;> simp
  have f3 : ∀ s h, formatIp s h ≠ .ub := by intro s h; unfold formatIp; split <;> simp
  have f4 : ∀ s h, formatMac std s h ≠ .ub := by intro s h; unfold formatMac; split <;> simp
  have f5 : ∀ s h, formatBytes std s h ≠ .ub := by intro s h; unfold formatBytes; split <;> simp
  have f6 : ∀ s h, formatPtr std s h ≠ .ub := by intro s h; unfold formatPtr; split <;> simp
  have f7 : ∀ t n h, formatInt std t n h ≠ .ub := by
    intro t n h
    unfold formatInt
    split
    all_goals first
      | (simp; done)
      | (split <;> simp)
  unfold argField at h
  split at h
  · split at h
    · rcases bind_ub h with h | ⟨x, hx, h⟩
      · exact absurd h (f7 _ _ _)
      · cases h
    · cases h
  · split at h
    all_goals first
      | (rcases bind_ub h with h | ⟨x, hx, h⟩
         · exact ⟨rfl, h⟩
         · cases h)
      | (rcases bind_ub h with h | ⟨x, hx, h⟩
         · exact absurd h (f5 _ _)
         · cases h)
      | (split at h <;> cases h; done)
      | (split at h
         · rcases bind_ub h with h | ⟨x, hx, h⟩
           · first
              | exact absurd h (f1 _ _)
              | exact absurd h (f2 _ _)
              | exact absurd h (f3 _ _)
              | exact absurd h (f4 _ _)
              | exact absurd h (f6 _ _)
           · cases h
         · cases h)

theorem argLoop_ub {std : Std} : ∀ (n : Nat) (hint : Option Hint) (buf msg : Bytes),
    argLoop std n hint buf msg = .ub →
    ∃ more rest, buf = encoded more ++ rest ∧ more.length < n ∧ Bad 22 0 IsHint rest
  | 0, _, _, _, h => by cases h
  | n + 1, hint, buf, msg, h => by
    rw [argLoop] at h
    rcases bind_ub h with h | ⟨⟨t, v, r⟩, hr, h⟩
    · exact ⟨[], buf, rfl, by simp, tryRead_ub h _ _⟩
    · rcases bind_ub h with h | ⟨a, ha, hrec⟩
      · obtain ⟨h1, h2⟩ := argField_ub h
        exact ⟨[], buf, rfl, by simp, bad_of_field hr h1 (readHint_ub h2)⟩
      · obtain ⟨k, rfl, hk, _, rfl⟩ := tryRead_ok hr
        obtain ⟨more, rest, h1, h2, h3⟩ := argLoop_ub n _ r _ hrec
        -- the rest of the buffer
        refine ⟨(k, v) :: more, rest, ?_, by simp; omega, h3⟩
        rw [h1, ← List.append_assoc, ← encoded_append]; rfl

/-- **C45 (partial)** Decoding any byte string ends with a record or an error, except for undefined
behaviour, which has only these causes: inside the record, after some number of fields, comes a header field
of an unknown kind or whose level is missing or unknown, or an argument field of an unknown kind or whose
display hint is missing or unknown.  Missing: these records should be errors
(`C45_unknown_kind_violated`). -/
theorem C45_only_unknown_partial (std : Std) (buf : Bytes) (h : logBuf std buf = .ub) :
    ∃ l0 l1 done rest tail, buf = l0 :: l1 :: (encoded done ++ rest ++ tail) ∧
      ofLe [l0, l1] = 2 + (encoded done ++ rest).length ∧
      (Bad 6 1 IsLevel rest ∨ Bad 22 0 IsHint rest) := by
  match buf, h with
  | [], h => simp [logBuf] at h
  | [_], h => simp [logBuf] at h
  | l0 :: l1 :: rest, h =>
    rw [logBuf] at h
    split at h
    · rename_i hc
      have hlen : ofLe [l0, l1] = 2 + (rest.take (ofLe [l0, l1] - 2)).length := by
        rw [List.length_take]; omega
      have hrest : rest = rest.take (ofLe [l0, l1] - 2) ++ rest.drop (ofLe [l0, l1] - 2) := by simp
      rcases bind_ub h with h | ⟨⟨q, r⟩, hq, h⟩
      · obtain ⟨more, r, h1, h2⟩ := headerLoop_ub _ _ _ h
        rw [h1] at hrest hlen
        exact ⟨l0, l1, more, r, _, by rw [← hrest], hlen, Or.inl h2⟩
      · obtain ⟨hdr, g1, _, _⟩ := headerLoop_ok _ _ _ [] _ _ seen_nil hq
        have hno : ∀ {α : Type} (o : Option α), orErr o ≠ .ub := by intro α o; cases o <;> simp [orErr]
        unfold logArgs at h
        rcases bind_ub h with h | ⟨n, hn, h⟩
        · exact absurd h (hno _)
        rcases bind_ub h with h | ⟨m, hm, h⟩
        · obtain ⟨more, r', h1, _, h2⟩ := argLoop_ub _ _ _ _ h
          simp only at h1
          rw [g1, h1, ← List.append_assoc, ← encoded_append] at hrest hlen
          exact ⟨l0, l1, hdr ++ more, r', _, by rw [← hrest], hlen, Or.inr h2⟩
        rcases bind_ub h with h | ⟨_, _, h⟩
        · exact absurd h (hno _)
        rcases bind_ub h with h | ⟨_, _, h⟩
        · exact absurd h (hno _)
        rcases bind_ub h with h | ⟨_, _, h⟩
        · exact absurd h (hno _)
        rcases bind_ub h with h | ⟨_, _, h⟩
        · exact absurd h (hno _)
        rcases bind_ub h with h | ⟨_, _, h⟩
        · exact absurd h (hno _)
        cases h
    · cases h

/-- **C45 (violated)** Malformed records that are not rejected: a field of an unknown kind, and a level
field without a value, are undefined behaviour (a byte is read as an enumeration it is no member of; a byte
outside the value is read). -/
theorem C45_unknown_kind_violated (std : Std) :
    logBuf std [5, 0, 255, 0, 0] = .ub ∧ logBuf std [5, 0, 1, 0, 0] = .ub ∧
      logBuf std [6, 0, 1, 1, 0, 9] = .ub := by
  refine ⟨?_, ?_, ?_⟩ <;> rfl

end Verif.Log
