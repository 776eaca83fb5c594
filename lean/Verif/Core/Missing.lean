import Verif.Core.Path
/-! # When a field is said to be missing, and which types are candidates -/
set_option linter.unusedSimpArgs false
set_option linter.unusedVariables false
namespace Verif.Core
open Verif.Btf Verif.Btf.Spec Verif.Core.Spec

/-- As in C, no type has two members of the same name, counting those inside members without a name. -/
def Distinct (tb : Btf) : Prop :=
  ∀ ty ∈ tb.types, ∀ name o info m o' info' m', FieldAt tb.types tb.strings ty name o info m →
    FieldAt tb.types tb.strings ty name o' info' m' → m = m'

theorem memberLoop_none {lb tb : Btf} {rec : Nat → Except RFail Hit} {lname : List UInt8} {lty tId : Nat} {s : AccSpec}
    {tt : BtfType} {all : List Member} (ha : members tt = some all) :
    ∀ (ms : List Member) (i : Nat), all.drop i = ms →
      memberLoop lb tb rec lname lty (compInfo tt) tId s i ms = .ok none →
      (∃ o info m, FieldAt tb.types tb.strings tt lname o info m ∧ ¬ Compat lb tb lty m.ty) ∨
      ∀ (j : Nat) (mj : Member), i ≤ j → all[j]? = some mj →
        (StringAt tb.strings mj.name lname → lname = []) ∧ (StringAt tb.strings mj.name [] → rec mj.ty = .ok none) := by
  intro ms
  induction ms with
  | nil =>
    intro i hd _
    right
    intro j mj hj hm
    have : all.length ≤ i := by simpa using hd
    rw [List.getElem?_eq_none (by omega)] at hm
    cases hm
  | cons m ms ih =>
    intro i hd h
    have hm : all[i]? = some m := by
      have := congrArg (·[0]?) hd; simpa using this
    have hd' : all.drop (i + 1) = ms := by rw [← List.drop_drop, hd]; rfl
    have hmem := members_hasMember ha hm
    have step : ((∃ o info m, FieldAt tb.types tb.strings tt lname o info m ∧ ¬ Compat lb tb lty m.ty) ∨
        ∀ (j : Nat) (mj : Member), i + 1 ≤ j → all[j]? = some mj →
          (StringAt tb.strings mj.name lname → lname = []) ∧ (StringAt tb.strings mj.name [] → rec mj.ty = .ok none)) →
        (StringAt tb.strings m.name lname → lname = []) → (StringAt tb.strings m.name [] → rec m.ty = .ok none) →
        ((∃ o info m, FieldAt tb.types tb.strings tt lname o info m ∧ ¬ Compat lb tb lty m.ty) ∨
        ∀ (j : Nat) (mj : Member), i ≤ j → all[j]? = some mj →
          (StringAt tb.strings mj.name lname → lname = []) ∧ (StringAt tb.strings mj.name [] → rec mj.ty = .ok none)) := by
      rintro (g | g) h1 h2
      · exact .inl g
      · right
        intro j mj hj hmj
        by_cases e : j = i
        · subst e; rw [hm] at hmj; cases hmj; exact ⟨h1, h2⟩
        · exact g j mj (by omega) hmj
    rw [memberLoop] at h
    split at h
    · cases h
    · split at h
      · cases h
      · rename_i hs
        have hs := C17_string _ _ _ hs
        split at h
        · cases h
        · cases h
        · rename_i hrc
          exact step (ih _ hd' h) (fun g => stringAt_unique g hs) (fun _ => hrc)
      · rename_i tname hne hs
        have hs := C17_string _ _ _ hs
        split at h
        · rename_i e
          subst e
          split at h
          · cases h
          · rename_i hc
            refine .inl ⟨_, _, m, .direct hmem hs (fun e => hne (by rw [e])), ?_⟩
            intro g
            have := (C20_compatible _ _ _ _ _ hc).mpr g
            cases this
          · cases h
        · rename_i hn
          refine step (ih _ hd' h) (fun g => absurd (stringAt_unique g hs) hn) (fun g => ?_)
          exact absurd (stringAt_unique hs g) (fun e => hne (by rw [e]))

theorem matchMemberFuel_none {lb tb : Btf} {lname : List UInt8} {lty : Nat} {s : AccSpec} (hdis : Distinct tb) :
    ∀ (fuel y : Nat), matchMemberFuel lb tb lname lty s fuel y = .ok none →
      ∀ r t o info m, Resolves tb.types y r t → FieldAt tb.types tb.strings t lname o info m → ¬ Compat lb tb lty m.ty
  | 0, y, h => by cases h
  | fuel + 1, y, h => by
    intro r t o info m hr hf hc
    rw [matchMemberFuel] at h
    obtain ⟨r', hr', h⟩ := bind_ok.mp h
    obtain ⟨t', ht', h⟩ := bind_ok.mp h
    have ht' := typeById_ok.mp (lift_ok.mp ht')
    obtain ⟨rfl, rfl⟩ := resolves_unique hr (resolve_ok (lift_ok.mp hr') ht')
    split at h
    · rename_i hms
      cases hf with
      | direct hm => obtain ⟨_, e, _⟩ := hasMember_members hm; rw [hms] at e; cases e
      | inner hm => obtain ⟨_, e, _⟩ := hasMember_members hm; rw [hms] at e; cases e
    · rename_i ms hms
      rcases memberLoop_none hms ms 0 rfl h with ⟨o', info', m', g1, g2⟩ | g
      · cases hdis t (List.mem_of_getElem? ht') _ _ _ _ _ _ _ hf g1
        exact g2 hc
      · cases hf with
        | direct hm hs hne =>
          obtain ⟨ms', e, e2, _⟩ := hasMember_members hm
          rw [hms] at e; cases e
          exact hne ((g _ _ (by omega) e2).1 hs)
        | inner hm hs hr2 hf2 =>
          obtain ⟨ms', e, e2, _⟩ := hasMember_members hm
          rw [hms] at e; cases e
          exact matchMemberFuel_none hdis fuel _ ((g _ _ (by omega) e2).2 hs) _ _ _ _ _ hr2 hf2 hc

theorem targetArray_none {tb : Btf} {id i : Nat} {s : AccSpec} (h : targetArray tb id i s = .ok none)
    {n k e x len : Nat} (ht : tb.types[id]? = some (.array n k e x len)) (h0 : len ≠ 0) : len ≤ i := by
  unfold targetArray at h
  obtain ⟨tt, htt, h⟩ := bind_ok.mp h
  have htt := typeById_ok.mp (lift_ok.mp htt)
  rw [ht] at htt; cases htt
  simp only at h
  obtain ⟨v, hv, h⟩ := bind_ok.mp h
  split at h
  · rename_i g; exact g.2
  · obtain ⟨_, _, h⟩ := bind_ok.mp h
    cases h

theorem targetWalk_none {lb tb : Btf} (hw : Words tb.types) (hdis : Distinct tb)
    (hflex : ∀ n k e x len, BtfType.array n k e x len ∈ tb.types → len ≠ 0)
    {as : List Accessor} {ss : List Step} (hr : Reads lb as ss) :
    ∀ {first : Bool} {id : Nat} {s : AccSpec}, targetWalk lb tb first as id s = .ok none →
    ∀ off last, ¬ PathAt lb tb first id ss off last := by
  induction hr with
  | nil => intro first id s h; cases h
  | @idx t i as ss _ ih =>
    intro first id s h off last hp
    rw [targetWalk] at h
    have hel : ∀ r, resolveType tb.types id = .ok r → targetElem tb first r i s = .ok none → False := by
      intro r hr he
      unfold targetElem at he
      cases first with
      | true => simp at he
      | false =>
        simp only [Bool.false_eq_true, if_false] at he
        cases hp with
        | elem h1 h2 h3 =>
          have := resolve_of h1
          rw [hr] at this; cases this
          obtain ⟨_, _, _, ht, _⟩ := h1
          have h0 := hflex _ _ _ _ _ (List.mem_of_getElem? ht)
          have := targetArray_none he ht h0
          omega
    split at h
    · cases h
    · rename_i hs
      unfold targetStep at hs
      obtain ⟨r, hr, hs⟩ := bind_ok.mp hs
      have hr := lift_ok.mp hr
      simp only [Option.isSome_none, Bool.false_eq_true, if_false] at hs
      obtain ⟨o, ho, hs⟩ := bind_ok.mp hs
      split at hs
      · exact hel r hr ho
      · split at hs
        · cases hs
        · obtain ⟨_, _, hs⟩ := bind_ok.mp hs
          cases hs
    · rename_i id' s1 hs
      unfold targetStep at hs
      obtain ⟨r, hr, hs⟩ := bind_ok.mp hs
      have hr := lift_ok.mp hr
      simp only [Option.isSome_none, Bool.false_eq_true, if_false] at hs
      obtain ⟨o, ho, hs⟩ := bind_ok.mp hs
      split at hs
      · cases hs
      · rename_i e
        split at hs
        · cases hs
        · obtain ⟨sz, hsz, hs⟩ := bind_ok.mp hs
          obtain ⟨rfl, rfl⟩ : e = id' ∧ _ = s1 := by simpa using hs
          unfold targetElem at ho
          cases hp with
          | root h1 h2 h3 =>
            simp only [if_true] at ho
            cases ho
            have := resolve_of h1
            rw [hr] at this; cases this
            exact ih h _ _ h3
          | elem h1 h2 h3 h4 h5 =>
            simp only [Bool.false_eq_true, if_false] at ho
            obtain ⟨n, k, el, x, len, t', g1, g2, g3⟩ := targetArray_some ho
            have := resolve_of h1
            rw [hr] at this; cases this
            obtain ⟨_, _, _, ht, _⟩ := h1
            rw [ht] at g1; cases g1
            obtain ⟨rfl, _⟩ := resolves_unique h2 g2
            exact ih h _ _ h5
  | @fld t i ty info m nm as ss ht hm hstr _ ih =>
    intro first id s h off last hp
    rw [targetWalk] at h
    cases hp with
    | field h1 h2 h3 h4 =>
      have hr1 := resolve_of h1
      have hself : ∀ {r t}, Resolves tb.types id r t → Resolves tb.types r r t := by
        rintro r t ⟨_, _, _, a, b⟩
        exact ⟨0, by omega, .here r, a, b⟩
      split at h
      · cases h
      · rename_i hs
        unfold targetStep at hs
        obtain ⟨r, hr, hs⟩ := bind_ok.mp hs
        have hr := lift_ok.mp hr
        rw [hr1] at hr; cases hr
        simp only [Option.isSome_some, if_true] at hs
        exact matchMemberFuel_none hdis _ _ (matchMember_eq ht hm hstr hs) _ _ _ _ _ (hself h1) h2 h3
      · rename_i id' s1 hs
        unfold targetStep at hs
        obtain ⟨r, hr, hs⟩ := bind_ok.mp hs
        have hr := lift_ok.mp hr
        rw [hr1] at hr; cases hr
        simp only [Option.isSome_some, if_true] at hs
        obtain ⟨r', t', hr', o, info', m', g1, g2, rfl, _⟩ := matchMemberFuel_some hw _ _ _ _ (matchMember_eq ht hm hstr hs)
        obtain ⟨rfl, rfl⟩ := resolves_self h1 hr'
        obtain ⟨_, _, _, htt, _⟩ := h1
        cases hdis _ (List.mem_of_getElem? htt) _ _ _ _ _ _ _ h2 g1
        exact ih h _ _ h4

/-- **C20.** If the loader says that a candidate type does not have the field, then no path of members of the same names
and compatible types leads to it. What is missing: kernels whose types contain arrays of length 0 (see
`C20_flexible_violated`). -/
theorem C20_missing_partial (lb tb : Btf) (hw : Words tb.types) (hdis : Distinct tb)
    (hflex : ∀ n k e x len, BtfType.array n k e x len ∈ tb.types → len ≠ 0)
    (root : Nat) (parts : List Nat) (kind : RelKind) (l : AccSpec)
    (c : Cand) (ss : List Step) (hk : FieldKind kind) (hp : ∀ p ∈ parts, p < 2 ^ 64) (hne : parts ≠ [])
    (hs : Spells lb.types lb.strings true root parts ss) (h : specNew lb root (accessString parts) kind = .ok l)
    (hc : matchCandidate lb tb kind l c = .ok none) : ∀ off last, ¬ PathAt lb tb true c.tyId ss off last := by
  obtain ⟨ss', h1, h2⟩ := specNew_field hk hp hne h
  cases spells_unique hs h1
  rw [matchCandidate_field hk] at hc
  exact targetWalk_none hw hdis hflex h2 hc

/-! ## Candidates -/

theorem candLoop_ok {tb : Btf} {lt : BtfType} {name : List UInt8} : ∀ {ts : List BtfType} {i : Nat} {cs : List Cand},
    candLoop tb lt name i ts = .ok cs →
    ∀ (n : List UInt8) (j : Nat), ⟨n, j⟩ ∈ cs ↔ ∃ (k : Nat) (t : BtfType), j = i + k ∧ ts[k]? = some t ∧ kindMatches lt t = true ∧
      tb.stringAt t.name = .ok n ∧ flavorless name = flavorless n
  | [], i, cs, h => by
    cases h
    intro n j
    constructor
    · intro h; simp at h
    · rintro ⟨k, t, _, h, _⟩; simp at h
  | t :: ts, i, cs, h => by
    intro n j
    have shift : ∀ {P : BtfType → Prop}, (∃ (k : Nat) (t' : BtfType), j = i + k ∧ (t :: ts)[k]? = some t' ∧ P t') ↔
        (j = i ∧ P t) ∨ ∃ (k : Nat) (t' : BtfType), j = i + 1 + k ∧ ts[k]? = some t' ∧ P t' := by
      intro P
      constructor
      · rintro ⟨k, t', rfl, h1, h2⟩
        cases k with
        | zero => simp at h1; subst h1; exact .inl ⟨rfl, h2⟩
        | succ k => exact .inr ⟨k, t', by omega, by simpa using h1, h2⟩
      · rintro (⟨rfl, hP⟩ | ⟨k, t', rfl, h1, h2⟩)
        · exact ⟨0, t, rfl, rfl, hP⟩
        · exact ⟨k + 1, t', by omega, by simpa using h1, h2⟩
    rw [shift]
    rw [candLoop] at h
    split at h
    · rename_i hk
      split at h
      · cases h
      · rename_i n' hn
        split at h
        · cases h
        · rename_i cs' hcs
          have ih := candLoop_ok hcs n j
          split at h
          · rename_i hf
            cases h
            rw [List.mem_cons, ih]
            constructor
            · rintro (h | h)
              · cases h; exact .inl ⟨rfl, hk, hn, hf⟩
              · exact .inr h
            · rintro (⟨rfl, _, h, _⟩ | h)
              · rw [hn] at h; cases h; exact .inl rfl
              · exact .inr h
          · rename_i hf
            cases h
            rw [ih]
            constructor
            · exact .inr
            · rintro (⟨_, _, h, g⟩ | h)
              · rw [hn] at h; cases h; exact absurd g hf
              · exact h
    · rename_i hk
      have ih := candLoop_ok h n j
      rw [ih]
      constructor
      · exact .inr
      · rintro (⟨_, h, _⟩ | h)
        · exact absurd h hk
        · exact h

theorem candLoop_names {tb : Btf} {lt : BtfType} {name : List UInt8} : ∀ {ts : List BtfType} {i : Nat} {cs : List Cand},
    candLoop tb lt name i ts = .ok cs → ∀ t ∈ ts, kindMatches lt t = true → ∃ n, tb.stringAt t.name = .ok n
  | [], i, cs, h, t, ht, _ => by simp at ht
  | t :: ts, i, cs, h, t', ht, hk => by
    rw [candLoop] at h
    split at h
    · split at h
      · cases h
      · rename_i n hn
        split at h
        · cases h
        · rename_i cs' hcs
          rcases List.mem_cons.mp ht with rfl | ht
          · exact ⟨n, hn⟩
          · exact candLoop_names hcs t' ht hk
    · rename_i hkn
      rcases List.mem_cons.mp ht with rfl | ht
      · exact absurd hk hkn
      · exact candLoop_names h t' ht hk

/-- **C20.** The candidates for a type of the program are exactly the kernel's types of the same kind and the same name up
to flavour. For an enum of 64-bit values that was rewritten into a union for an old kernel these are the unions and the
enums of 64-bit values. -/
theorem C20_candidates (tb : Btf) (lt : BtfType) (name : List UInt8) (cs : List Cand)
    (h : findCandidates tb lt name = .ok cs) (n : List UInt8) (id : Nat) :
    ⟨n, id⟩ ∈ cs ↔ ∃ t : BtfType, tb.types[id]? = some t ∧ StringAt tb.strings t.name n ∧ (∃ b, Base name b ∧ Base n b) ∧
      (t.kind = lt.kind ∨ t.kind = 19 ∧ ∃ nm i s ms f, lt = .union nm i s ms (some f)) := by
  rw [candLoop_ok h]
  have hkm : ∀ t : BtfType, kindMatches lt t = true ↔
      (t.kind = lt.kind ∨ t.kind = 19 ∧ ∃ nm i s ms f, lt = .union nm i s ms (some f)) := by
    intro t
    unfold kindMatches
    rw [Bool.or_eq_true, Bool.and_eq_true, beq_iff_eq, beq_iff_eq]
    constructor
    · rintro (h | ⟨h1, h2⟩)
      · exact .inl h
      · right
        split at h1
        · exact ⟨h2, _, _, _, _, _, rfl⟩
        · cases h1
    · rintro (h | ⟨h1, _, _, _, _, _, rfl⟩)
      · exact .inl h
      · exact .inr ⟨rfl, h1⟩
  constructor
  · rintro ⟨k, t, rfl, h1, h2, h3, h4⟩
    rw [Nat.zero_add]
    exact ⟨t, h1, C17_string _ _ _ h3, flavorless_eq.mp h4, (hkm t).mp h2⟩
  · rintro ⟨t, h1, h2, h3, h4⟩
    obtain ⟨n', hn'⟩ := candLoop_names h t (List.mem_of_getElem? h1) ((hkm t).mpr h4)
    cases stringAt_unique h2 (C17_string _ _ _ hn')
    exact ⟨id, t, by omega, h1, (hkm t).mpr h4, hn', flavorless_eq.mpr h3⟩

end Verif.Core
