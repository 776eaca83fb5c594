import Verif.Core.Compat
/-! # Access paths: the local one and where it leads in the kernel -/
set_option linter.unusedSimpArgs false
set_option linter.unusedVariables false
namespace Verif.Core
open Verif.Btf Verif.Btf.Spec Verif.Core.Spec

/-! ## The access string -/

theorem char_back (c : Char) (h : c.toNat < 128) : Char.ofNat c.toNat.toUInt8.toNat = c := by
  have e : c.toNat.toUInt8.toNat = c.toNat := by
    simp [Nat.toUInt8]; omega
  rw [e, Char.ofNat_toNat]

theorem render_ascii (n : Nat) : ∀ c ∈ Str.render 10 n, c.toNat < 128 := by
  intro c hc
  obtain ⟨d, hd, rfl⟩ := Str.mem_render 10 n (by decide) (by decide) c hc
  have key : ∀ d : Fin 10, (Str.digitChar d.1).toNat < 128 := by decide +kernel
  exact key ⟨d, hd⟩

theorem joinWith_ascii : ∀ (xs : List (List Char)), (∀ x ∈ xs, ∀ c ∈ x, c.toNat < 128) →
    ∀ c ∈ Str.joinWith ':' xs, c.toNat < 128
  | [], _, c, hc => by simp [Str.joinWith] at hc
  | [x], h, c, hc => h x (by simp) c (by simpa [Str.joinWith] using hc)
  | x :: y :: r, h, c, hc => by
    simp only [Str.joinWith, List.mem_append, List.mem_cons] at hc
    rcases hc with hc | rfl | hc
    · exact h x (by simp) c hc
    · decide
    · exact joinWith_ascii (y :: r) (fun z hz => h z (by simp [hz])) c hc

theorem mapM_render : ∀ parts : List Nat, (∀ p ∈ parts, p < 2 ^ 64) →
    (parts.map (Str.render 10)).mapM (Str.parseUInt 10 64) = some parts
  | [], _ => rfl
  | p :: ps, h => by
    rw [List.map_cons, List.mapM_cons, Str.parseUInt_render 10 64 p (by decide) (by decide) (h p (by simp)),
      mapM_render ps (fun q hq => h q (by simp [hq]))]
    rfl

theorem parseParts_access (parts : List Nat) (hne : parts ≠ []) (hp : ∀ p ∈ parts, p < 2 ^ 64) :
    parseParts (accessString parts) = some parts := by
  have e : (accessString parts).map (fun b => Char.ofNat b.toNat) = Str.joinWith ':' (parts.map (Str.render 10)) := by
    unfold accessString
    rw [List.map_map]
    conv => rhs; rw [← List.map_id (Str.joinWith ':' (parts.map (Str.render 10)))]
    refine List.map_congr_left (fun c hc => char_back c ?_)
    refine joinWith_ascii _ ?_ c hc
    intro x hx
    obtain ⟨n, _, rfl⟩ := List.mem_map.mp hx
    exact render_ascii n
  unfold parseParts
  rw [e, Str.splitBy_joinWith _ ':' (by decide) _ (by simpa using hne)]
  · exact mapM_render parts hp
  · intro x hx c hc
    obtain ⟨n, _, rfl⟩ := List.mem_map.mp hx
    obtain ⟨d, hd, rfl⟩ := Str.mem_render 10 n (by decide) (by decide) c hc
    have := (Str.digitChar_facts d (by omega)).2.2.2.2.2.1
    simpa using this

/-! ## The local path -/

/-- The accessors of a path of steps. -/
inductive Reads (lb : Btf) : List Accessor → List Step → Prop where
  | nil : Reads lb [] []
  | idx {t i as ss} : Reads lb as ss → Reads lb (⟨t, i, none⟩ :: as) (.index i :: ss)
  | fld {t i ty info m nm as ss} : lb.types[t]? = some ty → HasMember ty i info m → StringAt lb.strings m.name nm →
      Reads lb as ss → Reads lb (⟨t, i, some nm⟩ :: as) (.field nm m.ty :: ss)

theorem localStep_ok {b : Btf} {id : Nat} {accs : List Accessor} {off i id' : Nat} {accs' : List Accessor} {off' : Nat}
    (h : localStep b id accs off i = .ok (id', accs', off')) :
    ∃ as ss, accs' = accs ++ as ∧ (∀ as' ss', Reads b as' ss' → Reads b (as ++ as') (ss ++ ss')) ∧
      ∀ is ss', Spells b.types b.strings false id' is ss' → Spells b.types b.strings false id (i :: is) (ss ++ ss') := by
  unfold localStep at h
  obtain ⟨r, hr, h⟩ := bind_ok.mp h
  obtain ⟨ty, hty, h⟩ := bind_ok.mp h
  have hty := typeById_ok.mp (lift_ok.mp hty)
  have hr := resolve_ok (lift_ok.mp hr) hty
  have comp : ∀ ms, members ty = some ms →
      (match ms[i]? with
      | none => .error (.invalidAccessIndex i ms.length)
      | some m => do
        let off := (off + memberBitOffset (compInfo ty) m) % 2 ^ 64
        if m.name ≠ 0 then do
          let nm ← lift (b.stringAt m.name)
          .ok (m.ty, accs ++ [⟨r, i, some nm⟩], off)
        else .ok (m.ty, accs, off)) = (.ok (id', accs', off') : Except RFail _) →
      ∃ as ss, accs' = accs ++ as ∧ (∀ as' ss', Reads b as' ss' → Reads b (as ++ as') (ss ++ ss')) ∧
      ∀ is ss', Spells b.types b.strings false id' is ss' → Spells b.types b.strings false id (i :: is) (ss ++ ss') := by
    intro ms hms h
    split at h
    · cases h
    · rename_i m hm
      have hm := members_hasMember hms hm
      simp only at h
      split at h
      · rename_i hn
        obtain ⟨nm, hnm, h⟩ := bind_ok.mp h
        have hnm := C17_string _ _ _ (lift_ok.mp hnm)
        cases h
        exact ⟨[⟨r, i, some nm⟩], [.field nm m.ty], rfl, fun as' ss' g => .fld hty hm hnm g,
          fun is ss' g => .member hr hm hn hnm g⟩
      · rename_i hn
        cases h
        exact ⟨[], [], by simp, fun as' ss' g => g, fun is ss' g => .anon hr hm (by simpa using hn) g⟩
  split at h
  · exact comp _ rfl h
  · exact comp _ rfl h
  · rename_i n k e x len hx
    obtain ⟨eId, he, h⟩ := bind_ok.mp h
    obtain ⟨v, hv, h⟩ := bind_ok.mp h
    split at h
    · cases h
    · rename_i hlen
      obtain ⟨sz, hsz, h⟩ := bind_ok.mp h
      obtain ⟨rfl, rfl, rfl⟩ : eId = id' ∧ _ = accs' ∧ _ = off' := by simpa using h
      have he := lift_ok.mp he
      obtain ⟨_, _, _, te, hte, _⟩ := ((C15_resolve _ _).1 _).mp he
      have he := resolve_ok he hte
      refine ⟨[⟨eId, i, none⟩], [.index i], rfl, fun as' ss' g => .idx g, fun is ss' g => .elem hr he ?_ g⟩
      by_cases h0 : len = 0
      · exact .inr h0
      · rw [localFlex, if_neg h0] at hv
        cases hv
        simp only [true_and, Nat.not_le] at hlen
        exact .inl hlen
  · cases h

theorem localWalk_ok {b : Btf} : ∀ {is : List Nat} {id : Nat} {accs : List Accessor} {off : Nat} {r : List Accessor × Nat},
    localWalk b is id accs off = .ok r →
    ∃ as ss, r.1 = accs ++ as ∧ Reads b as ss ∧ Spells b.types b.strings false id is ss
  | [], id, accs, off, r, h => by
    cases h
    exact ⟨[], [], by simp, .nil, .done _ _⟩
  | i :: is, id, accs, off, r, h => by
    rw [localWalk] at h
    split at h
    · cases h
    · rename_i id' accs' off' hs
      obtain ⟨as, ss, rfl, h1, h2⟩ := localStep_ok hs
      obtain ⟨as', ss', h3, h4, h5⟩ := localWalk_ok h
      exact ⟨as ++ as', ss ++ ss', by rw [h3, List.append_assoc], h1 _ _ h4, h2 _ _ h5⟩

theorem spells_unique {ts : List BtfType} {strings : List UInt8} {b : Bool} {id : Nat} {is : List Nat} {ss ss' : List Step}
    (h : Spells ts strings b id is ss) (h' : Spells ts strings b id is ss') : ss = ss' := by
  induction h generalizing ss' with
  | done b id => cases h'; rfl
  | root hr _ ih =>
    cases h' with
    | root hr' g => obtain ⟨rfl, _⟩ := resolves_unique hr hr'; rw [ih g]
  | elem hr he _ _ ih =>
    cases h' with
    | elem hr' he' _ g =>
      obtain ⟨_, e⟩ := resolves_unique hr hr'; cases e
      obtain ⟨rfl, _⟩ := resolves_unique he he'
      rw [ih g]
    | member hr' hm => obtain ⟨_, rfl⟩ := resolves_unique hr hr'; rcases hm with ⟨_, _, _, e, _⟩ | ⟨_, _, _, _, e, _⟩ <;> cases e
    | anon hr' hm => obtain ⟨_, rfl⟩ := resolves_unique hr hr'; rcases hm with ⟨_, _, _, e, _⟩ | ⟨_, _, _, _, e, _⟩ <;> cases e
  | member hr hm hn hs _ ih =>
    cases h' with
    | elem hr' => obtain ⟨_, rfl⟩ := resolves_unique hr hr'; rcases hm with ⟨_, _, _, e, _⟩ | ⟨_, _, _, _, e, _⟩ <;> cases e
    | member hr' hm' hn' hs' g =>
      obtain ⟨_, rfl⟩ := resolves_unique hr hr'
      obtain ⟨_, a1, a2, _⟩ := hasMember_members hm
      obtain ⟨_, a1', a2', _⟩ := hasMember_members hm'
      rw [a1] at a1'; cases a1'; rw [a2] at a2'; cases a2'
      cases stringAt_unique hs hs'
      rw [ih g]
    | anon hr' hm' hn' g =>
      obtain ⟨_, rfl⟩ := resolves_unique hr hr'
      obtain ⟨_, a1, a2, _⟩ := hasMember_members hm
      obtain ⟨_, a1', a2', _⟩ := hasMember_members hm'
      rw [a1] at a1'; cases a1'; rw [a2] at a2'; cases a2'
      exact absurd hn' hn
  | anon hr hm hn _ ih =>
    cases h' with
    | elem hr' => obtain ⟨_, rfl⟩ := resolves_unique hr hr'; rcases hm with ⟨_, _, _, e, _⟩ | ⟨_, _, _, _, e, _⟩ <;> cases e
    | member hr' hm' hn' hs' g =>
      obtain ⟨_, rfl⟩ := resolves_unique hr hr'
      obtain ⟨_, a1, a2, _⟩ := hasMember_members hm
      obtain ⟨_, a1', a2', _⟩ := hasMember_members hm'
      rw [a1] at a1'; cases a1'; rw [a2] at a2'; cases a2'
      exact absurd hn hn'
    | anon hr' hm' hn' g =>
      obtain ⟨_, rfl⟩ := resolves_unique hr hr'
      obtain ⟨_, a1, a2, _⟩ := hasMember_members hm
      obtain ⟨_, a1', a2', _⟩ := hasMember_members hm'
      rw [a1] at a1'; cases a1'; rw [a2] at a2'; cases a2'
      exact ih g

/-! ## The kernel's path -/

/-- What a match of a member says. -/
def Found (lb tb : Btf) (tt : BtfType) (lname : List UInt8) (lty : Nat) (s : AccSpec) (x : Nat) (s' : AccSpec) : Prop :=
  ∃ o info m, FieldAt tb.types tb.strings tt lname o info m ∧ Compat lb tb lty m.ty ∧ x = m.ty ∧
    s'.bitOffset = (s.bitOffset + o) % 2 ^ 64 ∧
    ∃ t i ty nm, s'.accessors.getLast? = some ⟨t, i, some nm⟩ ∧ tb.types[t]? = some ty ∧ HasMember ty i info m

theorem memberLoop_some {lb tb : Btf} {rec : Nat → Except RFail Hit} {lname : List UInt8} {lty tId : Nat} {s : AccSpec}
    {tt : BtfType} {all : List Member} (hw : Words tb.types) (ht : tb.types[tId]? = some tt) (ha : members tt = some all)
    (hrec : ∀ y x s', rec y = .ok (some (x, s')) → ∃ r t, Resolves tb.types y r t ∧ Found lb tb t lname lty s x s') :
    ∀ (ms : List Member) (i : Nat) (x : Nat) (s' : AccSpec), all.drop i = ms →
      memberLoop lb tb rec lname lty (compInfo tt) tId s i ms = .ok (some (x, s')) → Found lb tb tt lname lty s x s' := by
  intro ms
  induction ms with
  | nil => intro i x s' _ h; cases h
  | cons m ms ih =>
    intro i x s' hd h
    have hm : all[i]? = some m := by
      have := congrArg (·[0]?) hd; simpa using this
    have hd' : all.drop (i + 1) = ms := by rw [← List.drop_drop, hd]; rfl
    have hm := members_hasMember ha hm
    have hi := hw _ _ _ _ _ ht hm
    rw [memberLoop] at h
    split at h
    · cases h
    · split at h
      · cases h
      · rename_i hs
        have hs := C17_string _ _ _ hs
        split at h
        · cases h
        · rename_i r s'' hrc
          cases h
          obtain ⟨r, t, h1, o, info, mm, h2, h3, h4, h5, h6⟩ := hrec _ _ _ hrc
          refine ⟨_, info, mm, .inner hm hs h1 h2, h3, h4, ?_, h6⟩
          simp only [h5, memberBitOffset_eq hi]
          omega
        · exact ih _ _ _ hd' h
      · rename_i tname hne hs
        have hs := C17_string _ _ _ hs
        split at h
        · rename_i e
          subst e
          split at h
          · cases h
          · cases h
          · rename_i hc
            cases h
            refine ⟨_, _, m, .direct hm hs (fun e => hne (by rw [e])), (C20_compatible _ _ _ _ _ hc).mp rfl, rfl, ?_, tId, i, tt, lname, by simp, ht, hm⟩
            simp only [memberBitOffset_eq hi]
        · exact ih _ _ _ hd' h

theorem matchMemberFuel_some {lb tb : Btf} {lname : List UInt8} {lty : Nat} {s : AccSpec} (hw : Words tb.types) :
    ∀ (fuel y x : Nat) (s' : AccSpec), matchMemberFuel lb tb lname lty s fuel y = .ok (some (x, s')) →
      ∃ r t, Resolves tb.types y r t ∧ Found lb tb t lname lty s x s'
  | 0, y, x, s', h => by cases h
  | fuel + 1, y, x, s', h => by
    rw [matchMemberFuel] at h
    obtain ⟨r, hr, h⟩ := bind_ok.mp h
    obtain ⟨t, ht, h⟩ := bind_ok.mp h
    have ht := typeById_ok.mp (lift_ok.mp ht)
    refine ⟨r, t, resolve_ok (lift_ok.mp hr) ht, ?_⟩
    split at h
    · cases h
    · rename_i ms hms
      exact memberLoop_some hw ht hms (fun y x s' g => matchMemberFuel_some hw fuel y x s' g) ms 0 x s' rfl h


theorem typeSize_sized {ts : List BtfType} {id sz : Nat} (h : typeSize ts id = .ok sz) : Sized ts id sz := by
  intro d dims n hs h1 h2 h3
  have := C16_size_partial ts id d dims n hs h1 h2 h3
  rw [h] at this
  cases this; rfl

theorem matchMember_eq {lb tb : Btf} {t i info : Nat} {ty : BtfType} {m : Member} {nm : List UInt8} {tId : Nat}
    {s : AccSpec} (ht : lb.types[t]? = some ty) (hm : HasMember ty i info m) (hs : StringAt lb.strings m.name nm)
    {hit : Hit} (h : matchMember lb tb ⟨t, i, some nm⟩ tId s = .ok hit) :
    matchMemberFuel lb tb nm m.ty s (tb.types.length + 1) tId = .ok hit := by
  unfold matchMember at h
  obtain ⟨lt, hlt, h⟩ := bind_ok.mp h
  have hlt := typeById_ok.mp (lift_ok.mp hlt)
  simp only at hlt
  rw [ht] at hlt; cases hlt
  obtain ⟨ms, h1, h2, _⟩ := hasMember_members hm
  simp only [h1, h2] at h
  obtain ⟨ln, hln, h⟩ := bind_ok.mp h
  cases stringAt_unique hs (C17_string _ _ _ (lift_ok.mp hln))
  exact h

/-- The last accessor is the member the path ends in. -/
def Ends (tb : Btf) (s : AccSpec) : Option (Nat × Member) → Prop
  | none => True
  | some (info, m) =>
    ∃ t i ty nm, s.accessors.getLast? = some ⟨t, i, some nm⟩ ∧ tb.types[t]? = some ty ∧ HasMember ty i info m

theorem targetArray_some {tb : Btf} {id i e : Nat} {s : AccSpec} (h : targetArray tb id i s = .ok (some e)) :
    ∃ n k el x len t, tb.types[id]? = some (.array n k el x len) ∧ Resolves tb.types el e t ∧ (i < len ∨ len = 0) := by
  unfold targetArray at h
  obtain ⟨tt, ht, h⟩ := bind_ok.mp h
  have ht := typeById_ok.mp (lift_ok.mp ht)
  split at h
  · rename_i n k e x len hx
    obtain ⟨v, hv, h⟩ := bind_ok.mp h
    split at h
    · cases h
    · rename_i hlen
      obtain ⟨e', he, h⟩ := bind_ok.mp h
      cases h
      have he := lift_ok.mp he
      obtain ⟨_, _, _, te, hte, _⟩ := ((C15_resolve _ _).1 _).mp he
      refine ⟨_, _, _, _, _, te, ht, resolve_ok he hte, ?_⟩
      by_cases h0 : len = 0
      · exact .inr h0
      · rw [targetFlex, if_neg h0] at hv
        cases hv
        simp only [true_and, Nat.not_le] at hlen
        exact .inl hlen
  · cases h

theorem resolves_self {ts : List BtfType} {a r r' : Nat} {t t' : BtfType} (h : Resolves ts a r t)
    (h' : Resolves ts r r' t') : r' = r ∧ t' = t := by
  obtain ⟨k, hk, hl, ht, hn⟩ := h
  have : Resolves ts r r t := ⟨0, by omega, .here r, ht, hn⟩
  obtain ⟨a, b⟩ := resolves_unique h' this
  exact ⟨a, b⟩

theorem targetWalk_some {lb tb : Btf} (hw : Words tb.types) {as : List Accessor} {ss : List Step} (hr : Reads lb as ss) :
    ∀ {first : Bool} {id : Nat} {s s' : AccSpec}, s.bitOffset < 2 ^ 64 → targetWalk lb tb first as id s = .ok (some s') →
    ∃ off last, PathAt lb tb first id ss off last ∧ s'.bitOffset = (s.bitOffset + off) % 2 ^ 64 ∧
      (ss = [] → s' = s) ∧ Ends tb s' last := by
  induction hr with
  | nil =>
    intro first id s s' hb h
    cases h
    exact ⟨0, none, .done _ _, by rw [Nat.add_zero, Nat.mod_eq_of_lt hb], fun _ => rfl, trivial⟩
  | @idx t i as ss _ ih =>
    intro first id s s' hb h
    rw [targetWalk] at h
    split at h
    · cases h
    · cases h
    · rename_i id' s1 hs
      unfold targetStep at hs
      obtain ⟨r, hr, hs⟩ := bind_ok.mp hs
      have hr := lift_ok.mp hr
      obtain ⟨_, _, _, tr, htr, _⟩ := ((C15_resolve _ _).1 _).mp hr
      have hr := resolve_ok hr htr
      simp only [Option.isSome_none, Bool.false_eq_true, if_false] at hs
      obtain ⟨o, ho, hs⟩ := bind_ok.mp hs
      split at hs
      · cases hs
      · rename_i e
        split at hs
        · cases hs
        · obtain ⟨sz, hsz, hs⟩ := bind_ok.mp hs
          have hsz := typeSize_sized (lift_ok.mp hsz)
          obtain ⟨rfl, rfl⟩ : e = id' ∧ _ = s1 := by simpa using hs
          obtain ⟨off, last, h1, h2, _, h4⟩ := ih (by simp only []; omega) h
          simp only at h2
          refine ⟨i * sz * 8 + off, last, ?_, by rw [h2]; omega, by simp, h4⟩
          unfold targetElem at ho
          cases first with
          | true =>
            simp only [if_true] at ho
            cases ho
            exact .root hr hsz h1
          | false =>
            simp only [Bool.false_eq_true, if_false] at ho
            obtain ⟨n, k, el, x, len, t', g1, g2, g3⟩ := targetArray_some ho
            rw [htr] at g1; cases g1
            exact .elem hr g2 g3 hsz h1
  | @fld t i ty info m nm as ss ht hm hstr _ ih =>
    intro first id s s' hb h
    rw [targetWalk] at h
    split at h
    · cases h
    · cases h
    · rename_i id' s1 hs
      unfold targetStep at hs
      obtain ⟨r, hr, hs⟩ := bind_ok.mp hs
      have hr := lift_ok.mp hr
      obtain ⟨_, _, _, tr, htr, _⟩ := ((C15_resolve _ _).1 _).mp hr
      have hr := resolve_ok hr htr
      simp only [Option.isSome_some, if_true] at hs
      obtain ⟨r', t', hr', o, info', m', h1, h2, rfl, h4, h5⟩ := matchMemberFuel_some hw _ _ _ _ (matchMember_eq ht hm hstr hs)
      obtain ⟨rfl, rfl⟩ := resolves_self hr hr'
      obtain ⟨off, last, g1, g2, g3, g4⟩ := ih (by rw [h4]; omega) h
      refine ⟨o + off, _, .field hr h1 h2 g1, by rw [g2, h4]; omega, by simp, ?_⟩
      split
      · rename_i e
        rw [g3 e]
        exact h5
      · exact g4

/-- The kinds of relocation that say something about a field. -/
def FieldKind (k : RelKind) : Prop :=
  k = .fieldByteOffset ∨ k = .fieldByteSize ∨ k = .fieldExists ∨ k = .fieldSigned ∨ k = .fieldLShift ∨ k = .fieldRShift

theorem specNew_field {b : Btf} {root : Nat} {parts : List Nat} {kind : RelKind} {l : AccSpec} (hk : FieldKind kind)
    (hp : ∀ p ∈ parts, p < 2 ^ 64) (hne : parts ≠ []) (h : specNew b root (accessString parts) kind = .ok l) :
    ∃ ss, Spells b.types b.strings true root parts ss ∧ Reads b l.accessors ss := by
  have e : specNew b root (accessString parts) kind = (do
    let tyId ← lift (resolveType b.types root)
    let ty ← lift (typeById b.types tyId)
    match parts with
      | [] => .error .panic
      | first :: rest => do
        let size ← lift (typeSize b.types tyId)
        let r ← localWalk b rest tyId [⟨tyId, first, none⟩] (first * size % 2 ^ 64)
        .ok ⟨root, parts, r.1, r.2⟩) := by
    unfold specNew
    rw [parseParts_access parts hne hp]
    rcases hk with rfl | rfl | rfl | rfl | rfl | rfl <;> rfl
  rw [e] at h
  obtain ⟨r, hr, h⟩ := bind_ok.mp h
  obtain ⟨ty, hty, h⟩ := bind_ok.mp h
  have hr := resolve_ok (lift_ok.mp hr) (typeById_ok.mp (lift_ok.mp hty))
  split at h
  · cases h
  · obtain ⟨sz, _, h⟩ := bind_ok.mp h
    obtain ⟨w, hw, h⟩ := bind_ok.mp h
    cases h
    obtain ⟨as, ss, h1, h2, h3⟩ := localWalk_ok hw
    refine ⟨.index _ :: ss, .root hr h3, ?_⟩
    simp only [h1, List.singleton_append]
    exact .idx h2

theorem matchCandidate_field {lb tb : Btf} {kind : RelKind} {l : AccSpec} {c : Cand} (hk : FieldKind kind) :
    matchCandidate lb tb kind l c = targetWalk lb tb true l.accessors c.tyId ⟨c.tyId, [], [], 0⟩ := by
  rcases hk with rfl | rfl | rfl | rfl | rfl | rfl <;> rfl

/-- **C20.** An access string the loader accepts spells a path in the program's own types. -/
theorem C20_spelled (lb : Btf) (root : Nat) (parts : List Nat) (kind : RelKind) (l : AccSpec) (hk : FieldKind kind)
    (hp : ∀ p ∈ parts, p < 2 ^ 64) (hne : parts ≠ []) (h : specNew lb root (accessString parts) kind = .ok l) :
    ∃ ss, Spells lb.types lb.strings true root parts ss ∧
      ∀ ss', Spells lb.types lb.strings true root parts ss' → ss' = ss := by
  obtain ⟨ss, h1, _⟩ := specNew_field hk hp hne h
  exact ⟨ss, h1, fun ss' h' => spells_unique h' h1⟩

/-- **C20.** If the path of a field relocation matches a candidate type of the kernel, the same path, member by member of
the same name and a compatible type, leads to the matched position and field there. What is missing: element sizes of
arrays of two or more dimensions (see C16) and positions of 2^64 bits and more. -/
theorem C20_path_partial (lb tb : Btf) (hw : Words tb.types) (root : Nat) (parts : List Nat) (kind : RelKind) (l t : AccSpec)
    (c : Cand) (ss : List Step) (hk : FieldKind kind) (hp : ∀ p ∈ parts, p < 2 ^ 64) (hne : parts ≠ [])
    (hs : Spells lb.types lb.strings true root parts ss) (h : specNew lb root (accessString parts) kind = .ok l)
    (hc : matchCandidate lb tb kind l c = .ok (some t)) :
    ∃ off last, PathAt lb tb true c.tyId ss off last ∧ t.bitOffset = off % 2 ^ 64 ∧
      ∀ info m, last = some (info, m) → ∃ (id i : Nat) (ty : BtfType) (nm : List UInt8),
        t.accessors.getLast? = some ⟨id, i, some nm⟩ ∧ tb.types[id]? = some ty ∧ HasMember ty i info m := by
  obtain ⟨ss', h1, h2⟩ := specNew_field hk hp hne h
  cases spells_unique hs h1
  rw [matchCandidate_field hk] at hc
  obtain ⟨off, last, g1, g2, _, g4⟩ := targetWalk_some hw h2 (by simp) hc
  refine ⟨off, last, g1, by simpa using g2, ?_⟩
  rintro info m rfl
  exact g4

end Verif.Core
