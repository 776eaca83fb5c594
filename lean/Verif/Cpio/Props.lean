import Verif.Cpio.Spec
/-!
# C119: what is put into the archive is what the machine gets
-/
namespace Verif.Cpio

theorem digit_hex {d : Nat} (h : d < 16) : digitValue (hexDigit d) = some d := by
  have : ∀ d : Fin 16, digitValue (hexDigit d.val) = some d.val := by decide
  exact this ⟨d, h⟩

theorem readHex_hex8 {n : Nat} {b : Bytes} (h : n < 2 ^ 32) : readHex 0 8 (hex8 n ++ b) = some (n, b) := by
  have hd : ∀ m : Nat, digitValue (hexDigit (m % 16)) = some (m % 16) := fun m => digit_hex (Nat.mod_lt _ (by decide))
  unfold hex8
  simp only [List.cons_append, List.nil_append, readHex, hd]
  congr 2
  omega

theorem readFields_hex8 : ∀ {l : List Nat} {b : Bytes}, (∀ n ∈ l, n < 2 ^ 32) → readFields l.length ((l.map hex8).flatten ++ b) = some (l, b)
  | [], _, _ => rfl
  | n :: l, b, h => by
    rw [List.map_cons, List.flatten_cons, List.length_cons, List.append_assoc, readFields, readHex_hex8 (h n List.mem_cons_self)]
    dsimp only
    rw [readFields_hex8 (fun x hx => h x (List.mem_cons_of_mem _ hx))]

theorem fileSize_ok {i : Item} {size : Nat} {b : Bytes} (h1 : fileSize i.source = .ok size) (h2 : body size i.source = .ok b) :
    size < 2 ^ 32 ∧ b.length = bodyRoom size ∧ b.take size = (i.source.map Source.contents).getD [] := by
  cases e : i.source with
  | none =>
    rw [e] at h1 h2
    cases h1; cases h2
    exact ⟨by decide, rfl, rfl⟩
  | some s =>
    rw [e] at h1 h2
    unfold fileSize at h1
    by_cases hs : s.size < 2 ^ 32
    · dsimp only at h1
      rw [if_pos hs] at h1
      cases h1
      unfold body at h2
      dsimp only at h2
      by_cases hl : s.contents.length = s.size
      · rw [if_pos hl] at h2
        cases h2
        refine ⟨hs, ?_, ?_⟩
        · rw [List.length_append, padding, List.length_replicate, hl]
          unfold bodyRoom
          omega
        · rw [← hl]; simp
      · rw [if_neg hl] at h2; cases h2
    · dsimp only at h1
      rw [if_neg hs] at h1; cases h1

theorem takeWhile_name {name r : Bytes} (h : 0 ∉ name) : ((name ++ [0] ++ r).take (name.length + 1)).takeWhile (· ≠ 0) = name := by
  have : (name ++ [0] ++ r).take (name.length + 1) = name ++ [0] := by
    rw [List.take_append_of_le_length (by simp)]
    exact List.take_of_length_le (by simp)
  rw [this, List.takeWhile_append_of_pos]
  · simp
  · intro x hx
    simp only [ne_eq, decide_not, Bool.not_eq_eq_eq_not, Bool.not_true, decide_eq_false_iff_not]
    exact fun hh => h (hh ▸ hx)

/-- One entry, followed by anything. -/
theorem unpack_entry {ino ino' n : Nat} {i : Item} {b rest : Bytes} (h : append ino i = .ok (b, ino'))
    (hf : i.mode < 2 ^ 32 ∧ i.mtime < 2 ^ 32 ∧ i.nlink < 2 ^ 32 ∧ 0 ∉ i.name ∧ i.name.length < 4096) : ino' = ino + 1 ∧ unpack (n + 1) (b ++ rest) =
      if i.name = [84, 82, 65, 73, 76, 69, 82, 33, 33, 33] then some [] else (unpack n rest).map (asked ino i :: ·) := by
  obtain ⟨f1, f2, f3, f4, f5⟩ := hf
  unfold append at h
  by_cases hn : i.name.length + 1 < 2 ^ 32
  · rw [if_pos hn] at h
    rcases e1 : fileSize i.source with _ | size
    · rw [e1] at h; cases h
    · rw [e1] at h
      dsimp only at h
      rcases e2 : body size i.source with _ | bd
      · rw [e2] at h; cases h
      · rw [e2] at h
        dsimp only at h
        by_cases hi : ino + 1 < 2 ^ 32
        · rw [if_pos hi] at h
          cases h
          refine ⟨rfl, ?_⟩
          obtain ⟨s1, s2, s3⟩ := fileSize_ok e1 e2
          have hroom : (i.name ++ [0] ++ padding (headerLen + (i.name.length + 1))).length = nameRoom (i.name.length + 1) := by
            simp only [List.length_append, List.length_cons, List.length_nil, padding, List.length_replicate, headerLen, nameRoom]
            omega
          let l : List Nat := [ino, i.mode, 0, 0, i.nlink, i.mtime, size, 0, 0, 0, 0, i.name.length + 1, 0]
          let r : Bytes := (i.name ++ [0] ++ padding (headerLen + (i.name.length + 1))) ++ (bd ++ rest)
          have hb : header ino size (i.name.length + 1) i ++ i.name ++ [0] ++ padding (headerLen + (i.name.length + 1)) ++ bd ++ rest = magic ++ ((l.map hex8).flatten ++ r) := by
            simp only [header, l, r, List.append_assoc]
          have hfields : readFields 13 ((l.map hex8).flatten ++ r) = some (l, r) :=
            readFields_hex8 (l := l) (fun n hn => by
              simp only [l, List.mem_cons, List.not_mem_nil, or_false] at hn
              omega)
          rw [hb, unpack]
          have ht : (magic ++ ((l.map hex8).flatten ++ r)).take 6 = [48, 55, 48, 55, 48, 49] := List.take_left' rfl
          have hdr : (magic ++ ((l.map hex8).flatten ++ r)).drop 6 = (l.map hex8).flatten ++ r := List.drop_left' rfl
          rw [if_pos ht, hdr, hfields]
          dsimp only [l]
          have hlen : ¬ r.length < nameRoom (i.name.length + 1) + bodyRoom size := by
            have : r.length = nameRoom (i.name.length + 1) + (bodyRoom size + rest.length) := by
              simp only [r]
              rw [List.length_append, hroom, List.length_append, s2]
            omega
          have hname : (r.take (i.name.length + 1)).takeWhile (· ≠ 0) = i.name := by
            simp only [r]
            rw [List.append_assoc (i.name ++ [0])]
            exact takeWhile_name f4
          have hd1 : r.drop (nameRoom (i.name.length + 1)) = bd ++ rest := List.drop_left' hroom
          have hd2 : r.drop (nameRoom (i.name.length + 1) + bodyRoom size) = rest := by
            rw [← List.drop_drop, hd1]
            exact List.drop_left' s2
          have hbody : (bd ++ rest).take size = (i.source.map Source.contents).getD [] := by
            rw [List.take_append_of_le_length (by rw [s2]; unfold bodyRoom; omega), s3]
          rw [if_neg hlen, if_neg (by omega), hname, hd1, hd2, hbody]
          rfl
        · rw [if_neg hi] at h; cases h
  · rw [if_neg hn] at h; cases h

/-- A kernel makes, from an archive that was written without an error, exactly the entries that were asked for, in their order, with numbers one after the other. -/
theorem C119_round_trip_partial {is : List Item} {ino : Nat} {b : Bytes} (h : build ino is = .ok b) (hf : ∀ i ∈ is, Fits i) (rest : Bytes) {n : Nat} (hn : is.length < n) :
    unpack n (b ++ rest) = some ((is.zipIdx ino).map fun p => asked p.2 p.1) := by
  induction is generalizing ino b n with
  | nil =>
    obtain ⟨n, rfl⟩ : ∃ m, n = m + 1 := ⟨n - 1, by simp only [List.length_nil] at hn; omega⟩
    unfold build at h
    rcases e : append ino trailer with _ | ⟨b', ino'⟩
    · rw [e] at h; cases h
    · rw [e] at h
      cases h
      rw [(unpack_entry e (by decide)).2]
      rfl
  | cons i is ih =>
    obtain ⟨n, rfl⟩ : ∃ m, n = m + 1 := ⟨n - 1, by simp only [List.length_cons] at hn; omega⟩
    unfold build at h
    rcases e : append ino i with _ | ⟨b', ino'⟩
    · rw [e] at h; cases h
    · rw [e] at h
      dsimp only at h
      rcases e2 : build ino' is with _ | bs
      · rw [e2] at h; cases h
      · rw [e2] at h
        cases h
        obtain ⟨f1, f2, f3, f4, f5, f6⟩ := hf i List.mem_cons_self
        obtain ⟨rfl, hu⟩ := unpack_entry (n := n) (rest := bs ++ rest) e ⟨f1, f2, f3, f4, f5⟩
        rw [List.append_assoc, hu, if_neg f6,
          ih e2 (fun x hx => hf x (List.mem_cons_of_mem _ hx)) (by simp only [List.length_cons] at hn; omega)]
        rfl

/-- It is written without an error if and only if files do not change while they are copied, sizes and lengths of names have 32 bits and there are fewer than 2³² entries, with the trailer. -/
theorem C119_written (is : List Item) : (∃ b, build 0 is = .ok b) ↔ (∀ i ∈ is, Steady i ∧ i.name.length + 1 < 2 ^ 32) ∧ is.length + 1 < 2 ^ 32 := by
  have ha : ∀ (ino : Nat) (i : Item), (∃ p, append ino i = .ok p) ↔ (Steady i ∧ i.name.length + 1 < 2 ^ 32) ∧ ino + 1 < 2 ^ 32 := by
    intro ino i
    unfold append Steady
    by_cases hn : i.name.length + 1 < 2 ^ 32
    · rw [if_pos hn]
      cases e : i.source with
      | none =>
        by_cases hi : ino + 1 < 2 ^ 32
        · simp [fileSize, body, hi, hn]
        · simp [fileSize, body, hi]
      | some s =>
        by_cases hs : s.size < 2 ^ 32
        · by_cases hl : s.contents.length = s.size
          · by_cases hi : ino + 1 < 2 ^ 32
            · simp [fileSize, body, hs, hl, hi, hn]
            · simp [fileSize, body, hs, hl, hi]
          · simp [fileSize, body, hs, hl, Ne.symm hl]
        · simp [fileSize, hs]
    · rw [if_neg hn]
      simp [hn]
  have key : ∀ (is : List Item) (ino : Nat), (∃ b, build ino is = .ok b) ↔ (∀ i ∈ is, Steady i ∧ i.name.length + 1 < 2 ^ 32) ∧ ino + is.length + 1 < 2 ^ 32 := by
    intro is
    induction is with
    | nil =>
      intro ino
      have := ha ino trailer
      have ht : Steady trailer ∧ trailer.name.length + 1 < 2 ^ 32 := ⟨fun s hs => (by cases hs), by decide⟩
      unfold build
      rcases e : append ino trailer with x | p
      · rw [e] at this
        have hno : ¬ ino + 1 < 2 ^ 32 := fun hh => by obtain ⟨p, hp⟩ := this.2 ⟨ht, hh⟩; cases hp
        simpa using hno
      · have hi := (this.1 ⟨p, e⟩).2
        simpa using hi
    | cons i is ih =>
      intro ino
      have hi := ha ino i
      unfold build
      rcases e : append ino i with x | ⟨b, ino'⟩
      · rw [e] at hi
        dsimp only
        constructor
        · rintro ⟨b, hb⟩; cases hb
        · rintro ⟨h1, h2⟩
          obtain ⟨p, hp⟩ := hi.2 ⟨h1 i List.mem_cons_self, by simp only [List.length_cons] at h2; omega⟩
          cases hp
      · have hino : ino' = ino + 1 := by
          unfold append at e
          split at e
          · split at e
            · cases e
            · split at e
              · cases e
              · split at e
                · cases e; rfl
                · cases e
          · cases e
        have hh := hi.1 ⟨_, e⟩
        dsimp only
        have ih' := ih ino'
        rw [hino] at ih' ⊢
        rcases e2 : build (ino + 1) is with x | bs
        · rw [e2] at ih'
          dsimp only
          constructor
          · rintro ⟨b, hb⟩; cases hb
          · rintro ⟨h1, h2⟩
            obtain ⟨p, hp⟩ := ih'.2 ⟨fun x hx => h1 x (List.mem_cons_of_mem _ hx), by simp only [List.length_cons] at h2; omega⟩
            cases hp
        · have h3 := ih'.1 ⟨bs, e2⟩
          refine iff_of_true ⟨_, rfl⟩ ⟨fun x hx => ?_, by simp only [List.length_cons]; omega⟩
          rcases List.mem_cons.1 hx with rfl | hx
          · exact hh.1
          · exact h3.1 x hx
  have := key is 0
  rwa [Nat.zero_add] at this

/-- An entry with the name of the trailer hides itself and everything after it, though the archive is written without an error. -/
theorem C119_trailer_violated {ino : Nat} {b : Bytes} {i : Item} {is : List Item} (h : build ino (i :: is) = .ok b) (hm : i.mode < 2 ^ 32 ∧ i.mtime < 2 ^ 32 ∧ i.nlink < 2 ^ 32)
    (hn : i.name = [84, 82, 65, 73, 76, 69, 82, 33, 33, 33]) (n : Nat) : unpack (n + 1) b = some [] := by
  unfold build at h
  rcases e : append ino i with _ | ⟨b', ino'⟩
  · rw [e] at h; cases h
  · rw [e] at h
    dsimp only at h
    rcases e2 : build ino' is with _ | bs
    · rw [e2] at h; cases h
    · rw [e2] at h
      cases h
      rw [(unpack_entry e ⟨hm.1, hm.2.1, hm.2.2, by rw [hn]; decide, by rw [hn]; decide⟩).2, if_pos hn]

end Verif.Cpio
