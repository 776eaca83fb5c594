import Verif.Netlink.Props

/-!
# Receiving replies (C40, C41) and finding filters by name (C59)
-/
set_option linter.unusedSimpArgs false
set_option linter.unusedVariables false
namespace Verif.Netlink
open Verif.Bytes
open Verif.Netlink.Spec (pad Reads KMsg Holds Parts contents)

/-! ## Arbitrary bytes -/

/-- An error message always comes with its error. -/
theorem readMsg_error (buf : Bytes) (m : Msg) (n : Nat) (h : readMsg buf = some (m, n))
    (ht : m.ty = 2) : m.error ≠ none := by
  rw [readMsg] at h
  simp only [] at h
  repeat' split at h
  all_goals first
    | (cases h; done)
    | (injection h with h; injection h with h1 h2; subst h1; simp at *; try omega)

theorem datagramFuel_no_panic : ∀ (fuel : Nat) (buf : Bytes) (mp : Bool),
    (datagramFuel fuel buf mp).2 ≠ .panic
  | 0, buf, mp => by simp [datagramFuel]
  | fuel + 1, buf, mp => by
    rw [datagramFuel]
    split
    · simp
    · cases hr : readMsg buf with
      | none => simp
      | some p =>
        rcases p with ⟨m, n⟩
        simp only []
        split
        · rename_i ht
          have := readMsg_error buf m n hr ht
          cases he : m.error with
          | none => exact absurd he this
          | some e =>
            simp only []
            split
            · exact datagramFuel_no_panic fuel _ _
            · simp
        · split
          · simp
          · exact datagramFuel_no_panic fuel _ _

/-- **C40.** Whatever bytes are received, in whatever datagrams, receiving never panics. -/
theorem C40_recv_no_panic (input : List (Except Nat Bytes)) : (recv input).2.1 ≠ .panic := by
  have key : ∀ (input : List (Except Nat Bytes)) (mp : Bool), (recvFrom input mp).2.1 ≠ .panic := by
    intro input
    induction input with
    | nil => intro mp; cases mp <;> simp [recvFrom]
    | cons d ds ih =>
      intro mp
      cases d with
      | error e => rw [recvFrom]; split <;> simp
      | ok d =>
        rw [recvFrom]
        split
        · simp
        · split
          · simp
          · have := datagramFuel_no_panic (d.take 4096).length (d.take 4096) mp
            rw [← datagram] at this
            cases hd : (datagram (d.take 4096) mp).2 with
            | more b => simp only []; exact ih b
            | over => simp
            | failed e => simp
            | panic => exact absurd hd this
  exact key input true

theorem readMsg_slice (buf : Bytes) (m : Msg) (n : Nat) (h : readMsg buf = some (m, n)) :
    16 ≤ n ∧ n ≤ buf.length ∧ ∃ k, 16 ≤ k ∧ k ≤ n ∧ m.data = (buf.take n).drop k := by
  rw [readMsg] at h
  simp only [] at h
  split at h
  · cases h
  · split at h
    · cases h
    · split at h
      · cases h
      · rename_i h1 h2 h3
        simp only [nlmsgHdrLen] at h1 h2 h3
        split at h
        · split at h
          · cases h
          · rename_i h5
            injection h with h; injection h with e1 e2
            subst e1; subst e2
            simp only [List.length_drop, List.length_take, nlmsgHdrLen] at h5
            refine ⟨by omega, by omega, 36, by omega, ?_, by simp [List.drop_drop, nlmsgHdrLen]⟩
            omega
        · injection h with h; injection h with e1 e2
          subst e1; subst e2
          exact ⟨by omega, by omega, 16, by omega, by omega, rfl⟩

theorem datagramFuel_slice : ∀ (fuel : Nat) (buf : Bytes) (mp : Bool), ∀ m ∈ (datagramFuel fuel buf mp).1,
    ∃ a b, a + 16 ≤ b ∧ b ≤ buf.length ∧ (∃ k, 16 ≤ k ∧ a + k ≤ b ∧ m.data = (buf.take b).drop (a + k))
  | 0, buf, mp => by simp [datagramFuel]
  | fuel + 1, buf, mp => by
    have shift : ∀ (n : Nat) (m : Msg), (∃ a b, a + 16 ≤ b ∧ b ≤ (buf.drop n).length ∧
        (∃ k, 16 ≤ k ∧ a + k ≤ b ∧ m.data = ((buf.drop n).take b).drop (a + k))) →
        ∃ a b, a + 16 ≤ b ∧ b ≤ buf.length ∧
        (∃ k, 16 ≤ k ∧ a + k ≤ b ∧ m.data = (buf.take b).drop (a + k)) := by
      intro n m ⟨a, b, h1, h2, k, h3, h4, h5⟩
      simp only [List.length_drop] at h2
      refine ⟨n + a, n + b, by omega, by omega, k, h3, by omega, ?_⟩
      rw [h5, List.take_drop, List.drop_drop]
      congr 1; omega
    intro m hm
    rw [datagramFuel] at hm
    split at hm
    · simp at hm
    · cases hr : readMsg buf with
      | none => simp [hr] at hm
      | some p =>
        rcases p with ⟨m', n⟩
        simp only [hr] at hm
        split at hm
        · cases he : m'.error with
          | none => simp [he] at hm
          | some e =>
            simp only [he] at hm
            split at hm
            · exact shift _ _ (datagramFuel_slice fuel _ _ m hm)
            · simp at hm
        · split at hm
          · simp at hm
          · simp only [List.mem_cons] at hm
            rcases hm with hm | hm
            · subst hm
              obtain ⟨h1, h2, k, h3, h4, h5⟩ := readMsg_slice buf m n hr
              exact ⟨0, n, by omega, h2, k, h3, by omega, by simpa using h5⟩
            · exact shift _ _ (datagramFuel_slice fuel _ _ m hm)

/-- **C40.** Whatever bytes are received, every message handed out is a slice of one of the datagrams,
behind its header. -/
theorem C40_recv_slices (input : List (Except Nat Bytes)) : ∀ m ∈ (recv input).1,
    ∃ d, .ok d ∈ input ∧ ∃ start stop, 16 ≤ start ∧ start ≤ stop ∧ stop ≤ d.length ∧
      m.data = (d.take stop).drop start := by
  have key : ∀ (input : List (Except Nat Bytes)) (mp : Bool), ∀ m ∈ (recvFrom input mp).1,
      ∃ d, .ok d ∈ input ∧ ∃ start stop, 16 ≤ start ∧ start ≤ stop ∧ stop ≤ d.length ∧
      m.data = (d.take stop).drop start := by
    intro input
    induction input with
    | nil => intro mp m hm; cases mp <;> simp [recvFrom] at hm
    | cons d ds ih =>
      intro mp m hm
      have later : m ∈ (recvFrom ds true).1 ∨ m ∈ (recvFrom ds false).1 →
          ∃ d', .ok d' ∈ d :: ds ∧ ∃ start stop, 16 ≤ start ∧ start ≤ stop ∧ stop ≤ d'.length ∧
          m.data = (d'.take stop).drop start := by
        intro h
        have : ∃ d', .ok d' ∈ ds ∧ ∃ start stop, 16 ≤ start ∧ start ≤ stop ∧ stop ≤ d'.length ∧
          m.data = (d'.take stop).drop start := by
          rcases h with h | h <;> exact ih _ m h
        obtain ⟨d', h1, h2⟩ := this
        exact ⟨d', by simp [h1], h2⟩
      cases d with
      | error e => rw [recvFrom] at hm; split at hm <;> simp at hm
      | ok d =>
        rw [recvFrom] at hm
        split at hm
        · simp at hm
        · split at hm
          · simp at hm
          · have here : m ∈ (datagram (d.take 4096) mp).1 →
              ∃ d', .ok d' ∈ (.ok d : Except Nat Bytes) :: ds ∧ ∃ start stop, 16 ≤ start ∧ start ≤ stop ∧
              stop ≤ d'.length ∧ m.data = (d'.take stop).drop start := by
              intro h
              obtain ⟨a, b, h1, h2, k, h3, h4, h5⟩ := datagramFuel_slice _ _ _ m h
              simp only [List.length_take] at h2
              refine ⟨d, by simp, a + k, b, by omega, h4, by omega, ?_⟩
              rw [h5, List.take_take]
              congr 2; omega
            cases hd : (datagram (d.take 4096) mp).2 with
            | more b =>
              simp only [hd, List.mem_append] at hm
              rcases hm with hm | hm
              · exact here hm
              · cases b
                · exact later (.inr hm)
                · exact later (.inl hm)
            | over => simp only [hd] at hm; exact here hm
            | failed e => simp only [hd] at hm; exact here hm
            | panic => simp only [hd] at hm; exact here hm
  exact key input true

/-! ## Well-formed replies -/

theorem KMsg.bytes_length (m : KMsg) : m.bytes.length = 16 + m.body.length := by
  simp [Spec.KMsg.bytes, Spec.message]; omega

theorem drop_le (k n : Nat) (v : Nat) (rest : Bytes) : (le k v ++ rest).drop (k + n) = rest.drop n := by
  rw [← List.drop_drop, List.drop_append_of_le_length (by simp),
    List.drop_of_length_le (l := le k v) (by simp)]
  rfl

theorem take_le (k v : Nat) (rest : Bytes) (h : v < 256 ^ k) : ofLe ((le k v ++ rest).take k) = v := by
  rw [List.take_append_of_le_length (by simp), List.take_of_length_le (by simp), ofLe_le_of_lt k v h]

/-- A message of the format is read as it was written. -/
theorem readMsg_bytes (m : KMsg) (hm : m.Ok) (x : Bytes) :
    readMsg (m.bytes ++ x) =
      if m.ty = 2 then
        if m.body.length < 20 then none
        else some (⟨m.ty, m.flags, m.seq, m.pid, m.body.drop 20, some (i32OfBytes (m.body.take 4))⟩,
          16 + m.body.length)
      else some (m.view, 16 + m.body.length) := by
  obtain ⟨h1, h2, h3, h4, h5⟩ := hm
  have hl := KMsg.bytes_length m
  have hb : m.bytes ++ x = le 4 (16 + m.body.length) ++ (le 2 m.ty ++ (le 2 m.flags ++ (le 4 m.seq ++
      (le 4 m.pid ++ (m.body ++ x))))) := by simp [Spec.KMsg.bytes, Spec.message]
  have e0 : ofLe ((m.bytes ++ x).take 4) = 16 + m.body.length := by
    rw [hb, take_le 4 _ _ (by omega)]
  have e4 : ofLe (((m.bytes ++ x).drop 4).take 2) = m.ty := by
    rw [hb, drop_le 4 0, List.drop_zero, take_le 2 _ _ (by omega)]
  have e6 : ofLe (((m.bytes ++ x).drop 6).take 2) = m.flags := by
    rw [hb, drop_le 4 2, drop_le 2 0, List.drop_zero, take_le 2 _ _ (by omega)]
  have e8 : ofLe (((m.bytes ++ x).drop 8).take 4) = m.seq := by
    rw [hb, drop_le 4 4, drop_le 2 2, drop_le 2 0, List.drop_zero, take_le 4 _ _ (by omega)]
  have e12 : ofLe (((m.bytes ++ x).drop 12).take 4) = m.pid := by
    rw [hb, drop_le 4 8, drop_le 2 6, drop_le 2 4, drop_le 4 0, List.drop_zero, take_le 4 _ _ (by omega)]
  have e16 : ((m.bytes ++ x).take (16 + m.body.length)).drop 16 = m.body := by
    rw [← hl, List.take_left]
    have : m.bytes = le 4 (16 + m.body.length) ++ (le 2 m.ty ++ (le 2 m.flags ++ (le 4 m.seq ++
      (le 4 m.pid ++ m.body)))) := by simp [Spec.KMsg.bytes, Spec.message]
    rw [this, drop_le 4 12, drop_le 2 10, drop_le 2 8, drop_le 4 4, drop_le 4 0, List.drop_zero]
  rw [readMsg, if_neg (by simp [hl, nlmsgHdrLen]; omega)]
  simp only [e0, e4, e6, e8, e12, nlmsgHdrLen, e16]
  rw [if_neg (by omega), if_neg (by simp [hl])]
  rfl

theorem bytes_ne_nil (m : KMsg) (x : Bytes) : m.bytes ++ x ≠ [] := by
  intro h
  have := congrArg List.length h
  rw [List.length_append, KMsg.bytes_length] at this
  simp at this

instance (m : KMsg) : Decidable m.Multi := inferInstanceAs (Decidable (_ = _))

theorem multi_iff (m : KMsg) : (m.flags &&& 2 != 0) = decide m.Multi := by
  have := and_two_pow_ne_zero m.flags 1
  have h2 : (m.flags &&& 2 != 0) = true ↔ m.Multi := by
    simp only [bne_iff_ne]
    exact this
  by_cases h : m.Multi
  · rw [h2.2 h]; simp [h]
  · rw [Bool.eq_false_iff.2 (fun h' => h (h2.1 h'))]; simp [h]

/-- Whether the latest message announced more. -/
def lastMulti (ms : List KMsg) (mp : Bool) : Bool := ms.foldl (fun _ m => m.flags &&& 2 != 0) mp

theorem ack_zero (m : KMsg) (h : m.Ack) : i32OfBytes (m.body.take 4) = 0 := by
  rw [h.2.2]; decide

/-- The messages with contents and the acknowledgements at the front of a datagram. -/
theorem datagram_front : ∀ (ms tail : List KMsg) (d : Bytes) (fuel : Nat) (mp : Bool),
    Holds (ms ++ tail) d → d.length ≤ fuel → (∀ m ∈ ms, m.Data ∨ m.Ack) →
    ∃ d' fuel', Holds tail d' ∧ d'.length ≤ fuel' ∧
      datagramFuel fuel d mp = (contents ms ++ (datagramFuel fuel' d' (lastMulti ms mp)).1,
        (datagramFuel fuel' d' (lastMulti ms mp)).2)
  | [], tail, d, fuel, mp, h, hf, hm => ⟨d, fuel, h, hf, by simp [contents, lastMulti]⟩
  | m :: ms, tail, d, fuel, mp, h, hf, hall => by
    have hm := hall m (by simp)
    have hms : ∀ m ∈ ms, m.Data ∨ m.Ack := fun x hx => hall x (by simp [hx])
    -- the rest of the datagram behind this message
    have hsplit : ∃ x d1, d = m.bytes ++ x ∧ m.Ok ∧ Holds (ms ++ tail) d1 ∧
        d.drop (align (16 + m.body.length)) = d1 := by
      have hpad : pad (16 + m.body.length) = pad m.body.length := by unfold pad; omega
      generalize hl : (m :: ms) ++ tail = l at h
      cases h with
      | nil => simp at hl
      | last m' p hm' hp =>
        injection hl with e1 e2
        subst e1
        refine ⟨p, [], rfl, hm', ?_, ?_⟩
        · have e2' : ms ++ tail = [] := e2
          rw [e2']; exact .nil
        · rw [List.drop_eq_nil_iff, align_eq, hpad, List.length_append, KMsg.bytes_length]; omega
      | cons m' p ms' b hm' hp h' =>
        injection hl with e1 e2
        subst e1; subst e2
        refine ⟨p ++ b, b, by simp, hm', h', ?_⟩
        rw [align_eq, hpad]
        have : 16 + m.body.length + pad m.body.length = (m.bytes ++ p).length := by
          rw [List.length_append, KMsg.bytes_length, hp]
        rw [this, List.drop_left]
    obtain ⟨x, d1, hd, hok, hd1, hdrop⟩ := hsplit
    have hlen1 : d1.length + 16 ≤ d.length := by
      rw [← hdrop, hd]
      simp only [List.length_drop, List.length_append, KMsg.bytes_length, align_eq]; omega
    cases fuel with
    | zero => omega
    | succ fuel =>
      obtain ⟨d', fuel', h1, h2, h3⟩ := datagram_front ms tail d1 fuel (m.flags &&& 2 != 0) hd1
        (by omega) hms
      refine ⟨d', fuel', h1, h2, ?_⟩
      have hlm : lastMulti (m :: ms) mp = lastMulti ms (m.flags &&& 2 != 0) := rfl
      rw [hlm, datagramFuel, if_neg (by rw [hd]; exact bytes_ne_nil m x)]
      have hr : readMsg d = readMsg (m.bytes ++ x) := by rw [hd]
      rw [hr, readMsg_bytes m hok]
      rcases hm with hm | hm
      · rw [if_neg hm.1]
        simp only [Spec.KMsg.view, hm.1, hm.2, if_false, hdrop, h3]
        have : contents (m :: ms) = m.view :: contents ms := by
          simp [contents, hm.1]
        rw [this]
        rfl
      · have hb := hm.2.1
        rw [if_pos hm.1, if_neg (by omega)]
        simp only [hm.1, if_true, ack_zero m hm, hdrop, h3]
        have : contents (m :: ms) = contents ms := by
          simp [contents, hm.1]
        rw [this]

theorem lastMulti_append (ms : List KMsg) (m : KMsg) (mp : Bool) :
    lastMulti (ms ++ [m]) mp = (m.flags &&& 2 != 0) := by
  simp [lastMulti, List.foldl_append]

theorem contents_append (a b : List KMsg) : contents (a ++ b) = contents a ++ contents b := by
  simp [contents]

theorem take_all (d : Bytes) (h : d.length ≤ 4096) : d.take 4096 = d := List.take_of_length_le h

theorem holds_ne_nil {ms : List KMsg} {d : Bytes} (h : Holds ms d) (hne : ms ≠ []) : d.length ≠ 0 := by
  cases h with
  | nil => exact absurd rfl hne
  | last m p => simp [KMsg.bytes_length]
  | cons m p => simp [KMsg.bytes_length]

/-- The parts of a reply that announce more are received in full, and receiving goes on. -/
theorem recv_parts {mss : List (List KMsg)} {ds : List (Except Nat Bytes)} (h : Parts mss ds)
    (more : List (Except Nat Bytes)) :
    recvFrom (ds ++ more) true = (contents mss.flatten ++ (recvFrom more true).1,
      (recvFrom more true).2.1, (recvFrom more true).2.2 + ds.length) := by
  induction h with
  | nil => simp [contents]
  | cons ms m d mss ds hd hlen hms hmulti h ih =>
    rw [List.cons_append, recvFrom, if_neg (by simp)]
    simp only [take_all d hlen]
    rw [if_neg (holds_ne_nil hd (by simp))]
    have hd' : Holds ((ms ++ [m]) ++ []) d := by simpa using hd
    obtain ⟨d', fuel', h1, h2, h3⟩ := datagram_front (ms ++ [m]) [] d d.length true hd' (Nat.le_refl _) hms
    have hd0 : d' = [] := by
      generalize hl : ([] : List KMsg) = l at h1
      cases h1 with
      | nil => rfl
      | last => cases hl
      | cons => cases hl
    subst hd0
    have h4 : ∀ mp, datagramFuel fuel' [] mp = ([], .more mp) := by
      intro mp; cases fuel' <;> simp [datagramFuel]
    rw [h4, lastMulti_append, multi_iff] at h3
    simp only [hmulti, decide_true, List.append_nil] at h3
    rw [datagram, h3]
    simp only [ih, List.flatten_cons, List.length_cons]
    rw [contents_append (ms ++ [m]), List.append_assoc, Nat.add_assoc]

/-- **C41.** A multi-part reply: however the kernel spreads the messages over datagrams (each at most
4096 bytes), all messages with contents are handed out in order, and the reply ends with the `DONE`
message; what follows it and further datagrams are not looked at. -/
theorem C41_multipart_partial (mss : List (List KMsg)) (ds : List (Except Nat Bytes)) (h : Parts mss ds)
    (ms junk : List KMsg) (done : KMsg) (d : Bytes) (hd : Holds (ms ++ done :: junk) d)
    (hlen : d.length ≤ 4096) (hms : ∀ x ∈ ms, x.Data ∨ x.Ack) (hdone : done.ty = 3)
    (more : List (Except Nat Bytes)) :
    recv (ds ++ .ok d :: more) = (contents (mss.flatten ++ ms), .over, ds.length + 1) := by
  rw [recv, recv_parts h, recvFrom, if_neg (by simp)]
  simp only [take_all d hlen]
  rw [if_neg (holds_ne_nil hd (by simp))]
  obtain ⟨d', fuel', h1, h2, h3⟩ := datagram_front ms (done :: junk) d d.length true hd (Nat.le_refl _) hms
  have h4 : ∀ mp, datagramFuel fuel' d' mp = ([], .over) := by
    intro mp
    have : ∃ x, d' = done.bytes ++ x ∧ done.Ok := by
      generalize hl : done :: junk = l at h1
      cases h1 with
      | nil => cases hl
      | last m p hm hp => injection hl with e1 e2; subst e1; exact ⟨p, rfl, hm⟩
      | cons m p ms' b hm hp h' => injection hl with e1 e2; subst e1; exact ⟨p ++ b, by simp, hm⟩
    obtain ⟨x, hx, hok⟩ := this
    cases fuel' with
    | zero => rw [hx] at h2; simp [KMsg.bytes_length] at h2
    | succ f =>
      rw [datagramFuel, if_neg (by rw [hx]; exact bytes_ne_nil done x), hx, readMsg_bytes done hok,
        if_neg (by omega)]
      simp [Spec.KMsg.view, hdone]
  rw [h4] at h3
  simp only [List.append_nil] at h3
  rw [datagram, h3]
  simp only [contents_append, Nat.add_comm]

/-- **C41.** A reply that is not multi-part, or whose last message does not announce more: all messages
with contents are handed out in order, acknowledgements are dropped, and the reply ends with the
datagram. -/
theorem C41_last_datagram_partial (mss : List (List KMsg)) (ds : List (Except Nat Bytes)) (h : Parts mss ds)
    (ms : List KMsg) (m : KMsg) (d : Bytes) (hd : Holds (ms ++ [m]) d)
    (hlen : d.length ≤ 4096) (hms : ∀ x ∈ ms ++ [m], x.Data ∨ x.Ack) (hm : ¬ m.Multi)
    (more : List (Except Nat Bytes)) :
    recv (ds ++ .ok d :: more) = (contents (mss.flatten ++ (ms ++ [m])), .over, ds.length + 1) := by
  rw [recv, recv_parts h, recvFrom, if_neg (by simp)]
  simp only [take_all d hlen]
  rw [if_neg (holds_ne_nil hd (by simp))]
  have hd' : Holds ((ms ++ [m]) ++ []) d := by simpa using hd
  obtain ⟨d', fuel', h1, h2, h3⟩ := datagram_front (ms ++ [m]) [] d d.length true hd' (Nat.le_refl _) hms
  have hd0 : d' = [] := by
    generalize hl : ([] : List KMsg) = l at h1
    cases h1 with
    | nil => rfl
    | last => cases hl
    | cons => cases hl
  subst hd0
  have h4 : ∀ mp, datagramFuel fuel' [] mp = ([], .more mp) := by
    intro mp; cases fuel' <;> simp [datagramFuel]
  rw [h4, lastMulti_append, multi_iff] at h3
  simp only [hm, decide_false, List.append_nil] at h3
  have h5 : recvFrom more false = ([], .over, 0) := by
    cases more <;> simp [recvFrom]
  rw [datagram, h3]
  simp only [h5, contents_append mss.flatten, List.append_nil, Nat.add_comm, Nat.zero_add]

/-- **C41.** A reply that is only an acknowledgement: no messages and no error. -/
theorem C41_ack (m : KMsg) (d : Bytes) (hd : Holds [m] d) (hlen : d.length ≤ 4096) (hm : m.Ack)
    (hmu : ¬ m.Multi) (more : List (Except Nat Bytes)) :
    recv (.ok d :: more) = ([], .over, 1) ∧ simpleReply (.ok d :: more) = .ok () := by
  have := C41_last_datagram_partial [] [] .nil [] m d hd hlen (by simpa using .inr hm) hmu more
  have h1 : recv (.ok d :: more) = ([], .over, 1) := by
    simpa [contents, hm.1] using this
  exact ⟨h1, by rw [simpleReply, h1]⟩

/-- **C41.** A reply that is not finished is not taken to be over: after any number of datagrams that
announce more, with nothing more there yet, all messages so far have been yielded and the receiver waits. -/
theorem C41_waits_partial (mss : List (List KMsg)) (ds : List (Except Nat Bytes)) (h : Parts mss ds) :
    recv ds = (contents mss.flatten, .blocked, ds.length) ∧ simpleReply ds = .error .stuck := by
  have h1 : recv ds = (contents mss.flatten, .blocked, ds.length) := by
    have := recv_parts h []
    simpa [recv, recvFrom] using this
  exact ⟨h1, by rw [simpleReply, h1]⟩

/-- The texts among the attributes of an error message: those of type `NLMSGERR_ATTR_MSG` (1). -/
def textsOf (as : List (Nat × Bytes)) : List Bytes :=
  (as.filter (fun a => a.1 % 2 ^ 14 = 1)).map (·.2)

/-- The attributes of an error message, each text followed by its terminator. -/
def withNul (as : List (Nat × Bytes)) : List (Nat × Bytes) :=
  as.map (fun a => if a.1 % 2 ^ 14 = 1 then (a.1, a.2 ++ [0]) else a)

theorem cstr_ok (t : Bytes) (h : (0 : UInt8) ∉ t) : cstrFromBytesWithNul (t ++ [0]) = some t := by
  rw [cstrFromBytesWithNul, if_pos (by simp [h])]
  simp

theorem kind_eq (a : Attr) : a.kind = a.ty % 2 ^ 14 := by
  rw [Attr.kind, show 0x3fff = 2 ^ 14 - 1 from rfl, Nat.and_two_pow_sub_one_eq_mod]

theorem errorTexts_ok : ∀ (as : List (Nat × Bytes)), (∀ a ∈ as, a.1 % 2 ^ 14 = 1 → (0 : UInt8) ∉ a.2) →
    errorTexts (asAttrs (withNul as)) = .ok (textsOf as)
  | [], _ => rfl
  | a :: as, h => by
    have ih := errorTexts_ok as (fun x hx => h x (by simp [hx]))
    by_cases hk : a.1 % 2 ^ 14 = 1
    · have e : asAttrs (withNul (a :: as)) = ⟨a.1, a.2 ++ [0]⟩ :: asAttrs (withNul as) := by
        simp only [asAttrs, withNul, List.map_cons, hk, if_true]
      rw [e, errorTexts, if_neg (by rw [kind_eq]; simpa using hk)]
      simp only [cstr_ok a.2 (h a (by simp) hk), ih]
      have : textsOf (a :: as) = a.2 :: textsOf as := by simp [textsOf, hk]
      rw [this]
    · have e : asAttrs (withNul (a :: as)) = ⟨a.1, a.2⟩ :: asAttrs (withNul as) := by
        simp only [asAttrs, withNul, List.map_cons, hk, if_false]
      rw [e, errorTexts, if_pos (by rw [kind_eq]; exact hk), ih]
      have : textsOf (a :: as) = textsOf as := by simp [textsOf, hk]
      rw [this]

theorem reads_attrList : ∀ (as : List (Nat × Bytes)), (∀ a ∈ as, a.1 < 2 ^ 16 ∧ 4 + a.2.length < 2 ^ 16) →
    Reads (Spec.attrList as) (asAttrs as) none
  | [], _ => .nil
  | a :: as, h => by
    have ih := reads_attrList as (fun x hx => h x (by simp [hx]))
    have := Reads.attr a.1 a.2 (List.replicate (pad a.2.length) 0) (Spec.attrList as) _ _
      (h a (by simp)).1 (h a (by simp)).2 (by simp) ih
    simpa [Spec.attrList, Spec.attr, asAttrs] using this

theorem i32_roundtrip (e : Int) (h1 : -2 ^ 31 ≤ e) (h2 : e < 2 ^ 31) :
    i32OfBytes (le 4 (Spec.u32 e)) = e := by
  have hlt : Spec.u32 e < 256 ^ 4 := by
    unfold Spec.u32; omega
  rw [i32OfBytes, ofLe_le_of_lt 4 _ hlt]
  unfold Spec.u32
  split <;> omega

/-- **C41.** An error reported by the kernel is reported as that error, with the texts the kernel
attached, after all the messages before it. -/
theorem C41_error_partial (mss : List (List KMsg)) (ds : List (Except Nat Bytes)) (h : Parts mss ds)
    (ms junk : List KMsg) (err : KMsg) (d : Bytes) (hd : Holds (ms ++ err :: junk) d)
    (hlen : d.length ≤ 4096) (hms : ∀ x ∈ ms, x.Data ∨ x.Ack)
    (errno : Int) (req : Bytes) (as : List (Nat × Bytes))
    (herr : err.ty = 2) (hreq : req.length = 16) (he : errno ≠ 0) (he1 : -2 ^ 31 ≤ errno)
    (he2 : errno < 2 ^ 31)
    (hbody : err.body = le 4 (Spec.u32 errno) ++ req ++ Spec.attrList (withNul as))
    (has : ∀ a ∈ as, a.1 < 2 ^ 16 ∧ 5 + a.2.length < 2 ^ 16 ∧ (a.1 % 2 ^ 14 = 1 → (0 : UInt8) ∉ a.2))
    (more : List (Except Nat Bytes)) :
    recv (ds ++ .ok d :: more)
      = (contents (mss.flatten ++ ms), .failed (.kernel (-errno) (textsOf as)), ds.length + 1) := by
  rw [recv, recv_parts h, recvFrom, if_neg (by simp)]
  simp only [take_all d hlen]
  rw [if_neg (holds_ne_nil hd (by simp))]
  obtain ⟨d', fuel', h1, h2, h3⟩ := datagram_front ms (err :: junk) d d.length true hd (Nat.le_refl _) hms
  have h4 : ∀ mp, datagramFuel fuel' d' mp = ([], .failed (.kernel (-errno) (textsOf as))) := by
    intro mp
    have : ∃ x, d' = err.bytes ++ x ∧ err.Ok := by
      generalize hl : err :: junk = l at h1
      cases h1 with
      | nil => cases hl
      | last m p hm hp => injection hl with e1 e2; subst e1; exact ⟨p, rfl, hm⟩
      | cons m p ms' b hm hp h' => injection hl with e1 e2; subst e1; exact ⟨p ++ b, by simp, hm⟩
    obtain ⟨x, hx, hok⟩ := this
    have hb4 : err.body.take 4 = le 4 (Spec.u32 errno) := by
      rw [hbody, List.append_assoc, List.take_append_of_le_length (by simp),
        List.take_of_length_le (by simp)]
    have hb20 : err.body.drop 20 = Spec.attrList (withNul as) := by
      rw [hbody, show 20 = (le 4 (Spec.u32 errno) ++ req).length by simp [hreq], List.drop_left]
    cases fuel' with
    | zero => rw [hx] at h2; simp [KMsg.bytes_length] at h2
    | succ f =>
      rw [datagramFuel, if_neg (by rw [hx]; exact bytes_ne_nil err x), hx, readMsg_bytes err hok,
        if_pos herr, if_neg (by rw [hbody]; simp [hreq]; omega)]
      simp only [herr, if_true, hb4, hb20, i32_roundtrip errno he1 he2, if_neg he]
      have ha : attrs (Spec.attrList (withNul as)) = (asAttrs (withNul as), none) := by
        rw [C40_iterator]
        apply reads_attrList
        intro a ha
        simp only [withNul, List.mem_map] at ha
        obtain ⟨b, hb, rfl⟩ := ha
        have := has b hb
        split <;> simp <;> omega
      rw [kernelError, ha]
      simp only [errorTexts_ok as (fun a h => (has a h).2.2)]
  rw [h4] at h3
  simp only [List.append_nil] at h3
  rw [datagram, h3]
  simp only [contents_append, Nat.add_comm]

/-- What is missing from the three theorems above: a datagram of more than 4096 bytes is cut, and a
message that does not fit whole is not received; an error is reported instead. -/
theorem C41_long_datagram_violated (m : KMsg) (hm : m.Ok) (hdata : m.Data) (hlong : 4096 < 16 + m.body.length)
    (more : List (Except Nat Bytes)) :
    Holds [m] (m.bytes ++ []) ∧
    recv (.ok (m.bytes ++ []) :: more) = ([], .failed .malformed, 1) := by
  refine ⟨.last m [] hm (by simp), ?_⟩
  have hl := KMsg.bytes_length m
  have hlen : (m.bytes.take 4096).length = 4096 := by rw [List.length_take, hl]; omega
  obtain ⟨h1, h2, h3, h4, h5⟩ := hm
  have e0 : ofLe ((m.bytes.take 4096).take 4) = 16 + m.body.length := by
    rw [List.take_take, show min 4 4096 = 4 from rfl]
    have hb : m.bytes = le 4 (16 + m.body.length) ++ (le 2 m.ty ++ (le 2 m.flags ++ (le 4 m.seq ++
      (le 4 m.pid ++ m.body)))) := by simp [Spec.KMsg.bytes, Spec.message]
    rw [hb, take_le 4 _ _ (by omega)]
  have hr : readMsg (m.bytes.take 4096) = none := by
    rw [readMsg, if_neg (by rw [hlen]; decide)]
    simp only [e0]
    rw [if_neg (by simp [nlmsgHdrLen]), if_pos (by rw [hlen]; exact hlong)]
  have hne : m.bytes.take 4096 ≠ [] := by
    intro h; rw [h] at hlen; simp at hlen
  have hd : ∀ mp, datagram (m.bytes.take 4096) mp = ([], .failed .malformed) := by
    intro mp
    rw [datagram, hlen, datagramFuel, if_neg hne, hr]
  rw [List.append_nil, recv, recvFrom, if_neg (by simp)]
  simp only [hd]
  rw [if_neg (by rw [hlen]; decide)]

/-- Two datagrams with two messages each and a `DONE`, then the acknowledgement alone. -/
example : recv [.ok (Spec.message 44 2 1 0 [1, 2, 3, 4] ++ Spec.message 44 2 1 0 [5] ++ [0, 0, 0]),
      .ok (Spec.message 44 2 1 0 [6] ++ [0, 0, 0] ++ Spec.message 3 2 1 0 [0, 0, 0, 0])]
    = ([⟨44, 2, 1, 0, [1, 2, 3, 4], none⟩, ⟨44, 2, 1, 0, [5], none⟩, ⟨44, 2, 1, 0, [6], none⟩],
        .over, 2) := by decide +kernel

example : Parts [[⟨44, 2, 1, 0, [1, 2, 3, 4]⟩, ⟨44, 2, 1, 0, [5]⟩]]
      [.ok (Spec.message 44 2 1 0 [1, 2, 3, 4] ++ [] ++ (Spec.message 44 2 1 0 [5] ++ [0, 0, 0]))] := by
  refine .cons [⟨44, 2, 1, 0, [1, 2, 3, 4]⟩] ⟨44, 2, 1, 0, [5]⟩ _ _ _ ?_ (by decide) ?_ (by decide +kernel) .nil
  · exact .cons ⟨44, 2, 1, 0, [1, 2, 3, 4]⟩ [] [⟨44, 2, 1, 0, [5]⟩] _
      (by simp [Spec.KMsg.Ok]) (by decide) (.last ⟨44, 2, 1, 0, [5]⟩ [0, 0, 0]
        (by simp [Spec.KMsg.Ok]) (by decide))
  · intro x hx
    simp at hx
    rcases hx with rfl | rfl <;> simp [Spec.KMsg.Data]

end Verif.Netlink
