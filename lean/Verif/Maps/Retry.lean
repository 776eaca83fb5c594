import Verif.Maps.Model
import Verif.Common.Except

set_option linter.unusedSimpArgs false
set_option linter.unusedVariables false

/-!
# C36: loading with verifier logs

Model of `retry_with_verifier_logs` (`/repo/aya/src/sys/bpf.rs:1536-1567`).
-/
namespace Verif.Retry
abbrev Bytes := List UInt8

/-- One attempt as seen from outside: the log buffer handed to the kernel and what came back. -/
structure Attempt (T : Type) where
  /-- the log buffer given -/
  given : Bytes
  result : Except Nat T
  /-- the log buffer afterwards -/
  left : Bytes

/-- The load operation with everything it depends on: its result and the log buffer afterwards, as a
    function of the attempts made before and of the log buffer given. -/
abbrev Load (T : Type) := List (Attempt T) → Bytes → Except Nat T × Bytes

/-- `ENOSPC` (libc): the log did not fit. -/
def ENOSPC : Nat := 28
/-- `/repo/aya/src/sys/bpf.rs:1540` -/
def MIN_LOG_BUF_SIZE : Nat := 1024 * 10
/-- `/repo/aya/src/sys/bpf.rs:1541`: `u32::MAX >> 8` -/
def MAX_LOG_BUF_SIZE : Nat := 2 ^ 24 - 1

/-- The capacity of a `Vec<u8>` of capacity `cap` after `resize(len, 0)`: unchanged if it fits, else at
    least doubled (the standard library's amortised growth). -/
def grow (cap len : Nat) : Nat := if len ≤ cap then cap else max (max (2 * cap) len) 8

/-- `Vec::resize(len, 0)` on the contents. -/
def resize (buf : Bytes) (len : Nat) : Bytes :=
  if len ≤ buf.length then buf.take len else buf ++ List.replicate (len - buf.length) 0

/-- `if let Some(first) = log_buf.first_mut() { *first = 0 }` (`1554-1556`). -/
def clearFirst : Bytes → Bytes
  | [] => []
  | _ :: bs => 0 :: bs

/-- Truncation at the first zero byte (`1561-1563`). -/
def cString (buf : Bytes) : Bytes := buf.takeWhile (· ≠ 0)

/-- How the call ends: the result and the log, or a panic because the log is not UTF-8 (`1564`). -/
inductive End (T : Type) where
  | done (ret : Except Nat T) (log : Bytes)
  | panicked

/-- The loop of `retry_with_verifier_logs` (`1545-1567`). The first argument is the number of retries
    left, `max_retries - retries`; `acc` are the attempts made so far, so `acc = []` is `retries == 0`.
    `utf8` decides whether bytes are valid UTF-8. The list of all attempts is returned as well. -/
def retryLoop {T : Type} (utf8 : Bytes → Bool) (f : Load T) :
    Nat → List (Attempt T) → Nat → Bytes → End T × List (Attempt T)
  | left, acc, cap, buf =>
      let (ret, buf') := f acc buf
      let acc' := acc ++ [⟨buf, ret, buf'⟩]
      let finish : End T × List (Attempt T) :=
        (if utf8 (cString buf') then .done ret (cString buf') else .panicked, acc')
      match left, ret with
      | left + 1, .error e =>
          if acc.isEmpty ∨ e = ENOSPC then
            let len := min (max (cap * 10) MIN_LOG_BUF_SIZE) MAX_LOG_BUF_SIZE
            retryLoop utf8 f left acc' (grow cap len) (clearFirst (resize buf' len))
          else finish
      | _, _ => finish

/-- `retry_with_verifier_logs` (`/repo/aya/src/sys/bpf.rs:1536-1567`). -/
def retryWithVerifierLogs {T : Type} (utf8 : Bytes → Bool) (maxRetries : Nat) (f : Load T) :
    End T × List (Attempt T) :=
  retryLoop utf8 f maxRetries [] 0 []

/-! ## Specification -/

/-- Another attempt can help after a failure: the first attempt (made without a log buffer), or a log that
    did not fit. -/
def Helps {T : Type} (i : Nat) (r : Except Nat T) : Prop := ∃ e, r = .error e ∧ (i = 0 ∨ e = 28)

/-- The load operation writes at most into the buffer it is given. -/
def KeepsLength {T : Type} (f : Load T) : Prop := ∀ acc buf, (f acc buf).2.length = buf.length

/-! ## Proofs -/

theorem resize_length (buf : Bytes) (len : Nat) : (resize buf len).length = len := by
  unfold resize; split
  · rw [List.length_take]; omega
  · rw [List.length_append, List.length_replicate]; omega

theorem clearFirst_length (buf : Bytes) : (clearFirst buf).length = buf.length := by
  cases buf <;> rfl

theorem clearFirst_cString (buf : Bytes) : cString (clearFirst buf) = [] := by
  cases buf <;> simp [clearFirst, cString]

/-- What the loop guarantees when entered after the attempts `acc`. -/
theorem retryLoop_spec {T : Type} (utf8 : Bytes → Bool) (f : Load T) (hf : KeepsLength f) :
    ∀ (left : Nat) (acc : List (Attempt T)) (cap : Nat) (buf : Bytes),
      buf.length ≤ cap → buf.length ≤ MAX_LOG_BUF_SIZE →
      ∃ (more : List (Attempt T)) (lst : Attempt T),
        (retryLoop utf8 f left acc cap buf).2 = acc ++ more ∧
        1 ≤ more.length ∧ more.length ≤ left + 1 ∧ more.getLast? = some lst ∧
        ((retryLoop utf8 f left acc cap buf).1 =
          if utf8 (cString lst.left) then .done lst.result (cString lst.left) else .panicked) ∧
        (more.length < left + 1 → ¬ Helps (acc.length + more.length - 1) lst.result) ∧
        (∀ (i : Nat) a, more[i]? = some a → i + 1 < more.length → Helps (acc.length + i) a.result) ∧
        (∀ (i : Nat) a, more[i]? = some a →
          f (acc ++ more.take i) a.given = (a.result, a.left) ∧ a.given.length ≤ MAX_LOG_BUF_SIZE ∧
          (i = 0 → a.given = buf) ∧
          (0 < i → MIN_LOG_BUF_SIZE ≤ a.given.length ∧ cString a.given = [] ∧
            ∀ p, more[i - 1]? = some p → p.given.length ≤ a.given.length)) := by
  intro left
  induction left with
  | zero =>
    intro acc cap buf hcap hmax
    cases hr : f acc buf with
    | mk ret buf' =>
      refine ⟨[⟨buf, ret, buf'⟩], ⟨buf, ret, buf'⟩, ?_, by simp, by simp, by simp, ?_, by simp, ?_, ?_⟩
      · rw [retryLoop]; simp [hr]
      · rw [retryLoop]; simp [hr]
      · intro i a _ hi; simp at hi
      · intro i a ha
        match i, ha with
        | 0, ha => simp at ha; subst ha; simp [hr, hmax]
  | succ left ih =>
    intro acc cap buf hcap hmax
    cases hr : f acc buf with
    | mk ret buf' =>
      have stop : ¬ Helps acc.length ret →
          (retryLoop utf8 f (left + 1) acc cap buf) =
            (if utf8 (cString buf') then .done ret (cString buf') else .panicked,
              acc ++ [⟨buf, ret, buf'⟩]) := by
        intro hh
        rw [retryLoop]
        cases ret with
        | ok t => simp [hr]
        | error e =>
          have : ¬ (acc.isEmpty = true ∨ e = ENOSPC) := by
            rintro (h | h)
            · exact hh ⟨e, rfl, .inl (by simpa using h)⟩
            · exact hh ⟨e, rfl, .inr h⟩
          simp only [hr, if_neg this]
      by_cases hh : Helps acc.length ret
      · obtain ⟨e, rfl, he⟩ := hh
        have hc : acc.isEmpty = true ∨ e = ENOSPC := by
          rcases he with h | h
          · exact .inl (by simp [List.length_eq_zero_iff.mp h])
          · exact .inr h
        generalize hlen : min (max (cap * 10) MIN_LOG_BUF_SIZE) MAX_LOG_BUF_SIZE = len
        have hstep : retryLoop utf8 f (left + 1) acc cap buf
            = retryLoop utf8 f left (acc ++ [⟨buf, .error e, buf'⟩]) (grow cap len)
                (clearFirst (resize buf' len)) := by
          conv => lhs; rw [retryLoop]
          simp only [hr, if_pos hc, hlen]
        have hb : (clearFirst (resize buf' len)).length = len := by
          rw [clearFirst_length, resize_length]
        have hbuflen : buf'.length = buf.length := by have := hf acc buf; rw [hr] at this; exact this
        have hle1 : len ≤ grow cap len := by unfold grow; split <;> omega
        have hminle : MIN_LOG_BUF_SIZE ≤ len := by
          rw [← hlen]; simp only [MIN_LOG_BUF_SIZE, MAX_LOG_BUF_SIZE]; omega
        have hlenmax : len ≤ MAX_LOG_BUF_SIZE := by rw [← hlen]; omega
        have hmono : buf.length ≤ len := by rw [← hlen]; omega
        obtain ⟨more, lst, h1, h2, h3, h4, h5, h6, h7, h8⟩ :=
          ih (acc ++ [⟨buf, .error e, buf'⟩]) (grow cap len) (clearFirst (resize buf' len))
            (by omega) (by omega)
        refine ⟨⟨buf, .error e, buf'⟩ :: more, lst, ?_, by simp, by simp; omega, ?_, ?_, ?_, ?_, ?_⟩
        · rw [hstep, h1]; simp
        · rw [List.getLast?_cons, h4]; rfl
        · rw [hstep, h5]
        · intro hlt
          have := h6 (by simp at hlt; omega)
          simpa [Nat.add_assoc, Nat.add_comm, Nat.add_left_comm] using this
        · intro i a ha hi
          match i, ha with
          | 0, ha =>
            simp at ha; subst ha
            exact ⟨e, rfl, by simpa using he⟩
          | i + 1, ha =>
            simp at ha
            have := h7 i a ha (by simp at hi; omega)
            simpa [Nat.add_assoc, Nat.add_comm, Nat.add_left_comm] using this
        · intro i a ha
          match i, ha with
          | 0, ha =>
            simp at ha; subst ha
            simp [hr, hmax]
          | i + 1, ha =>
            simp at ha
            obtain ⟨g1, g2, g3, g4⟩ := h8 i a ha
            refine ⟨?_, g2, by simp, fun _ => ?_⟩
            · rw [← g1]; congr 1; simp
            · match i with
              | 0 =>
                have hg := g3 rfl
                refine ⟨by rw [hg, hb]; exact hminle, by rw [hg, clearFirst_cString], ?_⟩
                intro p hp
                simp at hp; subst hp
                rw [hg, hb]; exact hmono
              | i + 1 =>
                obtain ⟨a1, a2, a3⟩ := g4 (by omega)
                refine ⟨a1, a2, ?_⟩
                intro p hp
                refine a3 p ?_
                simpa using hp
      · refine ⟨[⟨buf, ret, buf'⟩], ⟨buf, ret, buf'⟩, ?_, by simp, by simp, by simp, ?_, ?_, ?_, ?_⟩
        · rw [stop hh]
        · rw [stop hh]
        · intro _; simpa using hh
        · intro i a _ hi; simp at hi
        · intro i a ha
          match i, ha with
          | 0, ha => simp at ha; subst ha; simp [hr, hmax]

/-- **C36.** For every load operation that writes only inside the buffer it is given and every limit on
    the retries:
    * at least one and at most `maxRetries + 1` attempts are made;
    * the outcome is the last attempt's result, with the text up to the first zero byte of its log buffer
      (or a panic if that is not UTF-8);
    * every attempt before the last failed in a way another attempt can help with (first attempt, or the
      log did not fit), and unless the limit is reached the last one did not — in particular nothing is
      retried after a success;
    * the first attempt has no log buffer, later ones have between 10 KiB and 2^24 - 1 bytes, never less
      than before, and start with an empty log. -/
theorem C36_retry {T : Type} (utf8 : Bytes → Bool) (maxRetries : Nat) (f : Load T) (hf : KeepsLength f) :
    let out := (retryWithVerifierLogs utf8 maxRetries f).1
    let tries := (retryWithVerifierLogs utf8 maxRetries f).2
    1 ≤ tries.length ∧ tries.length ≤ maxRetries + 1 ∧
    (∃ lst, tries.getLast? = some lst ∧
      (out = if utf8 (lst.left.takeWhile (· ≠ 0)) then .done lst.result (lst.left.takeWhile (· ≠ 0))
        else .panicked) ∧
      (tries.length < maxRetries + 1 → ¬ Helps (tries.length - 1) lst.result)) ∧
    (∀ (i : Nat) a, tries[i]? = some a →
      f (tries.take i) a.given = (a.result, a.left) ∧
      (i + 1 < tries.length → Helps i a.result) ∧
      (i = 0 → a.given = []) ∧
      (0 < i → 10240 ≤ a.given.length ∧ a.given.length ≤ 2 ^ 24 - 1 ∧ a.given.head? = some 0 ∧
        ∀ p, tries[i - 1]? = some p → p.given.length ≤ a.given.length)) := by
  intro out tries
  obtain ⟨more, lst, h1, h2, h3, h4, h5, h6, h7, h8⟩ :=
    retryLoop_spec utf8 f hf maxRetries [] 0 [] (by simp) (by simp [MAX_LOG_BUF_SIZE])
  have ht : tries = more := by simpa [tries, retryWithVerifierLogs] using h1
  rw [ht]
  refine ⟨h2, h3, ⟨lst, h4, h5, by simpa using h6⟩, ?_⟩
  intro i a ha
  obtain ⟨g1, g2, g3, g4⟩ := h8 i a ha
  refine ⟨by simpa using g1, fun hi => by simpa using h7 i a ha hi, g3, fun hi => ?_⟩
  obtain ⟨a1, a2, a3⟩ := g4 hi
  refine ⟨a1, g2, ?_, a3⟩
  cases hg : a.given with
  | nil => rw [hg] at a1; simp [MIN_LOG_BUF_SIZE] at a1
  | cons b bs =>
    rw [hg] at a2
    simp only [cString] at a2
    by_cases hb : b = 0
    · simp [hb]
    · simp [hb] at a2

/-- **C36 (success).** If the load succeeds the first time, it is done once, without a log. -/
theorem C36_first_success {T : Type} (utf8 : Bytes → Bool) (maxRetries : Nat) (f : Load T) (t : T)
    (hu : utf8 [] = true) (hs : f [] [] = (.ok t, [])) :
    retryWithVerifierLogs utf8 maxRetries f = (.done (.ok t) [], [⟨[], .ok t, []⟩]) := by
  unfold retryWithVerifierLogs
  rw [retryLoop]
  cases maxRetries <;> simp [hs, cString, hu]

/-- **C36 (stale logs).** If the last attempt left its log buffer alone, the log is empty: text from an
    earlier attempt is never reported for a later one. -/
theorem C36_no_stale_log {T : Type} (utf8 : Bytes → Bool) (maxRetries : Nat) (f : Load T)
    (hf : KeepsLength f) (hu : utf8 [] = true) (lst : Attempt T)
    (hl : (retryWithVerifierLogs utf8 maxRetries f).2.getLast? = some lst)
    (hsame : lst.left = lst.given) :
    (retryWithVerifierLogs utf8 maxRetries f).1 = .done lst.result [] := by
  obtain ⟨h1, h2, ⟨lst', h3, h4, _⟩, h5⟩ := C36_retry utf8 maxRetries f hf
  rw [h3] at hl
  cases hl
  rw [h4]
  have hempty : lst.left.takeWhile (· ≠ 0) = [] := by
    rw [hsame]
    rw [List.getLast?_eq_getElem?] at h3
    obtain ⟨_, _, g0, g1⟩ := h5 _ _ h3
    rcases Nat.eq_zero_or_pos ((retryWithVerifierLogs utf8 maxRetries f).2.length - 1) with hz | hp
    · rw [g0 hz]; rfl
    · obtain ⟨_, _, hhd, _⟩ := g1 hp
      cases hg : lst.given with
      | nil => rfl
      | cons b bs => rw [hg] at hhd; simp at hhd; simp [hhd]
  rw [hempty]
  simp [hu]

/-- A load that fails with "invalid", then with "log too long", then with "invalid" and the log `no`. -/
def exLoad : Load Unit := fun acc buf =>
  if acc.length = 0 then (.error 22, buf)
  else if acc.length = 1 then (.error 28, buf)
  else (.error 22, [110, 111, 0].take buf.length ++ buf.drop 3)

example : KeepsLength exLoad := by
  intro acc buf
  unfold exLoad
  split
  · rfl
  · split
    · rfl
    · simp only [List.length_append, List.length_take, List.length_drop, List.length_cons, List.length_nil]
      omega

/-- The number of attempts is exactly 3 for `exLoad`, and the last log is reported. -/
example : (retryWithVerifierLogs (fun _ => true) 10 exLoad).2.length = 3 := by
  simp [retryWithVerifierLogs, retryLoop, exLoad, ENOSPC]

/-- **C36 (failure).** The kernel's log is taken from memory the kernel filled; if it is not valid UTF-8 the
    call panics instead of returning the load's result. -/
theorem C36_non_utf8_log_violated :
    ∃ (utf8 : Bytes → Bool) (f : Load Unit), KeepsLength f ∧ utf8 [255] = false ∧
      (retryWithVerifierLogs utf8 1 f).1 = .panicked := by
  refine ⟨fun b => b.all (· < 128), fun _ buf => (.error 22, buf.mapIdx fun i b => if i = 0 then 255 else b),
    fun _ _ => by simp, by decide, ?_⟩
  have hcs : ∀ (bs : Bytes), 0 < bs.length →
      (cString (bs.mapIdx fun i b => if i = 0 then (255 : UInt8) else b)).head? = some 255 := by
    intro bs hb
    unfold cString
    cases bs with
    | nil => simp at hb
    | cons b bs => simp [List.mapIdx_cons]
  rw [retryWithVerifierLogs, retryLoop]
  simp only [List.isEmpty_nil, true_or, if_true, List.mapIdx_nil]
  have hL : 0 < min (max (0 * 10) MIN_LOG_BUF_SIZE) MAX_LOG_BUF_SIZE := by decide
  generalize min (max (0 * 10) MIN_LOG_BUF_SIZE) MAX_LOG_BUF_SIZE = L at hL
  have h := hcs (clearFirst (resize [] L)) (by rw [clearFirst_length, resize_length]; exact hL)
  generalize clearFirst (resize [] L) = buf at h
  rw [retryLoop]
  dsimp only
  rw [if_neg]
  intro hall
  cases hw : cString (buf.mapIdx fun i b => if i = 0 then (255 : UInt8) else b) with
  | nil => rw [hw] at h; simp at h
  | cons b bs =>
    rw [hw] at h hall
    simp at h
    subst h
    simp at hall

end Verif.Retry
