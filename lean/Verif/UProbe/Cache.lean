import Verif.Common.Bytes
import Verif.Common.Except
/-!
# C63: reading the dynamic linker's cache

Model of `LdSoCache::parse` (`/repo/aya/src/programs/uprobe.rs:1291-1377`). Byte strings are lists of bytes.
-/
set_option linter.unusedSimpArgs false
set_option linter.unusedVariables false
namespace Verif.UProbe.Cache
open Verif.Bytes

abbrev Data := List UInt8

/-- Why parsing fails; `panicked` is a panic and `ub` is undefined behaviour. -/
inductive Err where
  | eof
  | header
  | panicked
  | ub
deriving DecidableEq, Repr

def cont (b : UInt8) : Bool := 0x80 ≤ b && b ≤ 0xBF

/-- `std::str::from_utf8(..).is_ok()`: the well-formed sequences of the Unicode standard (table 3-7). -/
def utf8 : Data → Bool
  | [] => true
  | a :: r =>
    if a < 0x80 then utf8 r
    else match r with
      | [] => false
      | b :: r =>
        if 0xC2 ≤ a ∧ a ≤ 0xDF then cont b && utf8 r
        else match r with
          | [] => false
          | c :: r =>
            if 0xE0 ≤ a ∧ a ≤ 0xEF then
              cont b && cont c && (a ≠ 0xE0 || 0xA0 ≤ b) && (a ≠ 0xED || b ≤ 0x9F) && utf8 r
            else match r with
              | [] => false
              | d :: r =>
                if 0xF0 ≤ a ∧ a ≤ 0xF4 then
                  cont b && cont c && cont d && (a ≠ 0xF0 || 0x90 ≤ b) && (a ≠ 0xF4 || b ≤ 0x8F) && utf8 r
                else false

/-- `LD_SO_CACHE_HEADER_NEW` (`uprobe.rs:47`): `glibc-ld.so.cache1.1`. -/
def headerNew : Data := [103, 108, 105, 98, 99, 45, 108, 100, 46, 115, 111, 46, 99, 97, 99, 104, 101, 49, 46, 49]
/-- `LD_SO_CACHE_HEADER_OLD` (`uprobe.rs:46`): `ld.so-1.7.0` and a NUL byte. -/
def headerOld : Data := [108, 100, 46, 115, 111, 45, 49, 46, 55, 46, 48, 0]

/-- `cursor.read_exact` at a position (a position behind the end reads as the end). -/
def readAt (data : Data) (pos n : Nat) : Except Err Data :=
  if pos + n ≤ data.length then .ok ((data.drop pos).take n) else .error .eof

/-- `read_u32` (`uprobe.rs:1294-1299`). -/
def readU32 (data : Data) (pos : Nat) : Except Err Nat :=
  match readAt data pos 4 with
  | .ok b => .ok (ofLe b)
  | .error e => .error e

/-- `read_str` (`uprobe.rs:1355-1362`): slicing behind the end panics; `CStr::from_ptr` reads on until a NUL byte, and
if the file has none it reads memory behind it. -/
def readStr (data : Data) (pos : Nat) : Except Err Data :=
  if data.length < pos then .error .panicked
  else
    let rest := data.drop pos
    if (0 : UInt8) ∈ rest then .ok (rest.takeWhile (· ≠ 0)) else .error .ub

/-- One entry (`uprobe.rs:1346-1372`). The flags are read and not used. -/
def readEntry (data : Data) (offset pos : Nat) : Except Err (Data × Data) :=
  match readU32 data pos with
  | .error e => .error e
  | .ok _ =>
    match readU32 data (pos + 4) with
    | .error e => .error e
    | .ok k =>
      match readU32 data (pos + 8) with
      | .error e => .error e
      | .ok v =>
        match readStr data (offset + k) with
        | .error e => .error e
        | .ok key =>
          match readStr data (offset + v) with
          | .error e => .error e
          | .ok value => .ok (key, value)

/-- The entries, one after the other (`uprobe.rs:1346-1374`). -/
def readEntries (data : Data) (offset step : Nat) : Nat → Nat → Except Err (List (Data × Data))
  | 0, _ => .ok []
  | n + 1, pos =>
    match readEntry data offset pos with
    | .error e => .error e
    | .ok x =>
      match readEntries data offset step n (pos + step) with
      | .error e => .error e
      | .ok xs => .ok (x :: xs)

/-- What follows the header (`uprobe.rs:1332-1376`). -/
def parseBody (data : Data) (new : Bool) (pos : Nat) : Except Err (List (Data × Data)) :=
  match readU32 data pos with
  | .error e => .error e
  | .ok n =>
    if new then readEntries data 0 24 n (pos + 4 + 24)
    else readEntries data (pos + 4 + n * 12) 12 n (pos + 4)

/-- `LdSoCache::parse` (`uprobe.rs:1291-1377`). -/
def parse (data : Data) : Except Err (List (Data × Data)) :=
  match readAt data 0 headerNew.length with
  | .error e => .error e
  | .ok h =>
    if utf8 h = false then .error .header
    else if h = headerNew then parseBody data true headerNew.length
    else
      match readAt data 0 headerOld.length with
      | .error e => .error e
      | .ok h =>
        if utf8 h = false then .error .header
        else if h = headerOld then parseBody data false headerOld.length
        else .error .header

/-! ## Specification -/
namespace Spec

/-- The magic of the current format, without terminator. -/
def magicNew : Data := "glibc-ld.so.cache1.1".toList.map (fun c => UInt8.ofNat c.toNat)
/-- The magic of the old format, with terminator. -/
def magicOld : Data := "ld.so-1.7.0\x00".toList.map (fun c => UInt8.ofNat c.toNat)

/-- The bytes at a position. -/
def BytesAt (data : Data) (pos : Nat) (b : Data) : Prop := ∃ pre post, data = pre ++ b ++ post ∧ pre.length = pos

/-- The 32-bit number at a position. -/
def U32At (data : Data) (pos v : Nat) : Prop := v < 2 ^ 32 ∧ BytesAt data pos (le 4 v)

/-- The string at a position, up to its NUL byte. -/
def StringAt (data : Data) (pos : Nat) (s : Data) : Prop := 0 ∉ s ∧ BytesAt data pos (s ++ [0])

/-- The entry at a position: flags, and the positions of name and path counted from `offset`. -/
def EntryAt (data : Data) (offset pos : Nat) (e : Data × Data) : Prop :=
  ∃ f k v, U32At data pos f ∧ U32At data (pos + 4) k ∧ U32At data (pos + 8) v ∧
    StringAt data (offset + k) e.1 ∧ StringAt data (offset + v) e.2

/-- A cache in the current format of glibc (`struct cache_file_new`): 20 bytes of magic, the number of entries, 24 bytes of
other fields, then entries of 24 bytes with positions from the start of the file. -/
def New (data : Data) (es : List (Data × Data)) : Prop :=
  BytesAt data 0 magicNew ∧ U32At data 20 es.length ∧
    ∀ i e, es[i]? = some e → EntryAt data 0 (48 + 24 * i) e

/-- A cache in the old format (`struct cache_file`): 12 bytes of magic, the number of entries, entries of 12 bytes, with
positions from the end of the entries. -/
def Old (data : Data) (es : List (Data × Data)) : Prop :=
  BytesAt data 0 magicOld ∧ U32At data 12 es.length ∧
    ∀ i e, es[i]? = some e → EntryAt data (16 + es.length * 12) (16 + 12 * i) e

end Spec
open Spec

theorem magicNew_eq : magicNew = headerNew := by decide
theorem magicOld_eq : magicOld = headerOld := by decide

theorem bytesAt_iff {data : Data} {pos n : Nat} {b : Data} (hb : b.length = n) :
    BytesAt data pos b ↔ readAt data pos n = .ok b := by
  unfold BytesAt readAt
  constructor
  · rintro ⟨pre, post, rfl, rfl⟩
    rw [if_pos (by simp; omega)]
    congr 1
    simp [← hb]
  · intro h
    split at h
    · rename_i hle
      simp only [Except.ok.injEq] at h
      refine ⟨data.take pos, data.drop (pos + n), ?_, ?_⟩
      · rw [← h, List.append_assoc, ← List.drop_drop, List.take_append_drop, List.take_append_drop]
      · rw [List.length_take]; omega
    · cases h

theorem readAt_length {data : Data} {pos n : Nat} {b : Data} (h : readAt data pos n = .ok b) : b.length = n := by
  unfold readAt at h
  split at h
  · simp only [Except.ok.injEq] at h
    rw [← h, List.length_take, List.length_drop]
    omega
  · cases h

theorem u32At_iff {data : Data} {pos v : Nat} : U32At data pos v ↔ readU32 data pos = .ok v := by
  unfold U32At readU32
  have h256 : (256 : Nat) ^ 4 = 2 ^ 32 := by decide
  constructor
  · rintro ⟨hv, h⟩
    rw [(bytesAt_iff (le_length 4 v)).mp h]
    simp only
    rw [ofLe_le_of_lt 4 v (by rw [h256]; exact hv)]
  · intro h
    cases hr : readAt data pos 4 with
    | error e => rw [hr] at h; cases h
    | ok b =>
      rw [hr] at h
      simp only [Except.ok.injEq] at h
      have hl := readAt_length hr
      subst h
      refine ⟨?_, ?_⟩
      · have := ofLe_lt b
        rw [hl, h256] at this
        exact this
      · rw [le_ofLe_of_length 4 b hl]
        exact (bytesAt_iff hl).mpr hr

theorem dropWhile_zero {l : Data} (h : 0 ∈ l) : l.dropWhile (· ≠ 0) = 0 :: (l.dropWhile (· ≠ 0)).drop 1 := by
  induction l with
  | nil => simp at h
  | cons a l ih =>
    by_cases ha : a = 0
    · subst ha; simp
    · rcases List.mem_cons.mp h with h | h
      · exact absurd h.symm ha
      · rw [List.dropWhile_cons_of_pos (by simp [ha])]
        exact ih h

theorem stringAt_iff {data : Data} {pos : Nat} {s : Data} : StringAt data pos s ↔ readStr data pos = .ok s := by
  unfold StringAt readStr BytesAt
  constructor
  · rintro ⟨hs, pre, post, rfl, rfl⟩
    rw [if_neg (by simp)]
    simp only [List.append_assoc, List.drop_left]
    rw [if_pos (by simp)]
    congr 1
    rw [List.singleton_append, List.takeWhile_append_of_pos]
    · simp
    · intro a ha
      simp only [decide_eq_true_eq]
      rintro rfl
      exact hs ha
  · intro h
    split at h
    · cases h
    · rename_i hlen
      simp only at h
      split at h
      · rename_i hmem
        simp only [Except.ok.injEq] at h
        subst h
        refine ⟨?_, data.take pos, ((data.drop pos).dropWhile (· ≠ 0)).drop 1, ?_, by rw [List.length_take]; omega⟩
        · intro h0
          have := List.all_eq_true.mp List.all_takeWhile 0 h0
          simp at this
        · have hd := dropWhile_zero hmem
          conv => lhs; rw [← List.take_append_drop pos data, ← List.takeWhile_append_dropWhile (p := (· ≠ 0)) (l := data.drop pos), hd]
          simp
      · cases h

theorem entryAt_iff {data : Data} {offset pos : Nat} {e : Data × Data} :
    EntryAt data offset pos e ↔ readEntry data offset pos = .ok e := by
  unfold EntryAt readEntry
  simp only [u32At_iff, stringAt_iff]
  constructor
  · rintro ⟨f, k, v, h1, h2, h3, h4, h5⟩
    simp [h1, h2, h3, h4, h5]
  · intro h
    split at h
    · cases h
    · rename_i f hf
      split at h
      · cases h
      · rename_i k hk
        split at h
        · cases h
        · rename_i v hv
          split at h
          · cases h
          · rename_i key hkey
            split at h
            · cases h
            · rename_i value hvalue
              cases h
              exact ⟨f, k, v, hf, hk, hv, hkey, hvalue⟩

theorem readEntries_iff {data : Data} {offset step : Nat} : ∀ (n pos : Nat) (es : List (Data × Data)),
    readEntries data offset step n pos = .ok es ↔
      es.length = n ∧ ∀ i e, es[i]? = some e → EntryAt data offset (pos + step * i) e
  | 0, pos, es => by
    simp only [readEntries, Except.ok.injEq]
    constructor
    · rintro rfl; simp
    · rintro ⟨h, _⟩; exact (List.length_eq_zero_iff.mp h).symm
  | n + 1, pos, es => by
    rw [readEntries]
    constructor
    · intro h
      cases h1 : readEntry data offset pos with
      | error e => rw [h1] at h; cases h
      | ok x =>
        rw [h1] at h
        simp only at h
        cases h2 : readEntries data offset step n (pos + step) with
        | error e => rw [h2] at h; cases h
        | ok xs =>
          rw [h2] at h
          cases h
          obtain ⟨hl, hi⟩ := (readEntries_iff n (pos + step) xs).mp h2
          refine ⟨by simp [hl], ?_⟩
          intro i e he
          cases i with
          | zero => simp at he; subst he; simpa using entryAt_iff.mpr h1
          | succ i =>
            have := hi i e (by simpa using he)
            rw [show pos + step * (i + 1) = pos + step + step * i by rw [Nat.mul_add]; omega]
            exact this
    · rintro ⟨hl, hi⟩
      cases es with
      | nil => simp at hl
      | cons x xs =>
        have h1 := entryAt_iff.mp (hi 0 x rfl)
        rw [show pos + step * 0 = pos by simp] at h1
        rw [h1]
        simp only
        rw [(readEntries_iff n (pos + step) xs).mpr ⟨by simpa using hl, ?_⟩]
        intro i e he
        have := hi (i + 1) e (by simpa using he)
        rw [show pos + step * (i + 1) = pos + step + step * i by rw [Nat.mul_add]; omega] at this
        exact this

theorem parseBody_new {data : Data} {es : List (Data × Data)} :
    parseBody data true 20 = .ok es ↔ U32At data 20 es.length ∧ ∀ i e, es[i]? = some e → EntryAt data 0 (48 + 24 * i) e := by
  unfold parseBody
  rw [u32At_iff]
  cases h : readU32 data 20 with
  | error e => simp
  | ok n =>
    simp only [if_true, Except.ok.injEq]
    rw [readEntries_iff]
    constructor
    · rintro ⟨rfl, h2⟩; exact ⟨rfl, h2⟩
    · rintro ⟨rfl, h2⟩; exact ⟨rfl, h2⟩

theorem parseBody_old {data : Data} {es : List (Data × Data)} :
    parseBody data false 12 = .ok es ↔ U32At data 12 es.length ∧
      ∀ i e, es[i]? = some e → EntryAt data (16 + es.length * 12) (16 + 12 * i) e := by
  unfold parseBody
  rw [u32At_iff]
  cases h : readU32 data 12 with
  | error e => simp
  | ok n =>
    simp only [Bool.false_eq_true, if_false, Except.ok.injEq]
    rw [readEntries_iff]
    constructor
    · rintro ⟨rfl, h2⟩; exact ⟨rfl, h2⟩
    · rintro ⟨rfl, h2⟩; exact ⟨rfl, h2⟩

theorem header_differ {data : Data} (h1 : readAt data 0 20 = .ok headerNew) : readAt data 0 12 ≠ .ok headerOld := by
  intro h2
  unfold readAt at h1 h2
  split at h1
  · split at h2
    · simp only [Except.ok.injEq, List.drop_zero] at h1 h2
      have : (data.take 20).take 12 = data.take 12 := by rw [List.take_take]; rfl
      rw [h1, h2] at this
      revert this
      decide
    · cases h2
  · cases h1

/-- **C63 (partial).** Reading the cache gives the entries that are in it. A cache in the old format is only read if its
first 20 bytes, which include the number of entries, happen to be UTF-8. -/
theorem C63_cache_partial (data : Data) (es : List (Data × Data)) :
    parse data = .ok es ↔ New data es ∨ (Old data es ∧ 20 ≤ data.length ∧ utf8 (data.take 20) = true) := by
  unfold New Old
  rw [magicNew_eq, magicOld_eq]
  rw [bytesAt_iff (show headerNew.length = 20 from rfl), bytesAt_iff (show headerOld.length = 12 from rfl)]
  unfold parse
  rw [show headerNew.length = 20 from rfl, show headerOld.length = 12 from rfl]
  cases h20 : readAt data 0 20 with
  | error e =>
    simp only [false_and, false_or, reduceCtorEq, false_iff]
    rintro ⟨_, hl, _⟩
    unfold readAt at h20
    rw [if_pos (by omega)] at h20
    cases h20
  | ok h =>
    have hh : h = data.take 20 ∧ 20 ≤ data.length := by
      unfold readAt at h20
      split at h20
      · simp only [Except.ok.injEq, List.drop_zero] at h20
        exact ⟨h20.symm, by omega⟩
      · cases h20
    simp only [Except.ok.injEq]
    by_cases hu : utf8 h = false
    · rw [if_pos hu]
      have hne : h ≠ headerNew := by rintro rfl; revert hu; decide
      rw [hh.1] at hu
      simp [hne, hu]
    · rw [if_neg hu]
      have hu' : utf8 (data.take 20) = true := by rw [← hh.1]; simpa using hu
      by_cases hn : h = headerNew
      · rw [if_pos hn, parseBody_new]
        have hne : readAt data 0 12 ≠ .ok headerOld := header_differ (by rw [h20, hn])
        simp only [hn, true_and, hne, false_and, or_false]
      · rw [if_neg hn]
        simp only [hn, false_and, false_or, hh.2, hu', and_true]
        cases h12 : readAt data 0 12 with
        | error e => simp
        | ok g =>
          simp only [Except.ok.injEq]
          by_cases hg : g = headerOld
          · subst hg
            rw [if_neg (by decide), if_pos rfl, parseBody_old]
            simp
          · simp only [hg, if_false, false_and, iff_false]
            split <;> simp

/-- In the old format the number of entries is taken for text: the head of the file is not UTF-8 if the last byte of the
number is a continuation byte. -/
theorem utf8_old_head {data : Data} {n : Nat} (h : BytesAt data 0 headerOld) (hn : U32At data 12 n) (hlo : 128 ≤ n % 256) (hhi : n % 256 < 192)
    (hl : 20 ≤ data.length) : utf8 (data.take 20) = false := by
  obtain ⟨pre, post, e, hp⟩ := h
  have hpre : pre = [] := List.length_eq_zero_iff.mp hp
  subst hpre
  obtain ⟨_, pre2, post2, e2, hp2⟩ := hn
  have : pre2 = headerOld := by
    have h1 : data.take 12 = headerOld := by rw [e]; rfl
    have h2 : data.take 12 = pre2 := by rw [e2, List.append_assoc, ← hp2, List.take_left]
    rw [← h1, h2]
  subst this
  rw [e2]
  have hb : (UInt8.ofNat (n % 256)).toNat = n % 256 := by simp [UInt8.toNat_ofNat']
  rw [show le 4 n = UInt8.ofNat (n % 256) :: le 3 (n / 256) from rfl]
  generalize hq : UInt8.ofNat (n % 256) = q at hb
  have hql : 128 ≤ q.toNat := by omega
  have hqh : q.toNat < 192 := by omega
  rw [List.append_assoc, List.take_append]
  rw [show (20 - headerOld.length : Nat) = 8 from rfl, show headerOld.take 20 = headerOld from rfl]
  rw [List.cons_append, List.take_succ_cons]
  generalize (le 3 (n / 256) ++ post2).take 7 = r
  have h80 : ¬ q < 0x80 := by rw [UInt8.lt_iff_toNat_lt]; simp; omega
  have hC2 : ¬ (0xC2 ≤ q ∧ q ≤ 0xDF) := by
    rintro ⟨h, _⟩; rw [UInt8.le_iff_toNat_le] at h; simp at h; omega
  have hE0 : ¬ (0xE0 ≤ q ∧ q ≤ 0xEF) := by
    rintro ⟨h, _⟩; rw [UInt8.le_iff_toNat_le] at h; simp at h; omega
  have hF0 : ¬ (0xF0 ≤ q ∧ q ≤ 0xF4) := by
    rintro ⟨h, _⟩; rw [UInt8.le_iff_toNat_le] at h; simp at h; omega
  have hq0 : utf8 (q :: r) = false := by
    rw [utf8.eq_def]
    simp only [if_neg h80, if_neg hC2, if_neg hE0, if_neg hF0]
    split
    · rfl
    · split
      · rfl
      · split <;> rfl
  have hasc : ∀ (a : UInt8) (t : Data), a < 0x80 → utf8 (a :: t) = utf8 t := by
    intro a t ha
    rw [utf8.eq_def]
    simp [ha]
  simp only [headerOld, List.cons_append, List.nil_append]
  repeat rw [hasc _ _ (by decide)]
  exact hq0

/-- **C63 (refuted in general).** Every cache in the old format with, for example, 128 to 191 entries is rejected. -/
theorem C63_old_count_violated (data : Data) (es : List (Data × Data)) (h : Old data es) (hlo : 128 ≤ es.length % 256)
    (hhi : es.length % 256 < 192) : ∃ e, parse data = .error e := by
  cases hp : parse data with
  | error e => exact ⟨e, rfl⟩
  | ok es' =>
    rcases (C63_cache_partial data es').mp hp with hn | ⟨_, hl, hu⟩
    · exact absurd ((bytesAt_iff (n := 12) rfl).mp h.1) (header_differ ((bytesAt_iff (n := 20) rfl).mp hn.1))
    · rw [utf8_old_head h.1 h.2.1 hlo hhi hl] at hu
      cases hu

/-- A file in the current format with one entry. -/
def exNew : Data := headerNew ++ le 4 1 ++ List.replicate 24 0 ++ (le 4 3 ++ le 4 72 ++ le 4 77 ++ List.replicate 12 0) ++
  [97, 46, 115, 111, 0] ++ [47, 97, 0]

example : parse exNew = .ok [([97, 46, 115, 111], [47, 97])] := by decide +kernel
example : New exNew [([97, 46, 115, 111], [47, 97])] := by
  rcases (C63_cache_partial _ _).mp (show parse exNew = .ok [([97, 46, 115, 111], [47, 97])] by decide +kernel) with h | ⟨_, _, h⟩
  · exact h
  · rename_i h1 _
    exact absurd ((bytesAt_iff (n := 12) rfl).mp h1.1) (by decide +kernel)

/-- A file in the old format with `n` entries, all of them for the same library. -/
def exOld (n : Nat) : Data := headerOld ++ le 4 n ++ (List.replicate n (le 4 3 ++ le 4 0 ++ le 4 5)).flatten ++
  [97, 46, 115, 111, 0] ++ [47, 97, 0]

example : parse (exOld 2) = .ok [([97, 46, 115, 111], [47, 97]), ([97, 46, 115, 111], [47, 97])] := by decide +kernel
example : parse (exOld 200) = .error .header := by decide +kernel
example : Old (exOld 130) (List.replicate 130 ([97, 46, 115, 111], [47, 97])) := by
  refine ⟨⟨[], _, by rw [exOld, List.append_assoc, List.append_assoc, List.append_assoc]; rfl, rfl⟩, ?_⟩
  exact parseBody_old.mp (by decide +kernel)

/-- **C63 (refuted in general).** Positions in the file are not checked: one behind the end makes parsing panic, one without
a NUL byte behind it makes it read memory that is not the file's. -/
theorem C63_positions_violated :
    parse (headerNew ++ le 4 1 ++ List.replicate 24 0 ++ (le 4 3 ++ le 4 1000 ++ le 4 77 ++ List.replicate 12 0)) = .error .panicked ∧
    parse (headerNew ++ le 4 1 ++ List.replicate 24 0 ++ (le 4 3 ++ le 4 72 ++ le 4 72 ++ List.replicate 12 0) ++ [97]) = .error .ub := by
  decide +kernel

end Verif.UProbe.Cache
