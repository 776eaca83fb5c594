import Verif.Decls.Spec
import Verif.Maps.Props
/-!
# C115: maps that compile are made as declared
-/
namespace Verif.Decls
set_option linter.unusedSimpArgs false
open Verif.Maps (u32 maxEntriesOverride valueSizeOverride adjustToPageSize C31_rounded_partial C31_fits C31_ringbuf_size C31_other_sizes RINGBUF)

theorem u32_small {n : Nat} (h : n < 2 ^ 32) : u32 n = n := Nat.mod_eq_of_lt h

/-- The number of entries that the loader asks for. -/
theorem entries_attr (H : Host) (d : Decl) : (attr H d).entries =
    if (define d).type = 27 then adjustToPageSize (define d).entries H.page
    else if (define d).type = 4 ∧ (define d).entries = 0 then H.cpus else (define d).entries := by
  by_cases h : (define d).type = 27
  · rw [if_pos h]
    have := C31_ringbuf_size none (define d).entries (some H.cpus) H.page
    unfold attr
    dsimp only
    rw [h, show (27 : Nat) = RINGBUF from rfl, this]
    rfl
  · rw [if_neg h]
    have := C31_other_sizes (define d).type none (define d).entries H.cpus H.page h
    unfold attr
    dsimp only
    rw [this]
    rfl

/-- What else the loader asks for. -/
theorem attr_eq (H : Host) (d : Decl) : attr H d =
    ⟨(define d).type, (define d).key, (valueSizeOverride (define d).type H.cpuProg H.devProg).getD (define d).value, (attr H d).entries, (define d).flags, (define d).extra⟩ := rfl

/-- What the loader asks for is what is declared. The page size is a power of two. -/
theorem C115_declared {H : Host} {d : Decl} (hs : Small d) (hp : ∃ p, p ≤ 31 ∧ H.page = 2 ^ p) : AsDeclared H d (attr H d) := by
  rw [attr_eq, entries_attr]
  cases d with
  | array v n f => obtain ⟨h1, h2, h3⟩ := hs; simp [AsDeclared, define, valueSizeOverride, Verif.Maps.CPUMAP, Verif.Maps.DEVMAP, Verif.Maps.DEVMAP_HASH, RINGBUF, u32_small, *]
  | perCpuArray v n f => obtain ⟨h1, h2, h3⟩ := hs; simp [AsDeclared, define, valueSizeOverride, Verif.Maps.CPUMAP, Verif.Maps.DEVMAP, Verif.Maps.DEVMAP_HASH, RINGBUF, u32_small, *]
  | queue v n f => obtain ⟨h1, h2, h3⟩ := hs; simp [AsDeclared, define, valueSizeOverride, Verif.Maps.CPUMAP, Verif.Maps.DEVMAP, Verif.Maps.DEVMAP_HASH, RINGBUF, u32_small, *]
  | stack v n f => obtain ⟨h1, h2, h3⟩ := hs; simp [AsDeclared, define, valueSizeOverride, Verif.Maps.CPUMAP, Verif.Maps.DEVMAP, Verif.Maps.DEVMAP_HASH, RINGBUF, u32_small, *]
  | hash h k v n f => obtain ⟨h1, h2, h3, h4⟩ := hs; cases h <;> simp [AsDeclared, define, valueSizeOverride, Verif.Maps.CPUMAP, Verif.Maps.DEVMAP, Verif.Maps.DEVMAP_HASH, RINGBUF, u32_small, *]
  | lpmTrie k v n f =>
    obtain ⟨h1, h2, h3, h4⟩ := hs
    have h0 : u32 (keySize k) = k.size + 4 := by unfold keySize; rw [u32_small (by omega)]; omega
    simp [AsDeclared, define, valueSizeOverride, Verif.Maps.CPUMAP, Verif.Maps.DEVMAP, Verif.Maps.DEVMAP_HASH, RINGBUF, u32_small, *]
  | bloom v n f g => obtain ⟨h1, h2, h3, h4⟩ := hs; simp [AsDeclared, define, valueSizeOverride, Verif.Maps.CPUMAP, Verif.Maps.DEVMAP, Verif.Maps.DEVMAP_HASH, RINGBUF, u32_small, *]
  | ringBuf v n f =>
    obtain ⟨h1, h2⟩ := hs
    obtain ⟨p, hp, hpage⟩ := hp
    refine ⟨adjustToPageSize n H.page, ?_, ?_, ?_⟩
    · have : n < 2 ^ 32 := by omega
      simp [define, valueSizeOverride, Verif.Maps.CPUMAP, Verif.Maps.DEVMAP, Verif.Maps.DEVMAP_HASH, RINGBUF, u32_small, *]
    · rintro rfl; rfl
    · intro hn
      have := C31_rounded_partial n H.page hn (by rw [hpage]; exact Nat.two_pow_pos p) (by rw [hpage]; exact C31_fits n p hp h1)
      exact ⟨this.2.1, this.1, this.2.2⟩
  | stackTrace n f d =>
    obtain ⟨h1, h2, h3⟩ := hs
    have h0 : u32 (8 * d) = d * 8 := by rw [u32_small h3]; omega
    simp [AsDeclared, define, valueSizeOverride, Verif.Maps.CPUMAP, Verif.Maps.DEVMAP, Verif.Maps.DEVMAP_HASH, RINGBUF, u32_small, *]
    omega
  | sockHash k n f => obtain ⟨h1, h2, h3⟩ := hs; simp [AsDeclared, define, valueSizeOverride, Verif.Maps.CPUMAP, Verif.Maps.DEVMAP, Verif.Maps.DEVMAP_HASH, RINGBUF, u32_small, *]
  | sockMap n f => obtain ⟨h1, h2⟩ := hs; simp [AsDeclared, define, valueSizeOverride, Verif.Maps.CPUMAP, Verif.Maps.DEVMAP, Verif.Maps.DEVMAP_HASH, RINGBUF, u32_small, *]
  | cpuMap n f => obtain ⟨h1, h2⟩ := hs; simp [AsDeclared, define, valueSizeOverride, Verif.Maps.CPUMAP, Verif.Maps.DEVMAP, Verif.Maps.DEVMAP_HASH, RINGBUF, u32_small, *]
  | devMap n f => obtain ⟨h1, h2⟩ := hs; simp [AsDeclared, define, valueSizeOverride, Verif.Maps.CPUMAP, Verif.Maps.DEVMAP, Verif.Maps.DEVMAP_HASH, RINGBUF, u32_small, *]
  | devMapHash n f => obtain ⟨h1, h2⟩ := hs; simp [AsDeclared, define, valueSizeOverride, Verif.Maps.CPUMAP, Verif.Maps.DEVMAP, Verif.Maps.DEVMAP_HASH, RINGBUF, u32_small, *]
  | xskMap n f => obtain ⟨h1, h2⟩ := hs; simp [AsDeclared, define, valueSizeOverride, Verif.Maps.CPUMAP, Verif.Maps.DEVMAP, Verif.Maps.DEVMAP_HASH, RINGBUF, u32_small, *]
  | cgroupArray n f => obtain ⟨h1, h2⟩ := hs; simp [AsDeclared, define, valueSizeOverride, Verif.Maps.CPUMAP, Verif.Maps.DEVMAP, Verif.Maps.DEVMAP_HASH, RINGBUF, u32_small, *]
  | programArray n f => obtain ⟨h1, h2⟩ := hs; simp [AsDeclared, define, valueSizeOverride, Verif.Maps.CPUMAP, Verif.Maps.DEVMAP, Verif.Maps.DEVMAP_HASH, RINGBUF, u32_small, *]
  | reusePort n f => obtain ⟨h1, h2⟩ := hs; simp [AsDeclared, define, valueSizeOverride, Verif.Maps.CPUMAP, Verif.Maps.DEVMAP, Verif.Maps.DEVMAP_HASH, RINGBUF, u32_small, *]
  | perfEventArray f => have h1 : f < 2 ^ 32 := hs; simp [AsDeclared, define, valueSizeOverride, Verif.Maps.CPUMAP, Verif.Maps.DEVMAP, Verif.Maps.DEVMAP_HASH, RINGBUF, u32_small, *]
  | skStorage v => have h1 : v.size < 2 ^ 32 := hs; simp [AsDeclared, define, valueSizeOverride, Verif.Maps.CPUMAP, Verif.Maps.DEVMAP, Verif.Maps.DEVMAP_HASH, RINGBUF, NO_PREALLOC, u32_small, *]
  | inodeStorage v => have h1 : v.size < 2 ^ 32 := hs; simp [AsDeclared, define, valueSizeOverride, Verif.Maps.CPUMAP, Verif.Maps.DEVMAP, Verif.Maps.DEVMAP_HASH, RINGBUF, NO_PREALLOC, u32_small, *]
  | cgrpStorage v => have h1 : v.size < 2 ^ 32 := hs; simp [AsDeclared, define, valueSizeOverride, Verif.Maps.CPUMAP, Verif.Maps.DEVMAP, Verif.Maps.DEVMAP_HASH, RINGBUF, NO_PREALLOC, u32_small, *]
  | cgroupStorage b v => have h1 : v.size < 2 ^ 32 := hs; cases b <;> simp [AsDeclared, define, valueSizeOverride, Verif.Maps.CPUMAP, Verif.Maps.DEVMAP, Verif.Maps.DEVMAP_HASH, RINGBUF, u32_small, *]

/-- One bit. -/
theorem and_two_pow {f i : Nat} : f &&& 2 ^ i = 0 ↔ f.testBit i = false := by
  constructor
  · intro h
    have : (f &&& 2 ^ i).testBit i = false := by rw [h]; exact Nat.zero_testBit i
    simpa [Nat.testBit_and, Nat.testBit_two_pow_self] using this
  · intro h
    apply Nat.eq_of_testBit_eq
    intro j
    rw [Nat.testBit_and, Nat.testBit_two_pow, Nat.zero_testBit]
    by_cases hj : i = j
    · subst hj; simp [h]
    · simp [hj]

theorem bit0 {f : Nat} : (f &&& NO_PREALLOC == 0) = true ↔ f.testBit 0 = false := by
  rw [beq_iff_eq]; exact and_two_pow (i := 0)
theorem bit1 {f : Nat} : (f &&& NO_COMMON_LRU == 0) = true ↔ f.testBit 1 = false := by
  rw [beq_iff_eq]; exact and_two_pow (i := 1)
theorem bit5 {f : Nat} : (f &&& STACK_BUILD_ID == 0) = true ↔ f.testBit 5 = false := by
  rw [beq_iff_eq]; exact and_two_pow (i := 5)

theorem Flags.without {f b : Nat} {l l' : List Nat} (h : Flags f l) (hb : f.testBit b = false) (hl : ∀ i ∈ l, i ≠ b → i ∈ l') : Flags f l' :=
  ⟨fun i hi hf => hl i (h.1 i hi hf) (fun hh => by rw [hh, hb] at hf; cases hf), h.2⟩

theorem Flags.more {f : Nat} {l l' : List Nat} (h : Flags f l) (hl : ∀ i ∈ l, i ∈ l') : Flags f l' :=
  ⟨fun i hi hf => hl i (h.1 i hi hf), h.2⟩

theorem Flags.off {f b : Nat} {l : List Nat} (h : Flags f l) (hb : b < 32) (hl : b ∉ l) : f.testBit b = false := by
  rcases e : f.testBit b with _ | _
  · rfl
  · exact absurd (h.1 b hb e) hl

theorem flags_one : Flags 1 [0, 9] := ⟨by decide, by decide⟩

theorem one_bit : Nat.testBit 1 0 = true := by decide

theorem flags_zero (l : List Nat) : Flags 0 l :=
  ⟨fun i _ h => absurd ((Nat.zero_testBit i).symm.trans h) (by decide), fun h => absurd ((Nat.zero_testBit 7).symm.trans h.1) (by decide)⟩

/-- A map that passes the checks, whose flags the kernel has and whose sizes are within its limits, is made. -/
theorem C115_accepted_partial {K : Limits} {H : Host} {d : Decl} (hu : compiles true d = true) (hs : Small d) (hf : Fits K d) (hp : ∃ p, p ≤ 31 ∧ H.page = 2 ^ p)
    (hk : K.page = H.page) (hc : 0 < H.cpus) : Accepts K (attr H d) := by
  have hd := C115_declared hs hp
  have hck : check d = true := by simpa [compiles] using hu
  cases d with
  | array v n f => rw [hd]; obtain ⟨h1, h2, h3, h4⟩ := hf; exact ⟨rfl, by simp; omega, by simp; omega, h2, rfl, h4⟩
  | perCpuArray v n f =>
    rw [hd]; obtain ⟨h1, h2, h3⟩ := hf
    simp only [check, Bool.and_eq_true, decide_eq_true_eq] at hck
    exact ⟨rfl, by simp; omega, by simp; omega, h1, h2, rfl, h3⟩
  | queue v n f =>
    rw [hd]; obtain ⟨h1, h2⟩ := hf
    simp only [check, Bool.and_eq_true, decide_eq_true_eq, bit0] at hck
    exact ⟨rfl, by simp; omega, h1, by simp; omega, rfl, h2.without hck.2 (by decide)⟩
  | stack v n f =>
    rw [hd]; obtain ⟨h1, h2⟩ := hf
    simp only [check, Bool.and_eq_true, decide_eq_true_eq, bit0] at hck
    exact ⟨rfl, by simp; omega, h1, by simp; omega, rfl, h2.without hck.2 (by decide)⟩
  | hash h k v n f =>
    cases h with
    | plain =>
      rw [hd]; obtain ⟨h1, h2⟩ := hf
      simp only [check, Hash.rejected, Bool.and_eq_true, decide_eq_true_eq, bit1] at hck
      exact ⟨by simp; omega, by simp; omega, by simp; omega, h1, rfl, h2.without hck.1.2 (by decide)⟩
    | lru =>
      rw [hd]; obtain ⟨h1, h2, h3⟩ := hf
      simp only [check, Hash.rejected, Bool.and_eq_true, decide_eq_true_eq, bit0] at hck
      exact ⟨by simp; omega, by simp; omega, by simp; omega, h1, rfl, h2.without hck.1.2 (by decide), h3⟩
    | perCpu =>
      rw [hd]; obtain ⟨h1, h2, h3⟩ := hf
      simp only [check, Hash.rejected, Bool.and_eq_true, decide_eq_true_eq, bit1] at hck
      exact ⟨by simp; omega, by simp; omega, by simp; omega, h1, h2, rfl, h3.without hck.1.2 (by decide)⟩
    | lruPerCpu =>
      rw [hd]; obtain ⟨h1, h2, h3⟩ := hf
      simp only [check, Hash.rejected, Bool.and_eq_true, decide_eq_true_eq, bit0] at hck
      exact ⟨by simp; omega, by simp; omega, by simp; omega, h1, h2, rfl, h3.without hck.1.2 (by decide)⟩
  | lpmTrie k v n f =>
    rw [hd]; obtain ⟨h1, h2, h3⟩ := hf
    simp only [check, Bool.and_eq_true, decide_eq_true_eq] at hck
    unfold keySize at hck
    exact ⟨by simp; omega, by simp; omega, by simp; omega, h1, by simp; omega, rfl, h2, h3⟩
  | bloom v n f g => rw [hd]; obtain ⟨h1, h2, h3, h4⟩ := hf; exact ⟨rfl, by simp; omega, by simp; omega, h3, h4⟩
  | ringBuf v n f =>
    obtain ⟨m, ha, _, hm⟩ := hd
    rw [ha]
    obtain ⟨h1, h2⟩ := hf
    obtain ⟨_, ⟨j, hj⟩, _⟩ := hm h1
    obtain ⟨p, _, hpage⟩ := hp
    exact ⟨rfl, rfl, ⟨p + j, by rw [Nat.pow_add, ← hpage]; exact hj⟩, ⟨2 ^ j, by rw [hk]; exact hj⟩, rfl, h2⟩
  | stackTrace n f d =>
    rw [hd]; obtain ⟨h1, h2⟩ := hf
    simp only [check, Bool.and_eq_true, decide_eq_true_eq, bit5] at hck
    refine ⟨rfl, by simp; omega, rfl, h2, d, hck.1.1, h1, ?_⟩
    simp [hck.2]
  | sockHash k n f =>
    rw [hd]
    simp only [check, Bool.and_eq_true, decide_eq_true_eq] at hck
    exact ⟨by simp; omega, hck.1.2, .inl rfl, by simp; omega, rfl, hf⟩
  | sockMap n f =>
    rw [hd]
    simp only [check, decide_eq_true_eq] at hck
    exact ⟨rfl, .inl rfl, by simp; omega, rfl, hf⟩
  | cpuMap n f =>
    rw [hd]
    simp only [check, decide_eq_true_eq] at hck
    exact ⟨rfl, by cases H.cpuProg <;> simp, by simp; omega, hf.1, rfl, hf.2⟩
  | devMap n f =>
    rw [hd]
    simp only [check, decide_eq_true_eq] at hck
    exact ⟨rfl, by cases H.devProg <;> simp, by simp; omega, rfl, hf⟩
  | devMapHash n f =>
    rw [hd]
    simp only [check, decide_eq_true_eq] at hck
    exact ⟨rfl, by cases H.devProg <;> simp, by simp; omega, hf.1, rfl, hf.2⟩
  | xskMap n f =>
    rw [hd]
    simp only [check, decide_eq_true_eq] at hck
    exact ⟨rfl, rfl, by simp; omega, rfl, hf⟩
  | cgroupArray n f =>
    rw [hd]
    simp only [check, decide_eq_true_eq] at hck
    exact ⟨rfl, rfl, by simp; omega, rfl, hf⟩
  | programArray n f => rw [hd]; exact ⟨rfl, rfl, by have := hf.1; simp; omega, rfl, hf.2⟩
  | reusePort n f => rw [hd]; exact ⟨rfl, .inl rfl, by have := hf.1; simp; omega, rfl, hf.2⟩
  | perfEventArray f => rw [hd]; exact ⟨rfl, rfl, by simp; omega, rfl, hf⟩
  | skStorage v => rw [hd]; exact ⟨rfl, by have := hf.1; simp; omega, hf.2, rfl, rfl, flags_one, one_bit⟩
  | inodeStorage v => rw [hd]; exact ⟨rfl, by have := hf.1; simp; omega, hf.2, rfl, rfl, flags_one, one_bit⟩
  | cgrpStorage v => rw [hd]; exact ⟨rfl, by have := hf.1; simp; omega, hf.2, rfl, rfl, flags_one, one_bit⟩
  | cgroupStorage b v =>
    cases b with
    | false => rw [hd]; exact ⟨.inr rfl, by have := hf.1; simp; omega, hf.2, rfl, rfl, flags_zero _⟩
    | true => rw [hd]; exact ⟨.inr rfl, by have := hf.1; simp; omega, hf.2.1, hf.2.2, rfl, rfl, flags_zero _⟩

/-- The checks refuse nothing that the kernel would make, but for values that would not be aligned and stacks of build identifiers. -/
theorem C115_needed {K : Limits} {H : Host} {d : Decl} {used : Bool} (hs : Small d) (hp : ∃ p, p ≤ 31 ∧ H.page = 2 ^ p) (ha : Accepts K (attr H d)) :
    compiles used d = true ∨ Excused d := by
  have hd := C115_declared hs hp
  suffices check d = true ∨ Excused d from this.imp_left (fun h => by simp [compiles, h])
  cases d with
  | perCpuArray v n f =>
    rw [hd] at ha; obtain ⟨_, h1, h2, _⟩ := ha; simp only [] at h1 h2
    by_cases h8 : v.align ≤ 8
    · left; simp only [check, Bool.and_eq_true, decide_eq_true_eq]; omega
    · right; exact Nat.lt_of_not_le h8
  | queue v n f =>
    rw [hd] at ha; obtain ⟨_, h1, _, h2, _, h3⟩ := ha; simp only [] at h1 h2 h3
    left; simp only [check, Bool.and_eq_true, decide_eq_true_eq, bit0]
    exact ⟨by omega, h3.off (by decide) (by decide)⟩
  | stack v n f =>
    rw [hd] at ha; obtain ⟨_, h1, _, h2, _, h3⟩ := ha; simp only [] at h1 h2 h3
    left; simp only [check, Bool.and_eq_true, decide_eq_true_eq, bit0]
    exact ⟨by omega, h3.off (by decide) (by decide)⟩
  | hash h k v n f =>
    by_cases h8 : v.align ≤ 8
    · left
      cases h with
      | plain =>
        rw [hd] at ha; obtain ⟨h1, h2, h3, _, _, h4⟩ := ha; simp only [] at h1 h2 h3 h4
        simp only [check, Hash.rejected, Bool.and_eq_true, decide_eq_true_eq, bit1]
        exact ⟨⟨by omega, h4.off (by decide) (by decide)⟩, h8⟩
      | lru =>
        rw [hd] at ha; obtain ⟨h1, h2, h3, _, _, h4, _⟩ := ha; simp only [] at h1 h2 h3 h4
        simp only [check, Hash.rejected, Bool.and_eq_true, decide_eq_true_eq, bit0]
        exact ⟨⟨by omega, h4.off (by decide) (by decide)⟩, h8⟩
      | perCpu =>
        rw [hd] at ha; obtain ⟨h1, h2, h3, _, _, _, h4⟩ := ha; simp only [] at h1 h2 h3 h4
        simp only [check, Hash.rejected, Bool.and_eq_true, decide_eq_true_eq, bit1]
        exact ⟨⟨by omega, h4.off (by decide) (by decide)⟩, h8⟩
      | lruPerCpu =>
        rw [hd] at ha; obtain ⟨h1, h2, h3, _, _, _, h4⟩ := ha; simp only [] at h1 h2 h3 h4
        simp only [check, Hash.rejected, Bool.and_eq_true, decide_eq_true_eq, bit0]
        exact ⟨⟨by omega, h4.off (by decide) (by decide)⟩, h8⟩
    · right; exact Nat.lt_of_not_le h8
  | lpmTrie k v n f =>
    rw [hd] at ha; obtain ⟨h1, h2, h3, _, h4, _⟩ := ha; simp only [] at h1 h2 h3 h4
    by_cases h8 : v.align ≤ 8
    · by_cases hm : v.align ∣ k.size
      · left
        simp only [check, Bool.and_eq_true, decide_eq_true_eq, beq_iff_eq]
        unfold keySize
        exact ⟨⟨by omega, h8⟩, Nat.mod_eq_zero_of_dvd hm⟩
      · right; exact .inr hm
    · right; exact .inl (Nat.lt_of_not_le h8)
  | stackTrace n f d =>
    rw [hd] at ha; obtain ⟨_, h1, _, _, m, h2, _, h3⟩ := ha; simp only [] at h1 h2 h3
    rcases e : f.testBit 5 with _ | _
    · left
      simp only [check, Bool.and_eq_true, decide_eq_true_eq, bit5]
      simp only [e, Bool.false_eq_true, if_false] at h3
      exact ⟨by omega, e⟩
    · right; exact e
  | sockHash k n f =>
    rw [hd] at ha; obtain ⟨h1, h2, _, h3, _⟩ := ha; simp only [] at h1 h2 h3
    left; simp only [check, Bool.and_eq_true, decide_eq_true_eq]; omega
  | sockMap n f => rw [hd] at ha; obtain ⟨_, _, h3, _⟩ := ha; simp only [] at h3; left; simp only [check, decide_eq_true_eq]; omega
  | cpuMap n f => rw [hd] at ha; obtain ⟨_, _, h3, _⟩ := ha; simp only [] at h3; left; simp only [check, decide_eq_true_eq]; omega
  | devMap n f => rw [hd] at ha; obtain ⟨_, _, h3, _⟩ := ha; simp only [] at h3; left; simp only [check, decide_eq_true_eq]; omega
  | devMapHash n f => rw [hd] at ha; obtain ⟨_, _, h3, _⟩ := ha; simp only [] at h3; left; simp only [check, decide_eq_true_eq]; omega
  | xskMap n f => rw [hd] at ha; obtain ⟨_, _, h3, _⟩ := ha; simp only [] at h3; left; simp only [check, decide_eq_true_eq]; omega
  | cgroupArray n f => rw [hd] at ha; obtain ⟨_, _, h3, _⟩ := ha; simp only [] at h3; left; simp only [check, decide_eq_true_eq]; omega
  | array | bloom | ringBuf | programArray | reusePort | perfEventArray | skStorage | inodeStorage | cgrpStorage | cgroupStorage => exact .inl rfl

theorem pow_dvd_eight {a : Nat} (h : a ≤ 8) (hp : ∃ p, a = 2 ^ p) : a ∣ 8 := by
  obtain ⟨p, rfl⟩ := hp
  have : p ≤ 3 := by
    rcases Nat.lt_or_ge 3 p with h3 | h3
    · have : 2 ^ 4 ≤ 2 ^ p := Nat.pow_le_pow_right (by decide) h3
      omega
    · exact h3
  exact Nat.pow_dvd_pow 2 this

/-- References to values are aligned, in all maps but plain arrays; in these, if the type needs no more than 8. -/
theorem C115_aligned_partial {d : Decl} {v : Ty} {p : Nat} (hu : compiles true d = true) (hv : valueType d = some v) (ha : ∃ i, v.align = 2 ^ i) (hp : ValueAt d p)
    (harr : ∀ n f, d = .array v n f → v.align ≤ 8) : v.align ∣ p := by
  have hck : check d = true := by simpa [compiles] using hu
  cases hp with
  | array hb _ =>
    cases hv
    have h8 := pow_dvd_eight (harr _ _ rfl) ha
    exact Nat.dvd_add (Nat.dvd_trans h8 hb) (Nat.dvd_trans h8 (Nat.dvd_trans (Nat.dvd_mul_left 8 _) (Nat.dvd_mul_left _ _)))
  | perCpuArray hb =>
    cases hv
    simp only [check, Bool.and_eq_true, decide_eq_true_eq] at hck
    exact Nat.dvd_trans (pow_dvd_eight hck.2 ha) hb
  | hash hh hb =>
    cases hv
    simp only [check, Bool.and_eq_true, decide_eq_true_eq] at hck
    have h8 := pow_dvd_eight hck.2 ha
    exact Nat.dvd_add (Nat.dvd_trans h8 hb) (Nat.dvd_trans h8 (Nat.dvd_mul_left 8 _))
  | perCpuHash hh hb =>
    cases hv
    simp only [check, Bool.and_eq_true, decide_eq_true_eq] at hck
    exact Nat.dvd_trans (pow_dvd_eight hck.2 ha) hb
  | lpmTrie hb =>
    cases hv
    simp only [check, Bool.and_eq_true, decide_eq_true_eq, beq_iff_eq] at hck
    exact Nat.dvd_add (Nat.dvd_trans (pow_dvd_eight hck.1.2 ha) hb) (Nat.dvd_of_mod_eq_zero hck.2)

end Verif.Decls
