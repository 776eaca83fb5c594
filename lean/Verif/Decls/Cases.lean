import Verif.Decls.Props
/-!
# C115: cases and counterexamples
-/
namespace Verif.Decls

def limits : Limits := ⟨4194304, 32768, 127, 8192, 4096, 65000⟩
def host : Host := ⟨8, 4096, true, true⟩
def int : Ty := ⟨4, 4⟩
def addr : Ty := ⟨16, 4⟩

theorem page_host : ∃ p, p ≤ 31 ∧ host.page = 2 ^ p := ⟨12, by decide, rfl⟩

/-- `HashMap<[u32; 4], u32, 1024>` -/
def table : Decl := .hash .plain addr int 1024 0

example : Accepts limits (attr host table) :=
  C115_accepted_partial (by decide) (by unfold Small table; decide) ⟨by decide, flags_zero _⟩ page_host rfl (by decide)

/-- `RingBuf<T, 5000>` -/
example : Accepts limits (attr host (.ringBuf int 5000 0)) ∧ (attr host (.ringBuf int 5000 0)).entries = 8192 :=
  ⟨C115_accepted_partial (by decide) (by unfold Small; decide) ⟨by decide, flags_zero _⟩ page_host rfl (by decide), by decide⟩

/-- `PerCpuHashMap` with `BPF_F_NO_PREALLOC`, `StackTrace`, `CpuMap`, `SkStorage` -/
example : Accepts limits (attr host (.hash .perCpu addr int 16 1)) ∧ Accepts limits (attr host (.stackTrace 16 0 127)) ∧ Accepts limits (attr host (.cpuMap 8 0)) ∧
    Accepts limits (attr host (.skStorage addr)) :=
  ⟨C115_accepted_partial (by decide) (by unfold Small; decide) ⟨by decide, by decide, by decide, by decide⟩ page_host rfl (by decide),
    C115_accepted_partial (by decide) (by unfold Small; decide) ⟨by decide, flags_zero _⟩ page_host rfl (by decide),
    C115_accepted_partial (by decide) (by unfold Small; decide) ⟨by decide, flags_zero _⟩ page_host rfl (by decide),
    C115_accepted_partial (by decide) (by unfold Small; decide) ⟨by decide, by decide⟩ page_host rfl (by decide)⟩

/-- `LpmTrie<[u8; 4], u32, 1024>` with the default flags; its values are after 4 bytes of data. -/
example : Accepts limits (attr host (.lpmTrie ⟨4, 1⟩ int 1024 1)) ∧ ∀ data, 8 ∣ data → 4 ∣ data + 4 :=
  ⟨C115_accepted_partial (by decide) (by unfold Small; decide) ⟨by decide, ⟨by decide, by decide⟩, by decide⟩ page_host rfl (by decide),
    fun data h => C115_aligned_partial (d := .lpmTrie ⟨4, 1⟩ int 1024 1) (v := int) (by decide) rfl ⟨2, rfl⟩ (.lpmTrie h) (fun n f hh => by cases hh)⟩

/-- Checks that fail: a trie whose values would not be aligned, a queue without entries, an LRU map that is not preallocated. -/
example : compiles true (.lpmTrie ⟨6, 1⟩ int 1024 1) = false ∧ compiles true (.queue int 0 0) = false ∧ compiles true (.hash .lru int int 1 1) = false ∧
    compiles true (.stackTrace 1 32 127) = false ∧ compiles true (.sockHash ⟨513, 1⟩ 1 0) = false := by decide

example : compiles true table = true ∨ Excused table :=
  C115_needed (K := limits) (H := host) (by unfold Small table; decide) page_host
    (C115_accepted_partial (by decide) (by unfold Small table; decide) ⟨by decide, flags_zero _⟩ page_host rfl (by decide))

/-- A trie without `BPF_F_NO_PREALLOC` passes the checks; no kernel makes it. -/
theorem C115_trie_violated : ∃ (d : Decl), Small d ∧ compiles true d = true ∧ ∀ (K : Limits), ¬ Accepts K (attr host d) := by
  refine ⟨.lpmTrie ⟨4, 1⟩ int 1024 0, by unfold Small; decide, by decide, fun K h => ?_⟩
  rw [C115_declared (d := .lpmTrie ⟨4, 1⟩ int 1024 0) (by unfold Small; decide) page_host] at h
  obtain ⟨_, _, _, _, _, _, _, h⟩ := h
  exact absurd h (by decide)

/-- An array, a ring buffer, a Bloom filter or an array of programs without entries passes (nothing is checked); no kernel makes it. -/
theorem C115_empty_violated : ∀ d ∈ [Decl.array int 0 0, .ringBuf int 0 0, .bloom int 0 0 0, .programArray 0 0], Small d ∧ compiles true d = true ∧
    ∀ (K : Limits), ¬ Accepts K (attr host d) := by
  intro d hd
  have : d = .array int 0 0 ∨ d = .ringBuf int 0 0 ∨ d = .bloom int 0 0 0 ∨ d = .programArray 0 0 := by simpa using hd
  rcases this with rfl | rfl | rfl | rfl
  · refine ⟨by unfold Small; decide, by decide, fun K h => ?_⟩
    rw [C115_declared (d := .array int 0 0) (by unfold Small; decide) page_host] at h
    exact h.2.2.1 rfl
  · refine ⟨by unfold Small; decide, by decide, fun K h => ?_⟩
    obtain ⟨m, hm, h0, _⟩ := C115_declared (d := .ringBuf int 0 0) (by unfold Small; decide) page_host
    rw [hm, h0 rfl] at h
    obtain ⟨_, _, ⟨j, hj⟩, _⟩ := h
    have := Nat.two_pow_pos j
    simp only [] at hj
    omega
  · refine ⟨by unfold Small; decide, by decide, fun K h => ?_⟩
    rw [C115_declared (d := .bloom int 0 0 0) (by unfold Small; decide) page_host] at h
    exact h.2.2.1 rfl
  · refine ⟨by unfold Small; decide, by decide, fun K h => ?_⟩
    rw [C115_declared (d := .programArray 0 0) (by unfold Small; decide) page_host] at h
    exact h.2.2.1 rfl

/-- 16 hash functions are too many for a Bloom filter. -/
theorem C115_bloom_violated : ∃ (d : Decl), Small d ∧ compiles true d = true ∧ ∀ (K : Limits), ¬ Accepts K (attr host d) := by
  refine ⟨.bloom int 8 0 16, by unfold Small; decide, by decide, fun K h => ?_⟩
  rw [C115_declared (d := .bloom int 8 0 16) (by unfold Small; decide) page_host] at h
  exact absurd h.2.2.2.1 (by decide)

/-- Flags are not checked but for one: a hash map that can be mapped into memory. -/
theorem C115_flags_violated : ∃ (d : Decl), Small d ∧ compiles true d = true ∧ ∀ (K : Limits), ¬ Accepts K (attr host d) := by
  refine ⟨.hash .plain int int 8 1024, by unfold Small; decide, by decide, fun K h => ?_⟩
  rw [C115_declared (d := .hash .plain int int 8 1024) (by unfold Small; decide) page_host] at h
  obtain ⟨_, _, _, _, _, h⟩ := h
  exact absurd (h.1 10 (by decide) (by decide)) (by decide)

/-- The checks are made in the methods: a map that the program declares for others and does not use itself is not checked. -/
theorem C115_unused_violated : ∃ (d : Decl), Small d ∧ compiles true d = false ∧ compiles false d = true ∧ ∀ (K : Limits), ¬ Accepts K (attr host d) := by
  refine ⟨.queue int 0 0, by unfold Small; decide, by decide, by decide, fun K h => ?_⟩
  rw [C115_declared (d := .queue int 0 0) (by unfold Small; decide) page_host] at h
  exact h.2.2.2.1 rfl

/-- `MAX_ENTRIES` of 2^32 + 1 passes, and the kernel makes a map with one entry. -/
theorem C115_cut_violated : compiles true (.hash .plain int int (2 ^ 32 + 1) 0) = true ∧ (attr host (.hash .plain int int (2 ^ 32 + 1) 0)).entries = 1 ∧
    Accepts limits (attr host (.hash .plain int int (2 ^ 32 + 1) 0)) :=
  ⟨by decide, by decide, by
    have : attr host (.hash .plain int int (2 ^ 32 + 1) 0) = attr host (.hash .plain int int 1 0) := by decide
    rw [this]
    exact C115_accepted_partial (by decide) (by unfold Small; decide) ⟨by decide, flags_zero _⟩ page_host rfl (by decide)⟩

/-- An array of values that need an alignment of 16 passes, and the kernel makes it; where it begins at a multiple of 8 that is not one of 16, which is all the kernel
    promises, programs get references to values that are not aligned. -/
theorem C115_align_violated : ∃ (v : Ty) (d : Decl), d = .array v 2 0 ∧ compiles true d = true ∧ Accepts limits (attr host d) ∧ v.align ∣ v.size ∧
    (∃ base, 8 ∣ base ∧ ¬ 16 ∣ base) ∧ ∀ base, 8 ∣ base → ¬ 16 ∣ base → v.align = 16 ∧ ValueAt d base ∧ ¬ v.align ∣ base := by
  refine ⟨⟨16, 16⟩, _, rfl, by decide, ?_, ⟨1, rfl⟩, ⟨8, ⟨1, rfl⟩, by decide⟩, fun base hb hn => ⟨rfl, ?_, hn⟩⟩
  · exact C115_accepted_partial (by decide) (by unfold Small; decide) ⟨by decide, by decide, by decide, flags_zero _⟩ page_host rfl (by decide)
  · have := ValueAt.array (v := ⟨16, 16⟩) (n := 2) (f := 0) (i := 0) hb (by decide)
    simpa using this

end Verif.Decls
