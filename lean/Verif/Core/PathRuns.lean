import Verif.Core.Missing
import Verif.Core.Runs
/-! # Concrete access paths: cases meeting the hypotheses of C20, and its violations -/
set_option linter.unusedSimpArgs false
set_option linter.unusedVariables false
namespace Verif.Core
open Verif.Btf Verif.Btf.Spec Verif.Core.Spec Verif.Bpf

theorem words_of {tb : Btf} (h : ∀ t ∈ tb.types, compInfo t < 2 ^ 32) : Words tb.types := by
  intro id ty i info m hid hm
  obtain ⟨_, _, _, rfl⟩ := hasMember_members hm
  exact h ty (List.mem_of_getElem? hid)

/-- All members of all types have names, different ones within each type. -/
def plain (tb : Btf) : Bool :=
  tb.types.all (fun t => match members t with
    | none => true
    | some ms => ms.all (fun m => match untilNul (tb.strings.drop m.name) with
        | none => false
        | some n => n != [] && ms.all (fun m' => untilNul (tb.strings.drop m'.name) != some n || m == m')))

theorem distinct_of {tb : Btf} (h : plain tb = true) : Distinct tb := by
  intro ty hty name o info m o' info' m' hf hf'
  have ht := List.all_eq_true.mp h ty hty
  have key : ∀ {o info m}, FieldAt tb.types tb.strings ty name o info m →
      ∃ ms, members ty = some ms ∧ m ∈ ms ∧ untilNul (tb.strings.drop m.name) = some name := by
    intro o info m hf
    cases hf with
    | direct hm hs hne =>
      obtain ⟨ms, h1, h2, _⟩ := hasMember_members hm
      exact ⟨ms, h1, List.mem_of_getElem? h2, untilNul_some.mpr hs⟩
    | inner hm hs _ _ =>
      obtain ⟨ms, h1, h2, _⟩ := hasMember_members hm
      rw [h1] at ht
      have := List.all_eq_true.mp ht _ (List.mem_of_getElem? h2)
      rw [untilNul_some.mpr hs] at this
      simp at this
  obtain ⟨ms, h1, h2, h3⟩ := key hf
  obtain ⟨ms', h1', h2', h3'⟩ := key hf'
  rw [h1] at h1'; cases h1'
  rw [h1] at ht
  have := List.all_eq_true.mp ht _ h2
  rw [h3] at this
  simp only [Bool.and_eq_true] at this
  have := List.all_eq_true.mp this.2 _ h2'
  rw [h3'] at this
  simpa using this

/-- `struct task { int arr[4]; }`; "0:0:2" at 10. -/
def localArr : Btf :=
  btfOf ",task,arr,0:0:2,sec," [mkInt 0 4 1 0, .array 0 (3 * 2 ^ 24) 1 1 4, mkStruct 1 [⟨6, 2, 0⟩] 16]

/-- `struct task { int b; union { struct { int c; int arr[8]; }; long z; }; }`. -/
def kernelArr : Btf :=
  btfOf ",task,arr,b,c,z," [mkInt 0 4 1 0, .array 0 (3 * 2 ^ 24) 1 1 8, mkStruct 0 [⟨12, 1, 0⟩, ⟨6, 2, 32⟩] 36,
    mkInt 0 8 1 0, .union 0 (5 * 2 ^ 24 + 2) 40 [⟨0, 3, 0⟩, ⟨14, 4, 0⟩] none, mkStruct 1 [⟨10, 1, 0⟩, ⟨0, 5, 64⟩] 48]

/-- The spec of `arr[2]` and its match: bit 64 + 0 + 32 + 2 * 32. -/
def specArr : AccSpec := ⟨3, [0, 0, 2], [⟨3, 0, none⟩, ⟨3, 0, some "arr".toUTF8.toList⟩, ⟨1, 2, none⟩], 64⟩

example : specNew localArr 3 (accessString [0, 0, 2]) .fieldByteOffset = .ok specArr ∧
    matchCandidate localArr kernelArr .fieldByteOffset specArr ⟨"task".toUTF8.toList, 6⟩ =
      .ok (some ⟨6, [0, 1, 0, 1, 2], [⟨6, 0, none⟩, ⟨3, 1, some "arr".toUTF8.toList⟩, ⟨1, 2, none⟩], 160⟩) := by
  constructor <;> decide +kernel

/-- The hypotheses of `C20_path_partial` are met, and the path has the members one expects. -/
example : Words kernelArr.types ∧ Spells localArr.types localArr.strings true 3 [0, 0, 2]
    [.index 0, .field "arr".toUTF8.toList 2, .index 2] := by
  refine ⟨words_of (by decide +kernel), ?_⟩
  have hself : ∀ {ts : List BtfType} {r : Nat} {t : BtfType}, ts[r]? = some t → through t = none → Resolves ts r r t :=
    fun h1 h2 => ⟨0, by omega, .here _, h1, h2⟩
  refine .root (hself (t := mkStruct 1 [⟨6, 2, 0⟩] 16) rfl rfl) ?_
  refine .member (m := ⟨6, 2, 0⟩) (info := compInfo (mkStruct 1 [⟨6, 2, 0⟩] 16))
    (hself (t := mkStruct 1 [⟨6, 2, 0⟩] 16) rfl rfl) (members_hasMember rfl rfl) (by decide)
    (C17_string localArr _ _ (by decide +kernel)) ?_
  exact .elem (hself rfl rfl) (hself (t := mkInt 0 4 1 0) rfl rfl) (.inl (by decide)) (.done _ _)

/-- A kernel type without the field: the hypotheses of `C20_missing_partial` are met. -/
example : Words kernelTask.types ∧ Distinct kernelTask ∧
    (∀ n k e x len, BtfType.array n k e x len ∈ kernelTask.types → len ≠ 0) ∧
    matchCandidate localArr kernelTask .fieldByteOffset specArr ⟨"task".toUTF8.toList, 3⟩ = .ok none := by
  refine ⟨words_of (by decide +kernel), distinct_of (by decide +kernel), ?_, by decide +kernel⟩
  intro n k e x len h
  simp [kernelTask, btfOf, mkInt, mkStruct] at h

/-! ## Violations -/

/-- `struct pkt { int len; char data[]; }`. -/
def localFlexible : Btf :=
  btfOf ",pkt,len,data," [mkInt 0 4 1 0, mkInt 0 1 1 0, .array 0 (3 * 2 ^ 24) 2 1 0, mkStruct 1 [⟨5, 1, 0⟩, ⟨9, 3, 32⟩] 4]

/-- **C20 violated**: only one element of a flexible array member can be relocated, the one whose index happens to be the
index of the member: of `p->data[i]`, `i` = 1 is accepted, 0 and 2 are out of bounds. -/
theorem C20_flexible_violated :
    (∃ l, specNew localFlexible 4 (accessString [0, 1, 1]) .fieldByteOffset = .ok l) ∧
    specNew localFlexible 4 (accessString [0, 1, 0]) .fieldByteOffset = .error (.invalidAccessIndex 0 0) ∧
    specNew localFlexible 4 (accessString [0, 1, 2]) .fieldByteOffset = .error (.invalidAccessIndex 2 0) := by
  refine ⟨⟨⟨4, [0, 1, 1], [⟨4, 0, none⟩, ⟨4, 1, some "data".toUTF8.toList⟩, ⟨2, 1, none⟩], 40⟩, ?_⟩, ?_, ?_⟩ <;> decide +kernel

/-- `struct s { unsigned long a:63; }`; "1:0" at 5, "sec" at 9. -/
def localBits : Btf := btfOf ",s,a,1:0,sec," [mkInt 0 8 0 0, .struct 1 (2 ^ 31 + 4 * 2 ^ 24 + 1) 8 [⟨3, 1, 63 * 2 ^ 24⟩]]

/-- **C20 violated**: for an access `p[1].a` the local offset counts 8 bits for the 8 bytes of `p[0]`, so that a field of
63 bits seems to cross an 8 byte boundary and loading fails, although the kernel's type is the same. With `p[0].a` it
succeeds. -/
theorem C20_local_index_violated :
    relocateBtf localBits localBits infos [(9, [⟨.fieldByteOffset, 16, 2, 5⟩])] [(5, ⟨0, 5, 16, [⟨0xb7, 3, 0, 0, 9⟩], [], []⟩)] =
      .error (.btf .invalidTypeInfo) ∧
    specNew localBits 2 (accessString [1, 0]) .fieldByteOffset =
      .ok ⟨2, [1, 0], [⟨2, 1, none⟩, ⟨2, 0, some "a".toUTF8.toList⟩], 8⟩ := by
  constructor <;> decide +kernel

/-- `struct cube { int a[2][2][2]; }`. -/
def cube : Btf :=
  btfOf ",cube,a," [mkInt 0 4 1 0, .array 0 (3 * 2 ^ 24) 1 1 2, .array 0 (3 * 2 ^ 24) 2 1 2, .array 0 (3 * 2 ^ 24) 3 1 2,
    mkStruct 1 [⟨6, 4, 0⟩] 32]

/-- The spec of `a[1][0][0]`. -/
def specCube : AccSpec :=
  ⟨5, [0, 0, 1, 0, 0], [⟨5, 0, none⟩, ⟨5, 0, some "a".toUTF8.toList⟩, ⟨3, 1, none⟩, ⟨2, 0, none⟩, ⟨1, 0, none⟩], 64⟩

/-- **C20 violated**: `a[1]` of `int a[2][2][2]` has 16 bytes before it, but the access `a[1][0][0]` is relocated to byte 8,
which is `a[0][1][0]`, although program and kernel have the same type. -/
theorem C20_matrix_violated :
    (∃ d dims, SizeOf cube.types 3 d dims 16) ∧
    specNew cube 5 (accessString [0, 0, 1, 0, 0]) .fieldByteOffset = .ok specCube ∧
    ∃ t, matchCandidate cube cube .fieldByteOffset specCube ⟨"cube".toUTF8.toList, 5⟩ = .ok (some t) ∧ t.bitOffset = 8 * 8 := by
  refine ⟨⟨3, 2, ?_⟩, by decide +kernel, ⟨⟨5, [0, 0, 1, 0, 0], specCube.accessors, 64⟩, by decide +kernel, rfl⟩⟩
  have h1 : SizeOf cube.types 1 1 0 4 := .int (n := 0) (i := 1 * 2 ^ 24) (s := 4) (x := 1 * 2 ^ 24 + 32) rfl
  have h2 : SizeOf cube.types 2 2 1 (2 * 4) := .array (n := 0) (i := 3 * 2 ^ 24) (e := 1) (x := 1) rfl h1
  exact .array (n := 0) (i := 3 * 2 ^ 24) (e := 2) (x := 1) (len := 2) (d := 2) (dims := 1) (s := 8) rfl h2

/-- A kernel with an anonymous struct containing itself (malformed BTF). -/
def kernelLoop : Btf := btfOf ",task,arr," [mkStruct 1 [⟨0, 1, 0⟩] 4]

/-- **C20 violated**: a type with an anonymous member of its own type exhausts the stack. -/
theorem C20_cycle_violated :
    matchCandidate localArr kernelLoop .fieldByteOffset specArr ⟨"task".toUTF8.toList, 1⟩ = .error .stackOverflow := by
  decide +kernel

end Verif.Core
