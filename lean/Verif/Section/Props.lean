import Verif.Section.Lemmas
/-!
# C22 and C54: section names and program kinds
-/
set_option linter.unusedSimpArgs false
set_option linter.unusedVariables false
namespace Verif.Section
open Verif.Str Spec

/-- **C22.** A section name is accepted exactly when it matches a row of the table, and the program is then
loaded with that row's type, attach type and flags. -/
theorem C22_section_name (s : List Char) (l : Load) :
    (fromStr s).map ProgramSection.load = some l ↔ ∃ r ∈ table, r.Matches s ∧ r.load = l := by
  constructor
  · intro h
    cases hk : fromStr s with
    | none => simp [hk] at h
    | some k =>
      simp only [hk, Option.map_some, Option.some.injEq] at h
      subst h
      refine forward s _ k ?_ hk
      rw [toList_ofList_map, joinWith_splitBy]
  · rintro ⟨r, hr, hm, rfl⟩
    exact accept r hr s hm

example : (fromStr "cgroup/connect4/my_prog".toList).map ProgramSection.load = some ⟨18, some 10, 0, false, none⟩ := by
  decide +kernel
example : ∃ r ∈ table, r.Matches "uretprobe.multi.s/lib:f+4".toList ∧ r.load = ⟨2, some 48, 16, true, none⟩ :=
  (C22_section_name _ _).mp (by decide +kernel)

/-- **C22.** A name that matches no row is rejected, and nothing else is. -/
theorem C22_rejected (s : List Char) : fromStr s = none ↔ ¬ ∃ r ∈ table, r.Matches s := by
  constructor
  · rintro h ⟨r, hr, hm⟩
    have := accept r hr s hm
    simp [h] at this
  · intro h
    cases hk : fromStr s with
    | none => rfl
    | some k =>
      obtain ⟨r, hr, hm, -⟩ := (C22_section_name s k.load).mp (by rw [hk]; rfl)
      exact absurd ⟨r, hr, hm⟩ h

example : fromStr "xdp/foo".toList = none ∧ fromStr "kprobes".toList = none ∧ fromStr "cgroup".toList = none := by
  decide +kernel

/-- **C22.** No two rows disagree about a name. -/
theorem C22_unambiguous (s : List Char) (r r' : Row) (hr : r ∈ table) (hr' : r' ∈ table)
    (h : r.Matches s) (h' : r'.Matches s) : r.load = r'.load := by
  have h1 := accept r hr s h
  rw [accept r' hr' s h'] at h1
  exact (Option.some.inj h1).symm

/-- **C22.** A non-empty code section with a name of the table is taken as a program: no such name is mistaken
for a license, version, map, data or BTF section. -/
theorem C22_is_program (s : List Char) (size : Nat) (hsize : 0 < size) (h : ∃ r ∈ table, r.Matches s) :
    sectionKind s true size = .program := by
  obtain ⟨r, hr, hm⟩ := h
  have : kindFromName s = .undefined := by
    rcases hm with rfl | ⟨-, rest, rfl⟩
    · have := kind_lemma r hr []
      rwa [List.append_nil] at this
    · exact kind_lemma r hr _
  simp [sectionKind, this, hsize]

theorem startsWith_iff {p : String} {s : List Char} : startsWith p s = true ↔ ∃ rest, s = p.toList ++ rest := by
  unfold startsWith
  rw [List.isPrefixOf_iff_prefix]
  constructor
  · rintro ⟨r, hr⟩; exact ⟨r, hr.symm⟩
  · rintro ⟨r, hr⟩; exact ⟨r, hr.symm⟩

theorem kind_of_prefix (p : String × SectionKind) (hp : p ∈ special) :
    ∀ rest : List Char, kindFromName (p.1.toList ++ rest) = p.2 := by
  revert p
  simp only [special, List.forall_mem_cons, List.not_mem_nil, false_implies, implies_true, and_true]
  repeat' apply And.intro
  all_goals (intro rest; rfl)

theorem mark_prefix {p : String} {s : List Char} {k : SectionKind} (hm : (p, k) ∈ special) (h : startsWith p s = true) :
    Marks s k ∨ k = .undefined := by
  obtain ⟨r, hr⟩ := startsWith_iff.mp h
  exact .inl (.inl ⟨(p, k), hm, rfl, r, hr⟩)

theorem kindFromName_marks (s : List Char) : Marks s (kindFromName s) ∨ kindFromName s = .undefined := by
  unfold kindFromName
  split
  · exact mark_prefix (p := "license") (by simp [special]) (by assumption)
  split
  · exact mark_prefix (p := "version") (by simp [special]) (by assumption)
  split
  · exact mark_prefix (p := "maps") (by simp [special]) (by assumption)
  split
  · exact mark_prefix (p := ".maps") (by simp [special]) (by assumption)
  split
  · exact mark_prefix (p := ".text") (by simp [special]) (by assumption)
  split
  · exact mark_prefix (p := ".bss") (by simp [special]) (by assumption)
  split
  · exact mark_prefix (p := ".data") (by simp [special]) (by assumption)
  split
  · exact mark_prefix (p := ".rodata") (by simp [special]) (by assumption)
  split
  · exact .inl (.inr (.inl ⟨by assumption, rfl⟩))
  split
  · exact .inl (.inr (.inr ⟨by assumption, rfl⟩))
  · exact .inr rfl

/-- **C22.** What a section holds follows from its name alone when the name is special; any other section is a program
exactly when it is a non-empty code section, and is ignored otherwise. -/
theorem C22_section_kinds (s : List Char) (isText : Bool) (size : Nat) :
    (∀ k, Marks s k → sectionKind s isText size = k) ∧
    ((∀ k, ¬ Marks s k) → sectionKind s isText size = if isText = true ∧ 0 < size then .program else .undefined) := by
  constructor
  · rintro k (⟨p, hp, rfl, rest, rfl⟩ | ⟨rfl, rfl⟩ | ⟨rfl, rfl⟩)
    · unfold sectionKind
      rw [kind_of_prefix p hp]
      revert hp
      simp only [special, List.mem_cons, List.not_mem_nil, or_false]
      rintro (rfl | rfl | rfl | rfl | rfl | rfl | rfl | rfl) <;> rfl
    · rfl
    · rfl
  · intro h
    have hu : kindFromName s = .undefined := by
      rcases kindFromName_marks s with h' | h'
      · exact absurd h' (h _)
      · exact h'
    unfold sectionKind
    rw [hu]
    simp

example : sectionKind "lirc_mode2/p".toList true 8 = .program ∧ sectionKind "license".toList true 8 = .license ∧
    sectionKind ".rodata.str1.1".toList false 8 = .rodata ∧ sectionKind "mine".toList false 8 = .undefined := by
  decide +kernel

theorem withName_row (t : String) (pre : List Char) (l : Load) (nm : Option (List Char)) (hp : pre = t.toList)
    (hm : (⟨t, true, l⟩ : Row) ∈ table) : ∃ r ∈ table, r.Matches (withName pre nm) ∧ r.load = l := by
  refine ⟨_, hm, ?_, rfl⟩
  subst hp
  cases nm with
  | none => exact .inl rfl
  | some f => exact .inr ⟨rfl, f, rfl⟩

theorem exact_row (t : String) (o : Bool) (s : List Char) (l : Load) (hs : s = t.toList)
    (hm : (⟨t, o, l⟩ : Row) ∈ table) : ∃ r ∈ table, r.Matches s ∧ r.load = l :=
  ⟨_, hm, .inl hs, rfl⟩

/-- The section name written by a macro starts with a row's text. -/
theorem attr_row (a : Attr) : ∃ r ∈ table, r.Matches a.sectionName ∧ r.load = wanted a := by
  cases a with
  | kprobe ret f o => cases ret <;> exact withName_row _ _ _ _ rfl (by dsimp only [wanted]; decide +kernel)
  | uprobe ret sl mu t o =>
    cases ret <;> cases sl <;> cases mu
    · exact withName_row "uprobe" _ _ _ (by decide +kernel) (by dsimp only [wanted]; decide +kernel)
    · exact withName_row "uprobe.multi" _ _ _ (by decide +kernel) (by dsimp only [wanted]; decide +kernel)
    · exact withName_row "uprobe.s" _ _ _ (by decide +kernel) (by dsimp only [wanted]; decide +kernel)
    · exact withName_row "uprobe.multi.s" _ _ _ (by decide +kernel) (by dsimp only [wanted]; decide +kernel)
    · exact withName_row "uretprobe" _ _ _ (by decide +kernel) (by dsimp only [wanted]; decide +kernel)
    · exact withName_row "uretprobe.multi" _ _ _ (by decide +kernel) (by dsimp only [wanted]; decide +kernel)
    · exact withName_row "uretprobe.s" _ _ _ (by decide +kernel) (by dsimp only [wanted]; decide +kernel)
    · exact withName_row "uretprobe.multi.s" _ _ _ (by decide +kernel) (by dsimp only [wanted]; decide +kernel)
  | xdp fr m =>
    cases fr <;> rcases m with _ | (_ | _ | _)
    · exact exact_row "xdp" false _ _ (by decide +kernel) (by decide +kernel)
    · exact exact_row "xdp" false _ _ (by decide +kernel) (by decide +kernel)
    · exact exact_row "xdp/cpumap" true _ _ (by decide +kernel) (by decide +kernel)
    · exact exact_row "xdp/devmap" true _ _ (by decide +kernel) (by decide +kernel)
    · exact exact_row "xdp.frags" false _ _ (by decide +kernel) (by decide +kernel)
    · exact exact_row "xdp.frags" false _ _ (by decide +kernel) (by decide +kernel)
    · exact exact_row "xdp.frags/cpumap" true _ _ (by decide +kernel) (by decide +kernel)
    · exact exact_row "xdp.frags/devmap" true _ _ (by decide +kernel) (by decide +kernel)
  | fentry s f => cases s <;> exact withName_row _ _ _ _ rfl (by dsimp only [wanted]; decide +kernel)
  | fexit s f => cases s <;> exact withName_row _ _ _ _ rfl (by dsimp only [wanted]; decide +kernel)
  | lsm s f => cases s <;> exact withName_row _ _ _ _ rfl (by dsimp only [wanted]; decide +kernel)
  | lsmCgroup f => exact withName_row _ _ _ _ rfl (by dsimp only [wanted]; decide +kernel)
  | btfTracepoint f => exact withName_row _ _ _ _ rfl (by dsimp only [wanted]; decide +kernel)
  | rawTracepoint f => exact withName_row _ _ _ _ rfl (by dsimp only [wanted]; decide +kernel)
  | tracepoint f => exact withName_row _ _ _ _ rfl (by dsimp only [wanted]; decide +kernel)
  | cgroupSkb at_ =>
    rcases at_ with _ | (_ | _)
    · exact exact_row "cgroup/skb" true _ _ (by decide +kernel) (by decide +kernel)
    · exact exact_row "cgroup_skb/ingress" true _ _ (by decide +kernel) (by decide +kernel)
    · exact exact_row "cgroup_skb/egress" true _ _ (by decide +kernel) (by decide +kernel)
  | cgroupSock at_ =>
    exact exact_row ("cgroup/" ++ at_.ident) true _ _ (by cases at_ <;> decide +kernel) (by cases at_ <;> decide +kernel)
  | cgroupSockAddr at_ =>
    exact exact_row ("cgroup/" ++ at_.ident) true _ _ (by cases at_ <;> decide +kernel) (by cases at_ <;> decide +kernel)
  | cgroupSockopt at_ =>
    exact exact_row ("cgroup/" ++ at_.ident) true _ _ (by cases at_ <;> decide +kernel) (by cases at_ <;> decide +kernel)
  | skSkb k =>
    exact exact_row ("sk_skb/" ++ k.ident) true _ _ (by cases k <;> decide +kernel) (by cases k <;> decide +kernel)
  | skReuseport m =>
    cases m
    · exact exact_row "sk_reuseport" false _ _ (by decide +kernel) (by decide +kernel)
    · exact exact_row "sk_reuseport/migrate" true _ _ (by decide +kernel) (by decide +kernel)
  | cgroupSysctl => exact exact_row _ true _ _ rfl (by decide +kernel)
  | cgroupDevice => exact exact_row _ true _ _ rfl (by decide +kernel)
  | flowDissector => exact exact_row _ true _ _ rfl (by decide +kernel)
  | perfEvent => exact exact_row _ true _ _ rfl (by decide +kernel)
  | skLookup => exact exact_row _ true _ _ rfl (by decide +kernel)
  | skMsg => exact exact_row _ true _ _ rfl (by decide +kernel)
  | sockOps => exact exact_row _ true _ _ rfl (by decide +kernel)
  | socketFilter => exact exact_row _ true _ _ rfl (by decide +kernel)
  | classifier => exact exact_row _ true _ _ rfl (by decide +kernel)

/-- **C54.** Whatever the arguments given to an attribute macro (function, hook, path, offset), the section name
it writes is accepted by the loader and the program gets the kernel program type, attach type, flags and
entry/return kind that the attribute names. -/
theorem C54_macro_roundtrip (a : Attr) :
    (fromStr a.sectionName).map ProgramSection.load = some (wanted a) :=
  (C22_section_name _ _).mpr (attr_row a)

/-- **C54.** The section is recognised as a program section. -/
theorem C54_macro_is_program (a : Attr) (size : Nat) (h : 0 < size) :
    sectionKind a.sectionName true size = .program := by
  obtain ⟨r, hr, hm, -⟩ := attr_row a
  exact C22_is_program _ _ h ⟨r, hr, hm⟩

example : (Attr.uprobe true true true (some ("/usr/lib/libc.so.6".toList, "malloc".toList)) (some 16)).sectionName =
    "uretprobe.multi.s/usr/lib/libc.so.6:malloc+16".toList := by decide +kernel

end Verif.Section
