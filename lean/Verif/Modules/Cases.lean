import Verif.Modules.Props
/-!
# C114: where an alias leads nowhere or to another module, and cases that meet the hypotheses
-/
namespace Verif.Modules

/-- Images are not compressed, and `.modinfo` is what comes after the first four bytes. -/
def plain : Sys := ⟨fun _ x => .ok x, fun x => .ok (some (x.drop 4)), fun _ => .ok (), fun _ fs => fs⟩

def elf (modinfo : Bytes) : Bytes := [0x7f, 0x45, 0x4c, 0x46] ++ modinfo

/-- `"alias=a\0alias=b c\0"` -/
def info1 : Bytes := aliasEq ++ [97, 0] ++ aliasEq ++ [98, 32, 99, 0]
/-- `"name=d\0alias=b c\0alias=é\0"` -/
def info2 : Bytes := [110, 97, 109, 101, 61, 100, 0] ++ aliasEq ++ [98, 32, 99, 0] ++ aliasEq ++ [0xC3, 0xA9, 0]

/-- `kernel/net/ab.ko` -/
def file1 : File := ⟨[kernelDir, [110, 101, 116]], [97, 98] ++ dotKo, elf info1⟩
/-- `kernel/abc.ko.xz` -/
def file2 : File := ⟨[kernelDir], [97, 98, 99] ++ dotKo ++ [46, 120, 122], elf info2⟩
/-- `modules.dep` -/
def file3 : File := ⟨[], [109, 111, 100, 117, 108, 101, 115, 46, 100, 101, 112], []⟩

def tree : List File := [file1, file2, file3]

/-- All at once, of one file. -/
def checkFile (S : Sys) (f : File) : Bool :=
  utf8 f.name &&
    match moduleName f.name with
    | none => true
    | some (m, c) =>
      match S.read c f.content with
      | .ok x =>
        match S.modinfo x with
        | .ok (some d) =>
          (splitOn 0 d).all utf8 && decide (m ≠ [] ∧ 32 ∉ m ∧ 10 ∉ m ∧ 13 ∉ m ∧ 42 ∉ m ∧ 63 ∉ m ∧ 91 ∉ m) && (aliasesIn d).all (fun a => decide (a ≠ [] ∧ 10 ∉ a))
        | _ => false
      | _ => false

theorem checked {S : Sys} {f : File} (h : checkFile S f = true) : utf8 f.name = true ∧ ∀ m c, IsModule f.name m c →
    ∃ x d, S.read c f.content = .ok x ∧ S.modinfo x = .ok (some d) ∧ (∀ e, HasEntry d e → utf8 e = true) ∧ TidyName m ∧ ∀ a, HasEntry d (aliasEq ++ a) → a ≠ [] ∧ 10 ∉ a := by
  simp only [checkFile, Bool.and_eq_true] at h
  refine ⟨h.1, fun m c hm => ?_⟩
  have h' := h.2
  rw [moduleName_iff.2 hm] at h'
  simp only at h'
  rcases e1 : S.read c f.content with _ | x
  · rw [e1] at h'; cases h'
  · rw [e1] at h'
    simp only at h'
    rcases e2 : S.modinfo x with _ | _ | d
    · rw [e2] at h'; cases h'
    · rw [e2] at h'; cases h'
    · rw [e2] at h'
      simp only [Bool.and_eq_true, List.all_eq_true, decide_eq_true_eq] at h'
      exact ⟨x, d, rfl, e2, fun e he => h'.1.1 e (entry_of he), h'.1.2, fun a ha => h'.2 a (aliasesIn_iff.2 ha)⟩

theorem readable_of {S : Sys} {files : List File} (h : files.all (checkFile S) = true) : Readable S files := by
  intro f hf
  have := checked (List.all_eq_true.1 h f hf)
  refine ⟨utf8_iff.1 this.1, fun m c hm => ?_⟩
  obtain ⟨x, d, h1, h2, h3, _⟩ := this.2 m c hm
  exact ⟨x, d, h1, h2, fun e he => utf8_iff.1 (h3 e he)⟩

theorem tidy_of {S : Sys} {files : List File} (h : files.all (checkFile S) = true) : Tidy S files := by
  intro f hf m x hx
  obtain ⟨c, hc, hr⟩ := hx
  obtain ⟨x', d, h1, h2, _, h4, h5⟩ := (checked (List.all_eq_true.1 h f hf)).2 m c hc
  rw [hr] at h1
  cases h1
  refine ⟨h4, fun a ⟨d', hd, he⟩ => h5 a ?_⟩
  rw [h2] at hd
  cases hd
  exact he

/-- The hypotheses of `C114_written`, `C114_found_partial` and `C114_absent_partial`. -/
theorem readable_tree : Readable plain tree := readable_of (by decide +kernel)

theorem tidy_tree : Tidy plain tree := tidy_of (by decide +kernel)

theorem below_tree : Below tree := by
  intro f hf m c hm
  have h := moduleName_iff.2 hm
  have : f = file1 ∨ f = file2 ∨ f = file3 := by simpa [tree] using hf
  rcases this with rfl | rfl | rfl
  · rfl
  · rfl
  · have : moduleName file3.name = none := by decide +kernel
    rw [this] at h
    cases h

theorem distinct_tree : Distinct tree := by
  intro f hf g hg m c hm hp
  have h := moduleName_iff.2 hm
  have h1 : moduleName file1.name = some ([97, 98], .plain) := by decide +kernel
  have h2 : moduleName file2.name = some ([97, 98, 99], .xz) := by decide +kernel
  have h3 : moduleName file3.name = none := by decide +kernel
  have hf' : f = file1 ∨ f = file2 ∨ f = file3 := by simpa [tree] using hf
  have hg' : g = file1 ∨ g = file2 ∨ g = file3 := by simpa [tree] using hg
  have hp' := List.isPrefixOf_iff_prefix.2 hp
  rcases hf' with rfl | rfl | rfl
  · rw [h1] at h
    cases h
    rcases hg' with rfl | rfl | rfl
    · rfl
    · exact absurd hp' (by decide +kernel)
    · exact absurd hp' (by decide +kernel)
  · rw [h2] at h
    cases h
    rcases hg' with rfl | rfl | rfl
    · exact absurd hp' (by decide +kernel)
    · rfl
    · exact absurd hp' (by decide +kernel)
  · rw [h3] at h
    cases h

theorem image1 : Image plain file1 [97, 98] (elf info1) := ⟨.plain, moduleName_iff.1 (by decide +kernel), rfl⟩
theorem image2 : Image plain file2 [97, 98, 99] (elf info2) := ⟨.xz, moduleName_iff.1 (by decide +kernel), rfl⟩

example : HasAlias plain (elf info1) [98, 32, 99] := ⟨info1, rfl, aliasesIn_iff.1 (by decide +kernel)⟩
example : HasAlias plain (elf info2) [0xC3, 0xA9] := ⟨info2, rfl, aliasesIn_iff.1 (by decide +kernel)⟩

/-- What comes of it: an alias of one module, one with a space that two modules have, and one that is not ASCII. -/
example : modprobe plain false tree (some (depmod plain tree 1000).2) [97] = (.ok (), [elf info1]) ∧
    modprobe plain false tree.reverse (some (depmod plain tree 1000).2) [98, 32, 99] = (.ok (), [elf info1]) ∧
    modprobe plain false tree (some (depmod plain tree 1000).2) [0xC3, 0xA9] = (.ok (), [elf info2]) ∧
    modprobe plain false tree (some (depmod plain tree 1000).2) [122] = (.error .aliasNotFound, []) := by decide +kernel

/-- The hypothesis of `C114_loaded`. -/
example : ∀ m fs, ∀ f ∈ plain.glob m fs, f ∈ fs := fun _ _ _ h => h

/-- The hypothesis of `C114_release_violated`: a system with both directories. -/
example : resolveModulesDir (fun _ => .ok true) [108] [109] [54] = .ok [[108], [109]] := rfl

/-- Names of modules are accepted according to the help of `modprobe`, but only aliases are looked up. -/
theorem C114_name_violated : ∃ (S : Sys) (files : List File) (f : File) (m x : Bytes), Readable S files ∧ Tidy S files ∧ Distinct files ∧ Below files ∧ f ∈ files ∧ Image S f m x ∧
    ∀ room, 100 ≤ room → (depmod S files room).1 = .ok () ∧ modprobe S false files (some (depmod S files room).2) m = (.error .aliasNotFound, []) := by
  refine ⟨plain, tree, file1, [97, 98], elf info1, readable_tree, tidy_tree, distinct_tree, below_tree, by decide, image1, fun room hr => ?_⟩
  have hl : (textOf (tree.flatMap (pairsOf plain))).length ≤ 100 := by decide +kernel
  rw [depmod_text readable_tree (Nat.le_trans hl hr)]
  exact ⟨rfl, by decide +kernel⟩

/-- A module with an empty alias, in another directory. -/
def emptyAlias : File := ⟨[kernelDir], [97] ++ dotKo, elf (aliasEq ++ [0])⟩

/-- One empty alias, and no alias of the modules after it is found. -/
theorem C114_empty_violated : ∃ (S : Sys) (files : List File) (f : File) (m x a : Bytes), Readable S files ∧ f ∈ files ∧ Image S f m x ∧ HasAlias S x a ∧
    ∀ room, 1000 ≤ room → (depmod S files room).1 = .ok () ∧ modprobe S false files (some (depmod S files room).2) a = (.error .aliasLine, []) := by
  have hr : Readable plain (emptyAlias :: tree) := by
    intro f hf
    rcases List.mem_cons.1 hf with rfl | hf
    · refine ⟨utf8_iff.1 (by decide +kernel), fun m c hm => ⟨elf (aliasEq ++ [0]), aliasEq ++ [0], rfl, rfl, fun e he => ?_⟩⟩
      have : ∀ e ∈ splitOn 0 (aliasEq ++ [0]), utf8 e = true := by decide +kernel
      exact utf8_iff.1 (this e (entry_of he))
    · exact readable_tree f hf
  refine ⟨plain, emptyAlias :: tree, file1, [97, 98], elf info1, [97], hr, by decide, image1, ⟨info1, rfl, aliasesIn_iff.1 (by decide +kernel)⟩, fun room hl => ?_⟩
  have hl' : (textOf ((emptyAlias :: tree).flatMap (pairsOf plain))).length ≤ 1000 := by decide +kernel
  rw [depmod_text hr (Nat.le_trans hl' hl)]
  exact ⟨rfl, by decide +kernel⟩

/-- `updates/ab.ko` -/
def outside : File := { file1 with dirs := [[117, 112, 100, 97, 116, 101, 115]] }

/-- Modules are listed wherever they are, and looked for only below `kernel`. -/
theorem C114_outside_violated : ∃ (S : Sys) (f : File) (m x a : Bytes), Readable S [f] ∧ Tidy S [f] ∧ Image S f m x ∧ HasAlias S x a ∧
    (depmod S [f] 1000).1 = .ok () ∧ modprobe S false [f] (some (depmod S [f] 1000).2) a = (.error .moduleNotFound, []) :=
  ⟨plain, outside, [97, 98], elf info1, [97], readable_of (by decide +kernel), tidy_of (by decide +kernel), image1, ⟨info1, rfl, aliasesIn_iff.1 (by decide +kernel)⟩,
    by decide +kernel, by decide +kernel⟩

/-- When there is no room `depmod` says that all is well, and an alias then loads a module that does not have it. -/
theorem C114_short_violated : ∃ (S : Sys) (files : List File) (room : Nat) (a y : Bytes), Readable S files ∧ Tidy S files ∧ Distinct files ∧ Below files ∧
    (depmod S files room).1 = .ok () ∧ ¬ HasAlias S y a ∧ modprobe S false files (some (depmod S files room).2) a = (.ok (), [y]) := by
  refine ⟨plain, tree, 49, [0xC3, 0xA9], elf info1, readable_tree, tidy_tree, distinct_tree, below_tree, by decide +kernel, ?_, by decide +kernel⟩
  rintro ⟨d, hd, he⟩
  cases hd
  exact absurd (aliasesIn_iff.2 he) (by decide +kernel)

/-- `kernel/abc.ko.bak`, an older image without the alias. -/
def backup : File := ⟨[kernelDir], [97, 98, 99] ++ dotKo ++ [46, 98, 97, 107], elf info1⟩

/-- A file whose name goes on after that of the module is loaded in its place. -/
theorem C114_longer_violated : ∃ (S : Sys) (files : List File) (f : File) (m x a y : Bytes), Readable S files ∧ Tidy S files ∧ Below files ∧ f ∈ files ∧ Image S f m x ∧ HasAlias S x a ∧
    ¬ HasAlias S y a ∧ modprobe S false files (some (depmod S files 1000).2) a = (.ok (), [y]) := by
  refine ⟨plain, [backup, file2], file2, [97, 98, 99], elf info2, [0xC3, 0xA9], elf info1, readable_of (by decide +kernel), tidy_of (by decide +kernel), ?_, by decide, image2,
    ⟨info2, rfl, aliasesIn_iff.1 (by decide +kernel)⟩, ?_, by decide +kernel⟩
  · intro f hf m c _
    have : f = backup ∨ f = file2 := by simpa using hf
    rcases this with rfl | rfl <;> rfl
  · rintro ⟨d, hd, he⟩
    cases hd
    exact absurd (aliasesIn_iff.2 he) (by decide +kernel)

example : Readable plain tree := C114_complete (room := 1000) (by decide +kernel)

/-- A module with a description that is not text. -/
def latin1 : File := ⟨[kernelDir], [100] ++ dotKo, elf ([0xE9] ++ [0] ++ aliasEq ++ [97] ++ [0])⟩

example : ¬ Readable plain (latin1 :: tree) := by
  intro h
  obtain ⟨text, ht, _⟩ := C114_written h
  have h1 := ht text.length (Nat.le_refl _)
  have h2 : ∀ room, depmod plain (latin1 :: tree) room = (.error .utf8, []) := by
    intro room
    have : depmodFiles plain (latin1 :: tree) ⟨⟨[], room⟩, []⟩ = (.error .utf8, ⟨⟨[], room⟩, []⟩) := rfl
    unfold depmod
    rw [this]
    simp [Writer.flush, Disk.writeAll]
  rw [h2] at h1
  cases h1

/-- A comment before the aliases: `#` and a space. -/
example (S : Sys) (seen : List File) (s a : Bytes) : modprobe S false seen (some ([35, 32] ++ 10 :: s)) a = modprobe S false seen (some s) a :=
  C114_comment S false seen s a (utf8_iff.1 (by decide +kernel)) (by decide) (by decide) (by decide)

end Verif.Modules
