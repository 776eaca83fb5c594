import Verif.Cpio.Stage
/-!
# Cases of C119
-/
namespace Verif.Cpio

/-- `bin`, `init` of five bytes, and an empty file with a name of one byte. -/
def three : List Item := [dir [98, 105, 110] 493 7, file [105, 110, 105, 116] ⟨5, [1, 2, 0, 4, 5]⟩ 493 7, file [97] ⟨0, []⟩ 420 4294967295]

/-- It meets the hypotheses, and the theorem says what comes out of it. -/
theorem three_fits : ∀ i ∈ three, Fits i := by unfold Fits; decide

theorem three_written : ∃ b, build 0 three = .ok b :=
  (C119_written three).2 ⟨by
    intro i hi
    simp only [three, List.mem_cons, List.not_mem_nil, or_false] at hi
    rcases hi with rfl | rfl | rfl
    · exact ⟨fun s hs => (by cases hs), by decide⟩
    · exact ⟨fun s hs => (by cases hs; decide), by decide⟩
    · exact ⟨fun s hs => (by cases hs; decide), by decide⟩, by decide⟩

/-- What a kernel makes of what is written for some entries. -/
def made (is : List Item) : Option (List File) :=
  match build 0 is with
  | .ok b => unpack 99 b
  | .error _ => none

example : made three = some [⟨0, [98, 105, 110], 16877, 0, 0, 2, 7, []⟩, ⟨1, [105, 110, 105, 116], 33261, 0, 0, 1, 7, [1, 2, 0, 4, 5]⟩, ⟨2, [97], 33188, 0, 0, 1, 4294967295, []⟩] := by
  decide +kernel

/-- A file that grows while it is copied is an error. -/
example : build 0 [file [97] ⟨1, [1, 2]⟩ 420 7] = .error .mismatch := by decide +kernel

/-- A name that is too long for kernels is written without an error, and its file is missing. -/
theorem C119_long_violated : ∃ i : Item, i.name.length = 4096 ∧ made [i, dir [98] 493 7] = some [⟨1, [98], 16877, 0, 0, 2, 7, []⟩] :=
  ⟨dir (List.replicate 4096 97) 493 7, List.length_replicate, by decide +kernel⟩

/-- The name of the trailer. -/
example : made [dir [98] 493 7, dir [84, 82, 65, 73, 76, 69, 82, 33, 33, 33] 493 7, dir [99] 493 7] = some [⟨0, [98], 16877, 0, 0, 2, 7, []⟩] := by decide +kernel

/-- Modules in two directories, with a link, and two programs of one name. -/
def inputs : Inputs :=
  ⟨⟨1, [1]⟩, none, ⟨1, [2]⟩, some [115], [(init, ⟨1, [3]⟩), ([120], ⟨1, [4]⟩)], .dir [107] (.file [109] ⟨1, [5]⟩ (.other [108] .nil)) (.file [97] ⟨1, [6]⟩ .nil), [([116], ⟨1, [7]⟩)],
    [([116], ⟨1, [8]⟩), ([116], ⟨1, [9]⟩)]⟩

example : At inputs.modules [[107], [109]] (some ⟨1, [5]⟩) := .inside .file

example : (stage inputs).map (·.path.length) = [1, 1, 2, 2, 1, 1, 2, 1, 2, 2, 3, 4, 3, 2, 2, 2] := by decide +kernel

example : (found (stage inputs) [bin, dev ++ [45, 116]]).map (·.source) = some (some ⟨1, [7]⟩) ∧ (found (stage inputs) [bin, release ++ [45, 116]]).map (·.source) = some (some ⟨1, [9]⟩) := by
  decide +kernel

/-- The archive of it, as kernels see it. -/
example : (made ((stage inputs).map (toItem 7))).map (List.map File.contents) = some [[], [], [1], [2], [], [], [2], [3], [4], [], [], [5], [6], [7], [8], [9]] := by
  decide +kernel

end Verif.Cpio
