import Verif.Builds.Props
/-!
# C117: cases, and what is not chosen well
-/
namespace Verif.Builds

open Verif.Verdict (Text)

def line66 : Text := ['6', '.', '6']
def amd64 : Text := ['a', 'm', 'd', '6', '4']
/-- `v6.6.d`, for digits `d`. -/
def rel (d : Text) : Text := ['v', '6', '.', '6', '.'] ++ d
def debEnd : Text := ['_', '1', '_', 'a', 'm', 'd', '6', '4', '.', 'd', 'e', 'b']
/-- Packages of the release, with this number after the version. -/
def imageOf (d abi : Text) : Text := imagePrefix ++ ['6', '.', '6', '.'] ++ d ++ ['-'] ++ abi ++ generic ++ debEnd
def modulesOf (d abi : Text) : Text := modulesPrefix ++ ['6', '.', '6', '.'] ++ d ++ ['-'] ++ abi ++ generic ++ debEnd

/-- `v6.6.9` and `v6.6.10` are complete and `v6.6.11` has no modules yet; `v6.6.100-rc1` and `v6.12.1` are of no interest. -/
def site : Site where
  list := some [rel ['1', '0'], rel ['9'], rel ['1', '1'], rel ['1', '0', '0', '-', 'r', 'c', '1'], ['v', '6', '.', '1', '2', '.', '1']]
  release := fun _ => some [amd64]
  packages := fun r => if r = rel ['1', '1'] then some [imageOf ['1', '1'] ['7']]
    else if r = rel ['1', '0'] then some [imageOf ['1', '0'] ['7'], modulesOf ['1', '0'] ['7']]
    else some [modulesOf ['9'] ['7'], imageOf ['9'] ['7']]

/-- The newest is not the last by letters. -/
theorem site_chosen : kernelUrls site line66 amd64 = .ok ⟨rel ['1', '0'], imageOf ['1', '0'] ['7'], modulesOf ['1', '0'] ['7']⟩ := by decide +kernel

example : ∃ (names : List Text) (v : Text) (patch : Nat), site.list = some names ∧ rel ['1', '0'] = 'v' :: v ∧ rel ['1', '0'] ∈ names ∧ OfLine line66 (rel ['1', '0']) patch ∧
    Has site amd64 v (imageOf ['1', '0'] ['7']) (modulesOf ['1', '0'] ['7']) ∧
      ∀ (v' : Text) (p' : Nat), 'v' :: v' ∈ names → OfLine line66 ('v' :: v') p' → patch < p' → ∀ i m, ¬ Has site amd64 v' i m :=
  C117_newest (by decide) (by decide) site_chosen

/-- A site with one release. -/
def small : Site where
  list := some [rel ['9']]
  release := fun _ => some [amd64]
  packages := fun _ => some [modulesOf ['9'] ['7'], imageOf ['9'] ['7']]

theorem small_has : Has small amd64 ['6', '.', '6', '.', '9'] (imageOf ['9'] ['7']) (modulesOf ['9'] ['7']) :=
  ((tryRelease_iff (k := ⟨rel ['9'], imageOf ['9'] ['7'], modulesOf ['9'] ['7']⟩) (by decide)).1 (by decide +kernel)).2

example : ∃ k, kernelUrls small line66 amd64 = .ok k := by
  refine C117_found_partial (v := ['6', '.', '6', '.', '9']) (patch := 9) (by decide) (by decide) rfl (by decide) ⟨['9'], rfl, by decide, by decide, by decide +kernel, by decide⟩ small_has ?_ ?_
  · intro v' p' h _ _
    have : 'v' :: v' = rel ['9'] := List.mem_singleton.1 h
    cases this
    obtain ⟨dirs, files, h1, _, h3, h4, h5⟩ := small_has
    exact ⟨dirs, files, h1, h3, .inr ⟨_, h4⟩, .inr ⟨_, h5⟩⟩
  · intro ns h _
    have := h.length_le
    simp only [List.length_cons, List.length_nil] at this
    omega

/-- The image and the modules need not match: they can be of two builds of one release, and then the modules are not for that kernel. -/
theorem C117_mismatch_violated : kernelUrls { small with packages := fun _ => some [imageOf ['9'] ['7'], modulesOf ['9'] ['8']] } line66 amd64 =
    .ok ⟨rel ['9'], imageOf ['9'] ['7'], modulesOf ['9'] ['8']⟩ := by decide +kernel

/-- `v6.6.11` has two images. -/
def twoImages : Site where
  list := some [rel ['1', '0'], rel ['1', '1']]
  release := fun _ => some [amd64]
  packages := fun r => if r = rel ['1', '1'] then some [imageOf ['1', '1'] ['7'], imageOf ['1', '1'] ['8']] else some [imageOf ['1', '0'] ['7'], modulesOf ['1', '0'] ['7']]

/-- A newer release with two images makes it fail, although an older release is complete. -/
theorem C117_ambiguous_violated : kernelUrls twoImages line66 amd64 = .error .ambiguous := by decide +kernel

/-- `v6.6.9` is complete, and `v6.6.10` to `v6.6.19` have nothing. -/
def tenNewer : Site where
  list := some (rel ['9'] :: ['0', '1', '2', '3', '4', '5', '6', '7', '8', '9'].map (fun c => rel ['1', c]))
  release := fun r => if r = rel ['9'] then some [amd64] else some []
  packages := fun _ => some [modulesOf ['9'] ['7'], imageOf ['9'] ['7']]

/-- With ten newer releases that are not complete, one that is complete is not found. -/
theorem C117_eleventh_violated : tryRelease tenNewer amd64 (rel ['9']) = .ok (some ⟨rel ['9'], imageOf ['9'] ['7'], modulesOf ['9'] ['7']⟩) ∧
    kernelUrls tenNewer line66 amd64 = .error .notFound := by
  constructor <;> decide +kernel

/-- `v6.6`, with all packages. -/
def firstOnly : Site where
  list := some [['v', '6', '.', '6']]
  release := fun _ => some [amd64]
  packages := fun _ => some [imagePrefix ++ ['6', '.', '6', '-', '7'] ++ generic ++ debEnd, modulesPrefix ++ ['6', '.', '6', '-', '7'] ++ generic ++ debEnd]

/-- The first release of a line, which has no patch level in its name, is never found. -/
theorem C117_first_violated : kernelUrls firstOnly line66 amd64 = .error .notFound := by decide +kernel

end Verif.Builds
