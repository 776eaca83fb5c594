import Verif.Builds.Model
import Mathlib.Data.Nat.Digits.Defs
/-!
# What it means that a build is the newest that is complete
-/
namespace Verif.Builds

open Verif.Verdict (Text)

/-- The number that digits write. -/
def Number (t : Text) : Nat := Nat.ofDigits 10 (t.reverse.map (fun c => c.toNat - '0'.toNat))

/-- The name is that of a release of the line with this patch level, as in `v6.6.100`. -/
def OfLine (version name : Text) (patch : Nat) : Prop :=
  ∃ (d : Text), name = ['v'] ++ version ++ ['.'] ++ d ∧ d ≠ [] ∧ (∀ c ∈ d, '0'.toNat ≤ c.toNat ∧ c.toNat ≤ '9'.toNat) ∧ patch = Number d ∧ patch < 2 ^ 64

/-- A generic package for the architecture, whose name begins like this. -/
def Generic (start arch file : Text) : Prop :=
  ∃ (p r : Text), file = p ++ '_' :: r ∧ '_' ∉ p ∧ start <+: p ∧ ['-', 'g', 'e', 'n', 'e', 'r', 'i', 'c'] <:+ p ∧ (['_'] ++ arch ++ ['.', 'd', 'e', 'b']) <:+ file

/-- The package of the image of a release, which is given without the `v` before it. -/
def IsImage (arch release file : Text) : Prop :=
  Generic (['l', 'i', 'n', 'u', 'x', '-', 'i', 'm', 'a', 'g', 'e', '-', 'u', 'n', 's', 'i', 'g', 'n', 'e', 'd', '-'] ++ release ++ ['-']) arch file

/-- The package of its modules. -/
def IsModules (arch release file : Text) : Prop :=
  Generic (['l', 'i', 'n', 'u', 'x', '-', 'm', 'o', 'd', 'u', 'l', 'e', 's', '-'] ++ release ++ ['-']) arch file

/-- The only one in the list. -/
def Sole (P : Text → Prop) (files : List Text) (x : Text) : Prop := ∃ (a b : List Text), files = a ++ x :: b ∧ P x ∧ ∀ y ∈ a ++ b, ¬ P y

/-- The release `v...` has one image and one package of modules for the architecture. -/
def Has (S : Site) (arch version image modules : Text) : Prop :=
  ∃ (dirs files : List Text), S.release ('v' :: version) = some dirs ∧ arch ∈ dirs ∧ S.packages ('v' :: version) = some files ∧ Sole (IsImage arch version) files image ∧
    Sole (IsModules arch version) files modules

/-- Its pages can be had, and it has at most one of each. -/
def Clear (S : Site) (arch version : Text) : Prop :=
  ∃ (dirs files : List Text), S.release ('v' :: version) = some dirs ∧ S.packages ('v' :: version) = some files ∧
    ((∀ f ∈ files, ¬ IsImage arch version f) ∨ ∃ f, Sole (IsImage arch version) files f) ∧ ((∀ f ∈ files, ¬ IsModules arch version f) ∨ ∃ f, Sole (IsModules arch version) files f)

end Verif.Builds
