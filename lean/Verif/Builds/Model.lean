import Verif.Verdict.Model
import Mathlib.Data.List.Sort
/-!
# Which kernel the tests run on

Model of how the command that runs tests in virtual machines chooses a build of the kernel (`/repo/xtask/src/ubuntu_mainline.rs:115-250`). The pages of the site are lists of the
names that they link to: reading links from HTML and making URLs of them (`/repo/xtask/src/ubuntu_mainline.rs:42-107`) are not modelled, and neither is unpacking. Text is a list of characters.
-/
namespace Verif.Builds

open Verif.Verdict (Text stripPrefix)

/-- `UBUNTU_MAINLINE_IMAGE_PACKAGE_PREFIX` (`/repo/xtask/src/ubuntu_mainline.rs:24`). -/
def imagePrefix : Text := ['l', 'i', 'n', 'u', 'x', '-', 'i', 'm', 'a', 'g', 'e', '-', 'u', 'n', 's', 'i', 'g', 'n', 'e', 'd', '-']
/-- `UBUNTU_MAINLINE_MODULES_PACKAGE_PREFIX` (`/repo/xtask/src/ubuntu_mainline.rs:25`). -/
def modulesPrefix : Text := ['l', 'i', 'n', 'u', 'x', '-', 'm', 'o', 'd', 'u', 'l', 'e', 's', '-']
/-- `"-generic"` (`/repo/xtask/src/ubuntu_mainline.rs:193`). -/
def generic : Text := ['-', 'g', 'e', 'n', 'e', 'r', 'i', 'c']

/-- The pages of the site: the list of releases, the directories of a release, and the files for the architecture in it; `none` if a page cannot be had. -/
structure Site where
  list : Option (List Text)
  release : Text → Option (List Text)
  packages : Text → Option (List Text)

/-- `char::is_ascii_digit` (`/repo/xtask/src/ubuntu_mainline.rs:134`). -/
def digit (c : Char) : Bool := 48 ≤ c.toNat && c.toNat ≤ 57

/-- The number that digits write. -/
def value (acc : Nat) (t : Text) : Nat := t.foldl (fun n c => n * 10 + (c.toNat - 48)) acc

/-- `str::parse::<u64>` of digits (`/repo/xtask/src/ubuntu_mainline.rs:137`). Simplified: what is too large is found at the end and not on the way, which is the same since
    the number never becomes smaller. -/
def parse (t : Text) : Option Nat := if t.isEmpty then none else if value 0 t < 2 ^ 64 then some (value 0 t) else none

/-- The patch level of a release of this line (`/repo/xtask/src/ubuntu_mainline.rs:131-138`). -/
def patchOf (version name : Text) : Option (Nat × Text) :=
  match stripPrefix ('v' :: version ++ ['.']) name with
  | none => none
  | some p => if p.all digit then (parse p).map (fun n => (n, name)) else none

/-- `MAX_MAINLINE_BUILD_CANDIDATES` (`/repo/xtask/src/ubuntu_mainline.rs:120`). -/
def maxCandidates : Nat := 10

/-- The releases to look at, newest first (`/repo/xtask/src/ubuntu_mainline.rs:130-148`). -/
def candidates (version : Text) (names : List Text) : List (Nat × Text) :=
  (((names.filterMap (patchOf version)).insertionSort (fun a b => a.1 ≤ b.1)).reverse).take maxCandidates

/-- `str::split_once('_')`, the part before. -/
def beforeUnderscore : Text → Option Text
  | [] => none
  | c :: cs => if c = '_' then some [] else (beforeUnderscore cs).map (c :: ·)

/-- `trim_start_matches('v')` (`/repo/xtask/src/ubuntu_mainline.rs:170-176`). -/
def bare (name : Text) : Text := name.dropWhile (· = 'v')

/-- The two packages (`/repo/xtask/src/ubuntu_mainline.rs:179-180`). -/
inductive Kind where
  | image
  | modules
deriving DecidableEq, Repr

/-- What a file of the page is (`/repo/xtask/src/ubuntu_mainline.rs:182-203`). -/
def kindOf (arch name file : Text) : Option Kind :=
  match beforeUnderscore file with
  | none => none
  | some p =>
    if !generic.isSuffixOf p || !(('_' :: arch) ++ ['.', 'd', 'e', 'b']).isSuffixOf file then none
    else if (imagePrefix ++ bare name ++ ['-']).isPrefixOf p then some .image
    else if (modulesPrefix ++ bare name ++ ['-']).isPrefixOf p then some .modules
    else none

/-- The result (`UbuntuMainlineKernelUrls`, `/repo/xtask/src/ubuntu_mainline.rs:109-113`): the release, and the names of the packages. -/
structure Kernel where
  release : Text
  image : Text
  modules : Text
deriving DecidableEq, Repr

/-- The errors (`/repo/xtask/src/ubuntu_mainline.rs:129,153,167,211,222,246`). -/
inductive Err where
  | fetch
  | ambiguous
  | notFound
deriving DecidableEq, Repr

/-- One release (`/repo/xtask/src/ubuntu_mainline.rs:149-243`): `none` if it is skipped. -/
def tryRelease (S : Site) (arch name : Text) : Except Err (Option Kernel) :=
  match S.release name with
  | none => .error .fetch
  | some dirs =>
    if arch ∈ dirs then
      match S.packages name with
      | none => .error .fetch
      | some files =>
        match files.filter (fun f => kindOf arch name f = some .image) with
        | [] => .ok none
        | _ :: _ :: _ => .error .ambiguous
        | [image] =>
          match files.filter (fun f => kindOf arch name f = some .modules) with
          | [] => .ok none
          | _ :: _ :: _ => .error .ambiguous
          | [modules] => .ok (some ⟨name, image, modules⟩)
    else .ok none

/-- The loop (`/repo/xtask/src/ubuntu_mainline.rs:144-250`). -/
def pick (S : Site) (arch : Text) : List (Nat × Text) → Except Err Kernel
  | [] => .error .notFound
  | c :: cs =>
    match tryRelease S arch c.2 with
    | .error e => .error e
    | .ok (some k) => .ok k
    | .ok none => pick S arch cs

/-- `ubuntu_mainline_kernel_urls` (`/repo/xtask/src/ubuntu_mainline.rs:115-250`). -/
def kernelUrls (S : Site) (version arch : Text) : Except Err Kernel :=
  match S.list with
  | none => .error .fetch
  | some names => pick S arch (candidates version names)

end Verif.Builds
