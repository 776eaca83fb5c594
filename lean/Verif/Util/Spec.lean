import Verif.Common.Str
/-!
# Vocabulary for the properties of `aya/src/util.rs`

Written from the documentation of the kernel formats, not from the model.
-/
namespace Verif.Util.Spec

/-- `(a,b,c)` is a strictly older release than `(x,y,z)`. -/
def Older (a b c x y z : Nat) : Prop :=
  a < x ∨ (a = x ∧ (b < y ∨ (b = y ∧ c < z)))

/-- The patch level the kernel's Makefile puts in `LINUX_VERSION_CODE`: stable branches 4.4 and 4.9
write 255 from .257 on, 4.14 from .252 on, 4.19 from .222 on, all others clamp to 255. -/
def sublevelInCode (major minor patch : Nat) : Nat :=
  if major = 4 ∧ minor = 4 then (if 257 ≤ patch then 255 else patch)
  else if major = 4 ∧ minor = 9 then (if 257 ≤ patch then 255 else patch)
  else if major = 4 ∧ minor = 14 then (if 252 ≤ patch then 255 else patch)
  else if major = 4 ∧ minor = 19 then (if 222 ≤ patch then 255 else patch)
  else min patch 255

/-- `LINUX_VERSION_CODE`: `VERSION * 65536 + PATCHLEVEL * 256 + SUBLEVEL`. -/
def linuxVersionCode (major minor patch : Nat) : Nat :=
  major * 65536 + minor * 256 + sublevelInCode major minor patch

/-- An element of the kernel's CPU list format. -/
inductive CpuItem where
  | single (n : Nat)
  | range (first last : Nat)
  deriving DecidableEq, Repr

/-- How the kernel prints the element. -/
def CpuItem.text : CpuItem → List Char
  | .single n => Str.render 10 n
  | .range a b => Str.render 10 a ++ '-' :: Str.render 10 b

/-- CPU `c` is denoted by the element. -/
def CpuItem.Denotes : CpuItem → Nat → Prop
  | .single n, c => c = n
  | .range a b, c => a ≤ c ∧ c ≤ b

/-- Numbers of the element fit in `u32`. -/
def CpuItem.Fits : CpuItem → Prop
  | .single n => n < 2 ^ 32
  | .range a b => a < 2 ^ 32 ∧ b < 2 ^ 32

/-- First and last CPU of the element. -/
def CpuItem.first : CpuItem → Nat
  | .single n => n
  | .range a _ => a
def CpuItem.last : CpuItem → Nat
  | .single n => n
  | .range _ b => b

/-- The kernel prints a set of CPUs as increasing, disjoint, non-empty items. -/
def KernelFormat (items : List CpuItem) : Prop :=
  items ≠ [] ∧ (∀ i ∈ items, i.first ≤ i.last) ∧ items.Pairwise (fun i j => i.last < j.first)

/-- The whole list as printed. -/
def listText (items : List CpuItem) : List Char := Str.joinWith ',' (items.map CpuItem.text)

end Verif.Util.Spec
