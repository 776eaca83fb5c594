import Verif.Cpio.Model
/-!
# How kernels read such archives

After `init/initramfs.c` and `Documentation/driver-api/early-userspace/buffer-format.rst` of Linux, which know nothing of who wrote the archive.
-/
namespace Verif.Cpio

/-- What a kernel makes. -/
structure File where
  ino : Nat
  name : Bytes
  mode : Nat
  uid : Nat
  gid : Nat
  nlink : Nat
  mtime : Nat
  contents : Bytes
deriving DecidableEq, Repr

/-- The value of a hexadecimal digit. -/
def digitValue (c : UInt8) : Option Nat :=
  if 48 ≤ c.toNat ∧ c.toNat ≤ 57 then some (c.toNat - 48)
  else if 97 ≤ c.toNat ∧ c.toNat ≤ 102 then some (c.toNat - 87)
  else if 65 ≤ c.toNat ∧ c.toNat ≤ 70 then some (c.toNat - 55)
  else none

/-- A number of so many digits. -/
def readHex (acc : Nat) : Nat → Bytes → Option (Nat × Bytes)
  | 0, b => some (acc, b)
  | _ + 1, [] => none
  | n + 1, c :: b =>
    match digitValue c with
    | some v => readHex (acc * 16 + v) n b
    | none => none

/-- So many numbers of eight digits. -/
def readFields : Nat → Bytes → Option (List Nat × Bytes)
  | 0, b => some ([], b)
  | n + 1, b =>
    match readHex 0 8 b with
    | none => none
    | some (v, b) =>
      match readFields n b with
      | none => none
      | some (vs, b) => some (v :: vs, b)

/-- A name after a header of 110 bytes ends where the position is a multiple of four. -/
def nameRoom (n : Nat) : Nat := (n + 1) / 4 * 4 + 2

/-- Contents, too. -/
def bodyRoom (n : Nat) : Nat := (n + 3) / 4 * 4

/-- What a kernel makes of an archive, with at most so many entries; names of more than 4096 bytes are skipped. -/
def unpack : Nat → Bytes → Option (List File)
  | 0, _ => none
  | n + 1, b =>
    if b.take 6 = [48, 55, 48, 55, 48, 49] then
      match readFields 13 (b.drop 6) with
      | some ([ino, mode, uid, gid, nlink, mtime, size, _, _, _, _, nameLen, _], r) =>
        if r.length < nameRoom nameLen + bodyRoom size then none
        else if nameLen = 0 ∨ 4096 < nameLen then unpack n (r.drop (nameRoom nameLen + bodyRoom size))
        else if (r.take nameLen).takeWhile (· ≠ 0) = [84, 82, 65, 73, 76, 69, 82, 33, 33, 33] then some []
        else
          (unpack n (r.drop (nameRoom nameLen + bodyRoom size))).map
            (⟨ino, (r.take nameLen).takeWhile (· ≠ 0), mode, uid, gid, nlink, mtime, (r.drop (nameRoom nameLen)).take size⟩ :: ·)
      | _ => none
    else none

/-- What was asked for, with a number of its own. -/
def asked (ino : Nat) (i : Item) : File := ⟨ino, i.name, i.mode, 0, 0, i.nlink, i.mtime, (i.source.map Source.contents).getD []⟩

/-- Numbers of 32 bits, as the types say, and a name that kernels take. -/
def Fits (i : Item) : Prop :=
  i.mode < 2 ^ 32 ∧ i.mtime < 2 ^ 32 ∧ i.nlink < 2 ^ 32 ∧ 0 ∉ i.name ∧ i.name.length < 4096 ∧ i.name ≠ [84, 82, 65, 73, 76, 69, 82, 33, 33, 33]

/-- The file does not change while it is copied, and is not too large. -/
def Steady (i : Item) : Prop := ∀ s, i.source = some s → s.size = s.contents.length ∧ s.size < 2 ^ 32

end Verif.Cpio
