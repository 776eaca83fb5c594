import Verif.Modules.Model
/-!
# What the aliases of modules are

Said of file names and of the bytes of `.modinfo`, without the functions of the model.
-/
namespace Verif.Modules

/-- The file name `name` is that of a module `m`, compressed in this way. -/
inductive IsModule : (name m : Bytes) → Compression → Prop
  | plain (m : Bytes) : IsModule (m ++ [46, 107, 111]) m .plain
  | xz (m : Bytes) : IsModule (m ++ [46, 107, 111] ++ [46, 120, 122]) m .xz
  | zstd (m : Bytes) : IsModule (m ++ [46, 107, 111] ++ [46, 122, 115, 116]) m .zstd

/-- `e` is one of the strings, each ended by a zero byte, that `data` is made of. -/
def HasEntry (data e : Bytes) : Prop :=
  ∃ (l r : Bytes), data = l ++ e ++ r ∧ e ≠ [] ∧ 0 ∉ e ∧ (l = [] ∨ l.getLast? = some 0) ∧ (r = [] ∨ r.head? = some 0)

/-- The image in the file `f` of the module `m` is `x`. -/
def Image (S : Sys) (f : File) (m x : Bytes) : Prop := ∃ (c : Compression), IsModule f.name m c ∧ S.read c f.content = .ok x

/-- The image `x` has the alias `a`. -/
def HasAlias (S : Sys) (x a : Bytes) : Prop := ∃ (data : Bytes), S.modinfo x = .ok (some data) ∧ HasEntry data ([97, 108, 105, 97, 115, 61] ++ a)

/-- UTF-8, as in Table 3-7 of the Unicode Standard (well-formed byte sequences). -/
inductive Text : Bytes → Prop
  | nil : Text []
  | one {a : UInt8} {s : Bytes} : a ≤ 0x7F → Text s → Text (a :: s)
  | two {a b : UInt8} {s : Bytes} : 0xC2 ≤ a → a ≤ 0xDF → 0x80 ≤ b → b ≤ 0xBF → Text s → Text (a :: b :: s)
  | three {a b c : UInt8} {s : Bytes} :
      (a = 0xE0 ∧ 0xA0 ≤ b ∧ b ≤ 0xBF) ∨ (0xE1 ≤ a ∧ a ≤ 0xEC ∧ 0x80 ≤ b ∧ b ≤ 0xBF) ∨ (a = 0xED ∧ 0x80 ≤ b ∧ b ≤ 0x9F) ∨ (0xEE ≤ a ∧ a ≤ 0xEF ∧ 0x80 ≤ b ∧ b ≤ 0xBF) →
      0x80 ≤ c → c ≤ 0xBF → Text s → Text (a :: b :: c :: s)
  | four {a b c d : UInt8} {s : Bytes} :
      (a = 0xF0 ∧ 0x90 ≤ b ∧ b ≤ 0xBF) ∨ (0xF1 ≤ a ∧ a ≤ 0xF3 ∧ 0x80 ≤ b ∧ b ≤ 0xBF) ∨ (a = 0xF4 ∧ 0x80 ≤ b ∧ b ≤ 0x8F) →
      0x80 ≤ c → c ≤ 0xBF → 0x80 ≤ d → d ≤ 0xBF → Text s → Text (a :: b :: c :: d :: s)

/-- All modules can be read, and their `.modinfo` is text. -/
def Readable (S : Sys) (files : List File) : Prop :=
  ∀ f ∈ files, Text f.name ∧ ∀ (m : Bytes) (c : Compression), IsModule f.name m c →
    ∃ (x data : Bytes), S.read c f.content = .ok x ∧ S.modinfo x = .ok (some data) ∧ ∀ e, HasEntry data e → Text e

/-- Names of modules have something in them, and no spaces, ends of lines or wildcards. -/
def TidyName (m : Bytes) : Prop :=
  m ≠ [] ∧ 32 ∉ m ∧ 10 ∉ m ∧ 13 ∉ m ∧ 42 ∉ m ∧ 63 ∉ m ∧ 91 ∉ m

/-- So have aliases, which may have spaces. -/
def Tidy (S : Sys) (files : List File) : Prop :=
  ∀ f ∈ files, ∀ (m x : Bytes), Image S f m x → TidyName m ∧ ∀ a, HasAlias S x a → a ≠ [] ∧ 10 ∉ a

/-- No two files are of modules of one name, nor is there a file whose name goes on after that of a module. -/
def Distinct (files : List File) : Prop :=
  ∀ f ∈ files, ∀ g ∈ files, ∀ (m : Bytes) (c : Compression), IsModule f.name m c → (m ++ [46, 107, 111]) <+: g.name → g = f

/-- All modules are below `kernel`. -/
def Below (files : List File) : Prop :=
  ∀ f ∈ files, ∀ (m : Bytes) (c : Compression), IsModule f.name m c → f.dirs.head? = some [107, 101, 114, 110, 101, 108]

/-- What `init_module` is given, and what the tool says. -/
def Loads (S : Sys) (x : Bytes) (r : Except Err Unit × List Bytes) : Prop :=
  ([0x7f, 0x45, 0x4c, 0x46] <+: x → r.2 = [x] ∧ (r.1 = .ok () ↔ S.init x = .ok ())) ∧ (¬ [0x7f, 0x45, 0x4c, 0x46] <+: x → r = (.error .notElf, []))

end Verif.Modules
