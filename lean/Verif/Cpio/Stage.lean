import Verif.Cpio.Props
import Mathlib.Data.List.Nodup
/-!
# What is put into the archive

Model of the part of `run` that appends the entries (`/repo/xtask/src/run.rs:549-637`). Paths are lists of their components.
-/
namespace Verif.Cpio

/-- A directory on the disk of the host, with its entries in the order in which `WalkDir` finds them; `other` are symbolic links and special files. -/
inductive Forest where
  | nil
  | file (name : Bytes) (s : Source) (rest : Forest)
  | dir (name : Bytes) (inside : Forest) (rest : Forest)
  | other (name : Bytes) (rest : Forest)
deriving Repr

/-- An entry: its path, and the source if it is a file. -/
structure Entry where
  path : List Bytes
  source : Option Source
  exec : Bool
deriving DecidableEq, Repr

/-- The walk below a directory (`/repo/xtask/src/run.rs:600-621`): `WalkDir` gives directories before what is in them, and links are not followed. -/
def walk (pre : List Bytes) : Forest → List Entry
  | .nil => []
  | .file n s r => ⟨pre ++ [n], some s, false⟩ :: walk pre r
  | .dir n c r => ⟨pre ++ [n], none, true⟩ :: (walk (pre ++ [n]) c ++ walk pre r)
  | .other _ r => walk pre r

/-- What is known when the archive is written (`/repo/xtask/src/run.rs:442-448,497-526`): the configuration and symbols of the kernel with their names, programs of the distribution,
modules, and test programs of both profiles, with their names in messages of cargo (`/repo/xtask/src/run.rs:342-365`). -/
structure Inputs where
  config : Source
  configName : Option Bytes
  symbols : Source
  symbolsName : Option Bytes
  distro : List (Bytes × Source)
  modules : Forest
  dev : List (Bytes × Source)
  release : List (Bytes × Source)

def bin : Bytes := [98, 105, 110]
def boot : Bytes := [98, 111, 111, 116]
def lib : Bytes := [108, 105, 98]
def sbin : Bytes := [115, 98, 105, 110]
def modules : Bytes := [109, 111, 100, 117, 108, 101, 115]
def init : Bytes := [105, 110, 105, 116]
def dev : Bytes := [100, 101, 118]
def release : Bytes := [114, 101, 108, 101, 97, 115, 101]
def configFile : Bytes := [99, 111, 110, 102, 105, 103]
def symbolsFile : Bytes := [83, 121, 115, 116, 101, 109, 46, 109, 97, 112]

/-- A program of the distribution (`/repo/xtask/src/run.rs:571-578`). -/
def distroEntry (p : Bytes × Source) : Entry := ⟨if p.1 = init then [init] else [sbin, p.1], some p.2, true⟩

/-- A test program, as `{profile}-{name}` in `bin` (`/repo/xtask/src/run.rs:623-632`). -/
def program (profile : Bytes) (p : Bytes × Source) : Entry := ⟨[bin, profile ++ 45 :: p.1], some p.2, true⟩

/-- All entries but the trailer (`/repo/xtask/src/run.rs:549-633`). The name of the directory of modules is written with a slash at its end, which is left out. -/
def stage (x : Inputs) : List Entry :=
  [⟨[bin], none, true⟩, ⟨[boot], none, true⟩, ⟨[boot, configFile], some x.config, false⟩, ⟨[boot, symbolsFile], some x.symbols, false⟩, ⟨[lib], none, true⟩, ⟨[sbin], none, true⟩] ++
    (x.configName.toList.map fun n => ⟨[boot, n], some x.config, false⟩) ++ (x.symbolsName.toList.map fun n => ⟨[boot, n], some x.symbols, false⟩) ++ x.distro.map distroEntry ++
    ⟨[lib, modules], none, true⟩ :: walk [lib, modules] x.modules ++ (x.dev.map (program dev) ++ x.release.map (program release))

/-- The arguments of `append_dir` and `append_file` for an entry (`/repo/xtask/src/run.rs:544-578,617-631`): modes 0o755 and 0o644. -/
def toItem (mtime : Nat) (e : Entry) : Item :=
  match e.source with
  | none => dir ([47].intercalate e.path) (if e.exec then 493 else 420) mtime
  | some s => file ([47].intercalate e.path) s (if e.exec then 493 else 420) mtime

/-! ## Specification -/

/-- A file or directory is found in a directory of the host. -/
inductive At : Forest → List Bytes → Option Source → Prop where
  | file {n s r} : At (.file n s r) [n] (some s)
  | dir {n c r} : At (.dir n c r) [n] none
  | inside {n c r q x} : At c q x → At (.dir n c r) (n :: q) x
  | afterFile {n s r q x} : At r q x → At (.file n s r) q x
  | afterDir {n c r q x} : At r q x → At (.dir n c r) q x
  | afterOther {n r q x} : At r q x → At (.other n r) q x

/-- The parent of each entry is the root, or a directory that came before it: a kernel does not make entries without it. -/
def ParentsFirst (l : List Entry) : Prop :=
  ∀ l₁ e l₂, l = l₁ ++ e :: l₂ → e.path.dropLast = [] ∨ ∃ d ∈ l₁, d.path = e.path.dropLast ∧ d.source = none

/-- What is at a path when a kernel has made all entries: the last of that path. -/
def found (l : List Entry) (p : List Bytes) : Option Entry := l.reverse.find? (·.path = p)

/-! ## Proofs -/

/-- Like `ParentsFirst`, after some entries. -/
def After (k l : List Entry) : Prop :=
  ∀ l₁ e l₂, l = l₁ ++ e :: l₂ → e.path.dropLast = [] ∨ ∃ d ∈ k ++ l₁, d.path = e.path.dropLast ∧ d.source = none

theorem After.nil {k : List Entry} : After k [] := fun l₁ e l₂ h => by
  have := congrArg List.length h
  simp at this

theorem After.cons {k l : List Entry} {e : Entry} (h : e.path.dropLast = [] ∨ ∃ d ∈ k, d.path = e.path.dropLast ∧ d.source = none) (hl : After (k ++ [e]) l) : After k (e :: l) := by
  intro l₁ f l₂ heq
  cases l₁ with
  | nil =>
    simp only [List.nil_append, List.cons.injEq] at heq
    rw [← heq.1, List.append_nil]
    exact h
  | cons g l₁ =>
    simp only [List.cons_append, List.cons.injEq] at heq
    have := hl l₁ f l₂ heq.2
    rw [heq.1] at this
    simpa using this

theorem After.append {k l m : List Entry} (hl : After k l) (hm : After (k ++ l) m) : After k (l ++ m) := by
  induction l generalizing k with
  | nil => simpa using hm
  | cons e l ih =>
    rw [List.cons_append]
    refine After.cons ?_ (ih ?_ (by simpa using hm))
    · simpa using hl [] e l rfl
    · intro l₁ f l₂ heq
      have := hl (e :: l₁) f l₂ (by rw [heq]; rfl)
      simpa using this

theorem After.of_one {k l : List Entry} {d : Entry} (hd : d ∈ k) (hs : d.source = none) (h : ∀ e ∈ l, e.path.dropLast = [] ∨ e.path.dropLast = d.path) : After k l := by
  intro l₁ e l₂ heq
  rcases h e (by rw [heq]; simp) with h | h
  · exact .inl h
  · exact .inr ⟨d, by simp [hd], h.symm, hs⟩

theorem after_walk (f : Forest) : ∀ (pre : List Bytes) (k : List Entry), (∃ d ∈ k, d.path = pre ∧ d.source = none) → After k (walk pre f) := by
  induction f with
  | nil => intro pre k _; exact After.nil
  | file n s r ih =>
    rintro pre k ⟨d, hd, hp, hs⟩
    exact After.cons (.inr ⟨d, hd, by simp [hp], hs⟩) (ih pre _ ⟨d, by simp [hd], hp, hs⟩)
  | dir n c r ihc ihr =>
    rintro pre k ⟨d, hd, hp, hs⟩
    refine After.cons (.inr ⟨d, hd, by simp [hp], hs⟩) (After.append (ihc _ _ ⟨⟨pre ++ [n], none, true⟩, by simp, rfl, rfl⟩) (ihr pre _ ⟨d, by simp [hd], hp, hs⟩))
  | other n r ih => intro pre k h; exact ih pre k h

/-- Whatever modules and programs there are, directories are put into the archive before what is in them. -/
theorem C119_parents (x : Inputs) : ParentsFirst (stage x) := by
  have : After [] (stage x) := by
    unfold stage
    simp only [List.append_assoc, List.cons_append, List.nil_append]
    refine After.cons (.inl rfl) (After.cons (.inl rfl) (After.cons (.inr ⟨⟨[boot], none, true⟩, by simp, rfl, rfl⟩) (After.cons (.inr ⟨⟨[boot], none, true⟩, by simp, rfl, rfl⟩)
      (After.cons (.inl rfl) (After.cons (.inl rfl) (After.append ?_ (After.append ?_ (After.append ?_ (After.cons (.inr ⟨⟨[lib], none, true⟩, by simp, rfl, rfl⟩) (After.append ?_ ?_))))))))))
    · exact After.of_one (d := ⟨[boot], none, true⟩) (by simp) rfl (by
        intro e he; obtain ⟨n, _, rfl⟩ := List.mem_map.1 he; exact .inr rfl)
    · exact After.of_one (d := ⟨[boot], none, true⟩) (by simp) rfl (by
        intro e he; obtain ⟨n, _, rfl⟩ := List.mem_map.1 he; exact .inr rfl)
    · exact After.of_one (d := ⟨[sbin], none, true⟩) (by simp) rfl (by
        intro e he
        obtain ⟨p, _, rfl⟩ := List.mem_map.1 he
        unfold distroEntry
        by_cases h : p.1 = init
        · left; simp [h]
        · right; simp [h])
    · exact after_walk _ _ _ ⟨⟨[lib, modules], none, true⟩, by simp, rfl, rfl⟩
    · exact After.of_one (d := ⟨[bin], none, true⟩) (by simp) rfl (by
        intro e he
        rcases List.mem_append.1 he with he | he
        · obtain ⟨n, _, rfl⟩ := List.mem_map.1 he; exact .inr rfl
        · obtain ⟨n, _, rfl⟩ := List.mem_map.1 he; exact .inr rfl)
  intro l₁ e l₂ h
  simpa using this l₁ e l₂ h

theorem mem_walk (f : Forest) : ∀ (pre p : List Bytes) (o : Option Source), (∃ e ∈ walk pre f, e.path = p ∧ e.source = o) ↔ ∃ q, p = pre ++ q ∧ At f q o := by
  induction f with
  | nil =>
    intro pre p o
    constructor
    · rintro ⟨e, he, _⟩; cases he
    · rintro ⟨q, _, h⟩; cases h
  | file n s r ih =>
    intro pre p o
    constructor
    · rintro ⟨e, he, hp, ho⟩
      rcases List.mem_cons.1 he with rfl | he
      · exact ⟨[n], hp.symm, ho ▸ .file⟩
      · obtain ⟨q, h1, h2⟩ := (ih pre p o).1 ⟨e, he, hp, ho⟩
        exact ⟨q, h1, .afterFile h2⟩
    · rintro ⟨q, rfl, h⟩
      cases h with
      | file => exact ⟨_, List.mem_cons_self, rfl, rfl⟩
      | afterFile h =>
        obtain ⟨e, he, h⟩ := (ih pre _ o).2 ⟨q, rfl, h⟩
        exact ⟨e, List.mem_cons_of_mem _ he, h⟩
  | dir n c r ihc ihr =>
    intro pre p o
    constructor
    · rintro ⟨e, he, hp, ho⟩
      rcases List.mem_cons.1 he with rfl | he
      · exact ⟨[n], hp.symm, ho ▸ .dir⟩
      · rcases List.mem_append.1 he with he | he
        · obtain ⟨q, h1, h2⟩ := (ihc _ p o).1 ⟨e, he, hp, ho⟩
          exact ⟨n :: q, by rw [h1]; simp, .inside h2⟩
        · obtain ⟨q, h1, h2⟩ := (ihr pre p o).1 ⟨e, he, hp, ho⟩
          exact ⟨q, h1, .afterDir h2⟩
    · rintro ⟨q, rfl, h⟩
      cases h with
      | dir => exact ⟨_, List.mem_cons_self, rfl, rfl⟩
      | @inside _ _ _ q _ h =>
        obtain ⟨e, he, hp, ho⟩ := (ihc (pre ++ [n]) _ o).2 ⟨q, rfl, h⟩
        exact ⟨e, List.mem_cons_of_mem _ (List.mem_append_left _ he), by rw [hp]; simp, ho⟩
      | afterDir h =>
        obtain ⟨e, he, h⟩ := (ihr pre _ o).2 ⟨q, rfl, h⟩
        exact ⟨e, List.mem_cons_of_mem _ (List.mem_append_right _ he), h⟩
  | other n r ih =>
    intro pre p o
    constructor
    · rintro ⟨e, he, hp, ho⟩
      obtain ⟨q, h1, h2⟩ := (ih pre p o).1 ⟨e, he, hp, ho⟩
      exact ⟨q, h1, .afterOther h2⟩
    · rintro ⟨q, rfl, h⟩
      cases h with
      | afterOther h => exact (ih pre _ o).2 ⟨q, rfl, h⟩

/-- Below `lib/modules` there is exactly what the host has in its directory of modules, at the same paths, without links and special files. -/
theorem C119_modules (x : Inputs) (q : List Bytes) (hq : q ≠ []) (o : Option Source) :
    (∃ e ∈ stage x, e.path = lib :: modules :: q ∧ e.source = o) ↔ At x.modules q o := by
  have key : (∃ e ∈ walk [lib, modules] x.modules, e.path = lib :: modules :: q ∧ e.source = o) ↔ At x.modules q o := by
    rw [mem_walk]
    constructor
    · rintro ⟨q', h1, h2⟩
      have : q = q' := by simpa using h1
      rwa [this]
    · exact fun h => ⟨q, rfl, h⟩
  rw [← key]
  obtain ⟨a, q, rfl⟩ : ∃ a q', q = a :: q' := by cases q with | nil => exact absurd rfl hq | cons a q => exact ⟨a, q, rfl⟩
  constructor
  · rintro ⟨e, he, hp, ho⟩
    refine ⟨e, ?_, hp, ho⟩
    have hlen : 3 ≤ e.path.length := by rw [hp]; simp
    have hb : ∀ {b : Bytes}, e.path.head? = some b → b = lib := by intro b hb; rw [hp] at hb; simpa using hb.symm
    simp only [stage, List.mem_append, List.mem_cons, List.not_mem_nil, or_false, List.mem_map] at he
    rcases he with ((((h | h) | h) | h) | h | h) | h
    · rcases h with rfl | rfl | rfl | rfl | rfl | rfl <;> simp at hlen
    · obtain ⟨n, _, rfl⟩ := h; simp at hlen
    · obtain ⟨n, _, rfl⟩ := h; simp at hlen
    · obtain ⟨n, _, rfl⟩ := h
      unfold distroEntry at hlen
      split at hlen <;> simp at hlen
    · rw [h] at hlen; simp at hlen
    · exact h
    · rcases h with ⟨n, _, rfl⟩ | ⟨n, _, rfl⟩ <;> simp [program] at hlen
  · rintro ⟨e, he, h⟩
    exact ⟨e, by simp only [stage, List.mem_append, List.mem_cons]; exact .inl (.inr (.inr he)), h⟩

theorem found_append {l m : List Entry} {p : List Bytes} : found (l ++ m) p = (found m p).or (found l p) := by
  unfold found
  rw [List.reverse_append, List.find?_append]

theorem found_program {profile : Bytes} {ps : List (Bytes × Source)} {p : Bytes × Source} (hd : (ps.map Prod.fst).Nodup) (h : p ∈ ps) :
    found (ps.map (program profile)) [bin, profile ++ 45 :: p.1] = some (program profile p) := by
  have huniq : ∀ q ∈ ps, (program profile q).path = [bin, profile ++ 45 :: p.1] → q = p := by
    intro q hq he
    have he : q.1 = p.1 := by simpa [program] using he
    exact List.inj_on_of_nodup_map hd hq h he
  unfold found
  cases e : (ps.map (program profile)).reverse.find? (·.path = [bin, profile ++ 45 :: p.1]) with
  | none =>
    have := List.find?_eq_none.1 e (program profile p) (List.mem_reverse.2 (List.mem_map.2 ⟨p, h, rfl⟩))
    exact absurd (by simp [program]) this
  | some x =>
    obtain ⟨q, hq, rfl⟩ := List.mem_map.1 (List.mem_reverse.1 (List.mem_of_find?_eq_some e))
    rw [huniq q hq (by simpa using List.find?_some e)]

/-- Each test program of each profile is what the machine finds under its name, as one that can be executed, if no two of a profile have one name; names that begin with profiles keep
the profiles apart. -/
theorem C119_programs_partial (x : Inputs) : ((x.dev.map Prod.fst).Nodup → ∀ p ∈ x.dev, found (stage x) [bin, dev ++ 45 :: p.1] = some ⟨[bin, dev ++ 45 :: p.1], some p.2, true⟩) ∧
    ((x.release.map Prod.fst).Nodup → ∀ p ∈ x.release, found (stage x) [bin, release ++ 45 :: p.1] = some ⟨[bin, release ++ 45 :: p.1], some p.2, true⟩) := by
  constructor
  · intro hd p hp
    have hno : found (x.release.map (program release)) [bin, dev ++ 45 :: p.1] = none := by
      unfold found
      rw [List.find?_eq_none]
      intro e he
      obtain ⟨q, _, rfl⟩ := List.mem_map.1 (List.mem_reverse.1 he)
      simp [program, dev, release]
    unfold stage
    rw [found_append, found_append, hno, found_program hd hp]
    rfl
  · intro hd p hp
    unfold stage
    rw [found_append, found_append, found_program hd hp]
    rfl

theorem At.ne_nil {f : Forest} {q : List Bytes} {o : Option Source} (h : At f q o) : q ≠ [] := by
  induction h <;> simp_all

theorem found_none {l : List Entry} {p : List Bytes} (h : ∀ e ∈ l, e.path ≠ p) : found l p = none := by
  unfold found
  rw [List.find?_eq_none]
  intro e he
  simpa using h e (List.mem_reverse.1 he)

/-- The first program of the machine is the one called `init` of the distribution, if it is built once: no module and no test program is in its place. -/
theorem C119_init (x : Inputs) (hd : (x.distro.map Prod.fst).Nodup) {s : Source} (h : (init, s) ∈ x.distro) : found (stage x) [init] = some ⟨[init], some s, true⟩ := by
  have hw : ∀ (f : Forest) (pre : List Bytes), ∀ e ∈ walk pre f, pre.length < e.path.length := by
    intro f pre e he
    obtain ⟨q, h1, h2⟩ := (mem_walk f pre e.path e.source).1 ⟨e, he, rfl, rfl⟩
    have : q ≠ [] := h2.ne_nil
    rw [h1, List.length_append]
    have := List.length_pos_iff.2 this
    omega
  have hdist : found (x.distro.map distroEntry) [init] = some ⟨[init], some s, true⟩ := by
    unfold found
    cases e : (x.distro.map distroEntry).reverse.find? (·.path = [init]) with
    | none =>
      have := List.find?_eq_none.1 e (distroEntry (init, s)) (List.mem_reverse.2 (List.mem_map.2 ⟨_, h, rfl⟩))
      exact absurd (by simp [distroEntry]) this
    | some y =>
      obtain ⟨q, hq, rfl⟩ := List.mem_map.1 (List.mem_reverse.1 (List.mem_of_find?_eq_some e))
      have hp : (distroEntry q).path = [init] := by simpa using List.find?_some e
      have hq1 : q.1 = init := by
        by_contra hne
        simp [distroEntry, hne] at hp
      have : q = (init, s) := List.inj_on_of_nodup_map hd hq h hq1
      rw [this]
      simp [distroEntry]
  have hlate : found (⟨[lib, modules], none, true⟩ :: walk [lib, modules] x.modules) [init] = none := by
    refine found_none fun e he hp => ?_
    rcases List.mem_cons.1 he with rfl | he
    · simp at hp
    · have := hw _ _ e he
      rw [hp] at this
      simp at this
  have hprog : found (x.dev.map (program dev) ++ x.release.map (program release)) [init] = none := by
    refine found_none fun e he hp => ?_
    rcases List.mem_append.1 he with he | he <;> (obtain ⟨q, _, rfl⟩ := List.mem_map.1 he; simp [program] at hp)
  unfold stage
  rw [found_append, hprog, found_append, hlate, found_append, hdist]
  rfl

/-- If two programs of a profile have one name, as a program and its own tests have, the first is not there: its tests are never run, and nothing says so. -/
theorem C119_twice_violated (x : Inputs) {p q : Bytes × Source} {l : List (Bytes × Source)} (hx : x.release = l ++ [p, q]) (hn : p.1 = q.1) :
    found (stage x) [bin, release ++ 45 :: p.1] = some ⟨[bin, release ++ 45 :: p.1], some q.2, true⟩ := by
  unfold stage
  rw [found_append, found_append, hx, List.map_append, found_append]
  simp [found, program, hn]

end Verif.Cpio
