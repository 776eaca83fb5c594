import Verif.Ebpf.DeclSpec
import Verif.Obj.Props
import Verif.ObjMaps.Props
import Verif.Maps.Load
import Verif.Handles.Props
/-!
# C82: a declared map is created as declared and opened by the typed map of the same name
-/
set_option linter.unusedSimpArgs false
set_option linter.unusedVariables false
namespace Verif.Ebpf.Decl
open Verif.Bytes Verif.Ebpf.Decl.Spec

private theorem parse_new {k v t n f p : Nat} (hk : k < 2 ^ 32) (hv : v < 2 ^ 32) (ht : t < 2 ^ 32) (hn : n < 2 ^ 32)
    (hf : f < 2 ^ 32) (hp : p ≤ 1) (tr : List UInt8) :
    Obj.parseMapDef (mapDefNew k v t n f p ++ tr) = .ok ⟨t, k, v, n, f, 0, p⟩ := by
  have := Obj.C26_full_partial ⟨t, k, v, n, f, 0, p⟩ ⟨ht, hk, hv, hn, hf, (by decide : 0 < 2 ^ 32), hp⟩ tr
  rw [← this]
  simp [mapDefNew, Obj.Spec.encodeDef]

private theorem pinning_le (p : Bool) : pinning p ≤ 1 := by cases p <;> decide

private theorem pinning_eq (p : Bool) : (pinning p == 1) = p := by cases p <;> decide

private theorem or_one_lt {f : Nat} (h : f < 2 ^ 32) : f ||| 1 < 2 ^ 32 := Nat.or_lt_two_pow h (by decide)

private theorem or_one_bit (f i : Nat) (h : i ≠ 0) : (f ||| 1).testBit i = f.testBit i := by
  rw [Nat.testBit_or]
  cases i with
  | zero => exact absurd rfl h
  | succ n => simp [Nat.testBit_succ]

/-- **C82 (section `maps`).** A static of the module `maps`, whatever follows it in the section, is read by the loader as the map
declared. -/
theorem C82_legacy (d : Decl) (n flags : Nat) (pin : Bool) (hf : Fits d n flags) (bs : List UInt8)
    (hb : legacy n flags pin d = some bs) (trailing : List UInt8) :
    ∃ m, Obj.parseMapDef (bs ++ trailing) = .ok m ∧ Is d n flags (ofLegacy m) ∧ (ofLegacy m).pinByName = pin ∧
      (ofLegacy m).btf = none ∧ (d matches .lpmTrie _ _ → m.mapFlags.testBit 0 = true) := by
  obtain ⟨h1, h2, h3, h4, _⟩ := hf
  have hp := pinning_le pin
  have hq := pinning_eq pin
  have ho := or_one_lt h2
  cases d with
  | stackTrace depth =>
    simp only [legacy] at hb
    by_cases hd : depth = 127
    · rw [if_pos hd] at hb
      cases hb
      subst hd
      exact ⟨_, parse_new (by decide) (by decide) (by decide) h1 h2 hp trailing,
        ⟨by simp [ofLegacy, opens, Handles.Spec.kinds], by simp [ofLegacy, lru], rfl, rfl, rfl, rfl⟩, hq, rfl, by simp⟩
    · rw [if_neg hd] at hb; cases hb
  | lpmTrie k v =>
    cases hb
    exact ⟨_, parse_new h3 h4 (by decide) h1 ho hp trailing,
      ⟨by simp [ofLegacy, opens, Handles.Spec.kinds], by simp [ofLegacy, lru], rfl, rfl, rfl, fun i hi => or_one_bit _ _ hi⟩, hq, rfl, fun _ => by simp [Nat.testBit_or]⟩
  | arrayOfMaps => cases hb
  | hashOfMaps k => cases hb
  | inodeStorage v => cases hb
  | skStorage v => cases hb
  | cgrpStorage v => cases hb
  | _ =>
    cases hb
    exact ⟨_, parse_new (by first | exact h3 | decide) (by first | exact h4 | decide) (by decide)
      (by first | exact h1 | decide) (by first | exact h2 | decide) hp trailing,
      ⟨by simp [ofLegacy, opens, Handles.Spec.kinds], by simp [ofLegacy, lru], rfl, rfl, rfl, rfl⟩, hq, rfl, by simp⟩

private theorem meaning_plain {ι : Type} (kt vt k v t n f : Nat) :
    ObjMaps.Spec.meaning (btfMapDef kt vt k v t n f ([] : List (ObjMaps.Spec.Line ι))) =
      ⟨t, k, v, n, f, 0, false, kt, vt⟩ := rfl

/-- The inner map of a declaration: the one given, if it is a map of maps. -/
private def innerOf {ι : Type} (inner : ι) : Decl → Option ι
  | .arrayOfMaps | .hashOfMaps _ => some inner
  | _ => none

private theorem lines (d : Decl) (kt vt n flags hashFuncs : Nat) (inner : ObjMaps.BtfDef) :
    Is d n flags (ofBtf (ObjMaps.Spec.meaning (btf kt vt n flags hashFuncs inner d))) ∧
    (ofBtf (ObjMaps.Spec.meaning (btf kt vt n flags hashFuncs inner d))).btf = some (kt, vt) ∧
    (ofBtf (ObjMaps.Spec.meaning (btf kt vt n flags hashFuncs inner d))).pinByName = false ∧
    ((btf kt vt n flags hashFuncs inner d).filterMap ObjMaps.Spec.Line.inner).getLast? = innerOf inner d ∧
    (ofBtf (ObjMaps.Spec.meaning (btf kt vt n flags hashFuncs inner d))).extra =
      (if d matches .bloomFilter _ then hashFuncs else 0) := by
  cases d with
  | lpmTrie k v => exact ⟨⟨of_decide_eq_true rfl, of_decide_eq_true rfl, rfl, rfl, rfl, fun _ _ => rfl⟩, rfl, rfl, rfl, rfl⟩
  | _ => exact ⟨⟨of_decide_eq_true rfl, of_decide_eq_true rfl, rfl, rfl, rfl, rfl⟩, rfl, rfl, rfl, rfl⟩

/-- **C82 (section `.maps`).** A structure with the members of a type of the module `btf_maps`, with key and value types of the sizes
the program uses, is read by the loader as the map declared; a map of maps gets its inner map, a bloom filter its number of hash
functions. `_partial`: types that contain arrays of arrays are left out (`C82_matrix_violated`), and the BTF is taken to describe
the members as `btf_map_def!` writes them. -/
theorem C82_btf_partial (d : Decl) (n flags hashFuncs kt vt : Nat) (inner : ObjMaps.BtfDef) (b : Btf.Btf)
    (hh : b.header.hdrLen + b.header.strOff + b.header.strLen < 2 ^ 32) (hl : b.header.strLen = b.strings.length)
    (ms : List Btf.Member)
    (hw : ObjMaps.Spec.Each (ObjMaps.Spec.Writes b (ObjMaps.Spec.CSize b.types)
      (ObjMaps.Spec.DefinesInner b (ObjMaps.Spec.CSize b.types))) ms (btf kt vt n flags hashFuncs inner d)) :
    ∃ m i, ObjMaps.parseStruct b ms = .ok ⟨m, i⟩ ∧ Is d n flags (ofBtf m) ∧ (ofBtf m).btf = some (kt, vt) ∧
      (ofBtf m).pinByName = false ∧ (opens d = .arrayOfMaps ∨ (∃ k, opens d = .hashOfMaps k) → i = some inner) ∧
      (∀ v, d = .bloomFilter v → (ofBtf m).extra = hashFuncs) := by
  obtain ⟨h1, h2, h3, h4, h5⟩ := lines d kt vt n flags hashFuncs inner
  refine ⟨_, _, ObjMaps.C65_c_sizes_partial b hh hl ms _ _ ⟨_, hw, rfl, rfl⟩, h1, h2, h3, ?_, ?_⟩
  · intro h
    rw [h4]
    cases d <;> simp [opens] at h <;> rfl
  · rintro v rfl
    exact h5

/-- **C82 (section `.maps`).** A map whose structure says that it is pinned by its name (member `pinning`, 1) is pinned by its name,
whatever else the structure says. -/
theorem C82_pinned (b : Btf.Btf) (hh : b.header.hdrLen + b.header.strOff + b.header.strLen < 2 ^ 32)
    (hl : b.header.strLen = b.strings.length) (ms : List Btf.Member) (before after : List (ObjMaps.Spec.Line ObjMaps.BtfDef))
    (ha : ∀ n, ObjMaps.Spec.Line.num .pinning n ∉ after)
    (hw : ObjMaps.Spec.Each (ObjMaps.Spec.Writes b (ObjMaps.Spec.CSize b.types)
      (ObjMaps.Spec.DefinesInner b (ObjMaps.Spec.CSize b.types))) ms (before ++ .num .pinning 1 :: after)) :
    ∃ m i, ObjMaps.parseStruct b ms = .ok ⟨m, i⟩ ∧ (ofBtf m).pinByName = true := by
  refine ⟨_, _, ObjMaps.C65_c_sizes_partial b hh hl ms _ _ ⟨_, hw, rfl, rfl⟩, ?_⟩
  have hnone : after.filterMap (ObjMaps.Spec.Line.numIs .pinning) = [] := by
    rw [List.filterMap_eq_nil_iff]
    intro l hm
    cases l with
    | num f n =>
      simp only [ObjMaps.Spec.Line.numIs]
      split
      · rename_i h; subst h; exact absurd hm (ha n)
      · rfl
    | _ => rfl
  simp [ofBtf, ObjMaps.Spec.meaning, ObjMaps.Spec.last, hnone, ObjMaps.Spec.Line.numIs, List.filterMap_append]

/-- Where the definition of a map in an object comes from. -/
inductive Source (d : Decl) (n flags : Nat) (m : Maps.MapDef) : Prop
  | maps (pin : Bool) (bs trailing : List UInt8) (p : Obj.MapDef) (hb : legacy n flags pin d = some bs)
      (hp : Obj.parseMapDef (bs ++ trailing) = .ok p) (hm : m = ofLegacy p)
  | btf (hashFuncs kt vt : Nat) (inner : ObjMaps.BtfDef) (b : Btf.Btf) (ms : List Btf.Member) (p : ObjMaps.BtfDef)
      (i : Option ObjMaps.BtfDef) (hh : b.header.hdrLen + b.header.strOff + b.header.strLen < 2 ^ 32)
      (hl : b.header.strLen = b.strings.length)
      (hw : ObjMaps.Spec.Each (ObjMaps.Spec.Writes b (ObjMaps.Spec.CSize b.types)
        (ObjMaps.Spec.DefinesInner b (ObjMaps.Spec.CSize b.types))) ms (Decl.btf kt vt n flags hashFuncs inner d))
      (hp : ObjMaps.parseStruct b ms = .ok ⟨p, i⟩) (hm : m = ofBtf p)

theorem Source.is {d : Decl} {n flags : Nat} {m : Maps.MapDef} (h : Source d n flags m) (hf : Fits d n flags) : Is d n flags m := by
  cases h with
  | maps pin bs tr p hb hp hm =>
    obtain ⟨p', h1, h2, _⟩ := C82_legacy d n flags pin hf bs hb tr
    rw [hp] at h1; cases h1
    rw [hm]; exact h2
  | btf hfn kt vt inner b ms p i hh hl hw hp hm =>
    obtain ⟨p', i', h1, h2, _⟩ := C82_btf_partial d n flags hfn kt vt inner b hh hl ms hw
    rw [hp] at h1; cases h1
    rw [hm]; exact h2

/-- The bytes of values the kernel is asked for: without support for programs in CPU and device maps, only the number. -/
def created (env : Maps.LoadEnv) (d : Decl) : Nat :=
  match d with
  | .cpuMap => if env.cpuProgId then 8 else 4
  | .devMap | .devMapHash => if env.devProgId then 8 else 4
  | _ => valueBytes d

private theorem value_for {d : Decl} {n flags : Nat} {m : Maps.MapDef} (env : Maps.LoadEnv) (h : Is d n flags m) :
    Maps.Spec.valueFor env m = created env d := by
  obtain ⟨h1, _, _, h4, _, _⟩ := h
  unfold Maps.Spec.valueFor
  cases d <;> simp [opens, Handles.Spec.kinds] at h1 <;>
    first
      | (rw [h1]; simp [created, valueBytes, h4])
      | (rcases h1 with h1 | h1 <;> rw [h1] <;> simp [created, valueBytes, h4])

private theorem loaded_some {d : Decl} {n flags : Nat} {m : Maps.MapDef} (h : Is d n flags m) (allow : Bool) (data : Handles.Data)
    (hd : data.obj.mapType = m.mapType) : ∃ map, Handles.loaded allow data = some map := by
  obtain ⟨h1, _, _, _, _, _⟩ := h
  unfold Handles.loaded
  rw [hd]
  cases d <;> simp [opens, Handles.Spec.kinds] at h1 <;>
    first
      | (rw [h1]; exact ⟨_, rfl⟩)
      | (rcases h1 with h1 | h1 <;> rw [h1] <;> exact ⟨_, rfl⟩)

private theorem describes {d : Decl} {n flags : Nat} {m : Maps.MapDef} (h : Is d n flags m) (hf : Fits d n flags)
    (env : Maps.LoadEnv) (henv : Handles.Env) (hc : henv.cpuMapProgId = env.cpuProgId) (hdv : henv.devMapProgId = env.devProgId)
    (ents : Nat) : Handles.Spec.Describes henv (opens d) ⟨m.mapType, m.keySize, created env d, ents, m.flags⟩ := by
  obtain ⟨h1, _, h3, h4, _, h6⟩ := h
  refine ⟨h1, ?_, ?_, ?_⟩
  · intro x hx
    show m.keySize = x
    rw [h3]
    cases d <;> simp [opens, Handles.Spec.sizes] at hx <;> simp [keyBytes] <;> omega
  · intro x hx
    show created env d = x
    cases d <;> simp [opens, Handles.Spec.sizes, hc, hdv] at hx <;> simp [created, valueBytes, hx]
  · intro hs
    cases d with
    | stackTrace depth =>
      obtain ⟨hz, hb⟩ := hf.stack depth rfl
      have h6 : m.flags = flags := h6
      refine ⟨by show ¬ m.flags.testBit 5 = true; rw [h6, hb]; simp, ?_, ?_⟩
      · show 0 < 8 * depth; omega
      · exact ⟨depth, rfl⟩
    | _ => simp [opens] at hs

/-- **C82 (opening).** When the loader has made a map declared in a program, the typed map of the same name opens it, whatever the map
was declared with and whichever features the kernel has. -/
theorem C82_opened (d : Decl) (n flags : Nat) (hf : Fits d n flags) (k : Maps.Kernel) (env : Maps.LoadEnv) (name : Maps.Bytes)
    (obj : Maps.MapObj) (hs : Source d n flags obj.def_) (h h' : Maps.Hist) (m : Maps.MapData)
    (hl : Maps.loadMap k env name obj h = (.ok m, h')) (henv : Handles.Env) (hc : henv.cpuMapProgId = env.cpuProgId)
    (hdv : henv.devMapProgId = env.devProgId) (allow : Bool) :
    ∃ map handle, Handles.loaded allow
        ⟨⟨obj.def_.mapType, m.keySize, m.valueSize, m.maxEntries, obj.def_.flags⟩, m.fd⟩ = some map ∧
      Handles.tryFrom henv (opens d) map = .ok handle ∧ handle.data.fd = m.fd := by
  have his := hs.is hf
  obtain ⟨seg, _, hm, _⟩ := Maps.C57_one_map k env name obj h h' m hl
  have hkv : m.keySize = obj.def_.keySize ∧ m.valueSize = created env d := by
    cases hm with
    | reused path o m pinned found fd key value ents => exact ⟨key, by rw [value, value_for env his]⟩
    | created pre inner pin innerFd a o m look missing im asks reply fd key value ents pins =>
      exact ⟨by rw [key, asks.keySize], by rw [value, asks.valueSize, value_for env his]⟩
  obtain ⟨map, hmap⟩ := loaded_some his allow ⟨⟨obj.def_.mapType, m.keySize, m.valueSize, m.maxEntries, obj.def_.flags⟩, m.fd⟩ rfl
  obtain ⟨handle, hh⟩ := (Handles.C75_accepted henv (opens d) _ map (.loaded allow hmap)).mpr (by
    rw [hkv.1, hkv.2]
    exact describes his hf env henv hc hdv m.maxEntries)
  refine ⟨map, handle, hmap, hh, ?_⟩
  rw [(Handles.C75_same_map henv (opens d) map handle hh).2]
  unfold Handles.loaded at hmap
  cases hv : Loader.variantFor allow obj.def_.mapType with
  | none => rw [hv] at hmap; cases hmap
  | some v => rw [hv] at hmap; cases hmap; rfl

/-- **C82 (creating).** Unless a pinned map is reused, the kernel has been asked for a map of the type declared, with keys and values of
the sizes the program uses, and with the number of entries declared unless the user asked for another one. -/
theorem C82_created (d : Decl) (n flags : Nat) (hf : Fits d n flags) (k : Maps.Kernel) (env : Maps.LoadEnv) (name : Maps.Bytes)
    (obj : Maps.MapObj) (hs : Source d n flags obj.def_) (h h' : Maps.Hist) (m : Maps.MapData)
    (hl : Maps.loadMap k env name obj h = (.ok m, h'))
    (hp : ∀ path, Maps.Spec.pinPath env name obj.def_ = some path → ∃ e, k h (.objGet path) = .error e) :
    ∃ a, .create a ∈ h' ∧ a.mapType ∈ Handles.Spec.kinds (opens d) ∧ (a.mapType ∈ [9, 10] ↔ lru d = true) ∧
      a.keySize = keyBytes d ∧ a.valueSize = created env d ∧ Flags flags d a.flags ∧
      (env.userEntries.lookup name = none → opens d ≠ .ringBuf → opens d ≠ .perfEventArray → a.maxEntries = entries n d) := by
  have his := hs.is hf
  obtain ⟨seg, hseg, hm, _⟩ := Maps.C57_one_map k env name obj h h' m hl
  cases hm with
  | reused path o m pinned found fd key value ents =>
    obtain ⟨e, he⟩ := hp path pinned
    rw [found] at he; cases he
  | created pre inner pin innerFd a o m look missing im asks reply fd key value ents pins =>
    refine ⟨a, ?_, ?_, ?_, ?_, ?_, ?_, ?_⟩
    · rw [hseg]; simp
    · rw [asks.mapType]; exact his.kind
    · rw [asks.mapType]; exact his.lru
    · rw [asks.keySize]; exact his.key
    · rw [asks.valueSize]; exact value_for env his
    · rw [asks.flags]; exact his.flags
    · intro hu hr hpe
      rw [asks.maxEntries]
      unfold Maps.Spec.entriesFor
      rw [hu]
      have h1 := his.kind
      have h2 := his.entries
      have n27 : obj.def_.mapType ≠ 27 := by
        intro h27; rw [h27] at h1
        cases d <;> simp [opens, Handles.Spec.kinds] at h1 hr
      have n4 : obj.def_.mapType ≠ 4 := by
        intro h27; rw [h27] at h1
        cases d <;> simp [opens, Handles.Spec.kinds] at h1 hpe
      simp [n27, n4, h2]

/-! ## Concrete cases and a counterexample -/

/-- BTF of `Array<[[i32; 3]; 2], 1>` (members `matrix`) and of `Array<[i32; 3], 1>` (members `row`). -/
def declBtf : Btf.Btf :=
  ⟨⟨0xeb9f, 1, 0, 24, 0, 0, 0, 38⟩, [0, 116, 121, 112, 101, 0, 107, 101, 121, 0, 118, 97, 108, 117, 101, 0, 109, 97, 120, 95, 101, 110, 116, 114, 105, 101, 115, 0, 109, 97, 112, 95, 102, 108, 97, 103, 115, 0],
  [.unknown, Btf.mkInt 0 4 1 0, .array 0 (3 * 2 ^ 24) 1 1 3, .array 0 (3 * 2 ^ 24) 2 1 2, .ref .ptr 0 (2 * 2 ^ 24) 3,
   .ref .ptr 0 (2 * 2 ^ 24) 1, .array 0 (3 * 2 ^ 24) 1 1 2, .ref .ptr 0 (2 * 2 ^ 24) 6, .array 0 (3 * 2 ^ 24) 1 1 1,
   .ref .ptr 0 (2 * 2 ^ 24) 8, .array 0 (3 * 2 ^ 24) 1 1 0, .ref .ptr 0 (2 * 2 ^ 24) 10, .ref .ptr 0 (2 * 2 ^ 24) 2]⟩

/-- The members of the structure; `v` is the type of `value`. -/
def members (v : Nat) : List Btf.Member := [⟨1, 7, 0⟩, ⟨6, 5, 64⟩, ⟨10, v, 128⟩, ⟨16, 9, 192⟩, ⟨28, 11, 256⟩]

def matrix : List Btf.Member := members 4
def row : List Btf.Member := members 12

private theorem name (n : Nat) (w : String) (h : declBtf.stringAt n = .ok w.toUTF8.toList) :
    Btf.Spec.StringAt declBtf.strings n w.toUTF8.toList :=
  (ObjMaps.names_ok (b := declBtf) (by decide) (by decide) _ _).mp h

private theorem sizeInt : Btf.Spec.SizeOf declBtf.types 1 1 0 4 :=
  .int (n := 0) (i := 1 * 2 ^ 24) (s := 4) (x := 1 * 2 ^ 24 + 32) rfl

private theorem sizeRow : Btf.Spec.SizeOf declBtf.types 2 2 1 (3 * 4) :=
  .array (n := 0) (i := 3 * 2 ^ 24) (e := 1) (x := 1) rfl sizeInt

private theorem sizeMatrix : Btf.Spec.SizeOf declBtf.types 3 3 2 (2 * 12) :=
  .array (n := 0) (i := 3 * 2 ^ 24) (e := 2) (x := 1) (len := 2) (d := 2) (dims := 1) (s := 12) rfl sizeRow

private theorem written {S : Nat → Nat → Prop} {I : List Btf.Member → ObjMaps.BtfDef → Prop} (v t n : Nat)
    (hp : ObjMaps.Spec.Points declBtf.types v t) (hi : S 1 4) (hs : S t n) :
    ObjMaps.Spec.Each (ObjMaps.Spec.Writes declBtf S I) (members v) (btfMapDef 1 t 4 n 2 1 0 []) := by
  refine .cons (.num ?_ ⟨0, _, rfl⟩ rfl) (.cons (.key ?_ ⟨0, _, rfl⟩ hi) (.cons (.value ?_ hp hs)
    (.cons (.num ?_ ⟨0, _, rfl⟩ rfl) (.cons (.num ?_ ⟨0, _, rfl⟩ rfl) .nil))))
  · exact name _ _ (by decide +kernel)
  · exact name _ _ (by decide +kernel)
  · exact name 10 _ (by decide +kernel)
  · exact name _ _ (by decide +kernel)
  · exact name _ _ (by decide +kernel)

/-- The hypotheses of `C82_btf_partial` hold for `Array<[i32; 3], 1>`. -/
example : ObjMaps.Spec.Each (ObjMaps.Spec.Writes declBtf (ObjMaps.Spec.CSize declBtf.types)
    (ObjMaps.Spec.DefinesInner declBtf (ObjMaps.Spec.CSize declBtf.types))) row (btf 1 2 1 0 0 {} (.array 12)) :=
  written 12 2 12 ⟨0, _, rfl⟩ ⟨1, 0, sizeInt, by decide, by decide, by decide⟩ ⟨2, 1, sizeRow, by decide, by decide, by decide⟩

/-- **C82 violated.** `Array<[[i32; 3]; 2], 1>` declared in a program has values of 24 bytes. The loader creates it with values of 12
bytes, and `Array<_, [[i32; 3]; 2]>` of user space does not open it. -/
theorem C82_matrix_violated :
    ObjMaps.Spec.Each (ObjMaps.Spec.Writes declBtf (fun t n => ∃ d dims, Btf.Spec.SizeOf declBtf.types t d dims n) (fun _ _ => False))
      matrix (btf 1 3 1 0 0 ({} : ObjMaps.BtfDef) (.array 24)) ∧
    ∃ m, ObjMaps.parseStruct declBtf matrix = .ok ⟨m, none⟩ ∧ (ofBtf m).valueSize = 12 ∧
      ∀ (henv : Handles.Env) (allow : Bool) (fd : Nat) (map : Handles.Map),
        Handles.loaded allow ⟨⟨(ofBtf m).mapType, (ofBtf m).keySize, (ofBtf m).valueSize, (ofBtf m).maxEntries, (ofBtf m).flags⟩, fd⟩ =
          some map → ¬ ∃ handle, Handles.tryFrom henv (.array 24) map = .ok handle := by
  refine ⟨written 4 3 24 ⟨0, _, rfl⟩ ⟨1, 0, sizeInt⟩ ⟨3, 2, sizeMatrix⟩,
    ⟨2, 4, 12, 1, 0, 0, false, 1, 3⟩, by decide +kernel, rfl, ?_⟩
  intro henv allow fd map hm hh
  have := ((Handles.C75_accepted henv (.array 24) _ map (.loaded allow hm)).mp hh).value 24 rfl
  revert this
  show ¬ (12 = 24)
  decide

/-- A trie from the section `maps`, followed by other bytes. -/
example : ∃ bs m, legacy 1024 0 true (.lpmTrie 4 8) = some bs ∧ Obj.parseMapDef (bs ++ [7]) = .ok m ∧
    m = ⟨11, 8, 8, 1024, 1, 0, 1⟩ := ⟨_, _, rfl, by decide +kernel, rfl⟩

example : Fits (.lpmTrie 4 8) 1024 0 := ⟨by decide, by decide, by decide, by decide, fun _ h => by cases h⟩

/-- A loader, a kernel and a declared trie that meet the hypotheses of `C82_opened` and `C82_created`. -/
example : ∃ (obj : Maps.MapObj) (m : Maps.MapData) (h' : Maps.Hist), Source (.lpmTrie 4 8) 1024 0 obj.def_ ∧
    Maps.loadMap (fun _ _ => .ok { num := 5 }) Maps.demoEnv [0x6d] obj [] = (.ok m, h') ∧
    Maps.Spec.pinPath Maps.demoEnv [0x6d] obj.def_ = none ∧ m.keySize = 8 ∧ m.valueSize = 8 := by
  refine ⟨{ def_ := ofLegacy ⟨11, 8, 8, 1024, 1, 0, 0⟩, kind := .other, data := [] }, ⟨5, 8, 8, 1024⟩, _,
    .maps false _ [] _ rfl (by decide +kernel) rfl, rfl, rfl, rfl, rfl⟩

end Verif.Ebpf.Decl
