import Verif.ObjMaps.Props
import Verif.Obj.Props
/-!
# The maps of an object

Property C66.
-/
set_option linter.unusedSimpArgs false
set_option linter.unusedVariables false
namespace Verif.ObjMaps
open Verif.Btf Verif.Btf.Spec Verif.ObjMaps.Spec Verif.Bytes

/-! ## Specification -/

/-- The bytes of a legacy definition: at least the five mandatory words; missing optional bytes are zero, anything after the
seven words is ignored. -/
def DefBytes (bytes : List UInt8) (d : Obj.MapDef) : Prop :=
  20 ≤ bytes.length ∧ Obj.Spec.DefWF d ∧ Obj.Spec.encodeDef d = (bytes ++ List.replicate 28 0).take 28

/-- A section declares a map. -/
inductive DeclaredIn (btf : Option Btf) (syms : List MSym) (s : Sec) : List UInt8 → OMap → Prop where
  /-- `.data` and `.rodata`: one map holding the bytes; programs must not write to the latter. -/
  | data : s.kind = .data →
      DeclaredIn btf syms s s.name (.legacy s.index .data none ⟨2, 4, s.size, 1, 0, 0, 0⟩ s.data)
  | rodata : s.kind = .rodata →
      DeclaredIn btf syms s s.name (.legacy s.index .rodata none ⟨2, 4, s.size, 1, 128, 0, 0⟩ s.data)
  /-- `.bss`: one map of zeroes. -/
  | bss : s.kind = .bss →
      DeclaredIn btf syms s s.name (.legacy s.index .bss none ⟨2, 4, s.size, 1, 0, 0, 0⟩ (List.replicate s.size 0))
  /-- `maps`: each symbol names a definition. -/
  | legacy {y : MSym} {n : List UInt8} {d : Obj.MapDef} : s.kind = .maps → y ∈ syms → y.sec = some s.index → y.name = some n →
      y.address + y.size ≤ s.data.length → DefBytes ((s.data.drop y.address).take y.size) d →
      DeclaredIn btf syms s n (.legacy s.index .maps (some y.index) d [])
  /-- `.maps`: each variable of the section's BTF record that is also a symbol of the section. -/
  | btf {b : Btf} {n i z : Nat} {es : List SecEntry} {e : SecEntry} {y : MSym} {name : List UInt8} {d : BtfDef}
      {inner : Option BtfDef} : s.kind = .btfMaps → btf = some b → BtfType.dataSec n i z es ∈ b.types →
      StringAt b.strings n s.name → e ∈ es → Declares b (fun t n => typeSize b.types t = .ok n) e.ty name d inner →
      y ∈ syms → y.sec = some s.index → y.name = some name →
      DeclaredIn btf syms s name (.btf s.index y.index d inner)

/-! ## Lookups -/

theorem lookup_insert (maps : List (List UInt8 × OMap)) (n k : List UInt8) (m : OMap) :
    lookup (insert maps n m) k = if k = n then some m else lookup maps k := by
  unfold lookup insert
  by_cases h : k = n
  · subst h; simp
  · rw [if_neg h, List.find?_cons_of_neg (by simpa using fun h' => h h'.symm), List.find?_filter]
    congr 2
    funext p
    by_cases hp : p.1 = k
    · simp [hp, h]
    · simp [hp]

/-- The maps have grown by those satisfying `D`, where a later one replaces an earlier one of its name. -/
structure Grew (maps maps' : List (List UInt8 × OMap)) (D : List UInt8 → OMap → Prop) : Prop where
  sound : ∀ k m, lookup maps' k = some m → lookup maps k = some m ∨ D k m
  keep : ∀ k, lookup maps k ≠ none → lookup maps' k ≠ none
  all : ∀ k m, D k m → lookup maps' k ≠ none

theorem Grew.refl (maps : List (List UInt8 × OMap)) {D : List UInt8 → OMap → Prop} (h : ∀ k m, ¬ D k m) : Grew maps maps D :=
  ⟨fun _ _ h => .inl h, fun _ h => h, fun k m hd => absurd hd (h k m)⟩

theorem Grew.trans {a b c : List (List UInt8 × OMap)} {D E F : List UInt8 → OMap → Prop} (h1 : Grew a b D) (h2 : Grew b c E)
    (hF : ∀ k m, F k m ↔ D k m ∨ E k m) : Grew a c F where
  sound k m h := by
    rcases h2.sound k m h with h | h
    · rcases h1.sound k m h with h | h
      · exact .inl h
      · exact .inr ((hF k m).mpr (.inl h))
    · exact .inr ((hF k m).mpr (.inr h))
  keep k h := h2.keep k (h1.keep k h)
  all k m h := by
    rcases (hF k m).mp h with h | h
    · exact h2.keep k (h1.all k m h)
    · exact h2.all k m h

theorem Grew.insert (maps : List (List UInt8 × OMap)) (n : List UInt8) (m : OMap) {D : List UInt8 → OMap → Prop}
    (h : D n m) (hD : ∀ k m', D k m' → k = n) : Grew maps (insert maps n m) D where
  sound k m' hk := by
    rw [lookup_insert] at hk
    by_cases hkn : k = n
    · rw [if_pos hkn] at hk; cases hk; subst hkn; exact .inr h
    · rw [if_neg hkn] at hk; exact .inl hk
  keep k hk := by
    rw [lookup_insert]
    by_cases hkn : k = n
    · rw [if_pos hkn]; simp
    · rw [if_neg hkn]; exact hk
  all k m' hd := by
    rw [lookup_insert, if_pos (hD k m' hd)]; simp

/-! ## Legacy definitions -/

theorem take4 (l : List UInt8) (h : 4 ≤ l.length) : le 4 (ofLe (l.take 4)) = l.take 4 :=
  le_ofLe_of_length 4 _ (by simp; omega)

theorem readMapDef_ok {x : List UInt8} (hx : x.length = 28) (d : Obj.MapDef) :
    Obj.readMapDef x = .ok d ↔ Obj.Spec.DefWF d ∧ Obj.Spec.encodeDef d = x := by
  constructor
  · intro h
    unfold Obj.readMapDef at h
    split at h
    · cases h
      have hlt : ∀ k, k ≤ 6 → Obj.u32At x k < 2 ^ 32 := by
        intro k hk
        unfold Obj.u32At
        have := ofLe_lt ((x.drop (4 * k)).take 4)
        have hl : ((x.drop (4 * k)).take 4).length = 4 := by simp [hx]; omega
        rw [hl] at this
        exact Nat.lt_of_lt_of_le this (by decide)
      refine ⟨⟨hlt 0 (by omega), hlt 1 (by omega), hlt 2 (by omega), hlt 3 (by omega), hlt 4 (by omega), hlt 5 (by omega), by assumption⟩, ?_⟩
      unfold Obj.Spec.encodeDef Obj.u32At
      simp only
      rw [take4 _ (by simp [hx]), take4 _ (by simp [hx]), take4 _ (by simp [hx]), take4 _ (by simp [hx]),
        take4 _ (by simp [hx]), take4 _ (by simp [hx]), take4 _ (by simp [hx])]
      apply List.ext_getElem?
      intro i
      simp only [Nat.mul_zero, List.drop_zero, Nat.reduceMul]
      have e : x = x.take 4 ++ ((x.drop 4).take 4 ++ ((x.drop 8).take 4 ++ ((x.drop 12).take 4 ++ ((x.drop 16).take 4 ++
          ((x.drop 20).take 4 ++ (x.drop 24).take 4))))) := by
        have h24 : (x.drop 24).take 4 = x.drop 24 := List.take_of_length_le (by simp [hx])
        have hs : ∀ k, (x.drop k).take 4 ++ x.drop (k + 4) = x.drop k := by
          intro k
          rw [← List.drop_drop]
          exact List.take_append_drop 4 _
        rw [h24, hs 20, hs 16, hs 12, hs 8, hs 4]
        exact (List.take_append_drop 4 x).symm
      conv => rhs; rw [e]
      simp only [List.append_assoc]
    · cases h
  · rintro ⟨h1, rfl⟩
    have := Obj.readMapDef_encode d h1 []
    rwa [List.append_nil] at this

theorem parseMapDef_ok (bytes : List UInt8) (d : Obj.MapDef) : Obj.parseMapDef bytes = .ok d ↔ DefBytes bytes d := by
  unfold Obj.parseMapDef DefBytes
  by_cases h20 : bytes.length < 20
  · rw [if_pos h20]
    constructor
    · intro h; cases h
    · rintro ⟨h, _⟩; omega
  · rw [if_neg h20]
    by_cases h28 : bytes.length < 28
    · have : (bytes ++ List.replicate 28 0).take 28 = bytes ++ List.replicate (28 - bytes.length) (0 : UInt8) := by
        rw [List.take_append, List.take_of_length_le (by omega), List.take_replicate]
        congr 2; omega
      rw [if_pos h28, readMapDef_ok (by simp; omega), this]
      exact ⟨fun h => ⟨by omega, h⟩, fun h => h.2⟩
    · have : (bytes ++ List.replicate 28 (0 : UInt8)).take 28 = bytes.take 28 := List.take_append_of_le_length (by omega)
      rw [if_neg h28, readMapDef_ok (by simp; omega), this]
      exact ⟨fun h => ⟨by omega, h⟩, fun h => h.2⟩

theorem mem_symsOf {syms : List MSym} {i : Nat} {y : MSym} : y ∈ symsOf syms i ↔ y ∈ syms ∧ y.sec = some i := by
  simp [symsOf]

/-- What a symbol of a `maps` section declares. -/
def SymDeclares (s : Sec) (y : MSym) (n : List UInt8) (m : OMap) : Prop :=
  y.name = some n ∧ ∃ d, y.address + y.size ≤ s.data.length ∧ DefBytes ((s.data.drop y.address).take y.size) d ∧
    m = .legacy s.index s.kind (some y.index) d []

theorem legacyStep_ok {s : Sec} {maps maps' : List (List UInt8 × OMap)} {y : MSym} (hy : y.address < 2 ^ 64 ∧ y.size < 2 ^ 64)
    (h : legacyStep s maps y = .ok maps') : Grew maps maps' (SymDeclares s y) := by
  unfold legacyStep at h
  split at h
  · cases h
  · rename_i bytes hb
    split at h
    · cases h
    · rename_i n hn
      split at h
      · cases h
      · rename_i d hd
        cases h
        unfold Obj.slice at hb
        split at hb
        · rename_i hr
          cases hb
          have hmod : (y.address + y.size) % 2 ^ 64 = y.address + y.size := by
            rcases Nat.lt_or_ge (y.address + y.size) (2 ^ 64) with h | h
            · exact Nat.mod_eq_of_lt h
            · exfalso
              have : (y.address + y.size) % 2 ^ 64 = y.address + y.size - 2 ^ 64 := by
                rw [Nat.mod_eq_sub_mod h, Nat.mod_eq_of_lt (by omega)]
              omega
          rw [hmod] at hr hd
          rw [Nat.add_sub_cancel_left] at hd
          refine Grew.insert maps n _ ⟨hn, d, hr.2, (parseMapDef_ok _ _).mp hd, rfl⟩ ?_
          rintro k m' ⟨hk, _⟩
          rw [hn] at hk; cases hk; rfl
        · cases hb

theorem legacySyms_ok {s : Sec} (ys : List MSym) (hy : ∀ y ∈ ys, y.address < 2 ^ 64 ∧ y.size < 2 ^ 64) :
    ∀ {maps maps' : List (List UInt8 × OMap)}, legacySyms s maps ys = .ok maps' →
      Grew maps maps' (fun n m => ∃ y ∈ ys, SymDeclares s y n m) := by
  induction ys with
  | nil =>
    intro maps maps' h
    cases h
    exact Grew.refl _ (by simp)
  | cons y ys ih =>
    intro maps maps' h
    simp only [legacySyms, bind_ok] at h
    obtain ⟨m1, h1, h2⟩ := h
    refine Grew.trans (legacyStep_ok (hy y List.mem_cons_self) h1) (ih (fun z hz => hy z (List.mem_cons_of_mem _ hz)) h2) ?_
    intro k m; simp

/-! ## BTF maps -/

/-- What an entry of the section's record declares. -/
def EntryDeclares (b : Btf) (ys : List MSym) (s : Sec) (e : SecEntry) (name : List UInt8) (m : OMap) : Prop :=
  ∃ (d : BtfDef) (inner : Option BtfDef) (y : MSym), Declares b (fun t n => typeSize b.types t = .ok n) e.ty name d inner ∧
    y ∈ ys ∧ y.name = some name ∧ m = .btf s.index y.index d inner

theorem symIndex_some {ys : List MSym} {n : List UInt8} {i : Nat} (h : symIndex ys n = some i) :
    ∃ y ∈ ys, y.name = some n ∧ y.index = i := by
  unfold symIndex at h
  cases hf : ys.reverse.find? (fun s => s.name = some n) with
  | none => rw [hf] at h; cases h
  | some y =>
    rw [hf] at h
    cases h
    exact ⟨y, by simpa using List.mem_of_find?_eq_some hf, by simpa using List.find?_some hf, rfl⟩

section
variable {b : Btf} (hh : b.header.hdrLen + b.header.strOff + b.header.strLen < 2 ^ 32) (hl : b.header.strLen = b.strings.length)
include hh hl

theorem declares_name {ty : Nat} {n n' : List UInt8} {d d' : BtfDef} {i i' : Option BtfDef} {S : Nat → Nat → Prop}
    (h : Declares b S ty n d i) (h' : Declares b S ty n' d' i') : n' = n := by
  obtain ⟨a, _, _, _, _, _, _, _, h1, h2, _⟩ := h
  obtain ⟨a', _, _, _, _, _, _, _, h1', h2', _⟩ := h'
  rw [h1] at h1'; cases h1'
  have := (names_ok hh hl _ _).mpr h2
  rw [(names_ok hh hl _ _).mpr h2'] at this
  cases this; rfl

theorem btfMapStep_ok {ys : List MSym} {s : Sec} {maps maps' : List (List UInt8 × OMap)} {e : SecEntry}
    (h : btfMapStep b ys s maps e = .ok maps') : Grew maps maps' (EntryDeclares b ys s e) := by
  unfold btfMapStep at h
  rw [bind_ok] at h
  obtain ⟨⟨name, ⟨d, inner⟩⟩, hd, h⟩ := h
  simp only at h
  split at h
  · cases h
  · rename_i i hi
    cases h
    have hdecl := (C65_variable b hh hl e.ty name d inner).mp hd
    obtain ⟨y, hy, hyn, rfl⟩ := symIndex_some hi
    refine Grew.insert maps name _ ⟨d, inner, y, hdecl, hy, hyn, rfl⟩ ?_
    rintro k m' ⟨d', inner', y', hd', _⟩
    exact declares_name hh hl hdecl hd'

theorem btfEntries_ok {ys : List MSym} {s : Sec} (es : List SecEntry) : ∀ {maps maps' : List (List UInt8 × OMap)},
    btfEntries b ys s maps es = .ok maps' → Grew maps maps' (fun n m => ∃ e ∈ es, EntryDeclares b ys s e n m) := by
  induction es with
  | nil =>
    intro maps maps' h
    cases h
    exact Grew.refl _ (by simp)
  | cons e es ih =>
    intro maps maps' h
    simp only [btfEntries, bind_ok] at h
    obtain ⟨m1, h1, h2⟩ := h
    refine Grew.trans (btfMapStep_ok hh hl h1) (ih h2) ?_
    intro k m; simp

theorem btfTypes_ok {ys : List MSym} {s : Sec} (ts : List BtfType) : ∀ {maps maps' : List (List UInt8 × OMap)},
    btfTypes b ys s maps ts = .ok maps' → Grew maps maps' (fun name m => ∃ (n i z : Nat) (es : List SecEntry) (e : SecEntry),
      BtfType.dataSec n i z es ∈ ts ∧ StringAt b.strings n s.name ∧ e ∈ es ∧ EntryDeclares b ys s e name m) := by
  induction ts with
  | nil =>
    intro maps maps' h
    cases h
    exact Grew.refl _ (by simp)
  | cons t ts ih =>
    intro maps maps' h
    by_cases hds : ∃ (n i z : Nat) (es : List SecEntry), t = .dataSec n i z es
    · obtain ⟨n, i, z, es, rfl⟩ := hds
      simp only [btfTypes, bind_ok, lift_ok, names_ok hh hl] at h
      obtain ⟨nm, hnm, m1, h1, h2⟩ := h
      unfold entriesOf at h1
      by_cases hn : nm = s.name
      · rw [if_pos hn] at h1
        subst hn
        refine Grew.trans (btfEntries_ok hh hl es h1) (ih h2) ?_
        intro k m
        constructor
        · rintro ⟨n', i', z', es', e, hm, hs, he, hd⟩
          rcases List.mem_cons.mp hm with hm | hm
          · cases hm; exact .inl ⟨e, he, hd⟩
          · exact .inr ⟨n', i', z', es', e, hm, hs, he, hd⟩
        · rintro (⟨e, he, hd⟩ | ⟨n', i', z', es', e, hm, hs, he, hd⟩)
          · exact ⟨n, i, z, es, e, List.mem_cons_self, hnm, he, hd⟩
          · exact ⟨n', i', z', es', e, List.mem_cons_of_mem _ hm, hs, he, hd⟩
      · rw [if_neg hn] at h1
        cases h1
        refine Grew.trans (Grew.refl _ (D := fun _ _ => False) (by simp)) (ih h2) ?_
        intro k m
        constructor
        · rintro ⟨n', i', z', es', e, hm, hs, he, hd⟩
          rcases List.mem_cons.mp hm with hm | hm
          · cases hm
            exfalso
            have := (names_ok hh hl _ _).mpr hs
            rw [(names_ok hh hl _ _).mpr hnm] at this
            cases this; exact hn rfl
          · exact .inr ⟨n', i', z', es', e, hm, hs, he, hd⟩
        · rintro (h | ⟨n', i', z', es', e, hm, hs, he, hd⟩)
          · exact h.elim
          · exact ⟨n', i', z', es', e, List.mem_cons_of_mem _ hm, hs, he, hd⟩
    · have ht : btfTypes b ys s maps (t :: ts) = btfTypes b ys s maps ts := by
        cases t <;> first | rfl | exact absurd ⟨_, _, _, _, rfl⟩ hds
      rw [ht] at h
      refine Grew.trans (Grew.refl _ (D := fun _ _ => False) (by simp)) (ih h) ?_
      intro k m
      constructor
      · rintro ⟨n', i', z', es', e, hm, hs, he, hd⟩
        rcases List.mem_cons.mp hm with hm | hm
        · exact absurd ⟨_, _, _, _, hm.symm⟩ hds
        · exact .inr ⟨n', i', z', es', e, hm, hs, he, hd⟩
      · rintro (h | ⟨n', i', z', es', e, hm, hs, he, hd⟩)
        · exact h.elim
        · exact ⟨n', i', z', es', e, List.mem_cons_of_mem _ hm, hs, he, hd⟩

end

/-! ## Sections -/

/-- The BTF is in the usual layout, addresses and sizes are 64-bit numbers. -/
def InputOk (btf : Option Btf) (syms : List MSym) : Prop :=
  (∀ b, btf = some b → b.header.hdrLen + b.header.strOff + b.header.strLen < 2 ^ 32 ∧ b.header.strLen = b.strings.length) ∧
  ∀ y ∈ syms, y.address < 2 ^ 64 ∧ y.size < 2 ^ 64

theorem parseSection_ok {btf : Option Btf} {syms : List MSym} (hin : InputOk btf syms) {s : Sec} (hs : s.size < 2 ^ 32)
    {maps maps' : List (List UInt8 × OMap)} (h : parseSection btf syms maps s = .ok maps') :
    Grew maps maps' (DeclaredIn btf syms s) := by
  unfold parseSection at h
  have hsz : s.size % 2 ^ 32 = s.size := Nat.mod_eq_of_lt hs
  cases hk : s.kind <;> rw [hk] at h <;> simp only at h
  case data =>
    cases h
    refine Grew.insert _ _ _ ?_ ?_
    · have := DeclaredIn.data (btf := btf) (syms := syms) hk
      simpa only [parseDataMap, hk, hsz, reduceCtorEq, if_false] using this
    · intro k m hd; cases hd <;> simp_all
  case rodata =>
    cases h
    refine Grew.insert _ _ _ ?_ ?_
    · have := DeclaredIn.rodata (btf := btf) (syms := syms) hk
      simpa only [parseDataMap, hk, hsz, reduceCtorEq, if_false, if_true] using this
    · intro k m hd; cases hd <;> simp_all
  case bss =>
    cases h
    refine Grew.insert _ _ _ ?_ ?_
    · have := DeclaredIn.bss (btf := btf) (syms := syms) hk
      simpa only [parseDataMap, hk, hsz, reduceCtorEq, if_false, if_true] using this
    · intro k m hd; cases hd <;> simp_all
  case maps =>
    unfold parseMapsSection at h
    split at h
    · cases h
    · have hg := legacySyms_ok (s := s) (symsOf syms s.index) (fun y hy => hin.2 y (mem_symsOf.mp hy).1) h
      have hiff : ∀ n m, DeclaredIn btf syms s n m ↔ ∃ y ∈ symsOf syms s.index, SymDeclares s y n m := by
        intro n m
        constructor
        · intro hd
          cases hd with
          | legacy _ h1 h2 h3 h4 h5 => exact ⟨_, mem_symsOf.mpr ⟨h1, h2⟩, h3, _, h4, h5, by rw [hk]⟩
          | data h => rw [hk] at h; cases h
          | rodata h => rw [hk] at h; cases h
          | bss h => rw [hk] at h; cases h
          | btf h => rw [hk] at h; cases h
        · rintro ⟨y, hy, h3, d, h4, h5, rfl⟩
          rw [hk]
          exact .legacy hk (mem_symsOf.mp hy).1 (mem_symsOf.mp hy).2 h3 h4 h5
      exact ⟨fun k m h => (hg.sound k m h).imp id (hiff k m).mpr, hg.keep, fun k m h => hg.all k m ((hiff k m).mp h)⟩
  case btfMaps =>
    unfold parseBtfMaps at h
    split at h
    · cases h
    · rename_i b
      split at h
      · cases h
      · obtain ⟨hh, hl⟩ := hin.1 b rfl
        have hg := btfTypes_ok hh hl b.types h
        refine ⟨fun k m h => (hg.sound k m h).imp id ?_, hg.keep, fun k m h => hg.all k m ?_⟩
        · rintro ⟨n, i, z, es, e, h1, h2, h3, d, inner, y, h4, h5, h6, rfl⟩
          exact .btf hk rfl h1 h2 h3 h4 (mem_symsOf.mp h5).1 (mem_symsOf.mp h5).2 h6
        · cases h with
          | btf _ hb h1 h2 h3 h4 h5 h6 h7 =>
            cases hb
            exact ⟨_, _, _, _, _, h1, h2, h3, _, _, _, h4, mem_symsOf.mpr ⟨h5, h6⟩, h7, rfl⟩
          | data h => rw [hk] at h; cases h
          | rodata h => rw [hk] at h; cases h
          | bss h => rw [hk] at h; cases h
          | legacy h => rw [hk] at h; cases h

theorem parseSections_ok {btf : Option Btf} {syms : List MSym} (hin : InputOk btf syms) (secs : List Sec)
    (hs : ∀ s ∈ secs, s.size < 2 ^ 32) : ∀ {maps maps' : List (List UInt8 × OMap)},
    parseSections btf syms maps secs = .ok maps' → Grew maps maps' (fun n m => ∃ s ∈ secs, DeclaredIn btf syms s n m) := by
  induction secs with
  | nil =>
    intro maps maps' h
    cases h
    exact Grew.refl _ (by simp)
  | cons s ss ih =>
    intro maps maps' h
    simp only [parseSections, bind_ok] at h
    obtain ⟨m1, h1, h2⟩ := h
    refine Grew.trans (parseSection_ok hin (hs s List.mem_cons_self) h1) (ih (fun z hz => hs z (List.mem_cons_of_mem _ hz)) h2) ?_
    intro k m; simp

/-- **C66.** When the sections of an object are read, a map is found under a name only if some section declares it with
that name and exactly these contents, and every declared name is found. A name declared only once gives the declared map.
What is missing: sections of 4 GiB and more, and that reading does not panic. -/
theorem C66_maps_partial (btf : Option Btf) (syms : List MSym) (secs : List Sec) (hin : InputOk btf syms)
    (hs : ∀ s ∈ secs, s.size < 2 ^ 32) (maps : List (List UInt8 × OMap)) (h : parseSections btf syms [] secs = .ok maps) :
    (∀ n m, lookup maps n = some m → ∃ s ∈ secs, DeclaredIn btf syms s n m) ∧
    (∀ s n m, s ∈ secs → DeclaredIn btf syms s n m → ∃ m', lookup maps n = some m') ∧
    (∀ s n m, s ∈ secs → DeclaredIn btf syms s n m → (∀ s' m', s' ∈ secs → DeclaredIn btf syms s' n m' → m' = m) →
      lookup maps n = some m) := by
  have hg := parseSections_ok hin secs hs h
  have hsound : ∀ n m, lookup maps n = some m → ∃ s ∈ secs, DeclaredIn btf syms s n m := by
    intro n m hm
    rcases hg.sound n m hm with h | h
    · cases h
    · exact h
  have hall : ∀ s n m, s ∈ secs → DeclaredIn btf syms s n m → ∃ m', lookup maps n = some m' := by
    intro s n m h1 h2
    exact Option.ne_none_iff_exists'.mp (hg.all n m ⟨s, h1, h2⟩)
  refine ⟨hsound, hall, ?_⟩
  intro s n m h1 h2 hu
  obtain ⟨m', hm'⟩ := hall s n m h1 h2
  obtain ⟨s', hs', hd'⟩ := hsound n m' hm'
  rw [hm', hu s' m' hs' hd']

/-- **C66 violated**: the value size of the map made for a `.bss` section is the section's size modulo 2^32, while its
contents are as long as the section. -/
theorem C66_large_bss_violated (btf : Option Btf) (syms : List MSym) (i : Nat) (name : List UInt8) (extra : Nat)
    (he : extra < 2 ^ 32) : ∃ d, parseSections btf syms [] [⟨i, name, .bss, 2 ^ 32 + extra, []⟩] =
      .ok [(name, .legacy i .bss none d (List.replicate (2 ^ 32 + extra) 0))] ∧ d.valueSize = extra := by
  refine ⟨⟨2, 4, (2 ^ 32 + extra) % 2 ^ 32, 1, 0, 0, 0⟩, rfl, ?_⟩
  show (2 ^ 32 + extra) % 2 ^ 32 = extra
  rw [Nat.add_mod_left, Nat.mod_eq_of_lt he]

/-- **C66 violated**: a symbol of a `maps` section reaching past its end makes parsing panic. -/
theorem C66_maps_panic_violated (btf : Option Btf) (s : Sec) (y : MSym) (hk : s.kind = .maps) (hsec : y.sec = some s.index)
    (hy : y.address + y.size < 2 ^ 64) (hout : s.data.length < y.address + y.size) :
    parseSections btf [y] [] [s] = .error .panic := by
  have h1 : symsOf [y] s.index = [y] := by simp [symsOf, hsec]
  have h2 : Obj.slice s.data y.address ((y.address + y.size) % 2 ^ 64) = none := by
    rw [Nat.mod_eq_of_lt hy, Obj.slice, if_neg (by omega)]
  have h3 : legacyStep s [] y = .error .panic := by unfold legacyStep; rw [h2]
  show (parseSection btf [y] [] s >>= _) = _
  have h4 : parseSection btf [y] [] s = .error .panic := by
    unfold parseSection
    rw [hk]
    simp only [parseMapsSection, h1, reduceCtorEq, if_false, List.cons_ne_self, legacySyms, h3]
    rfl
  rw [h4]; rfl

/-! ## Concrete cases -/

def exSecs : List Sec :=
  [⟨3, ".rodata".toUTF8.toList, .rodata, 3, [1, 2, 3]⟩, ⟨4, ".maps".toUTF8.toList, .btfMaps, 40, List.replicate 40 0⟩,
   ⟨5, "maps".toUTF8.toList, .maps, 20, le 4 1 ++ le 4 4 ++ le 4 8 ++ le 4 16 ++ le 4 0⟩, ⟨6, ".bss".toUTF8.toList, .bss, 2, []⟩]

def exMSyms : List MSym :=
  [⟨1, some 4, some "outer".toUTF8.toList, 0, 40⟩, ⟨2, some 5, some "old".toUTF8.toList, 0, 20⟩, ⟨3, some 3, some "x".toUTF8.toList, 0, 3⟩]

/-- An object with all kinds of maps meets the hypotheses of `C66_maps_partial`. -/
example : InputOk (some exBtf) exMSyms ∧ (∀ s ∈ exSecs, s.size < 2 ^ 32) ∧
    parseSections (some exBtf) exMSyms [] exSecs = .ok
      [(".bss".toUTF8.toList, .legacy 6 .bss none ⟨2, 4, 2, 1, 0, 0, 0⟩ [0, 0]),
       ("old".toUTF8.toList, .legacy 5 .maps (some 2) ⟨1, 4, 8, 16, 0, 0, 0⟩ []),
       ("outer".toUTF8.toList, .btf 4 1 exOuter (some exInner)),
       (".rodata".toUTF8.toList, .legacy 3 .rodata none ⟨2, 4, 3, 1, 128, 0, 0⟩ [1, 2, 3])] := by
  refine ⟨⟨?_, by decide +kernel⟩, by decide +kernel, by decide +kernel⟩
  rintro b hb
  cases hb
  exact ⟨by decide, by decide⟩

/-- A symbol past the end of its section, as in `C66_maps_panic_violated`. -/
example : parseSections none [⟨2, some 5, some "old".toUTF8.toList, 8, 20⟩] [] [⟨5, "maps".toUTF8.toList, .maps, 20, List.replicate 20 0⟩] =
    .error .panic := by decide +kernel

end Verif.ObjMaps
