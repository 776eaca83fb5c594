import Verif.Ext.Spec
import Verif.Btf.Props
import Verif.ObjMaps.Props
/-!
# `.BTF.ext` is read as written

Property C67.
-/
set_option linter.unusedSimpArgs false
set_option linter.unusedVariables false
namespace Verif.Ext
open Verif.Bytes Verif.Btf Verif.Btf.Spec Verif.Core Verif.Ext.Spec
open Verif.ObjMaps (names_ok bind_ok)

theorem split4_le (n : Nat) (h : n < 2 ^ 32) (rest : List UInt8) : split4 (le 4 n ++ rest) = some (n, rest) := by
  unfold split4
  have h4 : (le 4 n).length = 4 := le_length 4 n
  rw [if_pos (by simp), List.take_append_of_le_length (by simp), List.take_of_length_le (by simp), ofLe_le_of_lt _ _ (by simpa using h),
    List.drop_append_of_le_length (by simp), List.drop_of_length_le (by simp), List.nil_append]

theorem word_le (pre : List UInt8) (n : Nat) (h : n < 2 ^ 32) (rest : List UInt8) :
    word (pre ++ (le 4 n ++ rest)) pre.length = n := by
  unfold word
  rw [List.drop_append_of_le_length (Nat.le_refl _), List.drop_of_length_le (Nat.le_refl _), List.nil_append,
    List.take_append_of_le_length (by simp), List.take_of_length_le (by simp), ofLe_le_of_lt _ _ (by simpa using h)]

/-! ## Sections -/

theorem flatMap_len {ρ : Type} {bytes : ρ → List UInt8} {rec : Nat} (rs : List ρ) (h : ∀ r ∈ rs, (bytes r).length = rec) :
    (rs.flatMap bytes).length = rec * rs.length := by
  induction rs with
  | nil => simp
  | cons r rs ih =>
    rw [List.flatMap_cons, List.length_append, h r List.mem_cons_self, ih (fun x hx => h x (List.mem_cons_of_mem _ hx)),
      List.length_cons, Nat.mul_succ]
    omega

theorem secInfos_encode {ρ : Type} {bytes : ρ → List UInt8} {rec : Nat} (hrec : 0 < rec) (secs : Secs ρ)
    (h : ∀ p ∈ secs, p.1 < 2 ^ 32 ∧ p.2.length < 2 ^ 32 ∧ ∀ r ∈ p.2, (bytes r).length = rec) :
    ∀ fuel, secs.length ≤ fuel → secInfos rec fuel (secs.flatMap fun p => le 4 p.1 ++ le 4 p.2.length ++ p.2.flatMap bytes) =
      (secs.filter (fun p => !p.2.isEmpty)).map fun p => ⟨p.1, p.2.length, p.2.flatMap bytes⟩ := by
  induction secs with
  | nil =>
    intro fuel _
    cases fuel <;> simp [secInfos, split4]
  | cons p ps ih =>
    intro fuel hf
    obtain ⟨fuel, rfl⟩ : ∃ f, fuel = f + 1 := ⟨fuel - 1, by simp at hf; omega⟩
    obtain ⟨h1, h2, h3⟩ := h p List.mem_cons_self
    have hlen := flatMap_len p.2 h3
    have ih' := ih (fun q hq => h q (List.mem_cons_of_mem _ hq)) fuel (by simp at hf; omega)
    rw [List.flatMap_cons]
    simp only [List.append_assoc]
    unfold secInfos
    rw [split4_le _ h1]
    simp only
    rw [split4_le _ h2]
    simp only
    rw [if_pos (by rw [List.length_append, hlen]; omega)]
    have hd : ∀ rest : List UInt8, (p.2.flatMap bytes ++ rest).drop (rec * p.2.length) = rest := by
      intro rest; rw [← hlen]; simp
    have ht : ∀ rest : List UInt8, (p.2.flatMap bytes ++ rest).take (rec * p.2.length) = p.2.flatMap bytes := by
      intro rest; rw [← hlen]; simp
    rw [hd, ht]
    simp only [List.append_assoc] at ih'
    rw [ih']
    cases hp : p.2 with
    | nil => rw [List.length_nil, Nat.mul_zero, if_pos rfl, List.filter_cons_of_neg (by simp [hp])]
    | cons r rs =>
      rw [if_neg (by simp only [List.length_cons]; exact Nat.mul_ne_zero (by omega) (by omega)), List.filter_cons_of_pos (by simp [hp])]
      simp [hp]

theorem chunks_flat {ρ : Type} {bytes : ρ → List UInt8} {rec : Nat} (hrec : 0 < rec) (rs : List ρ)
    (h : ∀ r ∈ rs, (bytes r).length = rec) : ∀ fuel, rs.length ≤ fuel → chunks rec fuel (rs.flatMap bytes) = rs.map bytes := by
  induction rs with
  | nil => intro fuel _; cases fuel <;> simp [chunks]
  | cons r rs ih =>
    intro fuel hf
    obtain ⟨fuel, rfl⟩ : ∃ f, fuel = f + 1 := ⟨fuel - 1, by simp at hf; omega⟩
    have h1 := h r List.mem_cons_self
    rw [List.flatMap_cons]
    unfold chunks
    have hne : bytes r ++ rs.flatMap bytes ≠ [] := by
      intro he
      have := congrArg List.length he
      simp only [List.length_append, List.length_nil, h1] at this
      omega
    rw [if_neg hne, List.take_append_of_le_length (by omega), List.take_of_length_le (by omega),
      List.drop_append_of_le_length (by omega), List.drop_of_length_le (by omega), List.nil_append,
      ih (fun x hx => h x (List.mem_cons_of_mem _ hx)) fuel (by simp at hf; omega), List.map_cons]

theorem mapAll_ok {α β γ : Type} {f : β → Except EFail γ} {e : α → β} {g : α → γ} (as : List α) (h : ∀ a ∈ as, f (e a) = .ok (g a)) :
    mapAll f (as.map e) = .ok (as.map g) := by
  induction as with
  | nil => rfl
  | cons a as ih =>
    simp only [List.map_cons, mapAll, h a List.mem_cons_self, ih (fun x hx => h x (List.mem_cons_of_mem _ hx))]
    rfl

/-! ## Records -/

theorem funcRec_bytes (r : FRec) (h : r.Ok) : funcRec r.bytes = .ok r.info := by
  unfold funcRec FRec.bytes FRec.info
  have hl : ¬ (le 4 r.off ++ le 4 r.type ++ r.extra).length < 8 := by simp; omega
  rw [if_neg hl, List.append_assoc]
  have h0 := word_le [] r.off h.1 (le 4 r.type ++ r.extra)
  have h4 := word_le (le 4 r.off) r.type h.2 r.extra
  simp only [List.nil_append, List.length_nil, le_length] at h0 h4
  rw [h0, h4]

theorem lineRec_bytes (r : LRec) (h : r.Ok) : lineRec r.bytes = .ok r.info := by
  unfold lineRec LRec.bytes LRec.info
  obtain ⟨h1, h2, h3, h4⟩ := h
  have hl : ¬ (le 4 r.off ++ le 4 r.file ++ le 4 r.line ++ le 4 r.col ++ r.extra).length < 16 := by simp; omega
  rw [if_neg hl]
  have e0 := word_le [] r.off h1 (le 4 r.file ++ le 4 r.line ++ le 4 r.col ++ r.extra)
  have e4 := word_le (le 4 r.off) r.file h2 (le 4 r.line ++ le 4 r.col ++ r.extra)
  have e8 := word_le (le 4 r.off ++ le 4 r.file) r.line h3 (le 4 r.col ++ r.extra)
  have e12 := word_le (le 4 r.off ++ le 4 r.file ++ le 4 r.line) r.col h4 r.extra
  simp only [List.nil_append, List.length_nil, le_length, List.length_append, List.append_assoc] at e0 e4 e8 e12 ⊢
  rw [e0, e4, e8, e12]

theorem coreRec_bytes (r : CRec) (h : r.Ok) : coreRec r.bytes = .ok r.relo := by
  unfold coreRec CRec.bytes
  obtain ⟨h1, h2, h3⟩ := h
  have hk : kindNo r.relo.kind < 2 ^ 32 := by cases r.relo.kind <;> decide
  have hl : ¬ (le 4 r.relo.insOff ++ le 4 r.relo.typeId ++ le 4 r.relo.accessOff ++ le 4 (kindNo r.relo.kind) ++ r.extra).length < 16 := by
    simp; omega
  rw [if_neg hl]
  have e0 := word_le [] r.relo.insOff h1 (le 4 r.relo.typeId ++ le 4 r.relo.accessOff ++ le 4 (kindNo r.relo.kind) ++ r.extra)
  have e4 := word_le (le 4 r.relo.insOff) r.relo.typeId h2 (le 4 r.relo.accessOff ++ le 4 (kindNo r.relo.kind) ++ r.extra)
  have e8 := word_le (le 4 r.relo.insOff ++ le 4 r.relo.typeId) r.relo.accessOff h3 (le 4 (kindNo r.relo.kind) ++ r.extra)
  have e12 := word_le (le 4 r.relo.insOff ++ le 4 r.relo.typeId ++ le 4 r.relo.accessOff) (kindNo r.relo.kind) hk r.extra
  simp only [List.nil_append, List.length_nil, le_length, List.length_append, List.append_assoc] at e0 e4 e8 e12 ⊢
  rw [e0, e4, e8, e12]
  have : RelKind.ofWord (kindNo r.relo.kind) = some r.relo.kind := by cases r.relo.kind <;> rfl
  rw [this]

/-! ## The header -/

theorem word_prefix (data : List UInt8) (m p : Nat) (h : p + 4 ≤ m) (hm : m ≤ data.length) :
    word (data.take m ++ List.replicate 32 0) p = word data p := by
  unfold word
  congr 1
  rw [List.drop_append_of_le_length (by simp; omega), List.take_append_of_le_length (by simp; omega), List.drop_take,
    List.take_take, Nat.min_eq_left (by omega)]

theorem word_zero (data : List UInt8) (m p : Nat) (h : m ≤ p) (hm : m ≤ data.length) (hp : p + 4 ≤ m + 32) :
    word (data.take m ++ List.replicate 32 0) p = 0 := by
  unfold word
  have hl : (data.take m).length = m := by simp; omega
  have : (List.drop p (data.take m ++ List.replicate 32 (0 : UInt8))).take 4 = List.replicate 4 0 := by
    rw [List.drop_append, List.drop_of_length_le (by omega), List.nil_append, hl, List.drop_replicate, List.take_replicate]
    congr 1; omega
  rw [this]; rfl

theorem readHeader_ok {data : List UInt8} {h : Header} (hh : HeaderIs data h) : readHeader data = .ok h := by
  obtain ⟨hm, h8, hl, hf⟩ := hh
  obtain ⟨hdr, fo, fl, lo, ll, co, cl⟩ := h
  simp only at hm h8 hl
  have g : ∀ i n : Nat, [hdr, fo, fl, lo, ll, co, cl][i]? = some n → word (data.take (min hdr 32) ++ List.replicate 32 0) (4 + 4 * i) = n := by
    intro i n hi
    have hi7 : i < 7 := by
      have := (List.getElem?_eq_some_iff.mp hi).1; simpa using this
    have := hf i n hi
    simp only at this
    by_cases hc : 4 + 4 * i + 4 ≤ hdr
    · rw [if_pos hc] at this
      rw [word_prefix _ _ _ (by omega) (by omega), this]; rfl
    · rw [if_neg hc] at this
      rw [word_zero _ _ _ (by omega) (by omega) (by omega), this]
  have h4 : word data 4 = hdr := by
    have := hf 0 hdr rfl
    simp only at this
    rw [if_pos (by omega)] at this
    exact this.symm
  unfold readHeader
  rw [if_neg (by omega), h4, if_neg (by omega)]
  simp only
  have e0 := g 0 _ rfl; have e1 := g 1 _ rfl; have e2 := g 2 _ rfl; have e3 := g 3 _ rfl
  have e4 := g 4 _ rfl; have e5 := g 5 _ rfl; have e6 := g 6 _ rfl
  simp only [Nat.mul_zero, Nat.add_zero, Nat.reduceMul, Nat.reduceAdd] at e0 e1 e2 e3 e4 e5 e6
  rw [e0, e1, e2, e3, e4, e5, e6]

/-! ## Parts -/

theorem range_part {data bytes : List UInt8} {hdr off len : Nat} (h : Part data hdr off len bytes) :
    range data (hdr + off) len = some bytes := by
  obtain ⟨h1, h2, rest, h3⟩ := h
  unfold range
  have hl := congrArg List.length h3
  simp only [List.length_drop, List.length_append] at hl
  rw [if_pos (by omega), h3, ← h2]
  simp

theorem part_read {ρ : Type} {bytes : ρ → List UInt8} {Ok : ρ → Prop} {data : List UInt8} {hdr off len rec : Nat} {secs : Secs ρ}
    (h : Holds bytes Ok data hdr off len rec secs) : recSize data hdr off len = .ok rec ∧ ∃ d, infoData data hdr off len = .ok d ∧
      secInfos rec d.length d = (secs.filter (fun p => !p.2.isEmpty)).map fun p => ⟨p.1, p.2.length, p.2.flatMap bytes⟩ := by
  rcases h with ⟨rfl, rfl, rfl, hb⟩ | ⟨h0, h1, hp, hs⟩
  · have hr : range data (hdr + off) 0 = some [] := by
      unfold range; rw [if_pos (by omega)]; simp
    refine ⟨by unfold recSize; rw [hr]; rfl, [], by unfold infoData; rw [hr]; rfl, rfl⟩
  · have hr := range_part hp
    have hlen : 0 < len := by
      obtain ⟨_, h2, _⟩ := hp
      unfold partBytes at h2
      simp at h2; omega
    unfold partBytes at hr
    refine ⟨?_, secs.flatMap fun p => le 4 p.1 ++ le 4 p.2.length ++ p.2.flatMap bytes, ?_, ?_⟩
    · unfold recSize
      rw [hr]
      simp only
      rw [if_neg (by omega), split4_le _ h1]
    · unfold infoData
      rw [hr]
      simp only
      rw [if_pos hlen, if_pos (by simp), List.drop_append_of_le_length (by simp), List.drop_of_length_le (by simp), List.nil_append]
    · refine secInfos_encode h0 secs (fun p hp => ⟨(hs p hp).1, (hs p hp).2.1, fun r hr => ((hs p hp).2.2 r hr).2⟩) _ ?_
      clear hr hp hs
      induction secs with
      | nil => simp
      | cons p ps ih => simp only [List.flatMap_cons, List.length_append, List.length_cons, le_length]; omega

theorem mapAll_chunks {ρ σ : Type} {bytes : ρ → List UInt8} {Ok : ρ → Prop} {parse : List UInt8 → Except EFail σ} {info : ρ → σ}
    (hparse : ∀ r, Ok r → parse (bytes r) = .ok (info r)) {rec : Nat} (hrec : 0 < rec) (rs : List ρ)
    (h : ∀ r ∈ rs, Ok r ∧ (bytes r).length = rec) :
    mapAll parse (chunks rec (rs.flatMap bytes).length (rs.flatMap bytes)) = .ok (rs.map info) := by
  rw [chunks_flat hrec rs (fun r hr => (h r hr).2)]
  · exact mapAll_ok rs (fun r hr => hparse r (h r hr).1)
  · rw [flatMap_len rs (fun r hr => (h r hr).2)]
    exact Nat.le_mul_of_pos_left _ hrec

/-- The sections with records, by name. -/
theorem named_read {ρ σ : Type} {b : Btf} (hh : b.header.hdrLen + b.header.strOff + b.header.strLen < 2 ^ 32)
    (hl : b.header.strLen = b.strings.length) {bytes : ρ → List UInt8} {Ok : ρ → Prop} {parse : List UInt8 → Except EFail σ}
    {info : ρ → σ} (hparse : ∀ r, Ok r → parse (bytes r) = .ok (info r)) {data : List UInt8} {hdr off len rec : Nat} {secs : Secs ρ}
    (h : Holds bytes Ok data hdr off len rec secs) (name : Nat → List UInt8)
    (hname : ∀ p ∈ secs, p.2 ≠ [] → StringAt b.strings p.1 (name p.1)) {d : List UInt8}
    (hd : secInfos rec d.length d = (secs.filter (fun p => !p.2.isEmpty)).map fun p => ⟨p.1, p.2.length, p.2.flatMap bytes⟩) :
    mapAll (named b rec parse) (secInfos rec d.length d) =
      .ok ((secs.filter (fun p => !p.2.isEmpty)).map fun p => (name p.1, p.2.map info)) := by
  rw [hd]
  refine mapAll_ok _ ?_
  intro p hp
  obtain ⟨hp, hne⟩ := List.mem_filter.mp hp
  have hne' : p.2 ≠ [] := by simpa using hne
  rcases h with ⟨_, _, rfl, _⟩ | ⟨h0, h1, _, hs⟩
  · cases hp
  · unfold named secName
    simp only
    rw [(names_ok hh hl _ _).mpr (hname p hp hne'), mapAll_chunks hparse h0 p.2 (hs p hp).2.2]
    rfl

theorem get_found {ρ : Type} (m : List (List UInt8 × List ρ)) (name : List UInt8) (rs : List ρ) (h1 : ∃ p ∈ m, p.1 = name)
    (h2 : ∀ p ∈ m, p.1 = name → p.2 = rs) : get m name = rs := by
  unfold get
  obtain ⟨p, hp, hn⟩ := h1
  cases hf : m.reverse.find? (fun p => p.1 = name) with
  | none =>
    have := List.find?_eq_none.mp hf p (by simpa using hp)
    simp [hn] at this
  | some q => exact h2 q (by simpa using List.mem_of_find?_eq_some hf) (by simpa using List.find?_some hf)

theorem get_none {ρ : Type} (m : List (List UInt8 × List ρ)) (name : List UInt8) (h : ∀ p ∈ m, p.1 ≠ name) : get m name = [] := by
  unfold get
  rw [List.find?_eq_none.mpr (by intro x hx; simpa using h x (by simpa using hx))]

theorem get_records {ρ σ : Type} {b : Btf} (hh : b.header.hdrLen + b.header.strOff + b.header.strLen < 2 ^ 32)
    (hl : b.header.strLen = b.strings.length) {info : ρ → σ} {secs : Secs ρ} (name : Nat → List UInt8)
    (hname : ∀ p ∈ secs, p.2 ≠ [] → StringAt b.strings p.1 (name p.1)) {n : List UInt8} {rs : List ρ}
    (h : RecordsOf b secs n rs) :
    get ((secs.filter (fun p => !p.2.isEmpty)).map fun p => (name p.1, p.2.map info)) n = rs.map info := by
  have huniq : ∀ p ∈ secs, p.2 ≠ [] → (name p.1 = n ↔ StringAt b.strings p.1 n) := by
    intro p hp hne
    constructor
    · rintro rfl; exact hname p hp hne
    · intro hs
      have h1 := (names_ok hh hl _ _).mpr hs
      rw [(names_ok hh hl _ _).mpr (hname p hp hne)] at h1
      cases h1; rfl
  have hmem : ∀ q ∈ (secs.filter (fun p => !p.2.isEmpty)).map (fun p => (name p.1, p.2.map info)), q.1 = n →
      ∃ p ∈ secs, StringAt b.strings p.1 n ∧ q.2 = p.2.map info := by
    intro q hq hn
    obtain ⟨p, hp, rfl⟩ := List.mem_map.mp hq
    obtain ⟨hp, hne⟩ := List.mem_filter.mp hp
    exact ⟨p, hp, (huniq p hp (by simpa using hne)).mp hn, rfl⟩
  rcases h with ⟨p, hp, hs, rfl, hu⟩ | ⟨rfl, hno⟩
  · by_cases hne : p.2 = []
    · rw [hne, List.map_nil]
      by_cases hex : ∃ q ∈ (secs.filter (fun p => !p.2.isEmpty)).map (fun p => (name p.1, p.2.map info)), q.1 = n
      · refine get_found _ _ _ hex ?_
        intro q hq hn
        obtain ⟨p', hp', hs', hq'⟩ := hmem q hq hn
        rw [hq', hu p' hp' hs', hne, List.map_nil]
      · exact get_none _ _ (fun q hq hn => hex ⟨q, hq, hn⟩)
    · refine get_found _ _ _ ?_ ?_
      · exact ⟨(name p.1, p.2.map info), List.mem_map.mpr ⟨p, List.mem_filter.mpr ⟨hp, by simpa using hne⟩, rfl⟩, (huniq p hp hne).mpr hs⟩
      · intro q hq hn
        obtain ⟨p', hp', hs', hq'⟩ := hmem q hq hn
        rw [hq', hu p' hp' hs']
  · rw [List.map_nil]
    refine get_none _ _ ?_
    intro q hq hn
    obtain ⟨p', hp', hs', _⟩ := hmem q hq hn
    exact hno p' hp' hs'

/-- The names of all sections with records exist. -/
def Names {ρ : Type} (b : Btf) (secs : Secs ρ) : Prop := ∀ p ∈ secs, p.2 ≠ [] → ∃ s, StringAt b.strings p.1 s

theorem Names.choose {ρ : Type} {b : Btf} {secs : Secs ρ} (h : Names b secs) :
    ∃ name : Nat → List UInt8, ∀ p ∈ secs, p.2 ≠ [] → StringAt b.strings p.1 (name p.1) := by
  classical
  refine ⟨fun o => if hs : ∃ s, StringAt b.strings o s then Classical.choose hs else [], ?_⟩
  intro p hp hne
  have hs := h p hp hne
  simp only [dif_pos hs]
  exact Classical.choose_spec hs

/-- **C67.** A section in the documented format whose names are strings of the BTF is accepted, whatever the sizes of the
records and of the header and wherever its parts lie; each section's function and line records are found under the
section's name, complete and in order, with instruction counts instead of byte offsets, and the CO-RE relocations are
exactly those written. -/
theorem C67_records_partial (b : Btf) (hh : b.header.hdrLen + b.header.strOff + b.header.strLen < 2 ^ 32)
    (hl : b.header.strLen = b.strings.length) (data : List UInt8) (h : Header) (hhead : HeaderIs data h)
    (fr lr cr : Nat) (fs : Secs FRec) (ls : Secs LRec) (cs : Secs CRec)
    (hf : Holds FRec.bytes FRec.Ok data h.hdrLen h.funcOff h.funcLen fr fs)
    (hli : Holds LRec.bytes LRec.Ok data h.hdrLen h.lineOff h.lineLen lr ls)
    (hc : Holds CRec.bytes CRec.Ok data h.hdrLen h.coreOff h.coreLen cr cs) (hnf : Names b fs) (hnl : Names b ls) :
    ∃ e, parse b data = .ok e ∧ e.funcRec = fr ∧ e.lineRec = lr ∧
      (∀ n rs, RecordsOf b fs n rs → get e.funcs n = rs.map FRec.info) ∧
      (∀ n rs, RecordsOf b ls n rs → get e.lines n = rs.map LRec.info) ∧
      e.relocs = (cs.filter (fun p => !p.2.isEmpty)).map fun p => (p.1, p.2.map CRec.relo) := by
  obtain ⟨nf, hnf⟩ := hnf.choose
  obtain ⟨nl, hnl⟩ := hnl.choose
  obtain ⟨f1, fd, f2, f3⟩ := part_read hf
  obtain ⟨l1, ld, l2, l3⟩ := part_read hli
  obtain ⟨c1, cd, c2, c3⟩ := part_read hc
  have f4 := named_read hh hl funcRec_bytes hf nf hnf f3
  have l4 := named_read hh hl lineRec_bytes hli nl hnl l3
  have c4 : mapAll (relocs cr) (secInfos cr cd.length cd) =
      .ok ((cs.filter (fun p => !p.2.isEmpty)).map fun p => (p.1, p.2.map CRec.relo)) := by
    rw [c3]
    refine mapAll_ok _ ?_
    intro p hp
    obtain ⟨hp, _⟩ := List.mem_filter.mp hp
    rcases hc with ⟨_, _, rfl, _⟩ | ⟨h0, h1, _, hs⟩
    · cases hp
    · unfold relocs
      simp only
      rw [mapAll_chunks coreRec_bytes h0 p.2 (hs p hp).2.2]
      rfl
  have hp : parse b data = .ok ⟨fr, lr, cr, (fs.filter (fun p => !p.2.isEmpty)).map fun p => (nf p.1, p.2.map FRec.info),
      (ls.filter (fun p => !p.2.isEmpty)).map fun p => (nl p.1, p.2.map LRec.info),
      (cs.filter (fun p => !p.2.isEmpty)).map fun p => (p.1, p.2.map CRec.relo)⟩ := by
    unfold parse
    rw [readHeader_ok hhead]
    simp only [bind_ok]
    exact ⟨h, rfl, fr, f1, lr, l1, cr, c1, fd, f2, _, f4, ld, l2, _, l4, cd, c2, _, c4, rfl⟩
  refine ⟨_, hp, rfl, rfl, ?_, ?_, rfl⟩
  · intro n rs hr; exact get_records hh hl nf hnf hr
  · intro n rs hr; exact get_records hh hl nl hnl hr

/-! ## Damaged sections -/

theorem bind_error {ε α β : Type} {x : Except ε α} {f : α → Except ε β} {e : ε} :
    (x >>= f) = .error e ↔ x = .error e ∨ ∃ a, x = .ok a ∧ f a = .error e := by
  cases x with
  | error e' => constructor
                · intro h; cases h; exact .inl rfl
                · rintro (h | ⟨a, h, _⟩)
                  · cases h; rfl
                  · cases h
  | ok a => constructor
            · intro h; exact .inr ⟨a, rfl, h⟩
            · rintro (h | ⟨a', h, h'⟩)
              · cases h
              · cases h; exact h'

theorem mapAll_error {α β : Type} {f : α → Except EFail β} {e : EFail} (as : List α) (h : mapAll f as = .error e) :
    ∃ a ∈ as, f a = .error e := by
  induction as with
  | nil => cases h
  | cons a as ih =>
    simp only [mapAll, bind_error] at h
    rcases h with h | ⟨b, hb, h | ⟨bs, hbs, h⟩⟩
    · exact ⟨a, List.mem_cons_self, h⟩
    · obtain ⟨x, hx, hfx⟩ := ih h
      exact ⟨x, List.mem_cons_of_mem _ hx, hfx⟩
    · cases h

theorem chunks_len {n : Nat} : ∀ (fuel k : Nat) (d : List UInt8), d.length = n * k → ∀ c ∈ chunks n fuel d, c.length = n := by
  intro fuel
  induction fuel with
  | zero => intro k d _ c hc; cases hc
  | succ fuel ih =>
    intro k d hd c hc
    unfold chunks at hc
    split at hc
    · cases hc
    · rename_i hne
      have hpos : 0 < d.length := List.length_pos_iff.mpr hne
      obtain ⟨k, rfl⟩ : ∃ j, k = j + 1 := by
        cases k with
        | zero => rw [Nat.mul_zero] at hd; omega
        | succ k => exact ⟨k, rfl⟩
      rw [Nat.mul_succ] at hd
      rcases List.mem_cons.mp hc with rfl | hc
      · rw [List.length_take]; omega
      · exact ih k (d.drop n) (by rw [List.length_drop]; omega) c hc

theorem secInfos_mem {rec : Nat} : ∀ (fuel : Nat) (d : List UInt8) (s : SecInfo), s ∈ secInfos rec fuel d →
    s.data.length = rec * s.num ∧ ∃ k, k + 4 ≤ d.length ∧ s.name = ofLe ((d.drop k).take 4) := by
  intro fuel
  induction fuel with
  | zero => intro d s hs; cases hs
  | succ fuel ih =>
    intro d s hs
    unfold secInfos at hs
    split at hs
    · cases hs
    · rename_i name r hr
      unfold split4 at hr
      split at hr
      · rename_i h4
        cases hr
        split at hs
        · cases hs
        · rename_i num r hr
          unfold split4 at hr
          split at hr
          · rename_i h8
            cases hr
            simp only [List.drop_drop] at hs
            have hrec : ∀ s ∈ secInfos rec fuel (d.drop (4 + 4 + rec * ofLe ((d.drop 4).take 4))),
                s.data.length = rec * s.num ∧ ∃ k, k + 4 ≤ d.length ∧ s.name = ofLe ((d.drop k).take 4) := by
              intro s hs
              obtain ⟨h1, k, h2, h3⟩ := ih _ s hs
              refine ⟨h1, 4 + 4 + rec * ofLe ((d.drop 4).take 4) + k, ?_, ?_⟩
              · rw [List.length_drop] at h2; omega
              · rw [h3, List.drop_drop]
            split at hs
            · rename_i hle
              split at hs
              · exact hrec s hs
              · rcases List.mem_cons.mp hs with rfl | hs
                · refine ⟨?_, 0, by omega, by simp⟩
                  simp only [List.length_take]
                  exact Nat.min_eq_left hle
                · exact hrec s hs
            · cases hs
          · cases hr
      · cases hr

theorem infoData_panic {data : List UInt8} {hdr off len rec : Nat} (h : recSize data hdr off len = .ok rec) :
    ∃ d, infoData data hdr off len = .ok d ∧ ∀ k, k + 4 ≤ d.length → ∃ j, j + 4 ≤ data.length ∧ (d.drop k).take 4 = (data.drop j).take 4 := by
  unfold recSize at h
  unfold infoData
  split at h
  · cases h
  · rename_i d hd
    unfold range at hd
    split at hd
    · rename_i hle
      cases hd
      by_cases hl : len = 0
      · subst hl
        rw [if_neg (by omega)]
        refine ⟨_, rfl, ?_⟩
        intro k hk
        simp at hk
      · rw [if_neg hl] at h
        rw [if_pos (by omega)]
        split at h
        · cases h
        · rename_i n x hs
          unfold split4 at hs
          split at hs
          · rename_i h4
            rw [if_pos h4]
            refine ⟨_, rfl, ?_⟩
            intro k hk
            refine ⟨hdr + off + 4 + k, ?_, ?_⟩
            · simp only [List.length_drop, List.length_take] at hk; omega
            · simp only [List.length_drop, List.length_take] at hk
              rw [List.drop_drop, List.drop_take, List.take_take, List.drop_drop, Nat.min_eq_left (by omega)]
              congr 2; omega
          · cases hs
    · cases hd

theorem named_panic {ρ : Type} {b : Btf} {rec : Nat} {parse : List UInt8 → Except EFail ρ} {n : Nat} {data d : List UInt8}
    (hparse : ∀ c, parse c = .error .panic → c.length < n)
    (hd : ∀ k, k + 4 ≤ d.length → ∃ j, j + 4 ≤ data.length ∧ (d.drop k).take 4 = (data.drop j).take 4)
    (h : mapAll (named b rec parse) (secInfos rec d.length d) = .error .panic) :
    rec < n ∨ ∃ j, j + 4 ≤ data.length ∧ ∀ s, b.stringAt (ofLe ((data.drop j).take 4)) ≠ .ok s := by
  obtain ⟨s, hs, he⟩ := mapAll_error _ h
  obtain ⟨h1, k, h2, h3⟩ := secInfos_mem _ _ _ hs
  obtain ⟨j, hj, hw⟩ := hd k h2
  unfold named at he
  rw [bind_error] at he
  rcases he with he | ⟨name, _, he⟩
  · right
    refine ⟨j, hj, ?_⟩
    intro str hstr
    unfold secName at he
    rw [h3, hw, hstr] at he
    cases he
  · left
    rw [bind_error] at he
    rcases he with he | ⟨_, _, he⟩
    · obtain ⟨c, hc, hp⟩ := mapAll_error _ he
      have := hparse c hp
      rw [chunks_len _ _ _ h1 c hc] at this
      exact this
    · cases he

theorem funcRec_panic (c : List UInt8) (h : funcRec c = .error .panic) : c.length < 8 := by
  unfold funcRec at h; split at h
  · assumption
  · cases h

theorem lineRec_panic (c : List UInt8) (h : lineRec c = .error .panic) : c.length < 16 := by
  unfold lineRec at h; split at h
  · assumption
  · cases h

theorem coreRec_panic (c : List UInt8) : coreRec c ≠ .error .panic := by
  unfold coreRec; split
  · simp
  · split <;> simp

/-- **C67**, damaged sections: whatever the bytes, parsing panics only if the records are announced shorter than the
structures they hold, or some word of the section taken for a name is not the offset of a string. -/
theorem C67_panic_only_partial (b : Btf) (data : List UInt8) (h : parse b data = .error .panic) :
    (∃ hd, readHeader data = .ok hd ∧ ((∃ n, recSize data hd.hdrLen hd.funcOff hd.funcLen = .ok n ∧ n < 8) ∨
      (∃ n, recSize data hd.hdrLen hd.lineOff hd.lineLen = .ok n ∧ n < 16))) ∨
    ∃ j, j + 4 ≤ data.length ∧ ∀ s, b.stringAt (ofLe ((data.drop j).take 4)) ≠ .ok s := by
  unfold parse at h
  have hr : ∀ off len hdr, recSize data hdr off len ≠ .error .panic := by
    intro off len hdr
    unfold recSize
    split
    · simp
    · split
      · simp
      · split <;> simp
  simp only [bind_error] at h
  rcases h with h | ⟨hd, hhd, h | ⟨fr, hfr, h | ⟨lr, hlr, h | ⟨cr, hcr, h | ⟨fd, hfd, h | ⟨fs, hfs, h | ⟨ld, hld, h | ⟨ls, hls, h | ⟨cd, hcd, h | ⟨rs, hrs, h⟩⟩⟩⟩⟩⟩⟩⟩⟩⟩
  · unfold readHeader at h
    split at h
    · cases h
    · split at h <;> cases h
  · exact absurd h (hr _ _ _)
  · exact absurd h (hr _ _ _)
  · exact absurd h (hr _ _ _)
  · obtain ⟨d, hd', _⟩ := infoData_panic hfr
    rw [hd'] at h; cases h
  · obtain ⟨d, hd', hk⟩ := infoData_panic hfr
    rw [hd'] at hfd; cases hfd
    rcases named_panic funcRec_panic hk h with hlt | hn
    · exact .inl ⟨hd, hhd, .inl ⟨fr, hfr, hlt⟩⟩
    · exact .inr hn
  · obtain ⟨d, hd', _⟩ := infoData_panic hlr
    rw [hd'] at h; cases h
  · obtain ⟨d, hd', hk⟩ := infoData_panic hlr
    rw [hd'] at hld; cases hld
    rcases named_panic lineRec_panic hk h with hlt | hn
    · exact .inl ⟨hd, hhd, .inr ⟨lr, hlr, hlt⟩⟩
    · exact .inr hn
  · obtain ⟨d, hd', _⟩ := infoData_panic hcr
    rw [hd'] at h; cases h
  · obtain ⟨s, _, he⟩ := mapAll_error _ h
    unfold relocs at he
    rw [bind_error] at he
    rcases he with he | ⟨_, _, he⟩
    · obtain ⟨c, _, hp⟩ := mapAll_error _ he
      exact absurd hp (coreRec_panic c)
    · cases he
  · cases h

/-! ## What the kernel gets -/

theorem funcBytes_len (rs : List Linker.FuncInfo) : (funcBytes rs).length = 8 * rs.length := by
  rw [funcBytes, flatMap_len (rec := 8)]; intro r _; simp

theorem lineBytes_len (rs : List Linker.LineInfo) : (lineBytes rs).length = 16 * rs.length := by
  rw [lineBytes, flatMap_len (rec := 16)]; intro r _; simp

theorem flatMap_at {ρ : Type} {bytes : ρ → List UInt8} {n : Nat} (rs : List ρ) (h : ∀ r ∈ rs, (bytes r).length = n) (i : Nat) (r : ρ)
    (hi : rs[i]? = some r) : ((rs.flatMap bytes).drop (i * n)).take n = bytes r := by
  induction rs generalizing i with
  | nil => simp at hi
  | cons x xs ih =>
    have hx := h x List.mem_cons_self
    rw [List.flatMap_cons]
    cases i with
    | zero =>
      simp only [List.getElem?_cons_zero, Option.some.injEq] at hi
      subst hi
      rw [Nat.zero_mul, List.drop_zero, List.take_append_of_le_length (by omega), List.take_of_length_le (by omega)]
    | succ i =>
      rw [List.getElem?_cons_succ] at hi
      have : (i + 1) * n = (bytes x).length + i * n := by rw [hx, Nat.succ_mul, Nat.add_comm]
      rw [this, List.drop_append, List.drop_of_length_le (by omega), List.nil_append, Nat.add_sub_cancel_left]
      exact ih (fun y hy => h y (List.mem_cons_of_mem _ hy)) i hi

/-- **C67**, loading: if the object's records have the size of the structures known here, the kernel reads each record as it
is, and nothing outside the buffer. What is missing: objects with larger records. -/
theorem C67_given_partial (fs : List Linker.FuncInfo) (ls : List Linker.LineInfo) :
    (∃ g, giveFuncs 8 fs = some g ∧ g.cnt = fs.length ∧
      ∀ (i : Nat) (r : Linker.FuncInfo), fs[i]? = some r → KernelSees g i (le 4 r.insnOff ++ le 4 r.typeId)) ∧
    (∃ g, giveLines 16 ls = some g ∧ g.cnt = ls.length ∧ ∀ (i : Nat) (r : Linker.LineInfo), ls[i]? = some r →
      KernelSees g i (le 4 r.insnOff ++ le 4 r.fileNameOff ++ le 4 r.lineOff ++ le 4 r.lineCol)) ∧
    giveFuncs 0 fs = none ∧ giveLines 0 ls = none := by
  refine ⟨⟨_, rfl, rfl, ?_⟩, ⟨_, rfl, rfl, ?_⟩, rfl, rfl⟩
  · intro i r hi
    have hlt := (List.getElem?_eq_some_iff.mp hi).1
    refine ⟨hlt, ?_, ?_⟩
    · show (i + 1) * 8 ≤ (funcBytes fs).length
      rw [funcBytes_len]; omega
    · exact (flatMap_at (bytes := fun r : Linker.FuncInfo => le 4 r.insnOff ++ le 4 r.typeId) fs (n := 8) (by intro r _; simp) i r hi).symm
  · intro i r hi
    have hlt := (List.getElem?_eq_some_iff.mp hi).1
    refine ⟨hlt, ?_, ?_⟩
    · show (i + 1) * 16 ≤ (lineBytes ls).length
      rw [lineBytes_len]; omega
    · exact (flatMap_at (bytes := fun r : Linker.LineInfo => le 4 r.insnOff ++ le 4 r.fileNameOff ++ le 4 r.lineOff ++ le 4 r.lineCol) ls (n := 16) (by intro r _; simp) i r hi).symm

/-- **C67 violated**: with records larger than eight bytes in the object, the kernel is told that size but given records of
eight bytes, so that it reads past the end of the buffer: the last record is never inside it. -/
theorem C67_record_size_violated (n : Nat) (hn : 8 < n) (fs : List Linker.FuncInfo) (hne : fs ≠ []) :
    ∃ g, giveFuncs n fs = some g ∧ g.cnt = fs.length ∧ g.buf.length < g.cnt * g.recSize ∧
      ∀ record, ¬ KernelSees g (g.cnt - 1) record := by
  have hpos : 0 < fs.length := List.length_pos_iff.mpr hne
  have hlt : (funcBytes fs).length < fs.length * n := by
    rw [funcBytes_len, Nat.mul_comm]; exact Nat.mul_lt_mul_of_pos_left hn hpos
  refine ⟨⟨funcBytes fs, fs.length, n⟩, by unfold giveFuncs; rw [if_pos (by omega)], rfl, hlt, ?_⟩
  rintro record ⟨_, h2, _⟩
  simp only at h2
  rw [Nat.sub_add_cancel hpos] at h2
  omega

theorem recSize_err {data : List UInt8} {hdr off len : Nat} {e : EFail} (h : recSize data hdr off len = .error e) : e = .invalidInfo := by
  unfold recSize at h
  split at h
  · injection h with h; exact h.symm
  · split at h
    · cases h
    · split at h
      · injection h with h; exact h.symm
      · cases h

theorem recSize_out {data : List UInt8} {hdr off len : Nat} (h : data.length < hdr + off + len) : recSize data hdr off len = .error .invalidInfo := by
  unfold recSize range
  rw [if_neg (by omega)]

/-- **C67**, refusal: a section that does not hold a header's first eight bytes, or not the header whose length it announces,
is refused as such; and so is one whose header announces a part that ends behind the section's end. -/
theorem C67_truncated (b : Btf) (data : List UInt8) :
    ((data.length < 8 ∨ data.length < ofLe ((data.drop 4).take 4)) → parse b data = .error .invalidHeader) ∧
    (∀ h : Header, HeaderIs data h →
      (data.length < h.hdrLen + h.funcOff + h.funcLen ∨ data.length < h.hdrLen + h.lineOff + h.lineLen ∨
        data.length < h.hdrLen + h.coreOff + h.coreLen) → parse b data = .error .invalidInfo) := by
  refine ⟨fun h => ?_, fun h hh hout => ?_⟩
  · have : readHeader data = .error .invalidHeader := by
      unfold readHeader word
      by_cases h8 : data.length < 8
      · rw [if_pos h8]
      · rw [if_neg h8, if_pos (by rcases h with h | h; exact absurd h h8; exact h)]
    unfold parse
    rw [this]; rfl
  · have hr := readHeader_ok hh
    unfold parse
    rw [hr]
    show (recSize data h.hdrLen h.funcOff h.funcLen >>= _) = _
    cases hf : recSize data h.hdrLen h.funcOff h.funcLen with
    | error e => rw [recSize_err hf]; rfl
    | ok fr =>
      show (recSize data h.hdrLen h.lineOff h.lineLen >>= _) = _
      cases hl : recSize data h.hdrLen h.lineOff h.lineLen with
      | error e => rw [recSize_err hl]; rfl
      | ok lr =>
        show (recSize data h.hdrLen h.coreOff h.coreLen >>= _) = _
        cases hc : recSize data h.hdrLen h.coreOff h.coreLen with
        | error e => rw [recSize_err hc]; rfl
        | ok cr =>
          rcases hout with ho | ho | ho
          · rw [recSize_out ho] at hf; cases hf
          · rw [recSize_out ho] at hl; cases hl
          · rw [recSize_out ho] at hc; cases hc

/-! ## Concrete cases -/

/-- BTF whose strings are `text` and `prog`. -/
def exBtf : Btf := ⟨⟨0xeb9f, 1, 0, 24, 0, 0, 0, 11⟩, 0 :: "text".toUTF8.toList ++ 0 :: "prog".toUTF8.toList ++ [0], [.unknown]⟩

/-- The header of the examples; the CO-RE part is absent. -/
def exHeader (hdr flen llen : Nat) : List UInt8 :=
  le 2 0xeb9f ++ [1, 0] ++ le 4 hdr ++ le 4 0 ++ le 4 flen ++ le 4 flen ++ le 4 llen

def exFuncs : Secs FRec := [(1, [⟨0, 7, []⟩, ⟨64, 8, []⟩]), (6, [⟨0, 9, []⟩])]
def exLines : Secs LRec := [(6, [⟨0, 1, 2, 3, []⟩, ⟨8, 1, 3, 4, []⟩])]

def exData : List UInt8 := exHeader 24 44 44 ++ partBytes FRec.bytes 8 exFuncs ++ partBytes LRec.bytes 16 exLines

/-- A section with an old, short header and two parts meets the hypotheses of `C67_records_partial`. -/
example : HeaderIs exData ⟨24, 0, 44, 44, 44, 0, 0⟩ ∧
    Holds FRec.bytes FRec.Ok exData 24 0 44 8 exFuncs ∧ Holds LRec.bytes LRec.Ok exData 24 44 44 16 exLines ∧
    Holds CRec.bytes CRec.Ok exData 24 0 0 0 [] ∧ Names exBtf exFuncs ∧ Names exBtf exLines := by
  refine ⟨⟨by decide, by decide, by decide +kernel, ?_⟩, .inr ⟨by decide, by decide, ⟨by decide +kernel, by decide +kernel, partBytes LRec.bytes 16 exLines, by decide +kernel⟩, ?_⟩,
    .inr ⟨by decide, by decide, ⟨by decide +kernel, by decide +kernel, [], by decide +kernel⟩, ?_⟩, .inl ⟨rfl, rfl, rfl, by decide +kernel⟩, ?_, ?_⟩
  · intro i n hi
    have hi7 : i < 7 := by have := (List.getElem?_eq_some_iff.mp hi).1; simpa [fields] using this
    rcases i with _ | _ | _ | _ | _ | _ | _ | i <;> first | omega | (simp only [fields, List.getElem?_cons_zero, List.getElem?_cons_succ, Option.some.injEq] at hi; subst hi; decide +kernel)
  · intro p hp
    rcases List.mem_cons.mp hp with rfl | hp
    · refine ⟨by decide, by decide, ?_⟩; unfold FRec.Ok; decide +kernel
    · rcases List.mem_cons.mp hp with rfl | hp
      · refine ⟨by decide, by decide, ?_⟩; unfold FRec.Ok; decide +kernel
      · cases hp
  · intro p hp
    rcases List.mem_cons.mp hp with rfl | hp
    · refine ⟨by decide, by decide, ?_⟩; unfold LRec.Ok; decide +kernel
    · cases hp
  · intro p hp _
    rcases List.mem_cons.mp hp with rfl | hp
    · exact ⟨"text".toUTF8.toList, (names_ok (b := exBtf) (by decide +kernel) (by decide +kernel) _ _).mp (by decide +kernel)⟩
    · rcases List.mem_cons.mp hp with rfl | hp
      · exact ⟨"prog".toUTF8.toList, (names_ok (b := exBtf) (by decide +kernel) (by decide +kernel) _ _).mp (by decide +kernel)⟩
      · cases hp
  · intro p hp _
    rcases List.mem_cons.mp hp with rfl | hp
    · exact ⟨"prog".toUTF8.toList, (names_ok (b := exBtf) (by decide +kernel) (by decide +kernel) _ _).mp (by decide +kernel)⟩
    · cases hp

example : parse exBtf exData = .ok ⟨8, 16, 0, [("text".toUTF8.toList, [⟨0, 7⟩, ⟨8, 8⟩]), ("prog".toUTF8.toList, [⟨0, 9⟩])],
    [("prog".toUTF8.toList, [⟨0, 1, 2, 3⟩, ⟨1, 1, 3, 4⟩])], []⟩ := by decide +kernel

/-- Cases of `C67_truncated`: a section cut in its length field, one cut in its header, and one cut in its records. -/
example : parse exBtf (exData.take 6) = .error .invalidHeader ∧ parse exBtf (exData.take 20) = .error .invalidHeader ∧
    parse exBtf (exData.take 60) = .error .invalidInfo := by decide +kernel

/-- **C67 violated**: a name that is not in the BTF, and records announced too short, both panic. -/
theorem C67_panic_violated :
    parse exBtf (exHeader 24 20 0 ++ partBytes FRec.bytes 8 [(99, [⟨0, 7, []⟩])]) = .error .panic ∧
    parse exBtf (exHeader 24 16 0 ++ (le 4 4 ++ le 4 1 ++ le 4 1 ++ le 4 0)) = .error .panic := by
  constructor <;> decide +kernel

end Verif.Ext
