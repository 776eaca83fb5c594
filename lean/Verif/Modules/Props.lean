import Verif.Modules.Lemmas
/-!
# C114: every alias of a module leads to a module that has it
-/
namespace Verif.Modules

/-! ### The buffered writer -/

/-- What was written is in the file and the buffer, and of the room what is in the file is gone. -/
structure Inv (w : Writer) (t : Bytes) (room : Nat) : Prop where
  all : w.disk.data ++ w.buf = t
  left : w.disk.data.length + w.disk.room = room
  small : w.buf.length ≤ capacity

theorem put_inv {w : Writer} {t b : Bytes} {room : Nat} (h : Inv w t room) (he : capacity ≤ b.length → w.buf = []) (hs : w.buf.length + b.length ≤ capacity ∨ w.buf = []) :
    ((w.put b).1 = true → Inv (w.put b).2 (t ++ b) room) ∧ ((t ++ b).length ≤ room → (w.put b).1 = true) := by
  unfold Writer.put
  by_cases hc : capacity ≤ b.length
  · rw [if_pos hc]
    have hb := he hc
    have ht : w.disk.data = t := by have := h.all; rw [hb] at this; simpa using this
    have hl := h.left
    constructor
    · intro hok
      have hok' : b.length ≤ w.disk.room := by simpa [Disk.writeAll] using hok
      refine ⟨?_, ?_, ?_⟩
      · simp [Disk.writeAll, hb, List.take_of_length_le hok', ht]
      · simp [Disk.writeAll, List.take_of_length_le hok']; omega
      · simp [hb]
    · intro hr
      rw [← ht, List.length_append] at hr
      simp [Disk.writeAll]
      omega
  · rw [if_neg hc]
    refine ⟨fun _ => ⟨?_, h.left, ?_⟩, fun _ => rfl⟩
    · simp [← h.all]
    · rcases hs with hs | hs
      · simpa using hs
      · simp [hs]; omega

theorem writeAll_inv {w : Writer} {t b : Bytes} {room : Nat} (h : Inv w t room) :
    ((w.writeAll b).1 = true → Inv (w.writeAll b).2 (t ++ b) room) ∧ ((t ++ b).length ≤ room → (w.writeAll b).1 = true) := by
  have hsm := h.small
  unfold Writer.writeAll
  by_cases h1 : b.length < capacity - w.buf.length
  · rw [if_pos h1]
    exact ⟨fun _ => ⟨by simp [← h.all], h.left, by simp; omega⟩, fun _ => rfl⟩
  · rw [if_neg h1]
    by_cases h2 : capacity - w.buf.length < b.length
    · rw [if_pos h2]
      have hl := h.left
      by_cases h3 : w.buf.length ≤ w.disk.room
      · have hf : w.flush = (true, ⟨⟨w.disk.data ++ w.buf, w.disk.room - w.buf.length⟩, []⟩) := by
          simp [Writer.flush, Disk.writeAll, h3, List.take_of_length_le h3]
        rw [hf]
        have hi : Inv ⟨⟨w.disk.data ++ w.buf, w.disk.room - w.buf.length⟩, []⟩ t room := ⟨by simpa using h.all, by simp; omega, by simp⟩
        exact put_inv hi (fun _ => rfl) (.inr rfl)
      · have hf : w.flush.1 = false := by simp [Writer.flush, Disk.writeAll]; omega
        rcases e : w.flush with ⟨ok, w'⟩
        rw [e] at hf
        simp only at hf
        subst hf
        refine ⟨fun hh => (by cases hh), fun hr => ?_⟩
        rw [← h.all] at hr
        simp only [List.length_append] at hr
        omega
    · rw [if_neg h2]
      refine put_inv h (fun hc => ?_) (.inl ?_)
      · cases hb : w.buf with
        | nil => rfl
        | cons x xs => rw [hb] at h2 hsm; simp at h2 hsm; omega
      · by_cases hz : capacity < w.buf.length
        · omega
        · omega

theorem writePieces_inv : ∀ {bs : List Bytes} {w : Writer} {t : Bytes} {room : Nat}, Inv w t room →
    ((writePieces bs w).1 = true → Inv (writePieces bs w).2 (t ++ bs.flatten) room) ∧ ((t ++ bs.flatten).length ≤ room → (writePieces bs w).1 = true)
  | [], w, t, room, h => ⟨fun _ => by simpa [writePieces] using h, fun _ => rfl⟩
  | b :: bs, w, t, room, h => by
    have hw := writeAll_inv (b := b) h
    simp only [writePieces]
    rcases e : w.writeAll b with ⟨_ | _, w'⟩
    · rw [e] at hw
      refine ⟨fun hh => (by cases hh), fun hr => ?_⟩
      have := hw.2 (by simp at hr ⊢; omega)
      cases this
    · rw [e] at hw
      have := writePieces_inv (bs := bs) (hw.1 rfl)
      simpa [List.flatten_cons, List.append_assoc] using this

/-! ### The text -/

/-- The aliases in `.modinfo`, in order. -/
def aliasesIn (data : Bytes) : List Bytes := ((splitOn 0 data).filter (fun e => !e.isEmpty)).filterMap (stripPrefix aliasEq)

/-- The lines that a file is good for. -/
def pairsOf (S : Sys) (f : File) : List (Bytes × Bytes) :=
  match moduleName f.name with
  | some (m, c) =>
    match S.read c f.content with
    | .ok x =>
      match S.modinfo x with
      | .ok (some data) => (aliasesIn data).map (fun a => (a, m))
      | _ => []
    | _ => []
  | none => []

def textOf (ps : List (Bytes × Bytes)) : Bytes := ps.flatMap (fun p => (linePieces p.1 p.2).flatten)

theorem aliasesIn_iff {data a : Bytes} : a ∈ aliasesIn data ↔ HasEntry data (aliasEq ++ a) := by
  simp only [aliasesIn, List.mem_filterMap, List.mem_filter]
  constructor
  · rintro ⟨e, ⟨he, hne⟩, hs⟩
    rw [← stripPrefix_some hs]
    exact of_entry he (by simpa using hne)
  · intro h
    exact ⟨aliasEq ++ a, ⟨entry_of h, by simp [aliasEq]⟩, stripPrefix_append _ _⟩

theorem isModule_unique {name m m' : Bytes} {c c' : Compression} (h : IsModule name m c) (h' : IsModule name m' c') : m = m' ∧ c = c' := by
  have := (moduleName_iff.2 h).symm.trans (moduleName_iff.2 h')
  simpa using this

theorem pairsOf_iff {S : Sys} {f : File} {a m : Bytes} : (a, m) ∈ pairsOf S f ↔ ∃ x, Image S f m x ∧ HasAlias S x a := by
  unfold pairsOf
  constructor
  · intro h
    rcases e1 : moduleName f.name with _ | ⟨m', c⟩
    · rw [e1] at h; cases h
    · rw [e1] at h
      simp only at h
      rcases e2 : S.read c f.content with _ | x
      · rw [e2] at h; cases h
      · rw [e2] at h
        simp only at h
        rcases e3 : S.modinfo x with _ | _ | data
        · rw [e3] at h; cases h
        · rw [e3] at h; cases h
        · rw [e3] at h
          simp only [List.mem_map, Prod.mk.injEq] at h
          obtain ⟨a', ha, rfl, rfl⟩ := h
          exact ⟨x, ⟨c, moduleName_iff.1 e1, e2⟩, data, e3, aliasesIn_iff.1 ha⟩
  · rintro ⟨x, ⟨c, hm, hr⟩, data, hd, ha⟩
    rw [moduleName_iff.2 hm]
    simp only [hr, hd, List.mem_map, Prod.mk.injEq]
    exact ⟨a, aliasesIn_iff.2 ha, rfl, by trivial⟩

theorem writeEntries_inv (m : Bytes) : ∀ {es : List Bytes} {w : Writer} {t : Bytes} {room : Nat}, Inv w t room →
    ((writeEntries m es w).1 = .ok () → Inv (writeEntries m es w).2 (t ++ textOf ((es.filterMap (stripPrefix aliasEq)).map (fun a => (a, m)))) room) ∧
    ((t ++ textOf ((es.filterMap (stripPrefix aliasEq)).map (fun a => (a, m)))).length ≤ room → (writeEntries m es w).1 = .ok ()) ∧
    ((writeEntries m es w).1 = .ok () ∨ (writeEntries m es w).1 = .error .panic)
  | [], w, t, room, h => ⟨fun _ => by simpa [writeEntries, textOf] using h, fun _ => rfl, .inl rfl⟩
  | e :: es, w, t, room, h => by
    simp only [writeEntries]
    rcases es' : stripPrefix aliasEq e with _ | a
    · have := writeEntries_inv m (es := es) h
      simpa [List.filterMap_cons, es'] using this
    · have hw := writePieces_inv (bs := linePieces a m) h
      have ht : textOf (((e :: es).filterMap (stripPrefix aliasEq)).map (fun a => (a, m))) =
          (linePieces a m).flatten ++ textOf ((es.filterMap (stripPrefix aliasEq)).map (fun a => (a, m))) := by
        simp [es', textOf]
      rw [ht]
      simp only
      rcases ew : writePieces (linePieces a m) w with ⟨_ | _, w'⟩
      · rw [ew] at hw
        refine ⟨fun hh => (by cases hh), fun hr => ?_, .inr rfl⟩
        have := hw.2 (by simp only [List.length_append] at hr ⊢; omega)
        cases this
      · rw [ew] at hw
        have := writeEntries_inv m (es := es) (hw.1 rfl)
        simpa [List.append_assoc] using this

theorem depmodFile_inv {S : Sys} {f : File} {w : Writer} {t : Bytes} {room : Nat} (hr : Readable S [f]) (h : Inv w t room) :
    ((depmodFile S f w).1 = .ok () → Inv (depmodFile S f w).2 (t ++ textOf (pairsOf S f)) room) ∧
    ((t ++ textOf (pairsOf S f)).length ≤ room → (depmodFile S f w).1 = .ok ()) ∧
    ((depmodFile S f w).1 = .ok () ∨ (depmodFile S f w).1 = .error .panic) := by
  obtain ⟨hu, hm⟩ := hr f List.mem_cons_self
  unfold depmodFile pairsOf
  rw [if_pos (utf8_iff.2 hu)]
  rcases e1 : moduleName f.name with _ | ⟨m, c⟩
  · exact ⟨fun _ => by simpa [textOf] using h, fun _ => rfl, .inl rfl⟩
  · obtain ⟨x, data, h1, h2, h3⟩ := hm m c (moduleName_iff.1 e1)
    have hall : ((splitOn 0 data).filter (fun e => !e.isEmpty)).all utf8 = true := by
      rw [List.all_eq_true]
      intro e he
      rw [List.mem_filter] at he
      exact utf8_iff.2 (h3 e (of_entry he.1 (by simpa using he.2)))
    have hme : modinfoEntries data = .ok ((splitOn 0 data).filter (fun e => !e.isEmpty)) := by
      unfold modinfoEntries
      exact if_pos hall
    simp only [h1, readAliases, h2, writeAliases, hme]
    exact writeEntries_inv m h

theorem depmodFiles_inv {S : Sys} : ∀ {files : List File} {w : Writer} {t : Bytes} {room : Nat}, Readable S files → Inv w t room →
    ((depmodFiles S files w).1 = .ok () → Inv (depmodFiles S files w).2 (t ++ textOf (files.flatMap (pairsOf S))) room) ∧
    ((t ++ textOf (files.flatMap (pairsOf S))).length ≤ room → (depmodFiles S files w).1 = .ok ()) ∧
    ((depmodFiles S files w).1 = .ok () ∨ (depmodFiles S files w).1 = .error .panic)
  | [], w, t, room, _, h => ⟨fun _ => by simpa [depmodFiles, textOf] using h, fun _ => rfl, .inl rfl⟩
  | f :: fs, w, t, room, hr, h => by
    have hf := depmodFile_inv (f := f) (fun g hg => by
      have : g = f := by simpa using hg
      exact hr g (this ▸ List.mem_cons_self)) h
    have ht : textOf ((f :: fs).flatMap (pairsOf S)) = textOf (pairsOf S f) ++ textOf (fs.flatMap (pairsOf S)) := by
      simp [textOf, List.flatMap_cons, List.flatMap_append]
    rw [ht]
    simp only [depmodFiles]
    rcases e : depmodFile S f w with ⟨er | ok, w'⟩
    · rw [e] at hf
      refine ⟨fun hh => (by cases hh), fun hl => ?_, ?_⟩
      · have := hf.2.1 (by simp only [List.length_append] at hl ⊢; omega)
        cases this
      · rcases hf.2.2 with hh | hh
        · cases hh
        · exact .inr hh
    · rw [e] at hf
      have := depmodFiles_inv (files := fs) (fun g hg => hr g (List.mem_cons_of_mem _ hg)) (hf.1 rfl)
      simpa [List.append_assoc] using this

theorem depmod_text {S : Sys} {files : List File} (hr : Readable S files) {room : Nat} (hl : (textOf (files.flatMap (pairsOf S))).length ≤ room) :
    depmod S files room = (.ok (), textOf (files.flatMap (pairsOf S))) := by
  have h := depmodFiles_inv (w := ⟨⟨[], room⟩, []⟩) (t := []) (room := room) hr ⟨rfl, by simp, by simp⟩
  simp only [List.nil_append] at h
  have hok := h.2.1 hl
  have hi := h.1 hok
  unfold depmod
  rcases e : depmodFiles S files ⟨⟨[], room⟩, []⟩ with ⟨r, w⟩
  rw [e] at hok hi
  simp only at hok hi ⊢
  have h2 := hi.left
  have h1 := hi.all
  have h3 : w.buf.length ≤ w.disk.room := by
    rw [← h1, List.length_append] at hl
    omega
  rw [hok]
  congr 1
  simp [Writer.flush, Disk.writeAll, List.take_of_length_le h3, h1]

/-- `depmod` says that it succeeded only if all modules could be read and what they say is text: it leaves out no module. -/
theorem C114_complete {S : Sys} {files : List File} {room : Nat} (h : (depmod S files room).1 = .ok ()) : Readable S files := by
  have key : ∀ (fs : List File) (w : Writer), (depmodFiles S fs w).1 = .ok () → Readable S fs := by
    intro fs
    induction fs with
    | nil => intro w _ f hf; cases hf
    | cons f fs ih =>
      intro w h
      simp only [depmodFiles] at h
      rcases e : depmodFile S f w with ⟨_ | _, w'⟩
      · rw [e] at h; cases h
      · rw [e] at h
        intro g hg
        rcases List.mem_cons.1 hg with rfl | hg
        · unfold depmodFile at e
          by_cases hu : utf8 g.name = true
          · rw [if_pos hu] at e
            refine ⟨utf8_iff.1 hu, fun m c hm => ?_⟩
            rw [moduleName_iff.2 hm] at e
            simp only at e
            rcases e1 : S.read c g.content with _ | x
            · rw [e1] at e; cases e
            · rw [e1] at e
              simp only [readAliases] at e
              rcases e2 : S.modinfo x with _ | _ | data
              · rw [e2] at e; cases e
              · rw [e2] at e; cases e
              · rw [e2] at e
                refine ⟨x, data, rfl, e2, fun en he => utf8_iff.1 ?_⟩
                simp only [writeAliases, modinfoEntries] at e
                by_cases ha : ((splitOn 0 data).filter (fun e => !e.isEmpty)).all utf8 = true
                · obtain ⟨l, r, hd, hne, rest⟩ := he
                  exact List.all_eq_true.1 ha en (List.mem_filter.2 ⟨entry_of ⟨l, r, hd, hne, rest⟩, by simpa using hne⟩)
                · rw [if_neg ha] at e; cases e
          · rw [if_neg hu] at e; cases e
        · exact ih w' h g hg
  refine key files ⟨⟨[], room⟩, []⟩ ?_
  unfold depmod at h
  rcases e : depmodFiles S files ⟨⟨[], room⟩, []⟩ with ⟨r, w⟩
  rw [e] at h
  exact h

/-- There is one text for the tree. Wherever it fits `depmod` writes it; where it does not fit `depmod` panics or writes a beginning that goes to the last byte there is
    room for and of which at most 8192 bytes are missing. -/
theorem C114_written {S : Sys} {files : List File} (hr : Readable S files) :
    ∃ (text : Bytes), (∀ room, text.length ≤ room → depmod S files room = (.ok (), text)) ∧
      ∀ room, room < text.length → (depmod S files room).1 = .error .panic ∨
        ((depmod S files room).1 = .ok () ∧ (depmod S files room).2 = text.take room ∧ text.length ≤ room + 8192) := by
  refine ⟨_, fun room => depmod_text hr, fun room hlt => ?_⟩
  have h := depmodFiles_inv (w := ⟨⟨[], room⟩, []⟩) (t := []) (room := room) hr ⟨rfl, by simp, by simp⟩
  simp only [List.nil_append] at h
  unfold depmod
  rcases e : depmodFiles S files ⟨⟨[], room⟩, []⟩ with ⟨r, w⟩
  rw [e] at h
  simp only at h ⊢
  rcases h.2.2 with hok | hp
  · have hi := h.1 hok
    have h1 := hi.all
    have h2 := hi.left
    have h3 := hi.small
    refine .inr ⟨hok, ?_, ?_⟩
    · rw [← h1, List.take_append]
      have hd : w.disk.data.length ≤ room := by omega
      have hs : room - w.disk.data.length = w.disk.room := by omega
      simp [Writer.flush, Disk.writeAll, List.take_of_length_le hd, hs]
    · rw [← h1, List.length_append]
      simp only [capacity] at h3
      omega
  · exact .inl hp

/-! ### Looking up -/

theorem line_eq (a m : Bytes) : (linePieces a m).flatten = (aliasSp ++ a ++ 32 :: m) ++ [10] := by
  simp [linePieces]

theorem resolve_text (name : Bytes) : ∀ {ps : List (Bytes × Bytes)},
    (∀ p ∈ ps, TidyName p.2 ∧ p.1 ≠ [] ∧ 10 ∉ p.1 ∧ utf8 p.1 = true ∧ utf8 p.2 = true) →
    resolveLines name (lines (textOf ps)) = match ps.find? (fun p => p.1 == name) with | some p => .ok p.2 | none => .error .aliasNotFound
  | [], _ => rfl
  | (a, m) :: ps, h => by
    obtain ⟨⟨m0, m1, m2, m3, _⟩, a0, a1, ua, um⟩ := h (a, m) List.mem_cons_self
    simp only at m0 m1 m2 m3 a0 a1 ua um
    have ih := resolve_text name (ps := ps) (fun p hp => h p (List.mem_cons_of_mem _ hp))
    have ht : textOf ((a, m) :: ps) = (aliasSp ++ a ++ 32 :: m) ++ 10 :: textOf ps := by
      simp [textOf, linePieces]
    have hn : 10 ∉ aliasSp ++ a ++ 32 :: m := by
      simp only [List.mem_append, List.mem_cons, not_or]
      exact ⟨⟨by decide, a1⟩, by decide, m2⟩
    have hcr : stripCr (aliasSp ++ a ++ 32 :: m) = aliasSp ++ a ++ 32 :: m := by
      refine if_neg ?_
      intro hh
      have hh' : m.getLast? = some 13 := by
        cases m with
        | nil => exact absurd rfl m0
        | cons x xs => simpa [List.getLast?_append, List.getLast?_cons] using hh
      exact m3 (List.mem_of_getLast? hh')
    have hu : utf8 (aliasSp ++ a ++ 32 :: m) = true := by
      rw [List.append_assoc, utf8_append (by decide), utf8_append ua]
      have : (32 :: m) = [32] ++ m := rfl
      rw [this, utf8_append (by decide), um]
    have hp : parseAliasLine (aliasSp ++ a ++ 32 :: m) = .ok (some (a, m)) := by
      have h1 := stripPrefix_append aliasSp (a ++ 32 :: m)
      rw [← List.append_assoc] at h1
      simp only [parseAliasLine, h1, rsplitOnce_append m1 a]
      exact if_neg (by simp [a0, m0])
    rw [ht, lines_append hn, hcr]
    simp only [resolveLines, hu, if_true, hp]
    by_cases e : a = name
    · simp [e]
    · simp [e, ih]

theorem pairs_tidy {S : Sys} {files : List File} (hr : Readable S files) (ht : Tidy S files) :
    ∀ p ∈ files.flatMap (pairsOf S), TidyName p.2 ∧ p.1 ≠ [] ∧ 10 ∉ p.1 ∧ utf8 p.1 = true ∧ utf8 p.2 = true := by
  rintro ⟨a, m⟩ hp
  rw [List.mem_flatMap] at hp
  obtain ⟨f, hf, hp⟩ := hp
  obtain ⟨x, hx, ha⟩ := pairsOf_iff.1 hp
  obtain ⟨t1, t2⟩ := ht f hf m x hx
  obtain ⟨t3, t4⟩ := t2 a ha
  obtain ⟨hu, hm⟩ := hr f hf
  obtain ⟨c, hc, hrd⟩ := hx
  obtain ⟨x', data, r1, r2, r3⟩ := hm m c hc
  obtain ⟨data', d1, d2⟩ := ha
  have hxx : x = x' := by rw [hrd] at r1; cases r1; rfl
  subst hxx
  have hdd : data' = data := by rw [d1] at r2; cases r2; rfl
  subst hdd
  refine ⟨t1, t3, t4, ?_, ?_⟩
  · have := utf8_iff.2 (r3 _ d2)
    rwa [utf8_append (by decide)] at this
  · replace hu := utf8_iff.2 hu
    generalize f.name = n at hc hu
    cases hc with
    | plain => exact utf8_before (c := 46) (by decide) hu
    | xz => rw [List.append_assoc] at hu; exact utf8_before (c := 46) (by decide) hu
    | zstd => rw [List.append_assoc] at hu; exact utf8_before (c := 46) (by decide) hu

theorem find_first {S : Sys} {a : Bytes} : ∀ {files : List File} {p : Bytes × Bytes}, (files.flatMap (pairsOf S)).find? (fun p => p.1 == a) = some p →
    ∃ (before after : List File) (g : File), files = before ++ g :: after ∧ p ∈ pairsOf S g ∧ p.1 = a ∧ ∀ f ∈ before, ∀ m, (a, m) ∉ pairsOf S f
  | [], _, h => by cases h
  | f :: fs, p, h => by
    rw [List.flatMap_cons, List.find?_append] at h
    rcases e : (pairsOf S f).find? (fun p => p.1 == a) with _ | q
    · rw [e] at h
      simp only [Option.none_or] at h
      obtain ⟨b, af, g, h1, h2, h3, h4⟩ := find_first h
      refine ⟨f :: b, af, g, by rw [h1]; rfl, h2, h3, fun f' hf' m hm => ?_⟩
      rcases List.mem_cons.1 hf' with rfl | hf'
      · have := List.find?_eq_none.1 e (a, m) hm
        simp at this
      · exact h4 f' hf' m hm
    · rw [e] at h
      simp only [Option.some_or, Option.some.injEq] at h
      subst h
      exact ⟨[], fs, f, rfl, List.mem_of_find?_eq_some e, by simpa using List.find?_some e, fun f' hf' => by cases hf'⟩

theorem loadModule_loads {S : Sys} {files : List File} {g : File} {m x : Bytes} (hg : g ∈ files) (hm : TidyName m) (hi : Image S g m x)
    (hd : ∀ f ∈ files, (m ++ dotKo) <+: f.name → f = g) (hb : g.dirs.head? = some kernelDir) : Loads S x (loadModule S files m) := by
  obtain ⟨m0, _, _, _, m4, m5, m6⟩ := hm
  obtain ⟨c, hc, hrd⟩ := hi
  have hw : ¬ (m.any (fun b => b == 42 || b == 63 || b == 91)) = true := by
    rw [List.any_eq_true]
    rintro ⟨b, hb', hh⟩
    simp only [Bool.or_eq_true, beq_iff_eq] at hh
    rcases hh with (rfl | rfl) | rfl
    · exact m4 hb'
    · exact m5 hb'
    · exact m6 hb'
  have hpre : (m ++ dotKo) <+: g.name := by
    have hc' := hc
    generalize g.name = n at hc'
    cases hc' with
    | plain => exact List.prefix_refl _
    | xz => exact List.prefix_append _ _
    | zstd => exact List.prefix_append _ _
  have hgl : globModule S files m = files.filter (fun f => f.dirs.head? == some kernelDir && (m ++ dotKo).isPrefixOf f.name) := if_neg hw
  have hin : g ∈ globModule S files m := by
    rw [hgl, List.mem_filter]
    exact ⟨hg, by simp [hb, List.isPrefixOf_iff_prefix, hpre]⟩
  unfold loadModule
  rcases e : globModule S files m with _ | ⟨g', rest⟩
  · rw [e] at hin; cases hin
  · have hg' : g' = g := by
      have : g' ∈ globModule S files m := by rw [e]; exact List.mem_cons_self
      rw [hgl, List.mem_filter] at this
      refine hd g' this.1 ?_
      have h2 := this.2
      rw [Bool.and_eq_true] at h2
      exact List.isPrefixOf_iff_prefix.1 h2.2
    subst hg'
    simp only [compressionOf_module hc m0, hrd]
    constructor
    · intro hp
      rw [if_pos (List.isPrefixOf_iff_prefix.2 hp)]
      rcases ei : S.init x with er | _
      · exact ⟨rfl, ⟨fun hh => (by cases hh), fun hh => (by cases hh)⟩⟩
      · exact ⟨rfl, ⟨fun _ => rfl, fun _ => rfl⟩⟩
    · intro hp
      rw [if_neg (fun hh => hp (List.isPrefixOf_iff_prefix.1 hh))]

/-- After `depmod` has written the aliases, `modprobe` of an alias that some module has gives the kernel the image of a module that has it, the first in the walk. -/
theorem C114_found_partial {S : Sys} {files seen : List File} {a m x : Bytes} {f : File} (hr : Readable S files) (ht : Tidy S files) (hd : Distinct files) (hb : Below files)
    (hs : ∀ g, g ∈ seen ↔ g ∈ files) (hf : f ∈ files) (hi : Image S f m x) (ha : HasAlias S x a) :
    ∃ (n : Nat), ∀ room, n ≤ room → (depmod S files room).1 = .ok () ∧
      ∃ (before after : List File) (g : File) (mg y : Bytes), files = before ++ g :: after ∧ Image S g mg y ∧ HasAlias S y a ∧
        (∀ h ∈ before, ∀ mh z, Image S h mh z → ¬ HasAlias S z a) ∧ Loads S y (modprobe S false seen (some (depmod S files room).2) a) := by
  refine ⟨(textOf (files.flatMap (pairsOf S))).length, fun room hl => ?_⟩
  rw [depmod_text hr hl]
  refine ⟨rfl, ?_⟩
  have hrt := resolve_text a (pairs_tidy hr ht)
  rcases e : (files.flatMap (pairsOf S)).find? (fun p => p.1 == a) with _ | ⟨a', mg⟩
  · have := List.find?_eq_none.1 e (a, m) (List.mem_flatMap.2 ⟨f, hf, pairsOf_iff.2 ⟨x, hi, ha⟩⟩)
    simp at this
  · rw [e] at hrt
    simp only at hrt
    obtain ⟨before, after, g, h1, h2, h3, h4⟩ := find_first e
    simp only at h3
    subst h3
    obtain ⟨y, hy, hya⟩ := pairsOf_iff.1 h2
    have hg : g ∈ files := by rw [h1]; simp
    refine ⟨before, after, g, mg, y, h1, hy, hya, fun h hh mh z hz hza => h4 h hh mh (pairsOf_iff.2 ⟨z, hz, hza⟩), ?_⟩
    have hmp : modprobe S false seen (some (textOf (files.flatMap (pairsOf S)))) a' = loadModule S seen mg := by
      simp only [modprobe, tryMain, resolveAlias, hrt]
      rfl
    rw [hmp]
    obtain ⟨c, hc, _⟩ := id hy
    exact loadModule_loads ((hs g).2 hg) (ht g hg mg y hy).1 hy (fun f' hf' hp => hd g hg f' ((hs f').1 hf') mg c hc hp) (hb g hg mg c hc)

/-- An alias that no module has is not found, and nothing is loaded. -/
theorem C114_absent_partial {S : Sys} {files seen : List File} {a : Bytes} (hr : Readable S files) (ht : Tidy S files)
    (hn : ∀ f ∈ files, ∀ m x, Image S f m x → ¬ HasAlias S x a) :
    ∃ (n : Nat), ∀ room, n ≤ room → modprobe S false seen (some (depmod S files room).2) a = (.error .aliasNotFound, []) := by
  refine ⟨(textOf (files.flatMap (pairsOf S))).length, fun room hl => ?_⟩
  rw [depmod_text hr hl]
  have hrt := resolve_text a (pairs_tidy hr ht)
  rcases e : (files.flatMap (pairsOf S)).find? (fun p => p.1 == a) with _ | ⟨a', mg⟩
  · rw [e] at hrt
    simp only [modprobe, tryMain, resolveAlias, hrt]
    rfl
  · obtain ⟨before, after, g, h1, h2, h3, _⟩ := find_first e
    simp only at h3
    subst h3
    obtain ⟨y, hy, hya⟩ := pairsOf_iff.1 h2
    exact absurd hya (hn g (by rw [h1]; simp) mg y hy)

/-- A line of `modules.alias` that is not an alias, such as a comment, changes nothing. -/
theorem C114_comment (S : Sys) (quiet : Bool) (seen : List File) {l : Bytes} (s a : Bytes) (ht : Text l) (hn : 10 ∉ l) (hcr : l.getLast? ≠ some 13)
    (ha : ¬ [97, 108, 105, 97, 115, 32] <+: l) : modprobe S quiet seen (some (l ++ 10 :: s)) a = modprobe S quiet seen (some s) a := by
  have hu : utf8 l = true := utf8_iff.2 ht
  have hp : parseAliasLine l = .ok none := by
    unfold parseAliasLine
    rcases e : stripPrefix aliasSp l with _ | r
    · rfl
    · exact absurd ⟨r, (stripPrefix_some e).symm⟩ ha
  have hr : resolveAlias (some (l ++ 10 :: s)) a = resolveAlias (some s) a := by
    simp only [resolveAlias, lines_append hn, stripCr, if_neg hcr, resolveLines, hu, if_true, hp]
  simp only [modprobe, tryMain, hr]

/-- Whatever is in the files, at most one image is given to the kernel, it is an object read from a file of the tree, and quiet or not makes no difference to that. -/
theorem C114_loaded (S : Sys) (quiet : Bool) (seen : List File) (aliasFile : Option Bytes) (a : Bytes) (hg : ∀ m fs, ∀ f ∈ S.glob m fs, f ∈ fs) :
    (modprobe S quiet seen aliasFile a).2 = (modprobe S false seen aliasFile a).2 ∧ (modprobe S true seen aliasFile a).1 = .ok () ∧
    ((modprobe S quiet seen aliasFile a).2 = [] ∨ ∃ f ∈ seen, ∃ (c : Compression) (x : Bytes),
      S.read c f.content = .ok x ∧ [0x7f, 0x45, 0x4c, 0x46] <+: x ∧ (modprobe S quiet seen aliasFile a).2 = [x]) := by
  have h2 : (modprobe S quiet seen aliasFile a).2 = (tryMain S seen aliasFile a).2 := by
    cases quiet <;> rfl
  refine ⟨by rw [h2]; rfl, rfl, ?_⟩
  rw [h2]
  unfold tryMain
  rcases resolveAlias aliasFile a with er | m
  · exact .inl rfl
  · simp only [loadModule]
    rcases e : globModule S seen m with _ | ⟨f, fs⟩
    · exact .inl rfl
    · have hf : f ∈ seen := by
        have : f ∈ globModule S seen m := by rw [e]; exact List.mem_cons_self
        unfold globModule at this
        split at this
        · exact hg _ _ _ this
        · exact (List.mem_filter.1 this).1
      simp only
      rcases er : S.read (compressionOf f.name) f.content with _ | x
      · exact .inl rfl
      · simp only
        by_cases hp : [0x7f, 0x45, 0x4c, 0x46].isPrefixOf x
        · rw [if_pos hp]
          refine .inr ⟨f, hf, _, x, er, List.isPrefixOf_iff_prefix.1 hp, ?_⟩
          rcases S.init x with _ | _ <;> rfl
        · rw [if_neg hp]
          exact .inl rfl

/-- The directory of the kernel's release is used by no system, since it can only be a directory below a directory. -/
theorem C114_release_violated (stat : List Bytes → Except Nat Bool) (lib modules release : Bytes) (hp : stat [lib, modules, release] = .ok true → stat [lib, modules] = .ok true) :
    resolveModulesDir stat lib modules release ≠ .ok [lib, modules, release] := by
  unfold resolveModulesDir
  intro h
  rcases e : stat [lib, modules] with _ | _ | _
  · rw [e] at h; cases h
  · rw [e] at h
    simp only at h
    rcases e2 : stat [lib, modules, release] with _ | _ | _
    · rw [e2] at h; cases h
    · rw [e2] at h; cases h
    · rw [hp e2] at e; cases e
  · rw [e] at h
    simp at h

end Verif.Modules
