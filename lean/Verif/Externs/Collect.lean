import Verif.Externs.Spec

/-! # Collecting and resolving externs: proofs -/
set_option linter.unusedSimpArgs false
set_option linter.unusedVariables false
namespace Verif.Externs
open Verif.Btf Verif.Btf.Spec Verif.Core.Spec Verif.Externs.Spec

/-- The outcome of `findKsyms` says where the first section called `.ksyms` is. -/
def KsymsAt (b : Btf) (i : Nat) (ts : List BtfType) : Option (Nat × List SecEntry) → Prop
  | none => ∀ (k : Nat) n f s es, ts[k]? = some (.dataSec n f s es) → ¬ StringAt b.strings n ".ksyms".toUTF8.toList
  | some (d, es) => ∃ k n f s, d = i + k ∧ ts[k]? = some (.dataSec n f s es) ∧
      StringAt b.strings n ".ksyms".toUTF8.toList ∧
      ∀ (j : Nat) n f s es, j < k → ts[j]? = some (.dataSec n f s es) → ¬ StringAt b.strings n ".ksyms".toUTF8.toList

theorem ksymsAt_skip {b : Btf} {i : Nat} {t : BtfType} {ts : List BtfType} {r : Option (Nat × List SecEntry)}
    (hne : ∀ n f s es, t = .dataSec n f s es → ¬ StringAt b.strings n ".ksyms".toUTF8.toList)
    (ih : KsymsAt b (i + 1) ts r) : KsymsAt b i (t :: ts) r := by
  rcases r with _ | ⟨d, es⟩
  · intro k n f s es hk
    cases k with
    | zero => simp at hk; exact hne _ _ _ _ hk
    | succ k => exact ih k n f s es (by simpa using hk)
  · obtain ⟨k, n, f, s, h1, h2, h3, h4⟩ := ih
    refine ⟨k + 1, n, f, s, by omega, by simpa using h2, h3, ?_⟩
    intro j n f s es hj hs
    cases j with
    | zero => simp at hs; exact hne _ _ _ _ hs
    | succ j => exact h4 j n f s es (by omega) (by simpa using hs)

theorem findKsyms_sound (b : Btf) : ∀ (ts : List BtfType) (i : Nat) (r : Option (Nat × List SecEntry)),
    findKsyms b i ts = .ok r → KsymsAt b i ts r
  | [], i, r, h => by
    cases h
    intro k n f s es hk; simp at hk
  | t :: ts, i, r, h => by
    cases t with
    | dataSec n f s es =>
      simp only [findKsyms] at h
      rcases e : b.stringAt n with x | str
      · rw [e] at h; cases h
      · rw [e] at h
        have hs := C17_string b n str e
        simp only at h
        split at h
        · rename_i hk; subst hk; cases h
          exact ⟨0, n, f, s, rfl, rfl, hs, fun j _ _ _ _ hj => by omega⟩
        · rename_i hk
          refine ksymsAt_skip ?_ (findKsyms_sound b ts (i + 1) r h)
          intro n' f' s' es' he hs'
          cases he
          exact hk (stringAt_unique hs hs')
    | _ => exact ksymsAt_skip (fun _ _ _ _ he => nomatch he)
            (findKsyms_sound b ts (i + 1) r (by simpa only [findKsyms] using h))

theorem prefix_get {α : Type} {l l' : List α} (h : l <+: l') {k : Nat} {a : α} (ha : l[k]? = some a) : l'[k]? = some a := by
  obtain ⟨r, rfl⟩ := h
  rw [List.getElem?_append_left (by have := List.getElem?_eq_some_iff.mp ha; exact this.1)]
  exact ha

theorem extends_trans {b b' b'' : Btf} (h : Extends b b') (h' : Extends b' b'') : Extends b b'' :=
  ⟨h.1.trans h'.1, h.2.trans h'.2⟩

theorem addString_extends (b : Btf) (s : List UInt8) : Extends b (b.addString s).1 :=
  ⟨List.prefix_refl _, ⟨s ++ [0], by simp [Btf.addString]⟩⟩

theorem addType_extends (b : Btf) (t : BtfType) : Extends b (b.addType t).1 :=
  ⟨⟨[t], rfl⟩, List.prefix_refl _⟩

theorem createPlaceholder_extends (b : Btf) : Extends b (createPlaceholder b).1 := by
  unfold createPlaceholder
  rcases e : findInt4 0 b.types with _ | id
  · exact extends_trans (addString_extends _ _) (extends_trans (addType_extends _ _)
      (extends_trans (addString_extends _ _) (addType_extends _ _)))
  · exact extends_trans (addString_extends _ _) (addType_extends _ _)

theorem entryType_sound {b : Btf} {e : SecEntry} {name : Name} {f : Bool} {t : Nat}
    (h : entryType b e = .ok (name, f, t)) : Declares b e name f t := by
  unfold entryType typeById at h
  rcases ht : b.types[e.ty]? with _ | ty
  · rw [ht] at h; cases h
  · rw [ht] at h
    cases ty with
    | ref k n i p =>
      cases k with
      | func =>
        simp only at h
        rcases hs : b.stringAt n with x | s
        · rw [hs] at h; cases h
        · rw [hs] at h; cases h
          exact .inl ⟨rfl, n, i, ht, C17_string _ _ _ hs⟩
      | _ => cases h
    | var n i v l =>
      simp only at h
      rcases hs : b.stringAt n with x | s
      · rw [hs] at h; cases h
      · rw [hs] at h; cases h
        exact .inr ⟨rfl, n, i, l, ht, C17_string _ _ _ hs⟩
    | _ => cases h

theorem describe_sound {b : Btf} {syms : List Sym} {e : SecEntry} {name : Name} {x : Ext}
    (h : describe b syms e = .ok (name, x)) : Describes b syms e name x ∧ x.essential = beforeFlavor name := by
  unfold describe at h
  rcases he : entryType b e with y | ⟨nm, f, ty⟩
  · rw [he] at h; cases h
  · rw [he] at h
    simp only at h
    rcases hf : findSymbol syms nm with _ | sym
    · rw [hf] at h; cases h
    · rw [hf] at h
      simp only at h
      rcases hr : resolveType b.types ty with y | r
      · rw [hr] at h; cases h
      · rw [hr] at h
        simp only [Except.ok.injEq, Prod.mk.injEq] at h
        obtain ⟨rfl, rfl⟩ := h
        obtain ⟨k, hk, hl, t, ht, hn⟩ := ((C15_resolve b.types ty).1 r).mp hr
        have hm := List.mem_of_find?_eq_some hf
        have hp := List.find?_some hf
        have hp : sym.name = some nm := by simpa using hp
        refine ⟨⟨f, ty, r, t, entryType_sound he, ⟨k, hk, hl, ht, hn⟩, ⟨sym, hm, hp, ?_⟩, ?_, ?_, ?_, ?_⟩, ?_⟩ <;>
          cases f <;> by_cases h0 : r = 0 <;> simp [h0, Ext.new]

theorem describeAll_sound {b : Btf} {syms : List Sym} : ∀ {es : List SecEntry} {ds : List (Name × Ext)},
    describeAll b syms es = .ok ds →
    (∀ d ∈ ds, ∃ e ∈ es, Describes b syms e d.1 d.2 ∧ d.2.essential = beforeFlavor d.1) ∧
    (∀ e ∈ es, ∃ d ∈ ds, Describes b syms e d.1 d.2)
  | [], ds, h => by cases h; exact ⟨by simp, by simp⟩
  | e :: es, ds, h => by
    simp only [describeAll] at h
    rcases h1 : describe b syms e with y | ⟨n, x⟩
    · rw [h1] at h; cases h
    · rw [h1] at h
      simp only at h
      rcases h2 : describeAll b syms es with y | ds'
      · rw [h2] at h; cases h
      · rw [h2] at h; cases h
        obtain ⟨i1, i2⟩ := describeAll_sound h2
        have hd := describe_sound h1
        constructor
        · intro d hd'
          rcases List.mem_cons.mp hd' with rfl | hm
          · exact ⟨e, by simp, hd⟩
          · obtain ⟨e', he', g⟩ := i1 d hm
            exact ⟨e', by simp [he'], g⟩
        · intro e' he'
          rcases List.mem_cons.mp he' with rfl | hm
          · exact ⟨(n, x), by simp, hd.1⟩
          · obtain ⟨d, hd', g⟩ := i2 e' hm
            exact ⟨d, by simp [hd'], g⟩

theorem fold_insert (ds : List (Name × Ext)) : ∀ t : List (Name × Ext), (t.map Prod.fst).Nodup →
    ((ds.foldl (fun t p => insert t p.1 p.2) t).map Prod.fst).Nodup ∧
    (∀ p ∈ ds.foldl (fun t p => insert t p.1 p.2) t, p ∈ t ∨ p ∈ ds) ∧
    (∀ p : Name × Ext, p ∈ t ∨ p ∈ ds → ∃ y, (p.1, y) ∈ ds.foldl (fun t p => insert t p.1 p.2) t) := by
  induction ds with
  | nil => intro t h; exact ⟨h, fun p hp => .inl hp, fun p hp => ⟨p.2, by simpa using hp⟩⟩
  | cons d ds ih =>
    intro t h
    have hn : ((insert t d.1 d.2).map Prod.fst).Nodup := by
      unfold insert
      rw [List.map_append, List.nodup_append]
      refine ⟨(List.filter_sublist.map Prod.fst).nodup h, by simp, ?_⟩
      intro a ha c hc
      obtain ⟨p, hp, rfl⟩ := List.mem_map.mp ha
      have := (List.mem_filter.mp hp).2
      simp at hc this
      subst hc; exact this
    obtain ⟨g1, g2, g3⟩ := ih _ hn
    refine ⟨g1, ?_, ?_⟩
    · intro p hp
      rcases g2 p hp with hp | hp
      · unfold insert at hp
        rcases List.mem_append.mp hp with hp | hp
        · exact .inl (List.mem_filter.mp hp).1
        · simp at hp; exact .inr (by simp [hp])
      · exact .inr (by simp [hp])
    · intro p hp
      by_cases hpd : p.1 = d.1
      · obtain ⟨y, hy⟩ := g3 (d.1, d.2) (.inl (by simp [insert]))
        exact ⟨y, by rw [hpd]; exact hy⟩
      · refine g3 p ?_
        rcases hp with hp | hp
        · exact .inl (by simp [insert, hp, hpd])
        · rcases List.mem_cons.mp hp with rfl | hp
          · exact absurd rfl hpd
          · exact .inr hp

theorem beforeFlavor_base : ∀ n : Name, Base n ((beforeFlavor n).getD n)
  | [] => ⟨.inl rfl, fun a r h => by simp at h⟩
  | c :: cs => by
    unfold beforeFlavor
    split
    · rename_i r e
      exact ⟨.inr ⟨r, e⟩, fun a r _ => by simp⟩
    · rename_i c' cs' hne e
      cases e
      have := Core.base_cons (c := c) (beforeFlavor_base cs) (fun r h => by cases h; exact hne _ rfl rfl)
      rcases e : beforeFlavor cs with _ | w <;> rw [e] at this <;> exact this
    · rename_i e; cases e

end Verif.Externs
