import Verif.Conv.Inv
/-!
# The code does what the operations mean
-/
set_option linter.unusedVariables false
set_option linter.unusedSimpArgs false
namespace Verif.Conv
open Verif.Conv.Spec (K Obj Shape Op Out Have By A offers accepts convertible)

variable {gs : List (Handle × Have)} {s : St} {a : A} {pick : List (Nat × Obj) → Nat}

/-- Same results, and related states. -/
def Same (x : Out × St) (y : Out × A) : Prop := x.1 = y.1 ∧ ∃ gs', Rel gs' x.2 y.2

theorem attachOne_own (hp : Spec.Fresh pick) {k : K} {l : List (Nat × Obj)} {d : List Nat} (prog t : Nat) (o : Nat → Obj)
    (h : Own k l d) : Own (attachOne pick prog t o k).2 (((attachOne pick prog t o k).1, o k.made.length) :: l) d :=
  Own.open hp (h.made (by simp))

theorem attachMany_own (hp : Spec.Fresh pick) (prog t : Nat) (o : Nat → Obj) : ∀ (n : Nat) (k : K) (l : List (Nat × Obj)) (d : List Nat),
    Own k l d → ∃ fds, (attachMany pick prog t o n k).1 = fds ∧ fds.length = n ∧
      (attachMany pick prog t o n k).2.made = k.made ++ List.replicate n (prog, t) ∧
      (attachMany pick prog t o n k).2.files = k.files ∧
      Own (attachMany pick prog t o n k).2 ((fds.zip (List.range' k.made.length n)).map (fun p => (p.1, o p.2)) ++ l) d
  | 0, k, l, d, h => ⟨[], rfl, rfl, by simp [attachMany], rfl, by simpa [attachMany] using h⟩
  | n + 1, k, l, d, h => by
    obtain ⟨fds, e, len, m, f, own⟩ := attachMany_own hp prog t o n _ _ _ (attachOne_own hp prog t o h)
    have hm : (attachOne pick prog t o k).2.made = k.made ++ [(prog, t)] := rfl
    refine ⟨(attachOne pick prog t o k).1 :: fds, ?_, by simp [len], ?_, ?_, ?_⟩
    · simp only [attachMany, e]
    · simp only [attachMany, m, hm, List.append_assoc, List.replicate_succ, List.singleton_append]
    · simp only [attachMany, f]; rfl
    · simp only [attachMany]
      refine own.mono ?_ (.refl _)
      rw [hm]
      simp only [List.length_append, List.length_cons, List.length_nil, Nat.zero_add, List.range'_succ, List.zip_cons_cons,
        List.map_cons, List.cons_append]
      exact List.perm_middle

theorem offers_accepts {k : Kind} {t : Nat} (h : offers k (.link t) = true) : convertible k = true → accepts k t = true := by
  cases k <;> simp_all [offers, accepts, convertible]

theorem offers_iter {k : Kind} {sh : Shape} (h : offers k sh = true) (hs : ∀ t, sh ≠ .link t) : k ≠ .iter := by
  rintro rfl
  cases sh <;> simp_all [offers]

theorem attach_same (hp : Spec.Fresh pick) (r : Rel gs s a) (k : Kind) (sh : Shape) (prog : Nat) (fail : Option Nat) :
    Same (step pick s (.attach k sh prog) fail) (Spec.step a (.attach k sh prog) fail) := by
  simp only [step, Spec.step]
  rcases Bool.eq_false_or_eq_true (offers k sh) with e | e
  case inr => simp only [e]; exact ⟨rfl, gs, r⟩
  simp only [e, if_true]
  refine ⟨rfl, ?_⟩
  have hlen : s.k.made.length = a.made.length := by rw [r.made]
  have fin : ∀ (l : Inner) (b : By) (us : List Nat) (k' : K) (more : List (Nat × Nat)),
      attach pick sh prog s.k = (l, k') → a.attach k sh prog = ⟨a.made ++ more, a.have_ ++ [.typed k b us], a.files, a.left⟩ →
      k'.made = a.made ++ more → k'.files = a.files → Match (a.made ++ more) (.typed k l) (.typed k b us) →
      Own k' (objs (.typed k l, .typed k b us) ++ gs.flatMap objs)
        (directs (.typed k l, .typed k b us) ++ (gs.flatMap directs ++ a.left)) →
      ∃ gs', Rel gs' ⟨s.hs ++ [.typed k (attach pick sh prog s.k).1], (attach pick sh prog s.k).2⟩ (a.attach k sh prog) := by
    intro l b us k' more e1 e2 hm hf hmatch hown
    rw [e1, e2]
    refine ⟨gs ++ [(.typed k l, .typed k b us)], by simp [r.hs], by simp [r.have_], fun g hg => ?_, ?_, hf, hm, fun f hfm => ?_⟩
    · rcases List.mem_append.1 hg with h | h
      · exact (r.matches_ g h).grow
      · rw [List.mem_singleton.1 h]; exact hmatch
    · refine hown.mono ?_ ?_
      · simp only [List.flatMap_append, List.flatMap_cons, List.flatMap_nil, List.append_nil]
        exact List.perm_append_comm
      · simp only [List.flatMap_append, List.flatMap_cons, List.flatMap_nil, List.append_nil, ← List.append_assoc]
        exact List.perm_append_comm.append_right _
    · exact Nat.lt_of_lt_of_le (r.named f hfm) (by simp)
  cases sh with
  | link t =>
    refine fin (.fd (attachOne pick prog t .link s.k).1) .link [a.made.length] _ [(prog, t)] rfl rfl ?_ r.files ?_ ?_
    · rw [← r.made]; rfl
    · exact .fd (p := prog) (t := t) (by simp) (offers_accepts e)
    · have := attachOne_own hp prog t .link r.own
      rw [hlen] at this
      exact this
  | direct =>
    refine fin (.direct s.k.made.length) .direct [a.made.length] _ [(prog, 0)] rfl rfl ?_ r.files ?_ ?_
    · show s.k.made ++ _ = _; rw [r.made]
    · rw [hlen]; exact .direct (offers_iter e (by simp))
    · have ho := r.own
      refine ⟨ho.fds, ho.nodup, ?_, ?_, ?_⟩
      · exact List.perm_append_comm.trans (ho.direct.cons _)
      · refine List.nodup_append.2 ⟨ho.dnodup, by simp, fun x hx y hy => ?_⟩
        rw [List.mem_singleton.1 hy]
        exact Nat.ne_of_lt (ho.bound x hx)
      · intro u hu
        show u < (s.k.made ++ [(prog, 0)]).length
        rw [List.length_append]
        rcases List.mem_append.1 hu with h | h
        · have := ho.bound u h; simp; omega
        · rw [List.mem_singleton.1 h]; simp
  | perf =>
    refine fin (.perf (attachOne pick prog 0 (.perf · true) s.k).1) .perf [a.made.length] _ [(prog, 0)] rfl rfl ?_ r.files ?_ ?_
    · rw [← r.made]; rfl
    · exact .perf (offers_iter e (by simp))
    · have := attachOne_own hp prog 0 (.perf · true) r.own
      rw [hlen] at this
      exact this
  | links n =>
    obtain ⟨fds, e1, len, m, f, own⟩ := attachMany_own hp prog 7 .link n _ _ _ r.own
    refine fin (.fds fds) .links (List.range' a.made.length n) (attachMany pick prog 7 .link n s.k).2 (List.replicate n (prog, 7)) (by rw [← e1]; rfl) rfl
      (by rw [m, r.made]) (by rw [f, r.files]) ?_ ?_
    · refine .fds (offers_iter e (by simp)) (by simp [len]) (fun u hu => ?_)
      have := List.mem_range'.1 hu
      simp
      omega
    · rw [hlen] at own; exact own
  | perfs n =>
    obtain ⟨fds, e1, len, m, f, own⟩ := attachMany_own hp prog 0 (.perf · true) n _ _ _ r.own
    refine fin (.perfs fds) .perfs (List.range' a.made.length n) (attachMany pick prog 0 (.perf · true) n s.k).2 (List.replicate n (prog, 0))
      (by rw [← e1]; rfl) rfl
      (by rw [m, r.made]) (by rw [f, r.files]) (.perfs (offers_iter e (by simp)) (by simp [len])) ?_
    rw [hlen] at own; exact own

/-! ## Letting go -/

theorem close_frame (fail : Option Nat) (fd : Nat) (k : K) :
    ((Spec.os pick fail).close fd k).made = k.made ∧ ((Spec.os pick fail).close fd k).files = k.files := ⟨rfl, rfl⟩

theorem closes_frame (fail : Option Nat) : ∀ (fds : List Nat) (k : K),
    (fds.foldl (fun s fd => (Spec.os pick fail).close fd s) k).made = k.made ∧
    (fds.foldl (fun s fd => (Spec.os pick fail).close fd s) k).files = k.files
  | [], _ => ⟨rfl, rfl⟩
  | fd :: fds, k => by
    have := closes_frame fail fds ((Spec.os pick fail).close fd k)
    exact ⟨this.1, this.2⟩

theorem detachPerfs_frame (fail : Option Nat) : ∀ (fds : List Nat) (k : K),
    (fds.foldl (fun s fd => detachPerf (Spec.os pick fail) fd s) k).made = k.made ∧
    (fds.foldl (fun s fd => detachPerf (Spec.os pick fail) fd s) k).files = k.files
  | [], _ => ⟨rfl, rfl⟩
  | fd :: fds, k => by
    have := detachPerfs_frame fail fds (detachPerf (Spec.os pick fail) fd k)
    exact ⟨this.1, this.2⟩

theorem zip_fst {o : Nat → Obj} : ∀ (fds us : List Nat), fds.length = us.length →
    ((fds.zip us).map (fun p => (p.1, o p.2))).map (·.1) = fds
  | [], _, _ => by simp
  | _ :: _, [], h => by simp at h
  | fd :: fds, u :: us, h => by simp [zip_fst (o := o) fds us (by simpa using h)]

/-- Detaching a typed link. -/
theorem detach_own {k : Kind} {l : Inner} {b : By} {us : List Nat} {L : List (Nat × Obj)} {D left : List Nat} {K0 : K} {made}
    (fail : Option Nat) (m : Match made (.typed k l) (.typed k b us))
    (h : Own K0 (objs (.typed k l, .typed k b us) ++ L) (directs (.typed k l, .typed k b us) ++ (D ++ left))) :
    ((detachParts (Spec.os pick fail) k l K0).2.made = K0.made ∧ (detachParts (Spec.os pick fail) k l K0).2.files = K0.files) ∧
    Own (detachParts (Spec.os pick fail) k l K0).2 L (D ++ (if b = .direct ∧ fail.isSome then left ++ us else left)) ∧
    out 0 (detachParts (Spec.os pick fail) k l K0).1 = Spec.undone k b fail := by
  cases m with
  | fd e f =>
    simp only [objs, directs, List.nil_append, List.cons_append] at h
    exact ⟨⟨rfl, rfl⟩, by simpa [detachParts] using Own.close h, by cases fail <;> rfl⟩
  | direct e =>
    simp only [objs, directs, List.nil_append, List.cons_append] at h
    rcases fail with _ | n
    · exact ⟨⟨rfl, rfl⟩, by simpa [detachParts] using Own.detach (pick := pick) h, rfl⟩
    · refine ⟨⟨rfl, rfl⟩, ?_, ?_⟩
      · simp only [detachParts, Option.isSome_some, and_true, if_true]
        refine h.mono (.refl _) ?_
        rw [← List.append_assoc D]
        exact List.perm_append_comm (l₁ := [_])
      · cases k <;> rfl
  | perf e =>
    simp only [objs, directs, List.nil_append, List.cons_append] at h
    exact ⟨⟨rfl, rfl⟩, by simpa [detachParts] using Own.detachPerf h, by cases fail <;> rfl⟩
  | @fds _ fds us e len g =>
    simp only [objs, directs, List.nil_append, List.cons_append] at h
    refine ⟨closes_frame fail fds K0, ?_, by cases fail <;> rfl⟩
    have := Own.closes (pick := pick) (fail := fail) _ h
    rw [zip_fst (o := .link) fds us len] at this
    simpa [detachParts] using this
  | @perfs _ fds us e len =>
    simp only [objs, directs, List.nil_append, List.cons_append] at h
    exact ⟨detachPerfs_frame fail fds K0, by simpa [detachParts] using Own.detachPerfs (pick := pick) (fail := fail) fds us len h, by cases fail <;> rfl⟩

/-- Dropping the parts of a typed link. -/
theorem dropParts_own {k : Kind} {l : Inner} {b : By} {us : List Nat} {L : List (Nat × Obj)} {D left : List Nat} {K0 : K} {made}
    (fail : Option Nat) (m : Match made (.typed k l) (.typed k b us))
    (h : Own K0 (objs (.typed k l, .typed k b us) ++ L) (directs (.typed k l, .typed k b us) ++ (D ++ left))) :
    ((dropParts (Spec.os pick fail) l K0).made = K0.made ∧ (dropParts (Spec.os pick fail) l K0).files = K0.files) ∧
    Own (dropParts (Spec.os pick fail) l K0) L (D ++ (if b = .direct then left ++ us else left)) := by
  cases m with
  | fd e f =>
    simp only [objs, directs, List.nil_append, List.cons_append] at h
    exact ⟨⟨rfl, rfl⟩, by simpa [dropParts] using Own.close h⟩
  | direct e =>
    simp only [objs, directs, List.nil_append, List.cons_append] at h
    refine ⟨⟨rfl, rfl⟩, ?_⟩
    simp only [dropParts, if_true]
    refine h.mono (.refl _) ?_
    rw [← List.append_assoc D]
    exact List.perm_append_comm (l₁ := [_])
  | perf e =>
    simp only [objs, directs, List.nil_append, List.cons_append] at h
    exact ⟨⟨rfl, rfl⟩, by simpa [dropParts] using Own.close h⟩
  | @fds _ fds us e len g =>
    simp only [objs, directs, List.nil_append, List.cons_append] at h
    refine ⟨closes_frame fail fds K0, ?_⟩
    have := Own.closes (pick := pick) (fail := fail) _ h
    rw [zip_fst (o := .link) fds us len] at this
    simpa [dropParts] using this
  | @perfs _ fds us e len =>
    simp only [objs, directs, List.nil_append, List.cons_append] at h
    refine ⟨closes_frame fail fds K0, ?_⟩
    have := Own.closes (pick := pick) (fail := fail) _ h
    rw [zip_fst (o := (.perf · true)) fds us len] at this
    simpa [dropParts] using this

/-- A link is consumed and nothing is made. -/
theorem Rel.gone (r : Rel gs s a) (i : Nat) {k' : K} {left : List Nat} (hk : k'.made = s.k.made) (hf : k'.files = s.k.files)
    (hown : Own k' ((gs.eraseIdx i).flatMap objs) ((gs.eraseIdx i).flatMap directs ++ left)) :
    ∃ gs', Rel gs' ⟨s.hs.eraseIdx i, k'⟩ { a.take i with left := left } := by
  have := r.next i [] (k' := k') (a' := { a.take i with left := left }) (by simp [A.take]) rfl (by rw [hk, r.made])
    (by rw [hf, r.files]; rfl) r.named (by simp) (by simpa using hown)
  exact ⟨_, by simpa using this⟩

theorem undo_eq (x : A) (b : By) (us : List Nat) (fail : Option Nat) :
    x.undo b us fail = { x with left := if b = .direct ∧ fail.isSome then x.left ++ us else x.left } := by
  simp only [A.undo]
  split <;> simp_all

theorem giveUp_eq (x : A) (b : By) (us : List Nat) :
    x.giveUp b us = { x with left := if b = .direct then x.left ++ us else x.left } := by
  simp only [A.giveUp]
  split <;> simp_all

theorem drop_same (r : Rel gs s a) (i : Nat) (fail : Option Nat) :
    Same (step pick s (.drop i) fail) (Spec.step a (.drop i) fail) := by
  simp only [step, Spec.step]
  rcases r.at i with ⟨_, e1, e2⟩ | ⟨h, v, eg, e1, e2, m⟩
  · rw [e1, e2]; exact ⟨rfl, gs, r⟩
  rw [e1, e2]
  have own := r.take eg
  have typed : ∀ k l b us, h = .typed k l → v = .typed k b us →
      Same (Out.made 0, (⟨s.hs.eraseIdx i, dropHandle (Spec.os pick fail) (.typed k l) s.k⟩ : St)) (Out.made 0, (a.take i).undo b us fail) := by
    rintro k l b us rfl rfl
    obtain ⟨⟨hm, hf⟩, ho, _⟩ := detach_own (pick := pick) fail m own
    rw [undo_eq]
    exact ⟨rfl, r.gone i hm hf ho⟩
  have plain : ∀ fd o, objs (h, v) = [(fd, o)] → directs (h, v) = [] →
      dropHandle (Spec.os pick fail) h s.k = (Spec.os pick fail).close fd s.k →
      Same (Out.made 0, (⟨s.hs.eraseIdx i, dropHandle (Spec.os pick fail) h s.k⟩ : St)) (Out.made 0, a.take i) := by
    intro fd o ho hd hdrop
    rw [ho, hd] at own
    rw [hdrop]
    exact ⟨rfl, r.gone i rfl rfl (Own.close own)⟩
  cases m with
  | fd e f => exact typed _ _ _ _ rfl rfl
  | direct e => exact typed _ _ _ _ rfl rfl
  | perf e => exact typed _ _ _ _ rfl rfl
  | fds e f g => exact typed _ _ _ _ rfl rfl
  | perfs e f => exact typed _ _ _ _ rfl rfl
  | fdLink e => exact plain _ _ rfl rfl rfl
  | pinned e => exact plain _ _ rfl rfl rfl
  | file => exact plain _ _ rfl rfl rfl

theorem detach_same (r : Rel gs s a) (i : Nat) (fail : Option Nat) :
    Same (step pick s (.detach i) fail) (Spec.step a (.detach i) fail) := by
  simp only [step, Spec.step]
  rcases r.at i with ⟨_, e1, e2⟩ | ⟨h, v, eg, e1, e2, m⟩
  · rw [e1, e2]; exact ⟨rfl, gs, r⟩
  rw [e1, e2]
  have own := r.take eg
  have typed : ∀ k l b us, h = .typed k l → v = .typed k b us →
      Same (out 0 (detachLink (Spec.os pick fail) k l s.k).1, (⟨s.hs.eraseIdx i, (detachLink (Spec.os pick fail) k l s.k).2⟩ : St))
        (Spec.undone k b fail, (a.take i).undo b us fail) := by
    rintro k l b us rfl rfl
    obtain ⟨⟨hm, hf⟩, ho, hr⟩ := detach_own (pick := pick) fail m own
    rw [undo_eq]
    exact ⟨hr, r.gone i hm hf ho⟩
  cases m with
  | fd e f => exact typed _ _ _ _ rfl rfl
  | direct e => exact typed _ _ _ _ rfl rfl
  | perf e => exact typed _ _ _ _ rfl rfl
  | fds e f g => exact typed _ _ _ _ rfl rfl
  | perfs e f => exact typed _ _ _ _ rfl rfl
  | fdLink e => exact ⟨rfl, r.gone i rfl rfl (Own.close own)⟩
  | pinned e => exact ⟨rfl, gs, r⟩
  | file => exact ⟨rfl, gs, r⟩

/-! ## Conversions -/

/-- A link becomes another, over the same descriptors. -/
theorem Rel.become (r : Rel gs s a) {i : Nat} {g : Handle × Have} (eg : gs[i]? = some g) (new : List (Handle × Have))
    (hnew : ∀ g ∈ new, Match a.made g.1 g.2) (ho : new.flatMap objs = objs g) (hd : new.flatMap directs = directs g) :
    ∃ gs', Rel gs' ⟨s.hs.eraseIdx i ++ new.map (·.1), s.k⟩ ((a.take i).put (new.map (·.2))) :=
  ⟨_, r.next i new (by simp [A.take, A.put]) rfl r.made r.files r.named hnew (by
    rw [ho, hd]; exact r.take eg)⟩

theorem toFd_same (r : Rel gs s a) (i : Nat) (fail : Option Nat) :
    Same (step pick s (.toFd i) fail) (Spec.step a (.toFd i) fail) := by
  simp only [step, Spec.step]
  rcases r.at i with ⟨_, e1, e2⟩ | ⟨h, v, eg, e1, e2, m⟩
  · rw [e1, e2]; exact ⟨rfl, gs, r⟩
  rw [e1, e2]
  have own := r.take eg
  have lost : ∀ k l b us, h = .typed k l → v = .typed k b us →
      toFd (Spec.os pick fail) l s.k = (.error .invalidLink, dropParts (Spec.os pick fail) l s.k) →
      Same (out 1 (toFd (Spec.os pick fail) l s.k).1,
          (⟨s.hs.eraseIdx i ++ new .fdLink (toFd (Spec.os pick fail) l s.k).1, (toFd (Spec.os pick fail) l s.k).2⟩ : St))
        (.failed .invalidLink, (a.take i).giveUp b us) := by
    rintro k l b us rfl rfl e
    obtain ⟨⟨hm, hf⟩, ho⟩ := dropParts_own (pick := pick) fail m own
    rw [giveUp_eq, e]
    simp only [out, new, List.append_nil]
    exact ⟨rfl, r.gone i hm hf ho⟩
  cases m with
  | @fd k fd u p t e f =>
    refine ⟨rfl, r.become eg [(.fdLink fd, .fdLink u)] ?_ rfl rfl⟩
    intro g hg
    rw [List.mem_singleton.1 hg]
    exact .fdLink (List.getElem?_eq_some_iff.1 e).1
  | direct e => exact lost _ _ _ _ rfl rfl rfl
  | perf e => exact lost _ _ _ _ rfl rfl rfl
  | @fds _ _ us e f g => cases us <;> exact lost _ _ _ _ rfl rfl rfl
  | @perfs _ _ us e f => cases us <;> exact lost _ _ _ _ rfl rfl rfl
  | fdLink e => exact ⟨rfl, gs, r⟩
  | pinned e => exact ⟨rfl, gs, r⟩
  | file => exact ⟨rfl, gs, r⟩

theorem wanted_accepts {k : Kind} (hc : convertible k = true) (hk : k ≠ .tracing) (t : Nat) : (t ∈ wanted k) ↔ accepts k t = true := by
  cases k <;> simp_all [wanted, accepts, convertible]

theorem fromFd_eq (k : Kind) : fromFd k = convertible k := by cases k <;> rfl

theorem info_of {fd u : Nat} {k : K} {l : List (Nat × Obj)} {d : List Nat} (h : Own k ((fd, .link u) :: l) d) :
    (Spec.os pick none).info fd k = .ok ⟨u, (k.made[u]?.getD (0, 0)).1, (k.made[u]?.getD (0, 0)).2⟩ := by
  simp only [Spec.os, h.at]

theorem ofFd_same (r : Rel gs s a) (i : Nat) (k : Kind) (fail : Option Nat) :
    Same (step pick s (.ofFd i k) fail) (Spec.step a (.ofFd i k) fail) := by
  simp only [step, Spec.step]
  rcases r.at i with ⟨_, e1, e2⟩ | ⟨h, v, eg, e1, e2, m⟩
  · rw [e1, e2]; exact ⟨rfl, gs, r⟩
  rw [e1, e2]
  have own := r.take eg
  cases m with
  | fd e f => exact ⟨rfl, gs, r⟩
  | direct e => exact ⟨rfl, gs, r⟩
  | perf e => exact ⟨rfl, gs, r⟩
  | fds e f g => exact ⟨rfl, gs, r⟩
  | perfs e f => exact ⟨rfl, gs, r⟩
  | pinned e => exact ⟨rfl, gs, r⟩
  | file => exact ⟨rfl, gs, r⟩
  | @fdLink fd u e =>
    simp only [fromFd_eq]
    rcases Bool.eq_false_or_eq_true (convertible k) with hc | hc
    case inr => simp only [hc, if_true]; exact ⟨rfl, gs, r⟩
    simp only [hc, Bool.true_eq_false, if_false]
    obtain ⟨p, t, hmade⟩ : ∃ p t, a.made[u]? = some (p, t) := ⟨_, _, List.getElem?_eq_getElem e⟩
    have gone : ∃ gs', Rel gs' ⟨s.hs.eraseIdx i, (Spec.os pick fail).close fd s.k⟩ (a.take i) :=
      r.gone i rfl rfl (Own.close own)
    by_cases hk : k = .tracing
    · subst hk
      simp only [ofFd, if_true, out, new]
      refine ⟨rfl, r.become eg [(.typed .tracing (.fd fd), .typed .tracing .link [u])] ?_ rfl rfl⟩
      intro g hg
      rw [List.mem_singleton.1 hg]
      exact .fd hmade (fun _ => rfl)
    · rcases fail with _ | n
      · simp only [ofFd, hk, if_false, info_of own, A.type, hmade, r.made, Option.getD_some]
        by_cases hw : t ∈ wanted k
        · have ha := (wanted_accepts hc hk t).1 hw
          simp only [hw, if_true, ha, out, new]
          refine ⟨rfl, r.become eg [(.typed k (.fd fd), .typed k .link [u])] ?_ rfl rfl⟩
          intro g hg
          rw [List.mem_singleton.1 hg]
          exact .fd hmade (fun _ => ha)
        · have ha : accepts k t = false := by
            rcases Bool.eq_false_or_eq_true (accepts k t) with h | h
            · exact absurd ((wanted_accepts hc hk t).2 h) hw
            · exact h
          simp only [hw, if_false, ha, out, new, List.append_nil]
          exact ⟨rfl, gone⟩
      · have : (Spec.os pick (some n)).info fd s.k = .error n := rfl
        simp only [ofFd, hk, if_false, this, out, new, List.append_nil]
        exact ⟨rfl, gone⟩

theorem zip_links : ∀ (fds us : List Nat), fds.length = us.length →
    ((fds.zip us).map (fun p => (Handle.fdLink p.1, Have.fdLink p.2))).map (·.1) = fds.map .fdLink ∧
    ((fds.zip us).map (fun p => (Handle.fdLink p.1, Have.fdLink p.2))).map (·.2) = us.map .fdLink ∧
    ((fds.zip us).map (fun p => (Handle.fdLink p.1, Have.fdLink p.2))).flatMap objs = (fds.zip us).map (fun p => (p.1, .link p.2)) ∧
    ((fds.zip us).map (fun p => (Handle.fdLink p.1, Have.fdLink p.2))).flatMap directs = []
  | [], [], _ => by simp
  | [], _ :: _, h => by simp at h
  | _ :: _, [], h => by simp at h
  | fd :: fds, u :: us, h => by
    obtain ⟨h1, h2, h3, h4⟩ := zip_links fds us (by simpa using h)
    refine ⟨by simp [h1], by simp [h2], ?_, ?_⟩
    · simp only [List.zip_cons_cons, List.map_cons, List.flatMap_cons, h3, objs, List.singleton_append]
    · simp only [List.zip_cons_cons, List.map_cons, List.flatMap_cons, h4, directs, List.append_nil]

theorem intoFds_same (r : Rel gs s a) (i : Nat) (fail : Option Nat) :
    Same (step pick s (.intoFds i) fail) (Spec.step a (.intoFds i) fail) := by
  simp only [step, Spec.step]
  rcases r.at i with ⟨_, e1, e2⟩ | ⟨h, v, eg, e1, e2, m⟩
  · rw [e1, e2]; exact ⟨rfl, gs, r⟩
  rw [e1, e2]
  have back : ∀ l b us, (h, v) = (.typed .uprobe l, .typed .uprobe b us) →
      ∃ gs', Rel gs' ⟨s.hs.eraseIdx i ++ [.typed .uprobe l], s.k⟩ ((a.take i).put [.typed .uprobe b us]) := by
    intro l b us e
    rw [e] at eg
    obtain ⟨rfl, rfl⟩ := Prod.mk.inj e
    refine r.become eg [(.typed .uprobe l, .typed .uprobe b us)] ?_ (by simp) (by simp)
    intro g hg
    rw [List.mem_singleton.1 hg]
    exact m
  cases m with
  | @fd k fd u p t e f =>
    cases k <;> first | exact ⟨rfl, gs, r⟩ | skip
    simp only [intoFds, true_or, if_true]
    refine ⟨rfl, r.become eg [(.fdLink fd, .fdLink u)] ?_ rfl rfl⟩
    intro g hg
    rw [List.mem_singleton.1 hg]
    exact .fdLink (List.getElem?_eq_some_iff.1 e).1
  | @direct k u e =>
    cases k <;> first | exact ⟨rfl, gs, r⟩ | skip
    exact ⟨rfl, back _ _ _ rfl⟩
  | @perf k fd u e =>
    cases k <;> first | exact ⟨rfl, gs, r⟩ | skip
    exact ⟨rfl, back _ _ _ rfl⟩
  | @perfs k fds us e f =>
    cases k <;> first | exact ⟨rfl, gs, r⟩ | skip
    exact ⟨rfl, back _ _ _ rfl⟩
  | @fds k fds us e len g =>
    cases k <;> first | exact ⟨rfl, gs, r⟩ | skip
    obtain ⟨h1, h2, h3, h4⟩ := zip_links fds us len
    simp only [intoFds, or_true, if_true]
    refine ⟨by rw [len], ?_⟩
    have := r.become eg ((fds.zip us).map (fun p => (Handle.fdLink p.1, Have.fdLink p.2))) ?_ h3 h4
    · rw [h1, h2] at this; exact this
    · intro x hx
      obtain ⟨q, hq, rfl⟩ := List.mem_map.1 hx
      exact .fdLink (g _ (List.of_mem_zip hq).2)
  | fdLink e => exact ⟨rfl, gs, r⟩
  | pinned e => exact ⟨rfl, gs, r⟩
  | file => exact ⟨rfl, gs, r⟩

theorem intoFile_same (hp : Spec.Fresh pick) (r : Rel gs s a) (i : Nat) (fail : Option Nat) :
    Same (step pick s (.intoFile i) fail) (Spec.step a (.intoFile i) fail) := by
  simp only [step, Spec.step]
  rcases r.at i with ⟨_, e1, e2⟩ | ⟨h, v, eg, e1, e2, m⟩
  · rw [e1, e2]; exact ⟨rfl, gs, r⟩
  rw [e1, e2]
  have own := r.take eg
  cases m with
  | @fd k fd u p t e f =>
    cases k <;> first | exact ⟨rfl, gs, r⟩ | skip
    rcases fail with _ | n
    · have ht : t = 4 := by simpa [accepts] using f rfl
      subst ht
      have hcall : (Spec.os pick none).createIter fd s.k = (.ok (s.k.open pick (.out u)).1, (s.k.open pick (.out u)).2) := by
        simp only [Spec.os, Own.at own, r.made, e, Option.getD_some, if_true]
      simp only [intoFile, hcall, out, new]
      refine ⟨rfl, ?_⟩
      have hop := Own.open hp (o := .out u) own
      have hcl := Own.close (pick := pick) (fail := none) (hop.mono (List.Perm.swap _ _ _) (.refl _))
      exact ⟨_, r.next i [(.file (s.k.open pick (.out u)).1, .out u)] (a' := (a.take i).put [.out u]) rfl rfl
        (by rw [(close_frame none fd _).1]; exact r.made) (by rw [(close_frame none fd _).2]; exact r.files) r.named
        (fun g hg => by rw [List.mem_singleton.1 hg]; exact .file) hcl⟩
    · have hcall : (Spec.os pick (some n)).createIter fd s.k = (.error n, s.k) := rfl
      simp only [intoFile, hcall, out, new, List.append_nil]
      exact ⟨rfl, r.gone i rfl rfl (Own.close own)⟩
  | direct e => rename_i k u; cases k <;> first | exact ⟨rfl, gs, r⟩ | exact absurd rfl e
  | perf e => rename_i k fd u; cases k <;> first | exact ⟨rfl, gs, r⟩ | exact absurd rfl e
  | fds e f g => rename_i k fds us; cases k <;> first | exact ⟨rfl, gs, r⟩ | exact absurd rfl e
  | perfs e f => rename_i k fds us; cases k <;> first | exact ⟨rfl, gs, r⟩ | exact absurd rfl e
  | fdLink e => exact ⟨rfl, gs, r⟩
  | pinned e => exact ⟨rfl, gs, r⟩
  | file => exact ⟨rfl, gs, r⟩

/-! ## Files -/

theorem named_eq (r : Rel gs s a) (path : Nat) : s.k.named path = a.named path := by
  simp only [K.named, A.named, r.files]

theorem named_lt (r : Rel gs s a) {path u : Nat} (h : a.named path = some u) : u < a.made.length := by
  simp only [A.named, Option.map_eq_some_iff] at h
  obtain ⟨f, hf, rfl⟩ := h
  exact r.named f (List.mem_of_find?_eq_some hf)

theorem pin_same (r : Rel gs s a) (i path : Nat) (fail : Option Nat) :
    Same (step pick s (.pin i path) fail) (Spec.step a (.pin i path) fail) := by
  simp only [step, Spec.step]
  rcases r.at i with ⟨_, e1, e2⟩ | ⟨h, v, eg, e1, e2, m⟩
  · rw [e1, e2]; exact ⟨rfl, gs, r⟩
  rw [e1, e2]
  have own := r.take eg
  cases m with
  | fd e f => exact ⟨rfl, gs, r⟩
  | direct e => exact ⟨rfl, gs, r⟩
  | perf e => exact ⟨rfl, gs, r⟩
  | fds e f g => exact ⟨rfl, gs, r⟩
  | perfs e f => exact ⟨rfl, gs, r⟩
  | pinned e => exact ⟨rfl, gs, r⟩
  | file => exact ⟨rfl, gs, r⟩
  | @fdLink fd u e =>
    have gone : ∃ gs', Rel gs' ⟨s.hs.eraseIdx i, (Spec.os pick fail).close fd s.k⟩ (a.take i) :=
      r.gone i rfl rfl (Own.close own)
    rcases fail with _ | n
    · rcases en : a.named path with _ | w
      · have hcall : (Spec.os pick none).pin fd path s.k = (.ok (), { s.k with files := s.k.files ++ [(path, u)] }) := by
          simp only [Spec.os, Own.at own, named_eq r, en]
        simp only [pin, hcall, out, new]
        refine ⟨rfl, _, r.next i [(.pinned path fd, .pinned path u)] rfl rfl r.made (by rw [r.files]) ?_
          (fun g hg => by rw [List.mem_singleton.1 hg]; exact .pinned e) (Own.files own)⟩
        intro f hf
        rcases List.mem_append.1 hf with h | h
        · exact r.named f h
        · rw [List.mem_singleton.1 h]; exact e
      · have hcall : (Spec.os pick none).pin fd path s.k = (.error 17, s.k) := by
          simp only [Spec.os, Own.at own, named_eq r, en]
        simp only [pin, hcall, out, new, List.append_nil]
        exact ⟨rfl, gone⟩
    · have hcall : (Spec.os pick (some n)).pin fd path s.k = (.error n, s.k) := by
        simp only [Spec.os]
      simp only [pin, hcall, out, new, List.append_nil]
      exact ⟨rfl, gone⟩

theorem unpin_same (r : Rel gs s a) (i : Nat) (fail : Option Nat) :
    Same (step pick s (.unpin i) fail) (Spec.step a (.unpin i) fail) := by
  simp only [step, Spec.step]
  rcases r.at i with ⟨_, e1, e2⟩ | ⟨h, v, eg, e1, e2, m⟩
  · rw [e1, e2]; exact ⟨rfl, gs, r⟩
  rw [e1, e2]
  have own := r.take eg
  cases m with
  | fd e f => exact ⟨rfl, gs, r⟩
  | direct e => exact ⟨rfl, gs, r⟩
  | perf e => exact ⟨rfl, gs, r⟩
  | fds e f g => exact ⟨rfl, gs, r⟩
  | perfs e f => exact ⟨rfl, gs, r⟩
  | fdLink e => exact ⟨rfl, gs, r⟩
  | file => exact ⟨rfl, gs, r⟩
  | @pinned path fd u e =>
    have gone : ∃ gs', Rel gs' ⟨s.hs.eraseIdx i, (Spec.os pick fail).close fd s.k⟩ (a.take i) :=
      r.gone i rfl rfl (Own.close own)
    rcases fail with _ | n
    · rcases en : a.named path with _ | w
      · have hcall : (Spec.os pick none).unlink path s.k = (.error 2, s.k) := by
          simp only [Spec.os, named_eq r, en]
        simp only [unpin, hcall, out, new, List.append_nil, en]
        exact ⟨rfl, gone⟩
      · have hcall : (Spec.os pick none).unlink path s.k = (.ok (), { s.k with files := s.k.files.filter (·.1 ≠ path) }) := by
          simp only [Spec.os, named_eq r, en]
        simp only [unpin, hcall, out, new, en]
        exact ⟨rfl, _, r.next i [(.fdLink fd, .fdLink u)] rfl rfl r.made (by rw [r.files])
          (fun f hf => r.named f (List.mem_filter.1 hf).1)
          (fun g hg => by rw [List.mem_singleton.1 hg]; exact .fdLink e) (Own.files own)⟩
    · have hcall : (Spec.os pick (some n)).unlink path s.k = (.error n, s.k) := by
        simp only [Spec.os]
      simp only [unpin, hcall, out, new, List.append_nil]
      exact ⟨rfl, gone⟩

theorem unwrap_same (r : Rel gs s a) (i : Nat) (fail : Option Nat) :
    Same (step pick s (.unwrap i) fail) (Spec.step a (.unwrap i) fail) := by
  simp only [step, Spec.step]
  rcases r.at i with ⟨_, e1, e2⟩ | ⟨h, v, eg, e1, e2, m⟩
  · rw [e1, e2]; exact ⟨rfl, gs, r⟩
  rw [e1, e2]
  cases m with
  | fd e f => exact ⟨rfl, gs, r⟩
  | direct e => exact ⟨rfl, gs, r⟩
  | perf e => exact ⟨rfl, gs, r⟩
  | fds e f g => exact ⟨rfl, gs, r⟩
  | perfs e f => exact ⟨rfl, gs, r⟩
  | fdLink e => exact ⟨rfl, gs, r⟩
  | file => exact ⟨rfl, gs, r⟩
  | @pinned path fd u e =>
    refine ⟨rfl, r.become eg [(.fdLink fd, .fdLink u)] ?_ rfl rfl⟩
    intro g hg
    rw [List.mem_singleton.1 hg]
    exact .fdLink e

theorem fromPin_same (hp : Spec.Fresh pick) (r : Rel gs s a) (path : Nat) (fail : Option Nat) :
    Same (step pick s (.fromPin path) fail) (Spec.step a (.fromPin path) fail) := by
  simp only [step, Spec.step]
  rcases fail with _ | n
  · rcases en : a.named path with _ | u
    · have hcall : (Spec.os pick none).get path s.k = (.error 2, s.k) := by
        simp only [Spec.os, named_eq r, en]
      simp only [fromPin, hcall, out, new, List.append_nil]
      exact ⟨rfl, gs, r⟩
    · have hcall : (Spec.os pick none).get path s.k = (.ok (s.k.open pick (.link u)).1, (s.k.open pick (.link u)).2) := by
        simp only [Spec.os, named_eq r, en]
      simp only [fromPin, hcall, out, new]
      refine ⟨rfl, gs ++ [(.pinned path (s.k.open pick (.link u)).1, .pinned path u)], by simp [r.hs], by simp [r.have_, A.put], ?_, ?_,
        r.files, r.made, r.named⟩
      · intro g hg
        rcases List.mem_append.1 hg with h | h
        · exact r.matches_ g h
        · rw [List.mem_singleton.1 h]; exact .pinned (named_lt r en)
      · refine (Own.open hp (o := .link u) r.own).mono ?_ ?_
        · simp only [List.flatMap_append, List.flatMap_cons, List.flatMap_nil, List.append_nil, objs]
          exact List.perm_append_comm (l₁ := [_])
        · simp [directs, A.put]
  · have hcall : (Spec.os pick (some n)).get path s.k = (.error n, s.k) := by
      simp only [Spec.os]
    simp only [fromPin, hcall, out, new, List.append_nil]
    exact ⟨rfl, gs, r⟩

theorem info_same (r : Rel gs s a) (i : Nat) (fail : Option Nat) :
    Same (step pick s (.info i) fail) (Spec.step a (.info i) fail) := by
  simp only [step, Spec.step]
  rcases r.at i with ⟨_, e1, e2⟩ | ⟨h, v, eg, e1, e2, m⟩
  · rw [e1, e2]; exact ⟨rfl, gs, r⟩
  rw [e1, e2]
  have own := r.take eg
  cases m with
  | fd e f => exact ⟨rfl, gs, r⟩
  | direct e => exact ⟨rfl, gs, r⟩
  | perf e => exact ⟨rfl, gs, r⟩
  | fds e f g => exact ⟨rfl, gs, r⟩
  | perfs e f => exact ⟨rfl, gs, r⟩
  | pinned e => exact ⟨rfl, gs, r⟩
  | file => exact ⟨rfl, gs, r⟩
  | @fdLink fd u e =>
    rcases fail with _ | n
    · simp only [info, info_of own, r.made, A.type]
      exact ⟨rfl, gs, r⟩
    · have : (Spec.os pick (some n)).info fd s.k = .error n := rfl
      simp only [info, this]
      exact ⟨rfl, gs, r⟩

theorem remove_same (r : Rel gs s a) (path : Nat) (fail : Option Nat) :
    Same (step pick s (.remove path) fail) (Spec.step a (.remove path) fail) :=
  ⟨rfl, gs, r.hs, r.have_, r.matches_, r.own.files, by simp only [step, Spec.step, r.files], r.made,
    fun f hf => r.named f (List.mem_filter.1 hf).1⟩

theorem step_same (hp : Spec.Fresh pick) (r : Rel gs s a) (op : Op) (fail : Option Nat) :
    Same (step pick s op fail) (Spec.step a op fail) := by
  cases op with
  | attach k sh prog => exact attach_same hp r k sh prog fail
  | drop i => exact drop_same r i fail
  | detach i => exact detach_same r i fail
  | toFd i => exact toFd_same r i fail
  | ofFd i k => exact ofFd_same r i k fail
  | intoFds i => exact intoFds_same r i fail
  | intoFile i => exact intoFile_same hp r i fail
  | pin i path => exact pin_same r i path fail
  | unpin i => exact unpin_same r i fail
  | unwrap i => exact unwrap_same r i fail
  | fromPin path => exact fromPin_same hp r path fail
  | info i => exact info_same r i fail
  | remove path => exact remove_same r path fail

theorem run_same (hp : Spec.Fresh pick) : ∀ (h : List (Op × Option Nat)) (gs) (s : St) (a : A), Rel gs s a →
    (run pick s h).1 = (Spec.run a h).1 ∧ ∃ gs', Rel gs' (run pick s h).2 (Spec.run a h).2
  | [], gs, s, a, r => ⟨rfl, gs, r⟩
  | (op, fail) :: h, gs, s, a, r => by
    obtain ⟨e, gs', r'⟩ := step_same hp r op fail
    obtain ⟨e', r''⟩ := run_same hp h gs' _ _ r'
    simp only [run, Spec.run]
    exact ⟨by rw [e, e'], r''⟩

theorem start_rel : Rel [] start Spec.start :=
  ⟨rfl, rfl, by simp, ⟨.refl _, by simp [start], .refl _, by simp [start], by simp [start]⟩, rfl, rfl, by simp [Spec.start]⟩

end Verif.Conv
