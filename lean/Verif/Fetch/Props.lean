import Verif.Fetch.Spec
/-!
# C118: kept files are whole and current
-/
namespace Verif.Fetch

open Verif.Verdict (Text isSpace)

theorem dropWhile_head {t : Text} (h : ∀ c, t.head? = some c → isSpace c = false) : t.dropWhile isSpace = t := by
  cases t with
  | nil => rfl
  | cons c cs => rw [List.dropWhile_cons_of_neg (by rw [h c rfl]; simp)]

theorem trim_plain {t : Text} (h : Plain t) : trim t = t := by
  unfold trim
  rw [dropWhile_head h.2.1, dropWhile_head (t := t.reverse) (fun c hc => h.2.2 c (by rw [List.head?_reverse] at hc; exact hc)), List.reverse_reverse]

theorem trim_prefix {t p : Text} (h : Plain t) (hp : p <+: t) : trim p <+: p := by
  unfold trim
  have : p.dropWhile isSpace = p := by
    refine dropWhile_head (fun c hc => h.2.1 c ?_)
    obtain ⟨r, rfl⟩ := hp
    cases p with
    | nil => cases hc
    | cons x xs => exact hc
  rw [this]
  have := List.dropWhile_suffix isSpace (l := p.reverse)
  have h2 := List.reverse_prefix.2 this
  rwa [List.reverse_reverse] at h2

/-- Changes of one run, if something is downloaded. -/
theorem download_ops {d : Disk} {r : Reply} : (download d r).1 = [] ∨ ∃ b, (∃ t, r = .contents b (some t) ∧ (download d r).1 = .rename b :: writeTag t) ∨
    (r = .contents b none ∧ (download d r).1 = [.rename b, .removeTag]) := by
  rcases r with _ | _ | _ | ⟨b, _ | t⟩
  · exact .inl rfl
  · exact .inl rfl
  · exact .inl rfl
  · exact .inr ⟨b, .inr ⟨rfl, rfl⟩⟩
  · exact .inr ⟨b, .inl ⟨t, rfl, rfl⟩⟩

theorem serve_contents {v : Version} {a : Option Text} {b : List UInt8} {t : Option Text} (h : serve v a = .contents b t) : b = v.body ∧ t = v.tag := by
  unfold serve at h
  split at h
  · split at h
    · cases h
    · cases h; exact ⟨rfl, rfl⟩
  · cases h; exact ⟨rfl, rfl⟩

theorem reply_contents {d : Disk} {e : Event} {b : List UInt8} {t : Option Text} (h : reply d e = .contents b t) : e.net = .works ∧ b = e.now.body ∧ t = e.now.tag := by
  unfold reply at h
  rcases hn : e.net with _ | _ | _
  · rw [hn] at h; exact ⟨rfl, serve_contents h⟩
  · rw [hn] at h; cases h
  · rw [hn] at h
    dsimp only at h
    split at h
    · cases h
    · next hx => exact absurd h (hx _ _)

theorem exec_tags {d : Disk} : ∀ (ops : List Op), (∀ o ∈ ops, ∃ t, o = .writeTag t) → (exec d ops).dest = d.dest ∧ ((exec d ops).etag = d.etag ∨ ∃ t, .writeTag t ∈ ops ∧ (exec d ops).etag = some t) := by
  intro ops
  induction ops generalizing d with
  | nil => intro _; exact ⟨rfl, .inl rfl⟩
  | cons o os ih =>
    intro h
    obtain ⟨t, rfl⟩ := h o List.mem_cons_self
    obtain ⟨h1, h2⟩ := ih (d := Op.apply d (.writeTag t)) (fun x hx => h x (List.mem_cons_of_mem _ hx))
    refine ⟨h1, ?_⟩
    rcases h2 with h2 | ⟨u, hu, h2⟩
    · exact .inr ⟨t, List.mem_cons_self, h2⟩
    · exact .inr ⟨u, List.mem_cons_of_mem _ hu, h2⟩

/-- What one run can leave. -/
theorem step_cases (d : Disk) (e : Event) : step d e = d ∨ (e.net = .works ∧ (step d e).dest = some e.now.body ∧
    ((step d e).etag = d.etag ∨ ((step d e).etag = none ∧ e.now.tag = none) ∨ ∃ t p, e.now.tag = some t ∧ p <+: t ∧ (step d e).etag = some p)) := by
  have key : ∀ n : Nat, let d' := exec d ((download d (reply d e)).1.take n)
      d' = d ∨ (e.net = .works ∧ d'.dest = some e.now.body ∧ (d'.etag = d.etag ∨ (d'.etag = none ∧ e.now.tag = none) ∨ ∃ t p, e.now.tag = some t ∧ p <+: t ∧ d'.etag = some p)) := by
    intro n
    rcases download_ops (d := d) (r := reply d e) with h | ⟨b, ⟨t, hr, h⟩ | ⟨hr, h⟩⟩
    · rw [h]; left; simp [exec]
    · rw [h]
      obtain ⟨h1, h2, h3⟩ := reply_contents hr
      rcases n with _ | n
      · left; rfl
      · right
        have hop : ∀ o ∈ (writeTag t).take n, ∃ u, o = .writeTag u ∧ u <+: t := by
          intro o ho
          obtain ⟨u, hu, rfl⟩ := List.mem_map.1 (List.mem_of_mem_take ho)
          exact ⟨u, rfl, (List.mem_inits u t).1 hu⟩
        obtain ⟨g1, g2⟩ := exec_tags (d := { d with dest := some b }) ((writeTag t).take n) (fun o ho => (hop o ho).imp (fun _ h => h.1))
        refine ⟨h1, by rw [← h2]; exact g1, ?_⟩
        rcases g2 with g2 | ⟨u, hu, g2⟩
        · exact .inl g2
        · obtain ⟨w, hw, hw'⟩ := hop _ hu
          cases hw
          exact .inr (.inr ⟨t, u, h3.symm, hw', g2⟩)
    · rw [h]
      obtain ⟨h1, h2, h3⟩ := reply_contents hr
      rcases n with _ | _ | n
      · left; rfl
      · right; exact ⟨h1, by rw [← h2]; rfl, .inl rfl⟩
      · right
        have : ([.rename b, .removeTag] : List Op).take (n + 1 + 1) = [.rename b, .removeTag] := by simp
        rw [this]
        exact ⟨h1, by rw [← h2]; rfl, .inr (.inl ⟨rfl, h3.symm⟩)⟩
  unfold step
  rcases e.crash with _ | n
  · have := key (download d (reply d e)).1.length
    rw [List.take_length] at this
    exact this
  · exact key n

theorem after_append (es : List Event) (e : Event) : after (es ++ [e]) = step (after es) e := by
  simp [after]

/-- After any history, with crashes at any point, the file is absent or has exactly what the server had at the time of a run for which the network worked. -/
theorem C118_whole (es : List Event) : (after es).dest = none ∨ ∃ e ∈ es, e.net = .works ∧ (after es).dest = some e.now.body := by
  induction es using List.reverseRecOn with
  | nil => exact .inl rfl
  | append_singleton es e ih =>
    rw [after_append]
    rcases step_cases (after es) e with h | ⟨h1, h2, _⟩
    · rw [h]
      exact ih.imp id (fun ⟨x, hx, h⟩ => ⟨x, List.mem_append_left _ hx, h⟩)
    · exact .inr ⟨e, by simp, h1, h2⟩

/-- The file is of a version of the history, and the tag on the disk begins that of a version that is not newer than it. -/
def Inv (vs : List Version) (d : Disk) : Prop :=
  (d.dest = none ∧ d.etag = none) ∨ ∃ v ∈ vs, d.dest = some v.body ∧ ∀ p, d.etag = some p → ∃ w ∈ vs, ∃ t, w.tag = some t ∧ p <+: t ∧ w.serial ≤ v.serial

theorem inv_after (es : List Event) (hf : Forward (es.map Event.now)) : Inv (es.map Event.now) (after es) := by
  induction es using List.reverseRecOn with
  | nil => exact .inl ⟨rfl, rfl⟩
  | append_singleton es e ih =>
    rw [List.map_append, List.map_singleton] at hf ⊢
    unfold Forward at hf
    rw [List.pairwise_append] at hf
    have ih := ih hf.1
    rw [after_append]
    have hle : ∀ v ∈ es.map Event.now, v.serial ≤ e.now.serial := fun v hv => hf.2.2 v hv _ (List.mem_singleton.2 rfl)
    rcases step_cases (after es) e with h | ⟨h1, h2, h3⟩
    · rw [h]
      rcases ih with ih | ⟨v, hv, i1, i2⟩
      · exact .inl ih
      · refine .inr ⟨v, List.mem_append_left _ hv, i1, fun p hp => ?_⟩
        obtain ⟨w, hw, t, r⟩ := i2 p hp
        exact ⟨w, List.mem_append_left _ hw, t, r⟩
    · refine .inr ⟨e.now, by simp, h2, fun p hp => ?_⟩
      rcases h3 with h3 | ⟨h3, _⟩ | ⟨t, q, g1, g2, g3⟩
      · rw [h3] at hp
        rcases ih with ⟨_, ih⟩ | ⟨v, hv, i1, i2⟩
        · rw [ih] at hp; cases hp
        · obtain ⟨w, hw, t, r1, r2, r3⟩ := i2 p hp
          exact ⟨w, List.mem_append_left _ hw, t, r1, r2, hle w hw⟩
      · rw [h3] at hp; cases hp
      · rw [g3] at hp
        cases hp
        exact ⟨e.now, by simp, t, g1, g2, Nat.le_refl _⟩

/-- If the network works and the run does not crash, it succeeds, and the file is what the server has now: after any history with crashes at any point, if tags tell versions and the server never
    goes back. -/
theorem C118_current_partial {es : List Event} {e : Event} (hn : e.net = .works) (hc : e.crash = none) (ht : Tagged ((es ++ [e]).map Event.now)) (hf : Forward ((es ++ [e]).map Event.now)) :
    (download (after es) (reply (after es) e)).2 = true ∧ (after (es ++ [e])).dest = some e.now.body := by
  have hf1 : Forward (es.map Event.now) := by
    unfold Forward at hf ⊢
    rw [List.map_append, List.pairwise_append] at hf
    exact hf.1
  have hinv := inv_after es hf1
  have hle : ∀ v ∈ es.map Event.now, v.serial ≤ e.now.serial := fun v hv => by
    unfold Forward at hf
    rw [List.map_append, List.pairwise_append] at hf
    exact hf.2.2 v hv _ (List.mem_singleton.2 rfl)
  have hmem : ∀ v ∈ es.map Event.now, v ∈ (es ++ [e]).map Event.now := fun v hv => by rw [List.map_append]; exact List.mem_append_left _ hv
  have he : e.now ∈ (es ++ [e]).map Event.now := by simp
  have hrep : reply (after es) e = serve e.now (sent (after es)) := by unfold reply; rw [hn]
  rw [after_append, step, hc]
  dsimp only
  rw [hrep]
  rcases hs : serve e.now (sent (after es)) with _ | _ | _ | ⟨b, t⟩
  · unfold serve at hs
    split at hs
    · split at hs <;> cases hs
    · cases hs
  · -- 304: the file on the disk is current
    have h304 : ∃ t, e.now.tag = some t ∧ sent (after es) = some t := by
      unfold serve at hs
      split at hs
      · next t a h1 h2 =>
        split at hs
        · next hta => exact ⟨t, h1, by rw [h2, hta]⟩
        · cases hs
      · cases hs
    obtain ⟨t, h1, h2⟩ := h304
    have h3 : ∃ b p, (after es).dest = some b ∧ (after es).etag = some p ∧ trim p = t := by
      unfold sent at h2
      split at h2
      · next b p g1 g2 =>
        split at h2
        · cases h2
        · cases h2; exact ⟨b, p, g1, g2, rfl⟩
      · cases h2
    obtain ⟨b, p, g1, g2, g3⟩ := h3
    rcases hinv with ⟨hd, _⟩ | ⟨v, hv, i1, i2⟩
    · rw [hd] at g1; cases g1
    · obtain ⟨w, hw, u, r1, r2, r3⟩ := i2 p g2
      have hpl := ht.1 w (hmem w hw) u r1
      have htp : t <+: u := g3 ▸ (trim_prefix hpl r2).trans r2
      obtain ⟨_, hew⟩ := ht.2.2 e.now he w (hmem w hw) t u h1 r1 htp
      have hser : v.serial = e.now.serial := Nat.le_antisymm (hle v hv) (by rw [hew]; exact r3)
      have hve := ht.2.1 v (hmem v hv) e.now he hser
      refine ⟨by simp [download, g1], ?_⟩
      change (after es).dest = _
      rw [i1, hve]
  · unfold serve at hs
    split at hs
    · split at hs <;> cases hs
    · cases hs
  · obtain ⟨hb, htt⟩ := serve_contents hs
    cases t with
    | none => exact ⟨rfl, by rw [← hb]; rfl⟩
    | some t =>
      refine ⟨rfl, ?_⟩
      have := (exec_tags (d := { after es with dest := some b }) (writeTag t) (fun o ho => by
        obtain ⟨u, _, rfl⟩ := List.mem_map.1 ho
        exact ⟨u, rfl⟩)).1
      rw [← hb]
      exact this

theorem inits_last : ∀ (t : Text), ∃ l, t.inits = l ++ [t]
  | [] => ⟨[], rfl⟩
  | c :: cs => by
    obtain ⟨l, h⟩ := inits_last cs
    exact ⟨[] :: l.map (c :: ·), by rw [List.inits_cons, h]; simp⟩

theorem exec_write (d : Disk) (b : List UInt8) (t : Text) : exec d (.rename b :: writeTag t) = ⟨some b, some t⟩ := by
  change exec { d with dest := some b } (writeTag t) = _
  obtain ⟨l, hlast⟩ := inits_last t
  unfold writeTag
  rw [hlast, List.map_append, exec, List.foldl_append]
  have h1 := (exec_tags (d := { d with dest := some b }) (l.map .writeTag) (fun o ho => by
    obtain ⟨u, _, rfl⟩ := List.mem_map.1 ho
    exact ⟨u, rfl⟩)).1
  unfold exec at h1
  simp only [List.map_cons, List.map_nil, List.foldl_cons, List.foldl_nil, Op.apply]
  rw [h1]

/-- If no run crashed, the server may also go back to versions that it had before: it is enough that a tag tells what is in the file. -/
theorem C118_calm_partial {es : List Event} {e : Event} (hn : e.net = .works) (hc : ∀ x ∈ es ++ [e], x.crash = none) (hp : ∀ x ∈ es ++ [e], ∀ t, x.now.tag = some t → Plain t)
    (ht : ∀ x ∈ es ++ [e], ∀ y ∈ es ++ [e], ∀ t, x.now.tag = some t → y.now.tag = some t → x.now.body = y.now.body) :
    (download (after es) (reply (after es) e)).2 = true ∧ (after (es ++ [e])).dest = some e.now.body := by
  have key : ∀ (es : List Event), (∀ x ∈ es, x.crash = none) → (after es).etag = none ∨ ∃ x ∈ es, (after es).dest = some x.now.body ∧ (after es).etag = x.now.tag := by
    intro es
    induction es using List.reverseRecOn with
    | nil => intro _; exact .inl rfl
    | append_singleton es x ih =>
      intro hc
      have ih := ih (fun y hy => hc y (List.mem_append_left _ hy))
      rw [after_append, step, hc x (by simp)]
      dsimp only
      rcases download_ops (d := after es) (r := reply (after es) x) with h | ⟨b, ⟨t, hr, h⟩ | ⟨hr, h⟩⟩
      · rw [h]
        exact ih.imp id (fun ⟨y, hy, h⟩ => ⟨y, List.mem_append_left _ hy, h⟩)
      · obtain ⟨_, h2, h3⟩ := reply_contents hr
        rw [h, exec_write]
        exact .inr ⟨x, by simp, by rw [h2], h3⟩
      · rw [h]; exact .inl rfl
  have hk := key es (fun x hx => hc x (List.mem_append_left _ hx))
  have hrep : reply (after es) e = serve e.now (sent (after es)) := by unfold reply; rw [hn]
  rw [after_append, step, hc e (by simp), hrep]
  dsimp only
  rcases hs : serve e.now (sent (after es)) with _ | _ | _ | ⟨b, t⟩
  · unfold serve at hs
    split at hs
    · split at hs <;> cases hs
    · cases hs
  · have h304 : ∃ t, e.now.tag = some t ∧ sent (after es) = some t := by
      unfold serve at hs
      split at hs
      · next t a h1 h2 =>
        split at hs
        · next hta => exact ⟨t, h1, by rw [h2, hta]⟩
        · cases hs
      · cases hs
    obtain ⟨t, h1, h2⟩ := h304
    have h3 : ∃ b p, (after es).dest = some b ∧ (after es).etag = some p ∧ trim p = t := by
      unfold sent at h2
      split at h2
      · next b p g1 g2 =>
        split at h2
        · cases h2
        · cases h2; exact ⟨b, p, g1, g2, rfl⟩
      · cases h2
    obtain ⟨b, p, g1, g2, g3⟩ := h3
    rcases hk with hk | ⟨x, hx, k1, k2⟩
    · rw [hk] at g2; cases g2
    · rw [g2] at k2
      rw [trim_plain (hp x (List.mem_append_left _ hx) p k2.symm)] at g3
      rw [g3] at k2
      refine ⟨by simp [download, g1], ?_⟩
      change (after es).dest = _
      rw [k1, ht x (List.mem_append_left _ hx) e (by simp) t k2.symm h1]
  · unfold serve at hs
    split at hs
    · split at hs <;> cases hs
    · cases hs
  · obtain ⟨hb, htt⟩ := serve_contents hs
    cases t with
    | none => exact ⟨rfl, by rw [← hb]; rfl⟩
    | some t => exact ⟨rfl, by rw [← hb]; exact congrArg Disk.dest (exec_write (after es) b t)⟩

/-- What is on the disk after a run with nothing wrong: nothing more is downloaded until the server has something else. -/
theorem C118_kept {d : Disk} {v : Version} {t : Text} (ht : v.tag = some t) (hp : Plain t) (hr : reply d ⟨v, .works, none⟩ ≠ .notModified) :
    sent (step d ⟨v, .works, none⟩) = some t ∧ reply (step d ⟨v, .works, none⟩) ⟨v, .works, none⟩ = .notModified ∧ (step d ⟨v, .works, none⟩).dest = some v.body := by
  have hrep : reply d ⟨v, .works, none⟩ = .contents v.body (some t) := by
    change serve v (sent d) = _
    change serve v (sent d) ≠ _ at hr
    unfold serve at hr ⊢
    rw [ht] at hr ⊢
    cases hsd : sent d with
    | none => rfl
    | some a =>
      rw [hsd] at hr
      dsimp only at hr ⊢
      by_cases h : t = a
      · rw [if_pos h] at hr; exact absurd rfl hr
      · rw [if_neg h]
  have hst : step d ⟨v, .works, none⟩ = ⟨some v.body, some t⟩ := by
    unfold step
    rw [hrep]
    change exec { d with dest := some v.body } (writeTag t) = _
    obtain ⟨l, hlast⟩ := inits_last t
    unfold writeTag
    rw [hlast, List.map_append, exec, List.foldl_append]
    have h1 := (exec_tags (d := { d with dest := some v.body }) (l.map .writeTag) (fun o ho => by
      obtain ⟨u, _, rfl⟩ := List.mem_map.1 ho
      exact ⟨u, rfl⟩)).1
    unfold exec at h1
    simp only [List.map_cons, List.map_nil, List.foldl_cons, List.foldl_nil, Op.apply]
    rw [h1]
  have hsent : sent ⟨some v.body, some t⟩ = some t := by
    unfold sent
    dsimp only
    rw [trim_plain hp]
    have : t.isEmpty = false := by simpa using hp.1
    rw [this]
    rfl
  rw [hst]
  refine ⟨hsent, ?_, rfl⟩
  change serve v _ = _
  rw [hsent]
  unfold serve
  rw [ht]
  simp

/-- Without the network, or if it breaks, nothing on the disk changes; without it, the run succeeds if and only if there is a file. -/
theorem C118_offline (d : Disk) (e : Event) (h : e.net ≠ .works) : step d e = d ∧ (e.net = .fails → ((download d (reply d e)).2 = true ↔ d.dest ≠ none)) := by
  constructor
  · rcases step_cases d e with h' | ⟨h', _⟩
    · exact h'
    · exact absurd h' h
  · intro hf
    unfold reply
    rw [hf]
    simp [download, Option.isSome_iff_ne_none]

end Verif.Fetch
