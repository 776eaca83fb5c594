import Verif.Attach.QuerySpec
import Verif.Attach.TcxProps
import Verif.Common.Except
/-!
# C78: what asking for attached programs returns, and what it changes
-/
set_option linter.unusedSimpArgs false
set_option linter.unusedVariables false
namespace Verif.Attach.Query
open Verif.Attach.Query.Spec
open Verif.Attach.Fd (Inner Err)
open Verif.Attach.Fd.Spec (World Kernel put owns Obj)
open Verif.Util (TcAttachType)

theorem fill_length {buf ids : List Nat} (h : ids.length ≤ buf.length) : (fill buf ids).length = buf.length := by
  simp [fill]; omega

theorem resize_fill {buf ids : List Nat} : resize (fill buf ids) ids.length = ids := by
  simp [resize, fill]

theorem resize_length {buf : List Nat} {n : Nat} : (resize buf n).length = n := by
  simp [resize]; omega

/-- What the loop comes to against lists that change. -/
theorem queryLoop_changing (L : Nat → List Nat) (R : Nat → Nat) (left k : Nat) (buf : List Nat) :
    queryLoop (changing L R) left buf k =
      if (L k).length ≤ buf.length then (.ok (R k, L k), k + 1)
      else
        match left with
        | 0 => (.error 28, k + 1)
        | left + 1 => queryLoop (changing L R) left
            (resize (fill buf ((L k).take buf.length)) (L k).length) (k + 1) := by
  rw [queryLoop]
  by_cases h : (L k).length ≤ buf.length
  · have ht : (L k).take buf.length = L k := List.take_of_length_le h
    simp [changing, answer, h, Nat.not_lt.mpr h, ht, resize_fill]
  · have hl : buf.length < (L k).length := by omega
    cases left <;> simp [changing, answer, h, hl]

/-- **C78.** However the list changes between the calls, asking returns it as it was at one moment, complete and in the
order of the kernel, with the revision of this moment; there is no limit on its length. The only failure that comes from
the list itself is a list longer than 64 that grows while it is being read. -/
theorem C78_listed (L : Nat → List Nat) (R : Nat → Nat) :
    (∃ k, k ≤ 1 ∧ (query (changing L R) 0).1 = .ok (R k, L k)) ∨
    ((query (changing L R) 0).1 = .error 28 ∧ 64 < (L 0).length ∧ (L 0).length < (L 1).length) := by
  unfold query
  rw [queryLoop_changing]
  simp only [List.length_replicate]
  by_cases h : (L 0).length ≤ 64
  · exact .inl ⟨0, by omega, by rw [if_pos h]⟩
  · rw [if_neg h, queryLoop_changing, resize_length]
    by_cases h1 : (L 1).length ≤ (L 0).length
    · exact .inl ⟨1, by omega, by rw [if_pos h1]⟩
    · exact .inr ⟨by rw [if_neg h1], by omega, by omega⟩

/-- A list that does not change is returned, whatever its length. -/
theorem C78_listed_still (l : List Nat) (r : Nat) :
    (query (changing (fun _ => l) (fun _ => r)) 0).1 = .ok (r, l) := by
  rcases C78_listed (fun _ => l) (fun _ => r) with ⟨k, -, h⟩ | ⟨-, -, h⟩
  · exact h
  · simp at h

/-- A list of a hundred programs, and one that shrinks to two while it is read. -/
example : (query (changing (fun _ => List.range 100) (fun _ => 7)) 0).1 = .ok (7, List.range 100) ∧
    (query (changing (fun k => if k = 0 then List.range 100 else [5, 6]) id) 0).1 = .ok (1, [5, 6]) := by
  decide +kernel

/-- Long lists that grow. -/
example : (query (changing (fun k => List.range (100 + k)) id) 0).1 = .error 28 := by decide +kernel

/-! ### Objects given by descriptors -/

/-- What has been made so far: only new descriptors have been opened, of which each is owned by one link. -/
structure Inv (w s : World) (T ty : Nat) (ps : List Nat) (made : List Inner) : Prop where
  att : s.att = w.att
  mode : s.mode = w.mode
  limit : s.limit = w.limit
  fresh : ∀ f, f ∈ made.flatMap owns → w.fd f = none
  kind : ∀ f, f ∈ made.flatMap owns → ∃ o, s.fd f = some o ∧ ∀ l, o ≠ .link l
  nodup : (made.flatMap owns).Nodup
  old : ∀ f, f ∉ made.flatMap owns → s.fd f = w.fd f
  fin : Finite s.fd
  names : made.map (names s) = ps.map (fun P => some (P, T, ty))

theorem put_finite {t : Fd.Spec.Table} (h : Finite t) (f : Nat) (o : Option Obj) : Finite (put t f o) := by
  obtain ⟨n, hn⟩ := h
  refine ⟨max n (f + 1), fun g hg => ?_⟩
  have h1 : g ≠ f := by omega
  simp [put, h1, hn g (by omega)]

theorem close_obj {K : Kernel} {s : World} {f : Nat} {o : Obj} (h : s.fd f = some o) (ho : ∀ l, o ≠ .link l) :
    (Fd.Spec.sys K s (.close f)).2 = { s with fd := put s.fd f none } := by
  cases o with
  | link l => exact absurd rfl (ho l)
  | prog p => simp [Fd.Spec.sys, h]
  | target t => simp [Fd.Spec.sys, h]

/-- Closing the descriptors of links, none of which is a link of the kernel. -/
theorem drop_closes {K : Kernel} : ∀ (made : List Inner) (s : World),
    (∀ f, f ∈ made.flatMap owns → ∃ o, s.fd f = some o ∧ ∀ l, o ≠ .link l) → (made.flatMap owns).Nodup →
    dropLinks (Fd.Spec.sys K) false made s =
      { s with fd := fun f => if f ∈ made.flatMap owns then none else s.fd f } := by
  intro made
  induction made with
  | nil => intro s _ _; simp [dropLinks]
  | cons l ls ih =>
    intro s hk hn
    have hcons : dropLinks (Fd.Spec.sys K) false (l :: ls) s =
        dropLinks (Fd.Spec.sys K) false ls (dropLink (Fd.Spec.sys K) false l s) := rfl
    have hl : dropLink (Fd.Spec.sys K) false l s = { s with fd := fun f => if f ∈ owns l then none else s.fd f } := by
      cases l with
      | fd f =>
        obtain ⟨o, h1, h2⟩ := hk f (by simp [owns])
        simp only [dropLink, Bool.false_eq_true, if_false, close_obj h1 h2, owns]
        congr 1; funext g; simp [put]
      | prog a b ty =>
        obtain ⟨o, h1, h2⟩ := hk a (by simp [owns])
        obtain ⟨o', h1', h2'⟩ := hk b (by simp [owns])
        have hab : b ≠ a := by
          intro e; subst e
          simp [owns] at hn
        simp only [dropLink, Bool.false_eq_true, if_false, close_obj h1 h2]
        rw [close_obj (o := o') (by simp [put, hab, h1']) h2']
        congr 1; funext g; simp only [put, owns, List.mem_cons, List.not_mem_nil, or_false]
        by_cases e1 : g = b
        · simp [e1]
        · by_cases e2 : g = a
          · simp [e1, e2]
          · simp [e1, e2]
    simp only [List.flatMap_cons] at hn hk
    have hn' := List.nodup_append.mp hn
    rw [hcons, hl, ih _ ?_ hn'.2.1]
    · congr 1; funext g
      simp only [List.flatMap_cons, List.mem_append]
      by_cases e1 : g ∈ owns l <;> by_cases e2 : g ∈ ls.flatMap owns <;> simp [e1, e2]
    · intro f hf
      have hnot : f ∉ owns l := fun h => hn'.2.2 f h f hf rfl
      obtain ⟨o, h1, h2⟩ := hk f (List.mem_append.mpr (.inr hf))
      exact ⟨o, by simp [hnot, h1], h2⟩

theorem Inv.dropped {K : Kernel} {w s : World} {T ty : Nat} {ps : List Nat} {made : List Inner}
    (h : Inv w s T ty ps made) : dropLinks (Fd.Spec.sys K) false made s = w := by
  rw [drop_closes made s h.kind h.nodup]
  have hfd : (fun f => if f ∈ made.flatMap owns then none else s.fd f) = w.fd := by
    funext f
    by_cases hf : f ∈ made.flatMap owns
    · simp [hf, h.fresh f hf]
    · simp [hf, h.old f hf]
  have h1 := h.att
  have h2 := h.mode
  have h3 := h.limit
  rw [hfd]
  cases s; cases w; simp_all

theorem names_put {s : World} {f g : Nat} {o o' : Option Obj} {l : Inner}
    (hf : s.fd f = none) (hg : put s.fd f o g = none) {x : Nat × Nat × Nat} (h : names s l = some x) :
    names { s with fd := put (put s.fd f o) g o' } l = some x := by
  cases l with
  | fd a => simp [names] at h
  | prog a b ty =>
    have key : ∀ c, s.fd c ≠ none → put (put s.fd f o) g o' c = s.fd c := by
      intro c hc
      have h1 : c ≠ f := fun e => hc (e ▸ hf)
      have h2 : c ≠ g := by
        intro e; subst e
        simp only [put, h1, if_false] at hg
        exact hc hg
      simp [put, h1, h2]
    simp only [names] at h ⊢
    cases ha : s.fd a with
    | none => simp [ha] at h
    | some oa =>
      cases hb : s.fd b with
      | none => rw [ha, hb] at h; cases oa <;> simp at h
      | some ob =>
        rw [key a (by simp [ha]), key b (by simp [hb])]
        rw [ha, hb] at h
        rw [ha, hb]
        exact h

/-- What making the links comes to: they name the programs of the list, or something failed and what had been made has
been dropped. -/
theorem collect_inv {K : Kernel} {ra ri : World → Nat → Option Nat} (hK : Alloc K) {w : World} {g T ty : Nat} {d : Bool}
    (hg : w.fd g = some (.target T)) : ∀ (ids ps : List Nat) (made : List Inner) (s : World), Inv w s T ty ps made →
    (∃ ls s', collect (fdKernel K ra ri) d g ty ids made s = (.ok ls, s') ∧ Inv w s' T ty (ps ++ ids) ls) ∨
    ∃ e m s' ps', collect (fdKernel K ra ri) d g ty ids made s = (.error e, dropLinks (Fd.Spec.sys K) d m s') ∧
      Inv w s' T ty ps' m := by
  intro ids
  induction ids with
  | nil =>
    intro ps made s hi
    exact .inl ⟨made, s, rfl, by simpa using hi⟩
  | cons id ids ih =>
    intro ps made s hi
    simp only [collect, fdKernel]
    cases hr : ri s id with
    | some e => exact .inr ⟨.syscall e, made, s, ps, rfl, hi⟩
    | none =>
      simp only []
      have hf := hK s.fd hi.fin
      have hfin := put_finite hi.fin (K.newFd s.fd) (some (.prog id))
      have hf2 := hK _ hfin
      have hgm : g ∉ made.flatMap owns := fun h => by
        have := hi.fresh g h
        rw [hg] at this; cases this
      have hgs : s.fd g = some (.target T) := by rw [hi.old g hgm, hg]
      have hgn : g ≠ K.newFd s.fd := fun e => by rw [e, hf] at hgs; cases hgs
      have hg1 : put s.fd (K.newFd s.fd) (some (.prog id)) g = some (.target T) := by simp [put, hgn, hgs]
      simp only [Fd.Spec.sys, hg1]
      generalize hx : K.newFd (put s.fd (K.newFd s.fd) (some (.prog id))) = y at hf2
      generalize hy : K.newFd s.fd = x at *
      have hback : ∀ s' : World, s' = { s with fd := put s.fd x (some (.prog id)) } →
          (Fd.Spec.sys K s' (.close x)).2 = s := by
        intro s' e
        subst e
        rw [close_obj (o := .prog id) (by simp [put]) (by intro l h; cases h)]
        cases s with
        | mk sfd satt smode slimit =>
          simp only [Fd.Spec.World.mk.injEq, and_true, true_and]
          funext f
          by_cases e : f = x
          · subst e; simp only [put, if_true]; exact hf.symm
          · simp [put, e]
      cases hd : K.refuse { s with fd := put s.fd x (some (.prog id)) } (.dup g) with
      | some e =>
        simp only []
        refine .inr ⟨.io e, made, s, ps, ?_, hi⟩
        have := hback _ rfl
        simp only [Fd.Spec.sys] at this
        rw [this]
      | none =>
        simp only []
        have hxy : y ≠ x := by
          intro e; subst e; simp [put] at hf2
        have hinv : Inv w { s with fd := put (put s.fd x (some (.prog id))) y (some (.target T)) } T ty (ps ++ [id])
            (made ++ [.prog x y ty]) := by
          have hxm : x ∉ made.flatMap owns := fun h => by
            obtain ⟨o, ho, -⟩ := hi.kind x h
            rw [hf] at ho; cases ho
          have hsy : s.fd y = none := by simpa [put, hxy] using hf2
          have hym : y ∉ made.flatMap owns := fun h => by
            obtain ⟨o, ho, -⟩ := hi.kind y h
            rw [hsy] at ho; cases ho
          constructor
          · exact hi.att
          · exact hi.mode
          · exact hi.limit
          · intro f hm
            simp only [List.flatMap_append, List.flatMap_cons, List.flatMap_nil, List.append_nil, owns,
              List.mem_append, List.mem_cons, List.not_mem_nil, or_false] at hm
            rcases hm with hm | rfl | rfl
            · exact hi.fresh f hm
            · rw [← hi.old f hxm, hf]
            · rw [← hi.old f hym, hsy]
          · intro f hm
            simp only [List.flatMap_append, List.flatMap_cons, List.flatMap_nil, List.append_nil, owns,
              List.mem_append, List.mem_cons, List.not_mem_nil, or_false] at hm
            rcases hm with hm | rfl | rfl
            · obtain ⟨o, h1, h2⟩ := hi.kind f hm
              have e1 : f ≠ x := fun e => hxm (e ▸ hm)
              have e2 : f ≠ y := fun e => hym (e ▸ hm)
              exact ⟨o, by simp [put, e1, e2, h1], h2⟩
            · exact ⟨.prog id, by simp [put, Ne.symm hxy], by intro l h; cases h⟩
            · exact ⟨.target T, by simp [put], by intro l h; cases h⟩
          · simp only [List.flatMap_append, List.flatMap_cons, List.flatMap_nil, List.append_nil, owns]
            refine List.nodup_append.mpr ⟨hi.nodup, by simp [Ne.symm hxy], ?_⟩
            intro a ha b hb e
            subst e
            simp only [List.mem_cons, List.not_mem_nil, or_false] at hb
            rcases hb with rfl | rfl
            · exact hxm ha
            · exact hym ha
          · intro f hm
            simp only [List.flatMap_append, List.flatMap_cons, List.flatMap_nil, List.append_nil, owns,
              List.mem_append, List.mem_cons, List.not_mem_nil, or_false, not_or] at hm
            simp only [put, hm.2.1, hm.2.2, if_false]
            exact hi.old f hm.1
          · exact put_finite (put_finite hi.fin _ _) _ _
          · have hnew : names { s with fd := put (put s.fd x (some (.prog id))) y (some (.target T)) } (.prog x y ty) =
                some (id, T, ty) := by
              simp [names, put, Ne.symm hxy]
            rw [List.map_append, List.map_append]
            congr 1
            · have : ∀ l ∈ made, names { s with fd := put (put s.fd x (some (.prog id))) y (some (.target T)) } l =
                  names s l := by
                intro l hl
                have : names s l ∈ made.map (names s) := List.mem_map_of_mem hl
                rw [hi.names] at this
                obtain ⟨P, -, hP⟩ := List.mem_map.mp this
                rw [← hP]
                exact names_put (by exact hf) (by exact hf2) hP.symm
              rw [← hi.names]
              exact List.map_congr_left this
            · simp only [List.map_cons, List.map_nil, hnew]
        have := ih (ps ++ [id]) _ _ hinv
        simp only [List.append_assoc, List.singleton_append] at this
        simpa only [fdKernel, Fd.Spec.sys, hx] using this

theorem inv_start {w : World} (hw : Finite w.fd) (T ty : Nat) : Inv w w T ty [] [] :=
  ⟨rfl, rfl, rfl, by simp, by simp, by simp, fun _ _ => rfl, hw, rfl⟩

/-- Asking about a list that does not change. -/
theorem query_still {σ : Type} {ask : σ → Nat → Answer × σ} {w : σ} {l : List Nat} {r : Nat}
    (ha : ∀ cap, ask w cap = (answer l r cap, w)) : query ask w = (.ok (r, l), w) := by
  have key : ∀ left (buf : List Nat), queryLoop ask left buf w =
      if l.length ≤ buf.length then (.ok (r, l), w)
      else match left with
        | 0 => (.error 28, w)
        | left + 1 => queryLoop ask left (resize (fill buf (l.take buf.length)) l.length) w := by
    intro left buf
    rw [queryLoop, ha]
    by_cases h : l.length ≤ buf.length
    · have ht : l.take buf.length = l := List.take_of_length_le h
      simp [answer, h, Nat.not_lt.mpr h, ht, resize_fill]
    · have hlt : buf.length < l.length := by omega
      cases left <;> simp [answer, h, hlt]
  unfold query
  rw [key]
  by_cases h : l.length ≤ (List.replicate 64 0 : List Nat).length
  · rw [if_pos h]
  · rw [if_neg h]
    simp only []
    rw [key, resize_length, if_pos (Nat.le_refl _)]

/-- Asking an object that does not change. -/
theorem query_world {K : Kernel} {ra ri : World → Nat → Option Nat} {w : World} {g T : Nat} (ty : Nat)
    (hg : w.fd g = some (.target T)) :
    (ra w g = none →
      query (fun s cap => (fdKernel K ra ri).ask s g ty cap) w = (.ok (0, (w.att T ty).map (·.prog)), w)) ∧
    (∀ e, ra w g = some e →
      ∃ e', query (fun s cap => (fdKernel K ra ri).ask s g ty cap) w = (.error e', w)) := by
  constructor
  · intro hr
    exact query_still (fun cap => by simp only [fdKernel, hr, hg])
  · intro e hr
    have key : ∀ left (buf : List Nat), ∃ e', queryLoop (fun s cap => (fdKernel K ra ri).ask s g ty cap) left buf w =
        (.error e', w) := by
      intro left
      induction left with
      | zero => intro buf; exact ⟨e, by rw [queryLoop]; simp [fdKernel, hr, refused]⟩
      | succ left ih =>
        intro buf
        rw [queryLoop]
        simp only [fdKernel, hr, refused]
        by_cases h : (e == 28) = true
        · simp only [h, if_true]; exact ih _
        · simp only [h, if_false]; exact ⟨e, rfl⟩
    exact key _ _

/-- What both functions come to. -/
theorem queryLinks_inv {K : Kernel} {ra ri : World → Nat → Option Nat} (hK : Alloc K) {w : World} {g T ty : Nat} {d : Bool}
    (hw : Finite w.fd) (hg : w.fd g = some (.target T)) :
    (∃ ls w1, queryLinks (fdKernel K ra ri) d ty g w = (.ok ls, w1) ∧ Inv w w1 T ty ((w.att T ty).map (·.prog)) ls) ∨
    ∃ e m s' ps', queryLinks (fdKernel K ra ri) d ty g w = (.error e, dropLinks (Fd.Spec.sys K) d m s') ∧
      Inv w s' T ty ps' m := by
  unfold queryLinks
  cases hr : ra w g with
  | none =>
    rw [(query_world (K := K) (ri := ri) ty hg).1 hr]
    simp only []
    rcases collect_inv (K := K) (ra := ra) (ri := ri) (d := d) hK hg ((w.att T ty).map (·.prog)) [] [] w
      (inv_start hw T ty) with ⟨ls, s', h, hi⟩ | ⟨e, m, s', ps', h, hi⟩
    · exact .inl ⟨ls, s', h, by simpa using hi⟩
    · exact .inr ⟨e, m, s', ps', h, hi⟩
  | some e =>
    obtain ⟨e', he⟩ := (query_world (K := K) (ri := ri) ty hg).2 e hr
    rw [he]
    exact .inr ⟨_, [], w, [], rfl, inv_start hw T ty⟩

/-- **C78.** Asking an infrared device: the result has one link for each attached program, in order, naming this program
and this device, and nothing attached changes. When the result is dropped, or if asking fails at any point, everything is
as before, with no descriptor left open. -/
theorem C78_lirc (K : Kernel) (ra ri : World → Nat → Option Nat) (hK : Alloc K) (w : World) (g T : Nat)
    (hw : Finite w.fd) (hg : w.fd g = some (.target T)) :
    dropLirc (fdKernel K ra ri) (queryLirc (fdKernel K ra ri) g w).1 (queryLirc (fdKernel K ra ri) g w).2 = w ∧
    (queryLirc (fdKernel K ra ri) g w).2.att = w.att ∧
    ∀ ls, (queryLirc (fdKernel K ra ri) g w).1 = .ok ls →
      ls.map (names (queryLirc (fdKernel K ra ri) g w).2) = (w.att T 16).map (fun e => some (e.prog, T, 16)) := by
  unfold queryLirc
  rcases queryLinks_inv (K := K) (ra := ra) (ri := ri) (ty := 16) (d := false) hK hw hg with
    ⟨ls, w1, h, hi⟩ | ⟨e, m, s', ps', h, hi⟩
  · rw [h]
    refine ⟨hi.dropped, hi.att, ?_⟩
    intro ls' hl
    cases hl
    simpa [List.map_map, Function.comp_def] using hi.names
  · rw [h, hi.dropped]
    exact ⟨rfl, rfl, by intro ls hl; cases hl⟩

/-- **C78**, asking a control group for its device programs, as long as the result is kept: one link for each attached
program, in order, and nothing attached has changed. What is missing: after the result has been dropped, or when asking
fails, programs are no longer attached (`C78_device_violated`, `C78_device_failed_violated`). -/
theorem C78_device_partial (K : Kernel) (ra ri : World → Nat → Option Nat) (hK : Alloc K) (w : World) (g T : Nat)
    (hw : Finite w.fd) (hg : w.fd g = some (.target T)) (ls : List Inner)
    (h : (queryDevice (fdKernel K ra ri) g w).1 = .ok ls) :
    (queryDevice (fdKernel K ra ri) g w).2.att = w.att ∧
    (queryDevice (fdKernel K ra ri) g w).2.mode = w.mode ∧
    ls.map (names (queryDevice (fdKernel K ra ri) g w).2) = (w.att T 6).map (fun e => some (e.prog, T, 6)) := by
  unfold queryDevice at h ⊢
  rcases queryLinks_inv (K := K) (ra := ra) (ri := ri) (ty := 6) (d := true) hK hw hg with
    ⟨ls', w1, h', hi⟩ | ⟨e, m, s', ps', h', hi⟩
  · rw [h'] at h ⊢
    cases h
    refine ⟨hi.att, hi.mode, ?_⟩
    simpa [List.map_map, Function.comp_def] using hi.names
  · rw [h'] at h; cases h

/-- Asking succeeds when no call fails. -/
theorem C78_answers (K : Kernel) (hK : Alloc K) (w : World) (g T : Nat)
    (hr : ∀ w c, K.refuse w c = none) (hw : Finite w.fd) (hg : w.fd g = some (.target T)) :
    (∃ ls, (queryLirc (fdKernel K (fun _ _ => none) (fun _ _ => none)) g w).1 = .ok ls) ∧
    ∃ ls, (queryDevice (fdKernel K (fun _ _ => none) (fun _ _ => none)) g w).1 = .ok ls := by
  have key : ∀ (d : Bool) (ty : Nat) (ids : List Nat) (made : List Inner) (s : World) (ps : List Nat),
      Inv w s T ty ps made →
      ∃ ls, (collect (fdKernel K (fun _ _ => none) (fun _ _ => none)) d g ty ids made s).1 = .ok ls := by
    intro d ty ids made s ps hi
    have step : ∀ (ids : List Nat) (made : List Inner) (s : World), Finite s.fd → s.fd g = some (.target T) →
        ∃ ls, (collect (fdKernel K (fun _ _ => none) (fun _ _ => none)) d g ty ids made s).1 = .ok ls := by
      intro ids
      induction ids with
      | nil => intro made s _ _; exact ⟨made, rfl⟩
      | cons id ids ih =>
        intro made s hs hgs
        have hf := hK s.fd hs
        have hgn : g ≠ K.newFd s.fd := fun e => by rw [e, hf] at hgs; cases hgs
        have hg1 : put s.fd (K.newFd s.fd) (some (.prog id)) g = some (.target T) := by simp [put, hgn, hgs]
        have hf2 := hK _ (put_finite hs (K.newFd s.fd) (some (.prog id)))
        simp only [collect, fdKernel, Fd.Spec.sys, hr, hg1]
        refine ih _ _ (put_finite (put_finite hs _ _) _ _) ?_
        have hgn2 : g ≠ K.newFd (put s.fd (K.newFd s.fd) (some (.prog id))) := fun e => by
          rw [← e, hg1] at hf2; cases hf2
        show put _ _ _ g = _
        rw [put, if_neg hgn2]
        exact hg1
    have hgm : g ∉ made.flatMap owns := fun h => by
      have := hi.fresh g h
      rw [hg] at this; cases this
    exact step ids made s hi.fin (by rw [hi.old g hgm, hg])
  constructor
  · unfold queryLirc queryLinks
    rw [(query_world (K := K) (ri := fun _ _ => none) 16 hg).1 rfl]
    exact key _ _ _ _ _ [] (inv_start hw T 16)
  · unfold queryDevice queryLinks
    rw [(query_world (K := K) (ri := fun _ _ => none) 6 hg).1 rfl]
    exact key _ _ _ _ _ [] (inv_start hw T 6)

/-! ### Runs -/

/-- A kernel that takes the first free descriptor below 64. -/
def kernel0 : Kernel where
  links := false
  kind := fun t => if t = 40 then .lirc else .cgroup
  above := fun _ => []
  refuse := fun _ _ => none
  newFd := fun t => (((List.range 64).find? (fun f => t f == none)).getD 64)
  newLink := fun _ => 900

/-- A control group (30) with the device programs 71 and 72 of other processes, and an infrared device (40) with 73. -/
def world0 : World where
  fd := fun f => if f = 3 then some (.target 30) else if f = 4 then some (.target 40) else none
  att := fun t ty =>
    if t = 30 ∧ ty = 6 then [⟨none, 71⟩, ⟨none, 72⟩] else if t = 40 ∧ ty = 16 then [⟨none, 73⟩] else []
  mode := fun t ty => if t = 30 ∧ ty = 6 then 2 else 0
  limit := false

def sys0 : FdSys World := fdKernel kernel0 (fun _ _ => none) (fun _ _ => none)

/-- The program 72 goes away between the two calls. -/
def sysGone : FdSys World := fdKernel kernel0 (fun _ _ => none) (fun _ id => if id = 72 then some 2 else none)

open Classical in
/-- A kernel with room for any number of descriptors. -/
noncomputable def kernelAny : Kernel :=
  { kernel0 with newFd := fun t => if h : ∃ f, t f = none then Classical.choose h else 0 }

theorem kernelAny_alloc : Alloc kernelAny := by
  intro t ⟨n, hn⟩
  have h : ∃ f, t f = none := ⟨n, hn n (Nat.le_refl _)⟩
  simp only [kernelAny, h, dif_pos]
  exact Classical.choose_spec h

theorem world0_finite : Finite world0.fd :=
  ⟨5, fun f h => by simp [world0, show f ≠ 3 by omega, show f ≠ 4 by omega]⟩

/-- The hypotheses are met, and the programs listed. -/
example : Alloc kernelAny ∧ Finite world0.fd ∧ world0.fd 3 = some (.target 30) ∧ (∀ w c, kernelAny.refuse w c = none) ∧
    (queryDevice sys0 3 world0).1 = .ok [.prog 0 1 6, .prog 2 5 6] ∧
    (queryLirc sys0 4 world0).1 = .ok [.prog 0 1 16] :=
  ⟨kernelAny_alloc, world0_finite, rfl, fun _ _ => rfl, by decide +kernel, by decide +kernel⟩

/-- **C78, violated.** Asking which device programs a control group has and dropping the answer detaches all of them, also
those of other processes (attached without a link): afterwards the group has none. -/
theorem C78_device_violated :
    world0.att 30 6 = [⟨none, 71⟩, ⟨none, 72⟩] ∧
    (queryDevice sys0 3 world0).1 = .ok [.prog 0 1 6, .prog 2 5 6] ∧
    (dropDevice sys0 (queryDevice sys0 3 world0).1 (queryDevice sys0 3 world0).2).att 30 6 = [] :=
  ⟨rfl, by decide +kernel, by decide +kernel⟩

/-- **C78, violated.** When a listed program goes away before it has been opened, asking fails, and has detached the
programs listed before it. -/
theorem C78_device_failed_violated :
    (queryDevice sysGone 3 world0).1 = .error (.syscall 2) ∧
    world0.att 30 6 = [⟨none, 71⟩, ⟨none, 72⟩] ∧
    (queryDevice sysGone 3 world0).2.att 30 6 = [⟨none, 72⟩] :=
  ⟨by decide +kernel, rfl, by decide +kernel⟩

/-- The same for an infrared device changes nothing. -/
example : (dropLirc sys0 (queryLirc sys0 4 world0).1 (queryLirc sys0 4 world0).2).att 40 16 = [⟨none, 73⟩] := by
  decide +kernel

/-! ### Interfaces -/

section If
variable {ι : Type} (K : Tcx.Spec.Kernel) (about : Nat → ι) (rev : Tcx.Spec.World → Nat → Nat → Nat)
  (ra ri : Tcx.Spec.World → Nat → Option Nat)

theorem setFd_back {w : Tcx.Spec.World} {f : Nat} {o : Option Tcx.Spec.Obj} (h : w.fd f = none) :
    Tcx.Spec.setFd (Tcx.Spec.setFd w f o) f none = w := by
  cases w with
  | mk fd ex lp li =>
    simp only [Tcx.Spec.setFd, Tcx.Spec.World.mk.injEq, and_true, true_and]
    funext g
    by_cases e : g = f
    · subst e; simpa using h.symm
    · simp [e]

theorem infos_kernel {w : Tcx.Spec.World} (hf : w.fd (K.newFd w) = none) : ∀ ids : List Nat,
    (∃ e, infos (ifKernel K about rev ra ri) ids w = (.error e, w) ∧ ∃ id, id ∈ ids ∧ ri w id ≠ none) ∨
    infos (ifKernel K about rev ra ri) ids w = (.ok (ids.map about), w) ∧ ∀ id, id ∈ ids → ri w id = none := by
  intro ids
  induction ids with
  | nil => exact .inr ⟨rfl, by simp⟩
  | cons id ids ih =>
    simp only [infos, ifKernel]
    cases hr : ri w id with
    | some e => exact .inl ⟨.syscall e, rfl, id, by simp, by simp [hr]⟩
    | none =>
      have h1 : (Tcx.Spec.setFd w (K.newFd w) (some (.prog id))).fd (K.newFd w) = some (.prog id) := by
        simp [Tcx.Spec.setFd]
      simp only [h1, Tcx.Spec.sys, setFd_back hf]
      rcases ih with ⟨e, h, id', hm, hn⟩ | ⟨h, hn⟩
      · simp only [ifKernel, Tcx.Spec.sys] at h
        exact .inl ⟨e, by rw [h], id', by simp [hm], hn⟩
      · simp only [ifKernel, Tcx.Spec.sys] at h
        refine .inr ⟨by rw [h]; rfl, ?_⟩
        intro id' hm
        rcases List.mem_cons.mp hm with rfl | hm
        · exact hr
        · exact hn id' hm

/-- Asking about an interface that does not change. -/
theorem query_if {w : Tcx.Spec.World} (i ty : Nat) (ht : K.tcx = true) (hr : ra w i = none) :
    query (fun s cap => (ifKernel K about rev ra ri).ask s i ty cap) w =
      (.ok (rev w i ty, (w.list i ty).map (·.prog)), w) := by
  exact query_still (fun cap => by simp only [ifKernel, ht, hr]; rfl)

/-- **C78.** `query_tcx` returns the information about the programs of this interface and direction, in the order in which
they run, with the revision of the list. It changes nothing. It fails only for a name that is not an interface, a
direction that has no such list, a kernel without such lists, or when a call is refused. -/
theorem C78_tcx (index : List Char → Nat) (name : List Char) (t : TcAttachType) (w : Tcx.Spec.World)
    (hf : w.fd (K.newFd w) = none) (hn : '\x00' ∉ name) (hi : index name ≠ 0) (ty : Nat)
    (hty : Tcx.Spec.hook t = some ty) (ht : K.tcx = true) (hra : ra w (index name) = none)
    (hri : ∀ e ∈ w.list (index name) ty, ri w e.prog = none) :
    queryTcx (ifKernel K about rev ra ri) index name t w =
      (.ok (rev w (index name) ty, (w.list (index name) ty).map (fun e => about e.prog)), w) := by
  have hty' : Tcx.tcxAttachType t = .ok ty := by
    cases t <;> simp_all [Tcx.tcxAttachType, Tcx.Spec.hook]
  have hi' : (index name == 0) = false := by simpa using hi
  simp only [queryTcx, Tcx.ifIndexOf, hn, if_false, hi', Bool.false_eq_true, hty',
    query_if K about rev ra ri (index name) ty ht hra]
  rcases infos_kernel K about rev ra ri hf ((w.list (index name) ty).map (·.prog)) with
    ⟨e, -, id, hm, hne⟩ | ⟨h, -⟩
  · obtain ⟨e', he', rfl⟩ := List.mem_map.mp hm
    exact absurd (hri e' he') hne
  · rw [h]
    simp [List.map_map, Function.comp_def]

/-- **C78.** Nothing changes when `query_tcx` fails either. -/
theorem C78_tcx_unchanged (index : List Char → Nat) (name : List Char) (t : TcAttachType) (w : Tcx.Spec.World)
    (hf : w.fd (K.newFd w) = none) : (queryTcx (ifKernel K about rev ra ri) index name t w).2 = w := by
  unfold queryTcx
  cases Tcx.ifIndexOf index name with
  | error e => rfl
  | ok i =>
    cases Tcx.tcxAttachType t with
    | error e => rfl
    | ok ty =>
      simp only []
      have hq : (query (fun s cap => (ifKernel K about rev ra ri).ask s i ty cap) w).2 = w := by
        have key : ∀ left (buf : List Nat),
            (queryLoop (fun s cap => (ifKernel K about rev ra ri).ask s i ty cap) left buf w).2 = w := by
          have hs : ∀ cap, ((ifKernel K about rev ra ri).ask w i ty cap).2 = w := by
            intro cap
            simp only [ifKernel]
            split
            · rfl
            · split <;> rfl
          intro left
          induction left with
          | zero =>
            intro buf
            rw [queryLoop]
            have := hs buf.length
            split
            rename_i a s he
            rw [he] at this
            cases this
            split <;> rfl
          | succ left ih =>
            intro buf
            rw [queryLoop]
            have := hs buf.length
            split
            rename_i a s he
            rw [he] at this
            cases this
            split
            · rfl
            · simp only []
              split
              · exact ih _
              · rfl
        exact key _ _
      split
      · rename_i e s he; rw [he] at hq; exact hq
      · rename_i r ids s he
        rw [he] at hq
        cases hq
        rcases infos_kernel K about rev ra ri hf ids with ⟨e, h, -⟩ | ⟨h, -⟩ <;> rw [h]

/-- **C78.** The order `query_tcx` shows is the order asked for when attaching: after a program has been attached at a
place of the list, the list shown is the one shown before with this program at this place. -/
theorem C78_tcx_order (index : List Char → Nat) (name : List Char) (t : TcAttachType) (w0 w w' : Tcx.Spec.World)
    (p p' : Tcx.Prog) (f P : Nat) (id : Tcx.Id) (say : Tcx.Spec.Say) (o : Tcx.LinkOrder) (x : Tcx.Spec.Where)
    (ho : say.order = .ok o) (hm : say.Means w0 x) (hlive : ∀ f, say.needs = some f → w.fd f = w0.fd f)
    (h0 : say.byProgram = true → say.needs ≠ some 0) (hw : Tcx.Spec.Holds w p f P) (hc : Tcx.Spec.Consistent w)
    (h : Tcx.doAttach (Tcx.Spec.sys K) p (index name) t (.tcxOrder o) true w = (.ok id, p', w'))
    (hf : w'.fd (K.newFd w') = none) (hn : '\x00' ∉ name) (hi : index name ≠ 0) (ht : K.tcx = true)
    (hra : ra w' (index name) = none) (hri : ∀ id, ri w' id = none) :
    ∃ (ty : Nat) (e : Tcx.Spec.Entry) (shown : List Tcx.Spec.Entry), Tcx.Spec.hook t = some ty ∧ e.prog = P ∧
      Tcx.Spec.Placed (w.list (index name) ty) e shown x ∧
      (queryTcx (ifKernel K about rev ra ri) index name t w').1 =
        .ok (rev w' (index name) ty, shown.map (fun e => about e.prog)) := by
  obtain ⟨ty, e, hty, he, -, hp, -⟩ :=
    Tcx.C69_order_partial K w0 w w' p p' f P (index name) t id say o x ho hm hlive h0 hw hc h
  exact ⟨ty, e, w'.list (index name) ty, hty, he, hp, by
    rw [C78_tcx K about rev ra ri index name t w' hf hn hi ty hty ht hra (fun e _ => hri e.prog)]⟩

end If

/-- The list of an interface, before and after attaching a program at the front, and when a program has gone. -/
example :
    (queryTcx (ifKernel Tcx.k66 id (fun _ _ _ => 5) (fun _ _ => none) (fun _ _ => none)) (fun _ => 2) ['e'] .ingress
      Tcx.w0).1 = .ok (5, [71, 72]) ∧
    (queryTcx (ifKernel Tcx.k66 id (fun _ _ _ => 6) (fun _ _ => none) (fun _ _ => none)) (fun _ => 2) ['e'] .ingress
      (Tcx.doAttach (Tcx.Spec.sys Tcx.k66) Tcx.prog0 2 .ingress (.tcxOrder .first) true Tcx.w0).2.2).1 =
      .ok (6, [70, 71, 72]) ∧
    (queryTcx (ifKernel Tcx.k66 id (fun _ _ _ => 5) (fun _ _ => none) (fun _ i => if i = 72 then some 2 else none))
      (fun _ => 2) ['e'] .ingress Tcx.w0).1 = .error (.syscall 2) := by decide +kernel

end Verif.Attach.Query
