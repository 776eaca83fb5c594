import Verif.Local.Steps

/-!
# Storage of sockets, inodes and cgroups: all steps
-/
set_option linter.unusedSimpArgs false
set_option linter.unusedVariables false
namespace Verif.Local
open Spec Verif.Bytes

theorem suits_cgrp (w : World) (n : Nat) : isCgroup w.things[n]? = (suits w .cgrp n).isNone := by
  simp only [suits]
  rcases w.things[n]? with _ | t
  · rfl
  · cases t <;> rfl

section
variable {w : W} {a : A} (r : Rel w a) (cpus : Nat) (fresh : (Nat → Option Obj) → Option Nat) (fault : Option Nat)
include r

/-- What is in an array of cgroups has changed. -/
theorem Rel.slots (m i : Nat) (x : Option Nat) :
    Rel { w with k := { w.k with world := w.k.world.setSlot m i x } } { a with world := a.world.setSlot m i x } where
  world := by simp only [r.world]
  values := by
    obtain ⟨γ, v⟩ := r.values
    exact ⟨γ, v.other _ _ rfl rfl rfl rfl rfl rfl (fun _ _ q => q)⟩
  handles := r.handles.keep rfl (fun _ _ q => q)
  pos := r.pos

theorem Rel.set {d : Data} {m : Nat} (ht : w.k.table d.fd = some (m, ⟨.array, d.ksize, d.vsize, d.max⟩))
    {fd n : Nat} (hn : w.k.fds fd = some (.thing n)) (lt : fd < 2 ^ 31) (index : BitVec 32) (flags : Nat) :
    Rel (w.result (arraySet (sys cpus fresh fault) d index fd flags w.k)).1 (step.setArray a d.max m index n flags fault).1 ∧
      (w.result (arraySet (sys cpus fresh fault) d index fd flags w.k)).2 = (step.setArray a d.max m index n flags fault).2 ∧
      (arraySet (sys cpus fresh fault) d index fd flags w.k).2.fds = w.k.fds := by
  simp only [arraySet, checkBounds, step.setArray]
  by_cases hb : index.toNat ≥ d.max
  · simp only [hb, if_true, W.result]
    exact ⟨r, trivial, trivial⟩
  · simp only [hb, if_false]
    obtain ⟨f1, f2⟩ := find_thing w.k .cgrp fd n hn lt
    rw [r.world] at f1 f2
    by_cases hf : flags = 0
    · simp only [mapInsert, sys, ht, K.update, hf, ofLe_index, hb, if_false, ne_eq, not_true_eq_false, suits_cgrp]
      rcases e : suits a.world .cgrp n with _ | x
      · simp only [f2 e, Option.isNone, Bool.not_true, Bool.false_eq_true, if_false]
        rcases fault with _ | e
        · simp only [W.result]
          exact ⟨r.slots _ _ _, trivial, trivial⟩
        · exact ⟨r, rfl, rfl⟩
      · simp only [f1 x e, Option.isNone, Bool.not_false, if_true]
        exact ⟨r, rfl, trivial⟩
    · simp only [mapInsert, sys, ht, K.update, hf, ne_eq, not_false_eq_true, if_true]
      exact ⟨r, rfl, trivial⟩

/-- A program is given a pointer to the value of an object. -/
theorem Rel.ptr {m : Nat} {t : Table} (ht : a.world.tables[m]? = some t) (n : Nat) :
    Rel (w.points (storageGet t.kind fault m n none 0 { k := w.k })).1
        (if (a.val m (.thing n)).isSome then ({ a with ptrs := a.ptrs ++ [.to m (.thing n) 0] }, Res.pointer true) else (a, .pointer false)).1 ∧
      (w.points (storageGet t.kind fault m n none 0 { k := w.k })).2 =
        (if (a.val m (.thing n)).isSome then ({ a with ptrs := a.ptrs ++ [.to m (.thing n) 0] }, Res.pointer true) else (a, .pointer false)).2 := by
  have ht2 : w.k.world.tables[m]? = some t := by rw [r.world]; exact ht
  simp only [storageGet, ht2, r.isSome, ne_eq, not_true_eq_false, false_or]
  rcases e : w.k.at_ m (.thing n) with _ | id
  · simp only [Option.isSome, Bool.false_eq_true, if_false]
    exact ⟨r, rfl⟩
  · simp only [Option.isSome, if_true]
    refine ⟨?_, rfl⟩
    obtain ⟨γ, v⟩ := r.values
    exact r.with (k := w.k) (b := { a with ptrs := a.ptrs ++ [.to m (.thing n) 0] }) rfl rfl rfl rfl ⟨γ, v.point m _ id 0 e⟩

theorem Rel.ptrOrInsert {m : Nat} {t : Table} (ht : a.world.tables[m]? = some t) (n : Nat) (value : Option Spec.Bytes)
    (hv : value.any (fun v => v.length != t.vsize) = false) (b : A × Res)
    (hb : b = if (a.val m (.thing n)).isSome then ({ a with ptrs := a.ptrs ++ [.to m (.thing n) 0] }, .pointer true)
          else if fault.isSome then (a, .pointer false)
          else
            ({ a.change m (.thing n) (fun _ => value.getD (List.replicate t.vsize 0)) with
                ptrs := (a.change m (.thing n) fun _ => value.getD (List.replicate t.vsize 0)).ptrs ++ [.to m (.thing n) 0] }, .pointer true)) :
    Rel (w.points (storageGet t.kind fault m n value 1 { k := w.k })).1 b.1 ∧ (w.points (storageGet t.kind fault m n value 1 { k := w.k })).2 = b.2 := by
  have ht2 : w.k.world.tables[m]? = some t := by rw [r.world]; exact ht
  subst hb
  simp only [storageGet, ht2, r.isSome, ne_eq, not_true_eq_false, false_or]
  obtain ⟨γ, v⟩ := r.values
  rcases e : w.k.at_ m (.thing n) with _ | id
  · simp only [Option.isSome, Bool.false_eq_true, if_false]
    rcases fault with _ | x
    · simp only [gt_iff_lt, Nat.lt_irrefl, if_false, and_self, if_true, Bool.false_eq_true, W.points]
      refine ⟨?_, trivial⟩
      have hl : ∀ c : Nat, (value.getD (List.replicate t.vsize 0)).length = t.vsize := by
        intro _
        rcases value with _ | v
        · simp
        · simpa using hv
      have v2 := v.putNew m (.thing n) (fun _ => value.getD (List.replicate t.vsize 0)) e ⟨t, ht, hl⟩
      have v3 := v2.point m (.thing n) w.k.next 0 (by simp [K.put])
      exact r.with (b := { a.change m (.thing n) (fun _ => value.getD (List.replicate t.vsize 0)) with
                ptrs := (a.change m (.thing n) fun _ => value.getD (List.replicate t.vsize 0)).ptrs ++ [.to m (.thing n) 0] })
        rfl rfl rfl rfl ⟨γ, v3⟩
    · exact ⟨r, rfl⟩
  · simp only [Option.isSome, if_true]
    refine ⟨?_, rfl⟩
    exact r.with (k := w.k) (b := { a with ptrs := a.ptrs ++ [.to m (.thing n) 0] }) rfl rfl rfl rfl ⟨γ, v.point m _ id 0 e⟩

theorem Rel.delete {m : Nat} {t : Table} (ht : a.world.tables[m]? = some t) {kind : Kind} (hk : t.kind = kind) (n : Nat) (out : Int → Except Int Unit) (h0 : out 0 = .ok ()) (h2 : out (-2) = .error (-2)) (x : Except Int Unit × Work)
    (hx : x = (match storageDelete kind m n { k := w.k } with | (ret, s) => (out ret, s))) :
    Rel (w.told x).1 (if (a.val m (.thing n)).isSome then (a.renew m (.thing n) none, Res.told (.ok ())) else (a, .told (.error (-2)))).1 ∧
      (w.told x).2 = (if (a.val m (.thing n)).isSome then (a.renew m (.thing n) none, Res.told (.ok ())) else (a, .told (.error (-2)))).2 := by
  have ht2 : w.k.world.tables[m]? = some t := by rw [r.world]; exact ht
  subst hx hk
  simp only [storageDelete, ht2, Option.map_some, ne_eq, not_true_eq_false, if_false, r.isSome]
  rcases e : (w.k.at_ m (.thing n)).isSome with _ | _
  · simp only [Bool.false_eq_true, if_false, W.told, h2]
    exact ⟨r, trivial⟩
  · simp only [if_true, W.told, h0]
    exact ⟨r.erased e, trivial⟩

theorem Rel.old {d : Data} {m : Nat} (ht : w.k.table d.fd = some (m, ⟨.oldAll, d.ksize, d.vsize, d.max⟩))
    (ht' : a.world.tables[m]? = some ⟨.oldAll, d.ksize, d.vsize, d.max⟩) (key : CgKey) (p : BitVec 32) (values : List Spec.Bytes) (flags : Nat)
    (hl : values.length = cpus) (hv : ∀ v ∈ values, v.length = d.vsize) (b : A × Res)
    (hb : b = match oldRefusal (a.val m (.cg key.ino.toNat key.attach.toNat)).isSome flags fault, a.val m (.cg key.ino.toNat key.attach.toNat) with
            | some e, _ => (a, .failed (.syscall "bpf_map_update_elem" e))
            | none, none => (a, .nothing)
            | none, some f => (a.change m (.cg key.ino.toNat key.attach.toNat) (fun c => (values[c]?).getD (f c)), .done)) :
    Rel (w.result (oldAllInsert (sys cpus fresh fault) cpus d key p values flags w.k)).1 b.1 ∧
      (w.result (oldAllInsert (sys cpus fresh fault) cpus d key p values flags w.k)).2 = b.2 := by
  obtain ⟨mem, hm, hp⟩ := piece_build cpus d.vsize values hl hv
  subst hb
  obtain ⟨γ, v⟩ := r.values
  have sz := v.sizes m (.cg key.ino.toNat key.attach.toNat)
  simp only [oldAllInsert, hm, sys, ht, K.update, keySlot_key, r.isSome]
  rw [r.valAt] at sz ⊢
  rcases e : w.k.at_ m (.cg key.ino.toNat key.attach.toNat) with _ | id
  · obtain ⟨x, hx⟩ : ∃ x, oldRefusal false flags fault = some x := by
      simp only [oldRefusal]
      split
      · exact ⟨22, rfl⟩
      · exact ⟨2, by simp⟩
    simp only [Option.isSome, hx]
    exact ⟨r, rfl⟩
  · rw [e] at sz
    simp only [Option.isSome, Option.map_some]
    rcases e2 : oldRefusal true flags fault with _ | x
    · simp only [W.result]
      refine ⟨?_, trivial⟩
      have hfun : (fun c => if c < cpus then piece d.vsize mem c else w.k.cells id c) = fun c => (values[c]?).getD (w.k.cells id c) := by
        funext c
        by_cases hc : c < cpus
        · rw [if_pos hc, List.getElem?_eq_getElem (by omega), Option.getD_some]
          exact hp c _ (List.getElem?_eq_getElem (by omega))
        · rw [if_neg hc, List.getElem?_eq_none (by omega), Option.getD_none]
      rw [hfun]
      refine r.with (ps := w.ptrs) (k := w.k.write id _) rfl rfl rfl rfl ⟨γ, v.write m _ id _ e ⟨_, ht', fun c => ?_⟩⟩
      obtain ⟨t, h1, h2⟩ := sz _ rfl
      rw [ht'] at h1
      cases h1
      by_cases hc : c < values.length
      · rw [List.getElem?_eq_getElem hc, Option.getD_some]
        exact hv _ (List.getElem_mem hc)
      · rw [List.getElem?_eq_none (by omega), Option.getD_none]
        exact h2 c
    · exact ⟨r, rfl⟩

end

theorem under_answer (i : Int) (h : i = 1 ∨ i ≤ 0) : under i = step.answerOf i := by
  rcases h with rfl | h
  · rfl
  · by_cases e : i = 0
    · subst e; rfl
    · rw [under, if_neg (by omega), if_neg e, step.answerOf, if_pos (by omega)]

theorem taskUnder_range (w : World) (m : Nat) (i : BitVec 32) (cg : Nat) : w.taskUnder m i cg = 1 ∨ w.taskUnder m i cg ≤ 0 := by
  simp only [World.taskUnder]
  repeat' split
  all_goals simp

theorem skbUnder_range (w : World) (m : Nat) (i : BitVec 32) (cg : Option Nat) : w.skbUnder m i cg = 1 ∨ w.skbUnder m i cg ≤ 0 := by
  rcases cg with _ | cg
  · right; show (-2 : Int) ≤ 0; decide
  · exact taskUnder_range w m i cg

theorem new_eq (kind : Kind) (fd ksize vsize max size : Nat) (hc : creatable kind ksize vsize max = true) :
    new kind ⟨fd, ksize, vsize, max⟩ size =
      if ksize = 8 then .error (.invalidKeySize 16 8)
      else if kind ≠ .array ∧ vsize ≠ size then .error (.invalidValueSize size vsize)
      else .ok () := by
  cases kind <;> simp only [creatable, Bool.and_eq_true, Bool.or_eq_true, beq_iff_eq, bne_iff_ne] at hc <;>
    simp only [new, checkKvSize]
  case old | oldAll =>
    obtain ⟨⟨h | h, _⟩, _⟩ := hc
    · subst h
      by_cases q : size = vsize
      · simp [q]
      · rw [if_neg (by decide), if_pos q, if_neg (by decide), if_pos ⟨by decide, fun e => q e.symm⟩]
    · subst h; simp
  case array =>
    obtain ⟨⟨h, h'⟩, _⟩ := hc
    subst h h'
    simp
  all_goals
    obtain ⟨⟨h, _⟩, _⟩ := hc
    subst h
    by_cases q : size = vsize
    · simp [q]
    · rw [if_neg (by decide), if_pos q, if_neg (by decide), if_pos ⟨by decide, fun e => q e.symm⟩]

theorem creatable_pos (kind : Kind) (ksize vsize max : Nat) (hc : creatable kind ksize vsize max = true) : 0 < vsize := by
  cases kind <;> simp only [creatable, Bool.and_eq_true, Bool.or_eq_true, beq_iff_eq, bne_iff_ne] at hc <;> omega

theorem append_some {α : Type} {l : List α} {x y : α} {i : Nat} (h : (l ++ [x])[i]? = some y) : l[i]? = some y ∨ (i = l.length ∧ y = x) := by
  by_cases lt : i < l.length
  · left; rw [List.getElem?_append_left lt] at h; exact h
  · have := (List.getElem?_eq_some_iff.mp h).1
    simp only [List.length_append, List.length_singleton] at this
    have : i = l.length := by omega
    subst this
    rw [List.getElem?_concat_length] at h
    right; exact ⟨rfl, by cases h; rfl⟩

theorem append_old {α : Type} {l : List α} {x y : α} {i : Nat} (h : l[i]? = some y) : (l ++ [x])[i]? = some y := by
  rw [List.getElem?_append_left (List.getElem?_eq_some_iff.mp h).1]; exact h

theorem Rel.newTable {w : W} {a : A} (r : Rel w a) (t : Table) (hp : 0 < t.vsize) (k : K)
    (hk : k.world = { w.k.world with tables := w.k.world.tables ++ [t] }) (h1 : k.cells = w.k.cells) (h2 : k.next = w.k.next) (h3 : k.at_ = w.k.at_)
    (hs : List (Option H)) (ns : List (Option Stands)) (hh : RelH k hs ns) :
    Rel { k := k, hs := hs, ptrs := w.ptrs }
      { a with world := { a.world with tables := a.world.tables ++ [t] }, names := ns } where
  world := by simp only [hk, r.world]
  values := by
    obtain ⟨γ, v⟩ := r.values
    exact ⟨γ, v.other _ _ h1 h2 h3 rfl rfl rfl (fun _ _ q => append_old q)⟩
  handles := hh
  pos m t' e := by
    rcases append_some e with e | ⟨_, rfl⟩
    · exact r.pos _ _ e
    · exact hp

/-- One step: what is seen is what is promised. -/
theorem step_rel (cpus : Nat) (fresh : (Nat → Option Obj) → Option Nat) (hfresh : Fresh fresh) {w : W} {a : A} (r : Rel w a) (op : Op)
    (fault : Option Nat) :
    Rel (wstep cpus fresh w op fault).1 (Spec.step cpus a op fault (fresh w.k.fds).isSome).1 ∧
      (wstep cpus fresh w op fault).2 = (Spec.step cpus a op fault (fresh w.k.fds).isSome).2 := by
  obtain ⟨γ, v⟩ := r.values
  cases op with
  | open_ t =>
    simp only [wstep, Spec.step, r.world]
    rcases ew : a.world.welcome t with _ | _
    · simp only [Bool.false_and, Bool.false_eq_true, if_false]
      exact ⟨r, trivial⟩
    · rcases ef : fresh w.k.fds with _ | fd
      · simp only [Option.isSome, Bool.and_false, Bool.false_eq_true, if_false]
        exact ⟨r, trivial⟩
      · obtain ⟨free, lt⟩ := hfresh _ _ ef
        simp only [Option.isSome, Bool.and_self, if_true]
        refine ⟨⟨by simp [K.openFd], ⟨γ, v.other _ _ rfl rfl rfl rfl rfl rfl (fun _ _ q => q)⟩, ?_, r.pos⟩, trivial⟩
        refine r.handles.open free lt (.thing a.world.things.length) _ rfl _ _ rfl (fun _ _ q => by rw [r.world] at q; exact q) ?_
        simp [Match, K.openFd]
  | clone h =>
    rcases r.thing h with ⟨fd, n, e1, e2, e3, _, _⟩ | ⟨e1, e2⟩
    · rcases ef : fresh w.k.fds with _ | fd'
      · simp only [wstep, Spec.step, e1, e2, e3, ef, Option.isSome]
        exact ⟨r, trivial⟩
      · obtain ⟨free, lt⟩ := hfresh _ _ ef
        simp only [wstep, Spec.step, e1, e2, e3, ef, Option.isSome]
        refine ⟨⟨r.world, ⟨γ, v.other _ _ rfl rfl rfl rfl rfl rfl (fun _ _ q => q)⟩, ?_, r.pos⟩, trivial⟩
        refine r.handles.open free lt (.thing n) _ rfl _ _ rfl (fun _ _ q => q) ?_
        simp [Match, K.openFd]
    · simp only [wstep, Spec.step, e1, e2]
      exact ⟨r, trivial⟩
  | drop h =>
    have q := r.handles.hand h
    rcases ex : w.hs[h]?.join with _ | x
    · rcases ey : a.names[h]?.join with _ | y
      · simp only [wstep, Spec.step, ex, ey, Option.isSome, Bool.false_eq_true, if_false]
        exact ⟨r, trivial⟩
      · rw [ex, ey] at q; simp only [Match] at q
    · rcases ey : a.names[h]?.join with _ | y
      · rw [ex, ey] at q; cases x <;> simp only [Match] at q
      · simp only [wstep, Spec.step, ex, ey, Option.isSome, if_true, sys]
        exact ⟨⟨r.world, ⟨γ, v.other _ _ rfl rfl rfl rfl rfl rfl (fun _ _ q => q)⟩, r.handles.close ex, r.pos⟩, trivial⟩
  | map kind ksize vsize max size =>
    rcases hc : creatable kind ksize vsize max with _ | _
    · simp only [wstep, Spec.step, make, create, sys, hc, Bool.not_false, if_true]
      exact ⟨r, trivial⟩
    · rcases fault with _ | e
      · rcases ef : fresh w.k.fds with _ | fd
        · simp only [wstep, Spec.step, make, create, sys, hc, ef, Option.isSome, Bool.not_true, Bool.false_eq_true, if_false]
          exact ⟨r, trivial⟩
        · obtain ⟨free, lt⟩ := hfresh _ _ ef
          have hp := creatable_pos _ _ _ _ hc
          simp only [wstep, Spec.step, make, create, sys, hc, ef, Option.isSome, Bool.not_true, Bool.false_eq_true, if_false, new_eq _ _ _ _ _ _ hc]
          have grow : ∀ (m : Nat) t, w.k.world.tables[m]? = some t → (w.k.world.tables ++ [⟨kind, ksize, vsize, max⟩])[m]? = some t :=
            fun _ _ q => append_old q
          have bad : RelH ((({ w.k with world := { w.k.world with tables := w.k.world.tables ++ [⟨kind, ksize, vsize, max⟩] } } : K).openFd fd
              (.map w.k.world.tables.length)).closeFd fd) w.hs a.names := by
            refine r.handles.keep ?_ grow
            funext n
            simp only [K.closeFd, K.openFd]
            by_cases q : n = fd
            · rw [if_pos q, q, free]
            · rw [if_neg q, if_neg q]
          by_cases q1 : ksize = 8
          · simp only [if_pos q1]
            exact ⟨r.newTable ⟨kind, ksize, vsize, max⟩ hp ((({ w.k with world := { w.k.world with tables := w.k.world.tables ++ [⟨kind, ksize, vsize, max⟩] } } : K).openFd fd
              (.map w.k.world.tables.length)).closeFd fd) rfl rfl rfl rfl _ _ bad, trivial⟩
          · by_cases q2 : kind ≠ .array ∧ vsize ≠ size
            · simp only [if_neg q1, if_pos q2]
              exact ⟨r.newTable ⟨kind, ksize, vsize, max⟩ hp ((({ w.k with world := { w.k.world with tables := w.k.world.tables ++ [⟨kind, ksize, vsize, max⟩] } } : K).openFd fd
              (.map w.k.world.tables.length)).closeFd fd) rfl rfl rfl rfl _ _ bad, trivial⟩
            · simp only [if_neg q1, if_neg q2]
              refine ⟨?_, trivial⟩
              refine r.newTable ⟨kind, ksize, vsize, max⟩ hp (({ w.k with world := { w.k.world with tables := w.k.world.tables ++ [⟨kind, ksize, vsize, max⟩] } } : K).openFd fd
              (.map w.k.world.tables.length)) rfl rfl rfl rfl _ _ ?_
              refine r.handles.open free lt (.map w.k.world.tables.length) _ rfl _ _ rfl grow ?_
              refine ⟨rfl, rfl, rfl, ?_, ?_⟩
              · simp [K.openFd, r.world]
              · simp [K.openFd, r.world]
      · simp only [wstep, Spec.step, make, create, sys, hc, Bool.not_true, Bool.false_eq_true, if_false]
        exact ⟨r, trivial⟩
  | get m h flags =>
    rcases r.map m with ⟨kind, d, t, m1, m2, m3, m4⟩ | ⟨m1, m2⟩
    · rcases r.thing h with ⟨fd, n, e1, e2, e3, lt, _⟩ | ⟨e1, e2⟩
      · have key := fun ho => r.get cpus fresh fault (kind := kind) m3 ho e3 lt flags
        cases kind
        case sk | inode | cgrp =>
          simp only [wstep, Spec.step, m1, m2, e1, e2, skGet, inodeGet, cgrpGet, Kind.ofObjects, Bool.not_true, Bool.false_eq_true, if_false]
          rw [key rfl]
          by_cases hf : flags = 0
          · simp only [hf, ne_eq, not_true_eq_false, if_false]
            rcases suits a.world _ n with _ | e <;> rcases a.val t (.thing n) with _ | f <;> exact ⟨r, rfl⟩
          · simp only [hf, ne_eq, not_false_eq_true, if_true]
            exact ⟨r, trivial⟩
        all_goals
          simp only [wstep, Spec.step, m1, m2, e1, e2, Kind.ofObjects, Bool.not_false, if_true]
          exact ⟨r, trivial⟩
      · cases kind <;> simp only [wstep, Spec.step, m1, m2, e1, e2] <;> exact ⟨r, trivial⟩
    · simp only [wstep, Spec.step, m1, m2]
      exact ⟨r, trivial⟩
  | insert m h value flags =>
    rcases r.map m with ⟨kind, d, t, m1, m2, m3, m4⟩ | ⟨m1, m2⟩
    · rcases r.thing h with ⟨fd, n, e1, e2, e3, lt, _⟩ | ⟨e1, e2⟩
      · by_cases hl : value.length = d.vsize
        · have key := fun ho => r.insert cpus fresh fault (kind := kind) m3 m4 ho e3 lt value hl flags _ rfl
          cases kind
          case sk | inode | cgrp =>
            simp only [wstep, Spec.step, m1, m2, e1, e2, hl, skInsert, inodeInsert, cgrpInsert, Kind.ofObjects, Bool.not_true, Bool.false_eq_true,
              ne_eq, not_true_eq_false, if_false, decide_false, Bool.or_self]
            exact key rfl
          all_goals
            simp only [wstep, Spec.step, m1, m2, e1, e2, hl, Kind.ofObjects, Bool.not_false, Bool.true_or, ne_eq, not_true_eq_false, if_false, if_true]
            exact ⟨r, trivial⟩
        · simp only [wstep, Spec.step, m1, m2, e1, e2, hl, ne_eq, not_false_eq_true, if_true, decide_true, Bool.or_true]
          exact ⟨r, trivial⟩
      · simp only [wstep, Spec.step, m1, m2, e1, e2]; exact ⟨r, trivial⟩
    · simp only [wstep, Spec.step, m1, m2]
      exact ⟨r, trivial⟩
  | remove m h =>
    rcases r.map m with ⟨kind, d, t, m1, m2, m3, m4⟩ | ⟨m1, m2⟩
    · rcases r.thing h with ⟨fd, n, e1, e2, e3, lt, _⟩ | ⟨e1, e2⟩
      · have key := fun ho => r.remove cpus fresh fault (kind := kind) m3 ho e3 lt _ rfl
        cases kind
        case sk | inode | cgrp =>
          simp only [wstep, Spec.step, m1, m2, e1, e2, skRemove, inodeRemove, cgrpRemove, Kind.ofObjects, Bool.not_true, Bool.false_eq_true, if_false]
          exact key rfl
        all_goals
          simp only [wstep, Spec.step, m1, m2, e1, e2, Kind.ofObjects, Bool.not_false, if_true]
          exact ⟨r, trivial⟩
      · cases kind <;> simp only [wstep, Spec.step, m1, m2, e1, e2] <;> exact ⟨r, trivial⟩
    · simp only [wstep, Spec.step, m1, m2]
      exact ⟨r, trivial⟩
  | oldGet m key p flags =>
    rcases r.map m with ⟨kind, d, t, m1, m2, m3, m4⟩ | ⟨m1, m2⟩
    · cases kind
      case old =>
        simp only [wstep, Spec.step, m1, m2, oldGet, mapGet, bpfLookup, sys, m3, K.lookup, keySlot_key, r.valAt]
        by_cases hf : flags = 0
        · simp only [hf, ne_eq, not_true_eq_false, if_false]
          rcases w.k.at_ t (.cg key.ino.toNat key.attach.toNat) with _ | id <;> exact ⟨r, rfl⟩
        · simp only [hf, ne_eq, not_false_eq_true, if_true]
          exact ⟨r, rfl⟩
      all_goals
        simp only [wstep, Spec.step, m1, m2]
        exact ⟨r, trivial⟩
    · simp only [wstep, Spec.step, m1, m2]
      exact ⟨r, trivial⟩
  | oldInsert m key p value flags =>
    rcases r.map m with ⟨kind, d, t, m1, m2, m3, m4⟩ | ⟨m1, m2⟩
    · cases kind
      case old =>
        by_cases hl : value.length = d.vsize
        · simp only [wstep, Spec.step, m1, m2, hl, ne_eq, not_true_eq_false, if_false, oldInsert, mapInsert, sys, m3, K.update, keySlot_key, r.isSome]
          rcases oldRefusal (w.k.at_ t (.cg key.ino.toNat key.attach.toNat)).isSome flags fault with _ | e
          · simp only [W.result]
            exact ⟨r.put m4 _ _ (fun _ => hl), trivial⟩
          · exact ⟨r, rfl⟩
        · simp only [wstep, Spec.step, m1, m2, hl, ne_eq, not_false_eq_true, if_true]
          exact ⟨r, trivial⟩
      all_goals
        simp only [wstep, Spec.step, m1, m2]
        exact ⟨r, trivial⟩
    · simp only [wstep, Spec.step, m1, m2]
      exact ⟨r, trivial⟩
  | oldAllGet m key p flags =>
    rcases r.map m with ⟨kind, d, t, m1, m2, m3, m4⟩ | ⟨m1, m2⟩
    · cases kind
      case oldAll =>
        have sz := v.sizes t (.cg key.ino.toNat key.attach.toNat)
        simp only [wstep, Spec.step, m1, m2, oldAllGet, bpfLookup, sys, m3, K.lookup, keySlot_key]
        rw [r.valAt] at sz ⊢
        by_cases hf : flags = 0
        · simp only [hf, ne_eq, not_true_eq_false, if_false]
          rcases e : w.k.at_ t (.cg key.ino.toNat key.attach.toNat) with _ | id
          · exact ⟨r, rfl⟩
          · rw [e] at sz
            obtain ⟨T, h1, h2⟩ := sz _ rfl
            rw [m4] at h1
            cases h1
            simp only [Option.map_some, spread_read cpus d.vsize _ (r.pos _ _ m4) h2, W.givenAll]
            exact ⟨r, trivial⟩
        · simp only [hf, ne_eq, not_false_eq_true, if_true]
          exact ⟨r, rfl⟩
      all_goals
        simp only [wstep, Spec.step, m1, m2]
        exact ⟨r, trivial⟩
    · simp only [wstep, Spec.step, m1, m2]
      exact ⟨r, trivial⟩
  | oldAllInsert m key p values flags =>
    rcases r.map m with ⟨kind, d, t, m1, m2, m3, m4⟩ | ⟨m1, m2⟩
    · cases kind
      case oldAll =>
        by_cases hl : values.length ≠ cpus ∨ values.any (fun v => v.length != d.vsize)
        · simp only [wstep, Spec.step, m1, m2, if_pos hl]
          exact ⟨r, trivial⟩
        · simp only [wstep, Spec.step, m1, m2, if_neg hl]
          simp only [ne_eq, not_or, Decidable.not_not, List.any_eq_true, bne_iff_ne, not_exists, not_and] at hl
          exact r.old cpus fresh fault m3 m4 key p values flags hl.1 hl.2 _ rfl
      all_goals
        simp only [wstep, Spec.step, m1, m2]
        exact ⟨r, trivial⟩
    · simp only [wstep, Spec.step, m1, m2]
      exact ⟨r, trivial⟩
  | set m index h flags =>
    rcases r.map m with ⟨kind, d, t, m1, m2, m3, m4⟩ | ⟨m1, m2⟩
    · rcases r.thing h with ⟨fd, n, e1, e2, e3, lt, _⟩ | ⟨e1, e2⟩
      · cases kind
        case array =>
          simp only [wstep, Spec.step, m1, m2, e1, e2]
          have := r.set cpus fresh fault m3 e3 lt index flags
          exact ⟨this.1, this.2.1⟩
        all_goals
          simp only [wstep, Spec.step, m1, m2, e1, e2]
          exact ⟨r, trivial⟩
      · cases kind <;> simp only [wstep, Spec.step, m1, m2, e1, e2] <;> exact ⟨r, trivial⟩
    · simp only [wstep, Spec.step, m1, m2]
      exact ⟨r, trivial⟩
  | setOwned m index h flags =>
    rcases r.map m with ⟨kind, d, t, m1, m2, m3, m4⟩ | ⟨m1, m2⟩
    · rcases r.thing h with ⟨fd, n, e1, e2, e3, lt, ex⟩ | ⟨e1, e2⟩
      · cases kind
        case array =>
          obtain ⟨q1, q2, q3⟩ := r.set cpus fresh fault m3 e3 lt index flags
          simp only [wstep, Spec.step, m1, m2, e1, e2, arraySetOwned]
          rcases eo : arraySet (sys cpus fresh fault) d index fd flags w.k with ⟨o, k⟩
          rw [eo] at q1 q2 q3
          rcases eb : step.setArray a d.max t index n flags fault with ⟨b, res⟩
          rw [eb] at q1 q2
          have rr : Rel { w with k := k } b := by
            rcases o with e | ⟨⟩ <;> exact q1
          have fin : Rel { w with k := k.closeFd fd, hs := w.hs.set h none } { b with names := b.names.set h none } := by
            obtain ⟨γ', v'⟩ := rr.values
            exact ⟨rr.world, ⟨γ', v'.other _ _ rfl rfl rfl rfl rfl rfl (fun _ _ q => q)⟩, rr.handles.close (x := .thing fd) ex, rr.pos⟩
          rcases o with e | ⟨⟩
          · exact ⟨fin, q2⟩
          · exact ⟨fin, q2⟩
        all_goals
          simp only [wstep, Spec.step, m1, m2, e1, e2]
          exact ⟨r, trivial⟩
      · cases kind <;> simp only [wstep, Spec.step, m1, m2, e1, e2] <;> exact ⟨r, trivial⟩
    · simp only [wstep, Spec.step, m1, m2]
      exact ⟨r, trivial⟩
  | unset m index =>
    rcases r.map m with ⟨kind, d, t, m1, m2, m3, m4⟩ | ⟨m1, m2⟩
    · cases kind
      case array =>
        simp only [wstep, Spec.step, m1, m2, arrayUnset, checkBounds]
        by_cases hb : index.toNat ≥ d.max
        · simp only [hb, if_true]
          exact ⟨r, rfl⟩
        · simp only [hb, if_false, mapRemove, sys, m3, K.delete, ofLe_index, r.world]
          rcases e : (a.world.slots t index.toNat).isSome with _ | _
          · simp only [Bool.false_eq_true, if_false]
            exact ⟨r, rfl⟩
          · simp only [if_true, W.result]
            have := r.slots t index.toNat none
            rw [r.world] at this
            exact ⟨this, trivial⟩
      all_goals
        simp only [wstep, Spec.step, m1, m2]
        exact ⟨r, trivial⟩
    · simp only [wstep, Spec.step, m1, m2]
      exact ⟨r, trivial⟩
  | attach m n type =>
    simp only [wstep, Spec.step, r.world]
    rcases et : a.world.tables[m]? with _ | t
    · exact ⟨r, rfl⟩
    · rcases en : a.world.things[n]? with _ | (_ | _ | ⟨up, ino⟩)
      · exact ⟨r, rfl⟩
      · exact ⟨r, rfl⟩
      · exact ⟨r, rfl⟩
      · simp only
        split
        · exact ⟨r, rfl⟩
        · rw [r.valAt]
          rcases e : w.k.at_ m (t.slot ino type) with _ | id
          · simp only [Option.isSome, Bool.false_eq_true, if_false, Option.map_none]
            refine ⟨?_, trivial⟩
            exact r.with (ps := w.ptrs) (k := w.k.put m (t.slot ino type) (zeros t.vsize)) rfl rfl rfl rfl
              ⟨γ, v.putNew m _ _ e ⟨t, et, fun c => by simp [zeros]⟩⟩
          · simp only [Option.isSome, if_true, Option.map_some]
            exact ⟨r, trivial⟩
  | ptr m n =>
    simp only [wstep, Spec.step, r.world]
    rcases et : a.world.tables[m]? with _ | t
    · exact ⟨r, rfl⟩
    · simp only
      rcases es : (suits a.world t.kind n).isSome with _ | _
      · have key := r.ptr fault et n
        rcases ek : t.kind with _ | _ | _ | _ | _ | _
        case sk | inode | cgrp =>
          rw [ek] at key
          simp only [Kind.ofObjects, Bool.not_true, Bool.or_self, Bool.false_eq_true, if_false]
          exact key
        all_goals
          simp only [Kind.ofObjects, Bool.not_false, Bool.true_or, if_true, Bool.false_eq_true, if_false]
          exact ⟨r, trivial⟩
      · simp only [if_true, Bool.or_true]
        exact ⟨r, trivial⟩
  | ptrOrInsert m n value =>
    simp only [wstep, Spec.step, r.world]
    rcases et : a.world.tables[m]? with _ | t
    · exact ⟨r, rfl⟩
    · simp only
      rcases es : (suits a.world t.kind n).isSome with _ | _
      · rcases el : value.any (fun v => v.length != t.vsize) with _ | _
        · have key := r.ptrOrInsert fault et n value el _ rfl
          rcases ek : t.kind with _ | _ | _ | _ | _ | _
          case sk | inode | cgrp =>
            rw [ek] at key
            simp only [el, Kind.ofObjects, Bool.not_true, Bool.or_self, Bool.false_eq_true, if_false]
            exact key
          all_goals
            simp only [el, Kind.ofObjects, Bool.not_false, Bool.true_or, Bool.or_self, if_true, Bool.false_eq_true, if_false]
            exact ⟨r, trivial⟩
        · simp only [el, Bool.or_true, if_true]
          exact ⟨r, trivial⟩
      · simp only [if_true, Bool.or_true, Bool.true_or]
        exact ⟨r, trivial⟩
  | delete m n =>
    simp only [wstep, Spec.step, r.world]
    rcases et : a.world.tables[m]? with _ | t
    · exact ⟨r, rfl⟩
    · simp only
      rcases es : (suits a.world t.kind n).isSome with _ | _
      · rcases ek : t.kind with _ | _ | _ | _ | _ | _
        case sk =>
          simp only [Kind.ofObjects, Bool.not_true, Bool.or_self, Bool.false_eq_true, if_false]
          exact r.delete et ek n (fun ret => if ret = 0 then .ok () else .error (asI32 ret)) rfl (by decide) _ rfl
        case inode =>
          simp only [Kind.ofObjects, Bool.not_true, Bool.or_self, Bool.false_eq_true, if_false]
          exact r.delete et ek n (fun ret => if ret = 0 then .ok () else .error ret) rfl (by decide) _ rfl
        case cgrp =>
          simp only [Kind.ofObjects, Bool.not_true, Bool.or_self, Bool.false_eq_true, if_false]
          exact r.delete et ek n (fun ret => if ret = 0 then .ok () else .error (asI32 ret)) rfl (by decide) _ rfl
        all_goals
          simp only [Kind.ofObjects, Bool.not_false, Bool.true_or, if_true, Bool.false_eq_true, if_false]
          exact ⟨r, trivial⟩
      · simp only [if_true, Bool.or_true]
        exact ⟨r, trivial⟩
  | oldPtr m n type cpu =>
    simp only [wstep, Spec.step, r.world]
    rcases et : a.world.tables[m]? with _ | t
    · exact ⟨r, rfl⟩
    · rcases en : a.world.things[n]? with _ | (_ | _ | ⟨up, ino⟩)
      · exact ⟨r, rfl⟩
      · exact ⟨r, rfl⟩
      · exact ⟨r, rfl⟩
      · simp only
        rw [r.valAt]
        rcases e : w.k.at_ m (t.slot ino type) with _ | id
        · simp only [or_true, if_true, Option.map_none]
          split <;> exact ⟨r, rfl⟩
        · simp only [reduceCtorEq, or_false, Option.map_some]
          by_cases h : (t.kind ≠ .old ∧ t.kind ≠ .oldAll) ∨ cpu ≥ cpus
          · rw [if_pos h, if_pos h]
            exact ⟨r, rfl⟩
          · rw [if_neg h, if_neg h]
            have et2 : w.k.world.tables[m]? = some t := by rw [r.world]; exact et
            simp only [oldPtrMut, helpers, et2, e, ne_eq, not_true_eq_false, if_false, Option.map_some, W.pointsOld]
            refine ⟨?_, trivial⟩
            exact r.with (k := w.k) (b := { a with ptrs := a.ptrs ++ [.to m (t.slot ino type) (if t.kind = .oldAll then cpu else 0)] })
              rfl rfl rfl rfl ⟨γ, v.point m _ id _ e⟩
  | read p =>
    have q := v.ptrs p
    simp only [wstep, Spec.step]
    rcases e : w.ptrs[p]? with _ | ⟨id, c⟩ <;> rcases e' : a.ptrs[p]? with _ | (⟨m, s, c'⟩ | ⟨g, c'⟩) <;> rw [e, e'] at q <;>
      simp only [PMatch] at q
    · exact ⟨r, rfl⟩
    · obtain ⟨q1, rfl⟩ := q
      simp only [Option.bind_some, A.deref, v.val, q1, Option.map_some]
      exact ⟨r, trivial⟩
    · obtain ⟨q1, rfl, rfl⟩ := q
      have hg := List.getElem?_eq_getElem q1
      simp only [Option.bind_some, A.deref, hg, Option.map_some]
      rw [(v.lost g _ hg).1]
      exact ⟨r, rfl⟩
  | write p value =>
    have q := v.ptrs p
    simp only [wstep, Spec.step]
    rcases e : w.ptrs[p]? with _ | ⟨id, c⟩ <;> rcases e' : a.ptrs[p]? with _ | (⟨m, s, c'⟩ | ⟨g, c'⟩) <;> rw [e, e'] at q <;>
      simp only [PMatch] at q
    · exact ⟨r, rfl⟩
    · obtain ⟨q1, rfl⟩ := q
      have hv : a.val m s = some (w.k.cells id) := by rw [v.val, q1]; rfl
      simp only [A.deref, hv, Option.map_some, A.store]
      by_cases hl : (w.k.cells id c).length = value.length
      · simp only [hl, ne_eq, not_true_eq_false, if_false]
        refine ⟨?_, trivial⟩
        obtain ⟨T, h1, h2⟩ := v.sizes _ _ _ hv
        refine r.with (ps := w.ptrs) (k := w.k.write id (setCpu (w.k.cells id) c value)) rfl rfl rfl rfl
          ⟨γ, v.write m s id _ q1 ⟨T, h1, fun c' => ?_⟩⟩
        simp only [setCpu]
        split
        · rw [← hl]; exact h2 c
        · exact h2 c'
      · simp only [hl, ne_eq, not_false_eq_true, if_true]
        exact ⟨r, trivial⟩
    · obtain ⟨q1, rfl, rfl⟩ := q
      have hg := List.getElem?_eq_getElem q1
      have hc := (v.lost g _ hg).1
      simp only [A.deref, hg, Option.map_some, A.store]
      rw [hc]
      by_cases hl : (w.k.cells (γ g) c).length = value.length
      · simp only [hl, ne_eq, not_true_eq_false, if_false]
        refine ⟨?_, trivial⟩
        exact r.with (ps := w.ptrs) (k := w.k.write (γ g) (setCpu (w.k.cells (γ g)) c value))
          (b := { a with lost := a.lost.modify g fun f => setCpu f c value }) rfl rfl rfl rfl
          ⟨γ, v.writeLost g q1 (fun f => setCpu f c value)⟩
      · simp only [hl, ne_eq, not_false_eq_true, if_true]
        exact ⟨r, trivial⟩
  | taskUnder m index cg =>
    simp only [wstep, Spec.step, r.world]
    split
    · refine ⟨r, ?_⟩
      simp only [currentTaskUnderCgroup, helpers, r.world, Res.answer.injEq]
      exact under_answer _ (taskUnder_range _ _ _ _)
    · exact ⟨r, rfl⟩
  | skbUnder m index cg =>
    simp only [wstep, Spec.step, r.world]
    split
    · refine ⟨r, ?_⟩
      simp only [skbUnderCgroup, helpers, r.world, Res.answer.injEq]
      exact under_answer _ (skbUnder_range _ _ _ _)
    · exact ⟨r, rfl⟩

theorem rel_init : Rel {} {} where
  world := rfl
  values := ⟨id, RelV.init id⟩
  handles := ⟨rfl, fun _ => trivial, fun _ _ _ h => (nomatch h), fun _ _ h => (nomatch h)⟩
  pos _ _ h := nomatch h

theorem run_rel (cpus : Nat) (fresh : (Nat → Option Obj) → Option Nat) (hfresh : Fresh fresh) (ops : List (Op × Option Nat)) :
    ∀ {w : W} {a : A}, Rel w a →
      Rel (wrun cpus fresh w ops).1 (Spec.run cpus a ops (rooms cpus fresh w ops)).1 ∧
        (wrun cpus fresh w ops).2 = (Spec.run cpus a ops (rooms cpus fresh w ops)).2 := by
  induction ops with
  | nil => intro w a r; exact ⟨r, rfl⟩
  | cons o ops ih =>
    obtain ⟨op, f⟩ := o
    intro w a r
    obtain ⟨h1, h2⟩ := step_rel cpus fresh hfresh r op f
    obtain ⟨g1, g2⟩ := ih h1
    refine ⟨g1, ?_⟩
    simp only [wrun, rooms, Spec.run]
    rw [g2, h2]

end Verif.Local
