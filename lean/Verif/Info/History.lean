import Verif.Info.Props
/-!
# C85: fields that are probed for, times and locked memory
-/
set_option linter.unusedSimpArgs false
set_option linter.unusedVariables false
namespace Verif.Info
open Verif.Str (render parseUInt splitBy digitChar)

/-! ## Histories -/

/-- A question about the information taken at time `taken` of program `id`. -/
structure Question where
  maps : Bool
  taken : Nat
  id : Nat
deriving DecidableEq, Repr

/-- The call. -/
def Question.op (w : World) (q : Question) : Op :=
  if q.maps then .mapIds (w.progRec q.taken q.id) else .gpl (w.progRec q.taken q.id)

/-- The right answer: the maps the program used when the information was taken, and whether its license is compatible with the
    GPL; `none` if this kernel does not tell. -/
def Question.answer (w : World) (q : Question) : Ans :=
  if q.maps then .mapIds (.ok (told w.tellsMaps (w.uses q.taken q.id)))
  else .gpl (told w.tellsGpl (w.prog q.id).gpl)

theorem getOrInit_right (w : World) (t : Nat) (cache : Option Bool) (shown tells : Bool) (r : ProgRec)
    (hf : ∀ t' ≥ t, w.fault t' = none) (hl : ∀ t' ≥ t, w.mayLoad t' = true)
    (hc : cache = none ∨ cache = some tells) (hs : shown = true → tells = true)
    (hp : w.kernel.probe (t + 1) 0 r = if tells then .ok () else .error 7) :
    ∃ t' ≥ t, getOrInit w.kernel t cache shown r = (tells, t') := by
  rcases hc with rfl | rfl
  · cases shown with
    | true => exact ⟨t, Nat.le_refl _, by simp [getOrInit, hs rfl]⟩
    | false =>
      refine ⟨t + 2, by omega, ?_⟩
      have h0 : w.kernel.trivial t = .ok 0 := by
        simp only [World.kernel, unless_none (hf t (Nat.le_refl _)), hl t (Nat.le_refl _), orErr, if_true]
      simp only [getOrInit, probeField, h0, hp]
      cases tells <;> simp [e2big]
  · exact ⟨t, Nat.le_refl _, by simp [getOrInit]⟩

theorem mapIds_right (w : World) (hw : w.Good) (t t0 id : Nat) (c : Caches) (h0 : t0 ≤ t)
    (hf : ∀ t' ≥ t, w.fault t' = none) (hl : ∀ t' ≥ t, w.mayLoad t' = true) (hlive : ∀ t' ≥ t, id ∈ w.progs t')
    (hc : c.mapIds = none ∨ c.mapIds = some w.tellsMaps) :
    ∃ t' ≥ t, mapIds w.kernel t c (w.progRec t0 id) =
      (.ok (told w.tellsMaps (w.uses t0 id)), t', { c with mapIds := some w.tellsMaps }) := by
  have hp : w.kernel.probe (t + 1) 0 { nrMapIds := 1 } = if w.tellsMaps then .ok () else .error 7 := by
    simp only [World.kernel, unless_none (hf (t + 1) (by omega))]
    cases w.tellsMaps <;> simp [orErr]
  have hs : decide ((w.progRec t0 id).nrMapIds > 0) = true → w.tellsMaps = true := by
    intro h
    cases ht : w.tellsMaps with
    | true => rfl
    | false => simp [World.progRec, ht] at h
  obtain ⟨t1, ht1, hg⟩ := getOrInit_right w t c.mapIds (decide ((w.progRec t0 id).nrMapIds > 0)) w.tellsMaps { nrMapIds := 1 }
    hf hl hc hs hp
  simp only [mapIds, hg]
  cases ht : w.tellsMaps with
  | false => exact ⟨t1, ht1, by simp [told]⟩
  | true =>
    refine ⟨t1 + 2, by omega, ?_⟩
    have hk : progFd w.kernel t1 (w.progRec t0 id) = (.ok id, t1 + 1) := by
      have : w.kernel.progFd t1 (w.progRec t0 id).id = .ok id := by
        simp only [World.kernel, unless_none (hf t1 ht1), World.progRec, if_pos (hlive t1 ht1), orErr]
      simp only [progFd, this]
    have hn : (w.progRec t0 id).nrMapIds = (w.uses t0 id).length := by simp [World.progRec, ht]
    have hi : w.kernel.progInfo (t1 + 1) id (w.progRec t0 id).nrMapIds =
        .ok (w.progRec (t1 + 1) id, w.uses t0 id) := by
      obtain ⟨rest, hr⟩ := hw.uses t0 (t1 + 1) id (by omega)
      simp only [World.kernel, unless_none (hf (t1 + 1) (by omega)), ht, if_true, hn]
      rw [← hr, List.take_left]
    simp only [hk, hi]
    simp only [hn, told, if_true, Nat.sub_self, List.replicate_zero, List.append_nil]

theorem gpl_right (w : World) (t t0 id : Nat) (c : Caches)
    (hf : ∀ t' ≥ t, w.fault t' = none) (hl : ∀ t' ≥ t, w.mayLoad t' = true)
    (hc : c.gpl = none ∨ c.gpl = some w.tellsGpl) :
    ∃ t' ≥ t, gplCompatible w.kernel t c (w.progRec t0 id) =
      (told w.tellsGpl (w.prog id).gpl, t', { c with gpl := some w.tellsGpl }) := by
  have hp : w.kernel.probe (t + 1) 0 { gpl := 1 } = if w.tellsGpl then .ok () else .error 7 := by
    simp only [World.kernel, unless_none (hf (t + 1) (by omega))]
    cases w.tellsGpl <;> simp [orErr]
  have hs : decide ((w.progRec t0 id).gpl ≠ 0) = true → w.tellsGpl = true := by
    intro h
    cases ht : w.tellsGpl with
    | true => rfl
    | false => simp [World.progRec, ht] at h
  obtain ⟨t1, ht1, hg⟩ := getOrInit_right w t c.gpl (decide ((w.progRec t0 id).gpl ≠ 0)) w.tellsGpl { gpl := 1 }
    hf hl hc hs hp
  refine ⟨t1, ht1, ?_⟩
  simp only [gplCompatible, hg]
  cases ht : w.tellsGpl with
  | false => simp [told]
  | true => cases hgp : (w.prog id).gpl <;> simp [told, World.progRec, ht, hgp]

theorem opsAll_right (w : World) (hw : w.Good) : ∀ (qs : List Question) (t : Nat) (c : Caches),
    (∀ t' ≥ t, w.fault t' = none) → (∀ t' ≥ t, w.mayLoad t' = true) →
    (∀ q ∈ qs, q.taken ≤ t ∧ ∀ t' ≥ t, q.id ∈ w.progs t') →
    (c.mapIds = none ∨ c.mapIds = some w.tellsMaps) → (c.gpl = none ∨ c.gpl = some w.tellsGpl) →
    opsAll w.kernel t c (qs.map (·.op w)) = qs.map (·.answer w) := by
  intro qs
  induction qs with
  | nil => intros; rfl
  | cons q qs ih =>
    intro t c hf hl hq hm hg
    obtain ⟨h0, hlive⟩ := hq q (List.mem_cons_self ..)
    simp only [List.map_cons, opsAll]
    cases hk : q.maps with
    | true =>
      obtain ⟨t', ht', hr⟩ := mapIds_right w hw t q.taken q.id c h0 hf hl hlive hm
      have ho : q.op w = .mapIds (w.progRec q.taken q.id) := by simp [Question.op, hk]
      simp only [ho, opStep, hr]
      rw [ih t' { c with mapIds := some w.tellsMaps } (fun t'' h => hf t'' (by omega)) (fun t'' h => hl t'' (by omega))
        (fun q' hq' => ⟨by have := (hq q' (List.mem_cons_of_mem _ hq')).1; omega,
          fun t'' h => (hq q' (List.mem_cons_of_mem _ hq')).2 t'' (by omega)⟩) (.inr rfl) hg]
      simp [Question.answer, hk]
    | false =>
      obtain ⟨t', ht', hr⟩ := gpl_right w t q.taken q.id c hf hl hg
      have ho : q.op w = .gpl (w.progRec q.taken q.id) := by simp [Question.op, hk]
      simp only [ho, opStep, hr]
      rw [ih t' { c with gpl := some w.tellsGpl } (fun t'' h => hf t'' (by omega)) (fun t'' h => hl t'' (by omega))
        (fun q' hq' => ⟨by have := (hq q' (List.mem_cons_of_mem _ hq')).1; omega,
          fun t'' h => (hq q' (List.mem_cons_of_mem _ hq')).2 t'' (by omega)⟩) hm (.inr rfl)]
      simp [Question.answer, hk]

/-- **C85 (maps and license of a program, partial).** A process that may load programs, none of whose calls fail, and that asks
    in any order and any number of times for the maps and the license of programs that stay loaded, is told each time: the maps
    the program used when the information was taken, in order, also if it has come to use more since; and its license. It is told
    `none` exactly if this kernel does not tell.

    Missing: what is told if the process cannot load the program used for probing, or if a call fails. See
    `C85_failed_probe_violated`. -/
theorem C85_history_partial (w : World) (hw : w.Good) (t : Nat) (qs : List Question)
    (hf : ∀ t' ≥ t, w.fault t' = none) (hl : ∀ t' ≥ t, w.mayLoad t' = true)
    (hq : ∀ q ∈ qs, q.taken ≤ t ∧ ∀ t' ≥ t, q.id ∈ w.progs t') :
    opsAll w.kernel t {} (qs.map (·.op w)) = qs.map (·.answer w) :=
  opsAll_right w hw qs t {} hf hl hq (.inl rfl) (.inl rfl)

theorem opsAll_gpl_false (k : Kernel) (rs : List ProgRec) : ∀ (t : Nat) (c : Caches), c.gpl = some false →
    opsAll k t c (rs.map .gpl) = List.replicate rs.length (.gpl none) := by
  induction rs with
  | nil => intros; rfl
  | cons r rs ih =>
    intro t c hc
    simp only [List.map_cons, opsAll, opStep, gplCompatible, hc, getOrInit, List.length_cons, List.replicate_succ]
    rw [ih _ _ rfl]; simp

theorem opsAll_mapIds_false (k : Kernel) (rs : List ProgRec) : ∀ (t : Nat) (c : Caches), c.mapIds = some false →
    opsAll k t c (rs.map .mapIds) = List.replicate rs.length (.mapIds (.ok none)) := by
  induction rs with
  | nil => intros; rfl
  | cons r rs ih =>
    intro t c hc
    simp only [List.map_cons, opsAll, opStep, mapIds, hc, getOrInit, List.length_cons, List.replicate_succ]
    simp only [Bool.false_eq_true, if_false]
    rw [ih _ _ rfl]

/-- **C85 (violated: a failed probe is remembered).** Whatever the kernel and the programs: if the first question of the process
    is about a program without a compatible license, or without maps, and the program used for probing cannot be loaded just
    then, then this question and all later ones about any program are answered `none`. -/
theorem C85_failed_probe_violated (k : Kernel) (t e : Nat) (he : k.trivial t = .error e) (r : ProgRec) (rs : List ProgRec) :
    (r.gpl = 0 → opsAll k t {} ((r :: rs).map .gpl) = List.replicate (rs.length + 1) (.gpl none)) ∧
    (r.nrMapIds = 0 → opsAll k t {} ((r :: rs).map .mapIds) = List.replicate (rs.length + 1) (.mapIds (.ok none))) := by
  constructor
  · intro h
    simp only [List.map_cons, opsAll, opStep, gplCompatible, getOrInit, h, probeField, he, List.replicate_succ]
    simp only [ne_eq, not_true_eq_false, decide_false, Bool.false_eq_true, if_false]
    rw [opsAll_gpl_false _ _ _ _ rfl]
  · intro h
    simp only [List.map_cons, opsAll, opStep, mapIds, getOrInit, h, probeField, he, List.replicate_succ]
    simp only [Nat.lt_irrefl, gt_iff_lt, decide_false, Bool.false_eq_true, if_false]
    rw [opsAll_mapIds_false _ _ _ _ rfl]

/-- A program with an ordinary record, used in the examples. -/
def demoProg (gpl : Bool) : Prog :=
  { type := 6, tag := [0x57, 0, 0, 0, 0, 0, 0x12, 0x34], jited := 64, xlated := 96, loadTime := 5000000000, uid := 1000,
    name := [112, 97, 115, 115], gpl := gpl, btfId := 9, verified := 12, memlock := 4096 }

/-- Programs 3 (not compatible, no maps) and 8 (compatible, maps 21 and 22, later also 40); program 5 is unloaded at time 4. -/
def demoWorld : World where
  prog id := demoProg (id == 8)
  progs t := if t < 4 then [8, 3, 5] else [8, 3]
  uses t id := if id = 8 then (if t < 2 then [21, 22] else [21, 22, 40]) else []
  ran t id := (t * 100, t)
  map id := { type := if id = 40 then 77 else 2, keySize := 4, valueSize := 8, maxEntries := 16, mapFlags := 0, name := [109] }
  maps _ := [40, 22, 21]
  pins _ path := if path = [47, 112] then some 8 else none
  now t := 60000000000 + t * 7
  booted := 1700000000000000000

theorem demoWorld_good : demoWorld.Good where
  tag _ := rfl
  name id := ⟨by simp [demoWorld, demoProg], by simp [demoWorld, demoProg]⟩
  mapName id := ⟨by simp [demoWorld], by simp [demoWorld]⟩
  loadTime id := by simp [demoWorld, demoProg]
  uses t t' id h := by
    simp only [demoWorld]
    by_cases h8 : id = 8
    · simp only [h8, if_true]
      by_cases h1 : t' < 2
      · rw [if_pos h1, if_pos (by omega)]; exact List.prefix_refl _
      · rw [if_neg h1]
        by_cases h2 : t < 2
        · rw [if_pos h2]; exact ⟨[40], rfl⟩
        · rw [if_neg h2]; exact List.prefix_refl _
    · simp only [h8, if_false]; exact List.prefix_refl _
  now t t' h := by simp only [demoWorld]; omega

/-- The list while program 5 goes away: it is an error, the other two are there. -/
example : (progsAll demoWorld.kernel 9 0 (some 0)).1 =
    [.ok (demoWorld.progRec 2 3), .err 2, .ok (demoWorld.progRec 7 8)] := by decide +kernel

example : (progsAll demoWorld.kernel 9 5 (some 0)) = ([.ok (demoWorld.progRec 7 3), .ok (demoWorld.progRec 10 8)], some 12) := by
  decide +kernel

example : ((mapsAll demoWorld.kernel 9 0 (some 0)).1.map fun i => match i with | .ok r => some (mapType r) | _ => none) =
    [some (.ok 2), some (.ok 2), some (.error 34)] := by decide +kernel

/-- The hypotheses of `C85_history_partial` with information taken early and used late. -/
example : opsAll demoWorld.kernel 4 {} (([⟨true, 4, 3⟩, ⟨true, 0, 8⟩, ⟨false, 1, 3⟩, ⟨false, 4, 8⟩, ⟨true, 3, 8⟩] : List Question).map
      (·.op demoWorld)) =
    [.mapIds (.ok (some [])), .mapIds (.ok (some [21, 22])), .gpl (some false), .gpl (some true),
     .mapIds (.ok (some [21, 22, 40]))] := by
  rw [C85_history_partial demoWorld demoWorld_good 4]
  · rfl
  · intro t h; rfl
  · intro t h; rfl
  · intro q hq
    simp only [List.mem_cons, List.not_mem_nil, or_false] at hq
    rcases hq with rfl | rfl | rfl | rfl | rfl <;>
      exact ⟨by decide, fun t' h => by simp only [demoWorld]; rw [if_neg (by omega)]; simp⟩

/-- `C85_failed_probe_violated` in a world where everything is told and the process may load from the second call on: the maps
    and the license of program 8 are never told. -/
example :
    opsAll { demoWorld with mayLoad := fun t => decide (0 < t) }.kernel 0 {}
      [.mapIds (demoWorld.progRec 0 3), .mapIds (demoWorld.progRec 0 8), .mapIds (demoWorld.progRec 0 8)] =
    [.mapIds (.ok none), .mapIds (.ok none), .mapIds (.ok none)] ∧
    opsAll { demoWorld with mayLoad := fun t => decide (0 < t) }.kernel 0 {}
      [.gpl (demoWorld.progRec 0 3), .gpl (demoWorld.progRec 0 8)] = [.gpl none, .gpl none] := by
  constructor <;> decide +kernel

/-! ## Times -/

theorem duration_clockAt (ns : Int) (h : 0 ≤ ns) : duration (clockAt ns) = ns := by
  have h1 : 0 ≤ (clockAt ns).sec := by simp only [clockAt]; omega
  unfold duration
  rw [if_pos h1]
  simp only [clockAt]
  omega

theorem representable_of (ns : Int) (h1 : 0 ≤ ns) (h2 : ns < 9223372036854775807 * 1000000000) : representable ns = true := by
  have e1 : minSec = -9223372036854775808 := rfl
  have e2 : maxSec = 9223372036854775807 := rfl
  unfold representable
  simp only [Bool.and_eq_true, decide_eq_true_eq]
  rw [e1, e2]
  omega

/-- **C85 (`loaded_at`).** With a wall clock that is not set while the program is there and not before 1970: the answer is the
    wall clock time at which the program was loaded, plus the time that passes between the two readings of the clocks, which may
    be taken by another thread. It is `none` exactly if the kernel does not tell the time, and there is no panic
    while the times are in the range of `SystemTime`. -/
theorem C85_loaded_at (w : World) (hw : w.Good) (t t0 id : Nat) (hb : 0 ≤ w.booted)
    (hmax : w.booted + w.now (t + 1) + (w.prog id).loadTime < 9223372036854775807 * 1000000000) :
    loadedAt w.kernel t (w.progRec t0 id) =
      (.ok (told w.tellsLoadTime (w.booted + (w.prog id).loadTime + (w.now (t + 1) - w.now t))), t + 2) := by
  have hn := hw.now t (t + 1) (by omega)
  have hl := hw.loadTime id
  have e1 : duration (w.kernel.bootClock t) = w.now t := duration_clockAt _ (by omega)
  have e2 : duration (w.kernel.realClock (t + 1)) = w.booted + w.now (t + 1) := duration_clockAt _ (by omega)
  have hrep := representable_of
  have hbt : bootTime w.kernel t = some (w.booted + w.now (t + 1) - w.now t) := by
    simp only [bootTime, e1, e2]
    rw [if_pos (hrep _ (by omega) (by omega)), if_pos (hrep _ (by omega) (by omega))]
  simp only [loadedAt, hbt]
  cases ht : w.tellsLoadTime with
  | false =>
    have hz : (w.progRec t0 id).loadTime = 0 := by simp [World.progRec, ht]
    rw [hz, if_pos (hrep _ (by omega) (by omega))]
    simp [told]
  | true =>
    have hz : (w.progRec t0 id).loadTime = (w.prog id).loadTime := by simp [World.progRec, ht]
    rw [hz, if_pos (hrep _ (by omega) (by omega)), if_pos hl]
    simp only [told, if_true, Prod.mk.injEq, Res.ok.injEq, Option.some.injEq, and_true]
    omega

/-- A program loaded five seconds after boot, asked for a minute after boot. -/
example : loadedAt demoWorld.kernel 3 (demoWorld.progRec 0 8) = (.ok (some (1700000005000000000 + 7)), 5) := by decide +kernel

/-! ## Locked memory -/

theorem startsWith_no {key s : List Char} (c : Char) (hk : c ∈ key) (hs : c ∉ s) : startsWith key s = false := by
  cases h : startsWith key s with
  | false => rfl
  | true =>
    obtain ⟨r, hr⟩ := List.isPrefixOf_iff_prefix.mp h
    exact absurd (by rw [← hr]; simp [hk]) hs

theorem containsKey_no {key : List Char} (c : Char) (hk : c ∈ key) : ∀ s : List Char, c ∉ s → containsKey key s = false
  | [], hs => startsWith_no c hk hs
  | d :: s, hs => by
    simp only [containsKey, startsWith_no c hk hs, Bool.false_or]
    exact containsKey_no c hk s (fun h => hs (List.mem_cons_of_mem _ h))

theorem afterTab_line (a v : List Char) (h : '\t' ∉ v) : afterTab (a ++ '\t' :: v) = some v := by
  have hv : ∀ v : List Char, '\t' ∉ v → afterTab v = none := by
    intro v
    induction v with
    | nil => intro _; rfl
    | cons c v ih =>
      intro h
      simp only [afterTab, ih (fun h' => h (List.mem_cons_of_mem _ h'))]
      rw [if_neg (fun hc => h (by simp [hc]))]
  induction a with
  | nil => simp only [List.nil_append, afterTab, hv v h, if_true]
  | cons c a ih => simp only [List.cons_append, afterTab, ih]

theorem linesOf_asText : ∀ ls : List (List Char), (∀ l ∈ ls, '\n' ∉ l) → linesOf (asText ls) = ls := by
  have hsplit : ∀ ls : List (List Char), (∀ l ∈ ls, '\n' ∉ l) → splitBy (· == '\n') (asText ls) = ls ++ [[]] := by
    intro ls
    induction ls with
    | nil => intro _; rfl
    | cons l ls ih =>
      intro h
      have hl : ∀ c ∈ l, ((c == '\n') : Bool) = false := by
        intro c hc
        simp only [beq_eq_false_iff_ne]
        intro he; subst he; exact h l (List.mem_cons_self ..) hc
      simp only [asText, List.flatMap_cons, List.append_assoc]
      have := Verif.Str.splitBy_append_sep (· == '\n') l '\n' (asText ls) hl (by decide)
      simp only [asText] at this ih
      simp only [List.singleton_append]
      rw [this, ih (fun l' hl' => h l' (List.mem_cons_of_mem _ hl'))]
      rfl
  intro ls h
  simp only [linesOf, hsplit ls h]
  simp

theorem digit_char (d : Nat) (h : d < 16) : digitChar d ≠ 'k' ∧ digitChar d ≠ '\n' ∧ digitChar d ≠ '\t' := by
  have key : ∀ d : Fin 16, digitChar d.1 ≠ 'k' ∧ digitChar d.1 ≠ '\n' ∧ digitChar d.1 ≠ '\t' := by decide +kernel
  exact key ⟨d, h⟩

/-- Text without `k`, line feeds and tabs. -/
def Plain (s : List Char) : Prop := 'k' ∉ s ∧ '\n' ∉ s ∧ '\t' ∉ s

theorem plain_of {s : List Char} (h : ∀ c ∈ s, ∃ d, d < 16 ∧ c = digitChar d) : Plain s := by
  refine ⟨fun hc => ?_, fun hc => ?_, fun hc => ?_⟩ <;> obtain ⟨d, hd, he⟩ := h _ hc
  · exact (digit_char d hd).1 he.symm
  · exact (digit_char d hd).2.1 he.symm
  · exact (digit_char d hd).2.2 he.symm

theorem plain_render (radix n : Nat) (h2 : 2 ≤ radix) (hr : radix ≤ 16) : Plain (render radix n) :=
  plain_of fun c hc => by
    obtain ⟨d, hd, he⟩ := Verif.Str.mem_render radix n h2 hr c hc
    exact ⟨d, by omega, he⟩

theorem plain_hexOf (bs : List UInt8) : Plain (hexOf bs) :=
  plain_of fun c hc => by
    simp only [hexOf, List.mem_flatMap, List.mem_cons, List.not_mem_nil, or_false] at hc
    obtain ⟨b, _, rfl | rfl⟩ := hc
    · exact ⟨b.toNat / 16, by have := b.toNat_lt; omega, rfl⟩
    · exact ⟨b.toNat % 16, by omega, rfl⟩

theorem fdLine_facts (key : String) (v : List Char) (hk : Plain key.toList) (hv : Plain v) :
    'k' ∉ fdLine key v ∧ '\n' ∉ fdLine key v := by
  obtain ⟨k1, k2, k3⟩ := hk
  obtain ⟨v1, v2, v3⟩ := hv
  constructor <;> simp [fdLine, k1, k2, v1, v2]

theorem parse_large (n : Nat) (h : ¬ n < 2 ^ 32) : parseUInt 10 32 (render 10 n) = none := by
  have hne := Verif.Str.render_ne_nil 10 n
  have hm := Verif.Str.mem_render 10 n (by omega) (by omega)
  have hp := Verif.Str.parseDigits_render 10 n (by omega) (by omega)
  cases hs : render 10 n with
  | nil => exact absurd hs hne
  | cons c cs =>
    rw [hs] at hp hm
    have hc : c ≠ '+' := by
      obtain ⟨d, hd, rfl⟩ := hm c (by simp)
      exact (Verif.Str.digitChar_facts d (by omega)).1
    simp [parseUInt, hc, hp]
    omega

/-- **C85 (`memory_locked`).** For a program that is loaded, the answer is the memory the kernel says is locked for it, whatever
    the other numbers in the file are. The number has to be below 4 GiB; else there is a panic. -/
theorem C85_memory_locked (w : World) (t t0 id : Nat) (hf : w.fault t = none) (hf' : w.fault (t + 1) = none)
    (hm : id ∈ w.progs t) :
    memoryLocked w.kernel t (w.progRec t0 id) =
      (if (w.prog id).memlock < 2 ^ 32 then .ok (w.prog id).memlock else .panic, t + 2) := by
  have hk : progFd w.kernel t (w.progRec t0 id) = (.ok id, t + 1) := by
    have : w.kernel.progFd t (w.progRec t0 id).id = .ok id := by
      simp only [World.kernel, unless_none hf, World.progRec, if_pos hm, orErr]
    simp only [progFd, this]
  have ht : w.kernel.fdinfo (t + 1) id = .ok (asText (w.fdLines id (t + 1) 2000002 15 (t + 1 + id))) := by
    simp only [World.kernel, unless_none hf']
  simp only [memoryLocked, hk, ht]
  have p := fun n => plain_render 10 n (by omega) (by omega)
  have p8 : Plain ('0' :: render 8 2000002) := by
    obtain ⟨a, b, c⟩ := plain_render 8 2000002 (by omega) (by omega)
    refine ⟨?_, ?_, ?_⟩ <;> simp [a, b, c]
  have pm := p (w.prog id).memlock
  have ph := plain_hexOf (w.prog id).tag
  have hmem : '\n' ∉ fdLine "memlock" (render 10 (w.prog id).memlock) := by
    obtain ⟨a, b, c⟩ := pm
    simp [fdLine, b]
  have f1 := fdLine_facts "pos" _ (by simp [Plain]) (p (t + 1))
  have f2 := fdLine_facts "flags" _ (by simp [Plain]) p8
  have f3 := fdLine_facts "mnt_id" _ (by simp [Plain]) (p 15)
  have f4 := fdLine_facts "ino" _ (by simp [Plain]) (p (t + 1 + id))
  have f5 := fdLine_facts "prog_type" _ (by simp [Plain]) (p (w.prog id).type)
  have f6 := fdLine_facts "prog_jited" _ (by simp [Plain]) (p (if (w.prog id).jited = 0 then 0 else 1))
  have f7 := fdLine_facts "prog_tag" _ (by simp [Plain]) ph
  have f9 := fdLine_facts "prog_id" _ (by simp [Plain]) (p id)
  rw [linesOf_asText]
  · have no := fun l (h : 'k' ∉ l) => containsKey_no (key := "memlock".toList) 'k' (by simp) l h
    have hyes : containsKey "memlock".toList (fdLine "memlock" (render 10 (w.prog id).memlock)) = true := by
      simp [fdLine, containsKey, startsWith]
    have htab : afterTab (fdLine "memlock" (render 10 (w.prog id).memlock)) = some (render 10 (w.prog id).memlock) := by
      have := afterTab_line ("memlock:".toList) _ pm.2.2
      simpa [fdLine] using this
    simp only [World.fdLines, scan, no _ f1.1, no _ f2.1, no _ f3.1, no _ f4.1, no _ f5.1, no _ f6.1, no _ f7.1, hyes, htab,
      Bool.false_eq_true, if_false, if_true]
    by_cases hlt : (w.prog id).memlock < 2 ^ 32
    · rw [if_pos hlt, Verif.Str.parseUInt_render 10 32 _ (by omega) (by omega) hlt]
    · rw [if_neg hlt, parse_large _ hlt]
  · intro l hl
    simp only [World.fdLines, List.mem_cons, List.not_mem_nil, or_false] at hl
    rcases hl with rfl | rfl | rfl | rfl | rfl | rfl | rfl | rfl | rfl
    · exact f1.2
    · exact f2.2
    · exact f3.2
    · exact f4.2
    · exact f5.2
    · exact f6.2
    · exact f7.2
    · exact hmem
    · exact f9.2

example : memoryLocked demoWorld.kernel 0 (demoWorld.progRec 0 8) = (.ok 4096, 2) := by
  rw [C85_memory_locked demoWorld 0 0 8 rfl rfl (by decide)]
  decide

end Verif.Info
