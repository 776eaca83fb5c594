import Verif.Loader.Spec
import Verif.Maps.Load
import Verif.Pipe.Props
import Verif.Attach.LoadProps
import Verif.Common.Except
/-!
# Loading an object: its BTF, the types of the kernel, and what is handed out
-/
set_option linter.unusedSimpArgs false
set_option linter.unusedVariables false
namespace Verif.Loader
open Spec
open Verif.Section (ProgramSection)

theorem needsBtf_iff (k : ProgramSection) : needsBtf k = true ↔ RequiresBtf k := by
  cases k <;> simp [needsBtf, RequiresBtf, ProgramSection.load]

theorem any_iff {β : Type} (o : Object β) :
    o.programs.any (fun p => needsBtf p.2.sect) = true ↔ ∃ name p, (name, p) ∈ o.programs ∧ RequiresBtf p.sect := by
  simp only [List.any_eq_true, needsBtf_iff, Prod.exists]

theorem objectBtf_ok {β : Type} {s : Setup} {o : Object β} {fd : Option Nat} :
    objectBtf s o = .ok fd ↔ OwnBtf s o fd := by
  unfold objectBtf
  constructor
  · intro h
    split at h
    · cases h
    · rename_i hb; cases h; exact .absent hb
    · rename_i bytes hb
      split at h
      · rename_i f hl; cases h; exact .loaded bytes f hb hl
      · rename_i e hl
        split at h
        · cases h
        · rename_i hn
          split at h
          · cases h
          · rename_i hr
            cases h
            refine .refused bytes e hb hl ?_
            rintro (h | h)
            · exact hr h
            · exact hn ((any_iff o).mpr h)
  · intro h
    cases h with
    | absent h => rw [h]
    | loaded bytes fd h hl => rw [h]; simp only [hl]
    | refused bytes e h hl hn =>
      rw [h]
      simp only [hl]
      rw [if_neg (fun hc => hn (.inr ((any_iff o).mp hc))), if_neg (fun hc => hn (.inl hc))]

theorem buildPrograms_btf {β : Type} (s : Setup) (o : Object β) (b : Option (Option Bytes)) (btfFd : Option Nat)
    (fs : List ((Nat × Nat) × Linker.Func)) (ps : List (Bytes × Prog)) :
    buildPrograms s { o with btf := b } btfFd fs ps = buildPrograms s o btfFd fs ps := by
  induction ps with
  | nil => rfl
  | cons p ps ih => simp only [buildPrograms, ih]; rfl

/-- **C73 (the object's own BTF).** If the kernel refuses the BTF of the object, then loading fails with that error, before
anything else is done, if the object is relocated by its BTF or has a program that requires BTF. Otherwise everything is as
if the object had no BTF. -/
theorem C73_refused {β : Type} (P : Provider β) (k : Maps.Kernel) (s : Setup) (o : Object β) (t : Target β)
    (reads : List Fetch) (h : Maps.Hist) (bytes : Bytes) (e : Nat) (hb : o.btf = some (some bytes))
    (he : s.loadBtf bytes = .error e) :
    (Required o → load P k s o t reads h = (.error (.btf e), t, reads, h)) ∧
    (¬ Required o → load P k s o t reads h = load P k s { o with btf := some none } t reads h) := by
  constructor
  · intro hr
    have : objectBtf s o = .error (.btf e) := by
      unfold objectBtf
      rw [hb]
      simp only [he]
      by_cases ha : o.programs.any (fun p => needsBtf p.2.sect) = true
      · rw [if_pos ha]
      · rw [if_neg ha]
        rcases hr with hr | hr
        · rw [if_pos hr]
        · exact absurd ((any_iff o).mpr hr) ha
    unfold load
    rw [this]
  · intro hr
    have h1 : objectBtf s o = .ok none := objectBtf_ok.mpr (.refused bytes e hb he hr)
    have h2 : objectBtf s { o with btf := some none } = .ok none := rfl
    unfold load
    rw [h1, h2]
    have h3 : relocateBtf P { o with btf := some none } t reads = relocateBtf P o t reads := rfl
    have h4 : ∀ po, finish k s { o with btf := some none } none po h = finish k s o none po h := by
      intro po
      unfold finish
      simp only [buildPrograms_btf]
    simp only [h3, h4]

/-- What a load does once the object's BTF is dealt with. -/
theorem relocateBtf_cases {β : Type} (P : Provider β) (o : Object β) (t : Target β) (reads : List Fetch) :
    (∃ x t' new, Against P o t reads x t' new ∧ relocateBtf P o t reads = (orResolve (o.resolve x), t', reads ++ new)) ∨
    (∃ f e, Needs o ∧ Essential o ∧ Reads o.bigEndian t f ∧ P reads f = .error e ∧
      relocateBtf P o t reads = (.error (.target e), t, reads ++ [f])) := by
  unfold relocateBtf
  by_cases hn : (o.hasRelocations || o.hasTypedKsyms) = true
  · rw [if_pos hn]
    have hneed : Needs o := by simpa [Needs] using hn
    have herr : ∀ f e, Reads o.bigEndian t f → P reads f = .error e →
        (∃ x t' new, Against P o t reads x t' new ∧
          (if (o.hasRelocations || o.hasStrongTypedKsyms) = true then (.error (.target e), t, reads ++ [f])
            else (orResolve (o.resolve none), t, reads ++ [f])) = (orResolve (o.resolve x), t', reads ++ new)) ∨
        (∃ f' e', Needs o ∧ Essential o ∧ Reads o.bigEndian t f' ∧ P reads f' = .error e' ∧
          (if (o.hasRelocations || o.hasStrongTypedKsyms) = true then
            ((.error (.target e), t, reads ++ [f]) : Except Err Pipe.Object × Target β × List Fetch)
            else (orResolve (o.resolve none), t, reads ++ [f])) = (.error (.target e'), t, reads ++ [f'])) := by
      intro f e hf hp
      by_cases hs : (o.hasRelocations || o.hasStrongTypedKsyms) = true
      · rw [if_pos hs]
        exact .inr ⟨f, e, hneed, by simpa [Essential] using hs, hf, hp, rfl⟩
      · rw [if_neg hs]
        exact .inl ⟨none, t, [f], .missing f e hneed hf hp (by simpa [Essential] using hs), rfl⟩
    cases t with
    | system =>
      simp only [targetBtf]
      cases hp : P reads .sysFs with
      | ok b => exact .inl ⟨some b, .parsed b, [.sysFs], .read _ _ hneed .system hp, rfl⟩
      | error e => exact herr _ _ .system hp
    | parsed b =>
      exact .inl ⟨some b, .parsed b, [], .known b hneed rfl, by simp [targetBtf]⟩
    | source =>
      simp only [targetBtf]
      cases hp : P reads (.callback o.bigEndian) with
      | ok b => exact .inl ⟨some b, .parsed b, [.callback o.bigEndian], .read _ _ hneed .source hp, rfl⟩
      | error e => exact herr _ _ .source hp
  · rw [if_neg hn]
    exact .inl ⟨none, t, [], .unneeded (by simpa [Needs] using hn), by simp⟩

/-- **C73 (the types of the kernel).** When the object's own BTF is dealt with, either the kernel's types are read in vain,
cannot be done without, and loading fails with that error and nothing created; or they are read at most once, only if the
object needs them and the loader does not have them yet, are kept by the loader whatever happens later, and the object is
resolved against them (against none, if it does not need them or can do without and they are missing). If that fails, so
does loading, and nothing is created. -/
theorem C73_target {β : Type} (P : Provider β) (k : Maps.Kernel) (s : Setup) (o : Object β) (t : Target β)
    (reads : List Fetch) (h : Maps.Hist) (fd : Option Nat) (hown : OwnBtf s o fd) :
    (∃ f e, Needs o ∧ Essential o ∧ Reads o.bigEndian t f ∧ P reads f = .error e ∧
      load P k s o t reads h = (.error (.target e), t, reads ++ [f], h)) ∨
    (∃ x t' new res h', Against P o t reads x t' new ∧ load P k s o t reads h = (res, t', reads ++ new, h') ∧
      (o.resolve x = none → res = .error .resolve ∧ h' = h) ∧
      ∀ y t2 new2, Against P o t reads y t2 new2 → y = x) := by
  have hob := objectBtf_ok.mpr hown
  rcases relocateBtf_cases P o t reads with ⟨x, t', new, ha, hr⟩ | ⟨f, e, h1, h2, h3, h4, h5⟩
  · refine .inr ⟨x, t', new, (load P k s o t reads h).1, (load P k s o t reads h).2.2.2, ha, ?_, ?_, ?_⟩
    · unfold load
      rw [hob]
      simp only [hr]
      cases o.resolve x <;> rfl
    · intro hx
      unfold load
      rw [hob]
      simp only [hr, hx, orResolve]
      exact ⟨trivial, trivial⟩
    · intro y t2 new2 hy
      have hfun : ∀ f f', Reads o.bigEndian t f → Reads o.bigEndian t f' → f = f' := by
        intro f f' a b; cases a <;> cases b <;> rfl
      cases ha with
      | unneeded hn =>
        cases hy with
        | unneeded _ => rfl
        | known b h1 _ => exact absurd h1 hn
        | read f b h1 _ _ => exact absurd h1 hn
        | missing f e _ _ _ _ => rfl
      | known b hn ht =>
        subst ht
        cases hy with
        | unneeded h1 => exact absurd hn h1
        | known b' _ hb => cases hb; rfl
        | read f b h1 hf _ => cases hf
        | missing f e _ hf _ _ => cases hf
      | read f b hn hf hp =>
        cases hy with
        | unneeded h1 => exact absurd hn h1
        | known b' _ hb => subst hb; cases hf
        | read f' b' _ hf' hp' => rw [hfun f' f hf' hf, hp] at hp'; cases hp'; rfl
        | missing f' e _ hf' hp' _ => rw [hfun f' f hf' hf, hp] at hp'; cases hp'
      | missing f e hn hf hp _ =>
        cases hy with
        | unneeded h1 => rfl
        | known b' _ hb => subst hb; cases hf
        | read f' b' _ hf' hp' => rw [hfun f' f hf' hf, hp] at hp'; cases hp'
        | missing f' e _ hf' hp' _ => rfl
  · refine .inl ⟨f, e, h1, h2, h3, h4, ?_⟩
    unfold load
    rw [hob]
    simp only [h5]

/-- One load and the types of the kernel, whatever its result. -/
theorem load_reads {β : Type} (P : Provider β) (k : Maps.Kernel) (s : Setup) (o : Object β) (t : Target β)
    (reads : List Fetch) (h : Maps.Hist) :
    ((load P k s o t reads h).2.1 = t ∧ (load P k s o t reads h).2.2.1 = reads) ∨
    ∃ f, Needs o ∧ Reads o.bigEndian t f ∧ (load P k s o t reads h).2.2.1 = reads ++ [f] ∧
      ((∃ b, P reads f = .ok b ∧ (load P k s o t reads h).2.1 = .parsed b) ∨
       (∃ e, P reads f = .error e ∧ (load P k s o t reads h).2.1 = t)) := by
  cases hob : objectBtf s o with
  | error e =>
    have : load P k s o t reads h = (.error e, t, reads, h) := by unfold load; rw [hob]
    rw [this]
    exact .inl ⟨rfl, rfl⟩
  | ok fd =>
    rcases C73_target P k s o t reads h fd (objectBtf_ok.mp hob) with ⟨f, e, h1, _, h3, h4, h5⟩ | ⟨x, t', new, res, h', ha, hl, _⟩
    · rw [h5]
      exact .inr ⟨f, h1, h3, rfl, .inr ⟨e, h4, rfl⟩⟩
    · rw [hl]
      cases ha with
      | unneeded _ => exact .inl ⟨rfl, by simp⟩
      | known b _ ht => exact .inl ⟨rfl, by simp⟩
      | read f b hn hf hp => exact .inr ⟨f, hn, hf, rfl, .inl ⟨b, hp, rfl⟩⟩
      | missing f e hn hf hp _ => exact .inr ⟨f, hn, hf, rfl, .inr ⟨e, hp, rfl⟩⟩

/-- **C73 (many objects, one loader).** Whatever objects a loader is used for, in any order and with any results: types of
the kernel given by the user or once read are kept and nothing more is read; there are at most as many reads as objects that
need them, all but possibly the last failed, and the last one, if successful, is what the loader holds. -/
theorem C73_history {β : Type} (P : Provider β) (k : Maps.Kernel) (objs : List (Setup × Object β)) (t : Target β)
    (reads : List Fetch) (h : Maps.Hist) :
    ∃ rs t' new h', loads P k objs t reads h = (rs, t', reads ++ new, h') ∧ rs.length = objs.length ∧
      (∀ b, t = .parsed b → t' = t ∧ new = []) ∧
      (∀ (i : Nat) f b, new[i]? = some f → P (reads ++ new.take i) f = .ok b → i + 1 = new.length ∧ t' = .parsed b) ∧
      ((∀ (i : Nat) f, new[i]? = some f → ∃ e, P (reads ++ new.take i) f = .error e) → t' = t) ∧
      ∃ needing : List (Setup × Object β), needing.Sublist objs ∧ needing.length = new.length ∧ ∀ so ∈ needing, Needs so.2 := by
  induction objs generalizing t reads h with
  | nil => exact ⟨[], t, [], h, by simp [loads], rfl, fun _ _ => ⟨rfl, rfl⟩, by simp, fun _ => rfl, [], by simp, rfl, by simp⟩
  | cons so objs ih =>
    obtain ⟨s, o⟩ := so
    simp only [loads]
    have hone := load_reads P k s o t reads h
    generalize hL : load P k s o t reads h = L at hone ⊢
    obtain ⟨r, t1, reads1, h1⟩ := L
    simp only at hone ⊢
    rcases hone with ⟨e1, e2⟩ | ⟨f, hn, hf, e1, hcase⟩
    · subst e1; subst e2
      obtain ⟨rs, t', new, h', hl, hlen, hp, hs, he, nd, n1, n2, n3⟩ := ih t1 reads1 h1
      rw [hl]
      exact ⟨r :: rs, t', new, h', rfl, by simp [hlen], hp, hs, he, nd, n1.cons _, n2, n3⟩
    · subst e1
      obtain ⟨rs, t', new, h', hl, hlen, hp, hs, he, nd, n1, n2, n3⟩ := ih t1 (reads ++ [f]) h1
      rw [hl]
      have hnp : ∀ b, t ≠ .parsed b := by rintro b rfl; cases hf
      have hsh : ∀ (i : Nat), reads ++ (f :: new).take (i + 1) = reads ++ [f] ++ new.take i := by intro i; simp
      refine ⟨r :: rs, t', f :: new, h', by simp, by simp [hlen], fun b hb => absurd hb (hnp b), ?_, ?_,
        (s, o) :: nd, n1.cons_cons _, by simp [n2], ?_⟩
      · intro i g b hg hb
        cases i with
        | zero =>
          simp only [List.length_cons, List.getElem?_cons_zero, Option.some.injEq, List.take_zero, List.append_nil] at hg hb
          subst hg
          rcases hcase with ⟨b', hb', rfl⟩ | ⟨e, he', _⟩
          · rw [hb] at hb'
            cases hb'
            obtain ⟨p1, p2⟩ := hp b rfl
            subst p2
            exact ⟨rfl, p1⟩
          · rw [hb] at he'; cases he'
        | succ i =>
          rw [List.getElem?_cons_succ] at hg
          rw [hsh] at hb
          obtain ⟨q1, q2⟩ := hs i g b hg hb
          exact ⟨by simp; omega, q2⟩
      · intro hall
        rcases hcase with ⟨b', hb', rfl⟩ | ⟨e, he', rfl⟩
        · obtain ⟨e, he⟩ := hall 0 f rfl
          simp only [List.take_zero, List.append_nil] at he
          rw [hb'] at he; cases he
        · refine he (fun i g hg => ?_)
          have := hall (i + 1) g (by simpa using hg)
          rwa [hsh] at this
      · intro x hx
        rcases List.mem_cons.mp hx with rfl | hx
        · exact hn
        · exact n3 x hx

/-! ### What is handed out -/

theorem load_ok {β : Type} {P : Provider β} {k : Maps.Kernel} {s : Setup} {o : Object β} {t t' : Target β}
    {reads reads' : List Fetch} {h h' : Maps.Hist} {eb : Ebpf}
    (hl : load P k s o t reads h = (.ok eb, t', reads', h')) :
    ∃ fd x new po ms fs, OwnBtf s o fd ∧ Against P o t reads x t' new ∧ reads' = reads ++ new ∧ o.resolve x = some po ∧
      Maps.loadMaps k { s.env with btfFd := fd } (o.maps.map (fun m => (m.1, m.2.map))) h = (.ok ms, h') ∧
      Pipe.code (refs o.maps ms) s.probeReadKernel { po with programs := o.programs.map (fun p => p.2.key) } = .ok fs ∧
      buildPrograms s o fd fs o.programs = .ok eb.programs ∧ buildMaps s.allowUnsupported o.maps ms = .ok eb.maps := by
  cases hob : objectBtf s o with
  | error e => unfold load at hl; rw [hob] at hl; cases hl
  | ok fd =>
    have hown := objectBtf_ok.mp hob
    unfold load at hl
    rw [hob] at hl
    simp only at hl
    rcases relocateBtf_cases P o t reads with ⟨x, t1, new, ha, hr⟩ | ⟨f, e, _, _, _, _, h5⟩
    · rw [hr] at hl
      cases hx : o.resolve x with
      | none => rw [hx] at hl; simp [orResolve] at hl
      | some po =>
        rw [hx] at hl
        simp only [orResolve] at hl
        generalize hf : finish k s o fd po h = F at hl
        obtain ⟨r, h1⟩ := F
        simp only [Prod.mk.injEq] at hl
        obtain ⟨e1, e2, e3, e4⟩ := hl
        subst e1; subst e2; subst e3; subst e4
        unfold finish at hf
        generalize hm : Maps.loadMaps k { s.env with btfFd := fd } (o.maps.map (fun m => (m.1, m.2.map))) h = M at hf
        obtain ⟨rm, h2⟩ := M
        cases rm with
        | error e => simp at hf
        | ok ms =>
          simp only at hf
          cases hc : Pipe.code (refs o.maps ms) s.probeReadKernel { po with programs := o.programs.map (fun p => p.2.key) } with
          | error e => rw [hc] at hf; simp at hf
          | ok fs =>
            rw [hc] at hf
            simp only at hf
            cases hb : buildPrograms s o fd fs o.programs with
            | error e => rw [hb] at hf; simp at hf
            | ok ps =>
              rw [hb] at hf
              simp only at hf
              cases hbm : buildMaps s.allowUnsupported o.maps ms with
              | error e => rw [hbm] at hf; simp at hf
              | ok maps =>
                rw [hbm] at hf
                simp only [Prod.mk.injEq, Except.ok.injEq] at hf
                obtain ⟨rfl, rfl⟩ := hf
                exact ⟨fd, x, new, po, ms, fs, hown, ha, rfl, hx, hm, hc, hb, hbm⟩
    · rw [h5] at hl; simp at hl

theorem buildProgram_handed {β : Type} (s : Setup) (o : Object β) (fd : Option Nat) (name : Bytes) (p : Prog)
    (f : Linker.Func) : Handed s o fd name p f (buildProgram s o fd name p f) := by
  have hfl : flags p.sect = p.sect.load.flags := by
    cases p.sect <;> simp [flags, ProgramSection.load, Section.sleepFlag] <;> rename_i a <;>
      first | cases a <;> rfl | (rename_i b; cases b <;> rfl)
  unfold buildProgram
  by_cases he : name ∈ s.extensions
  · have hc : s.extensions.contains name = true := by simpa using he
    simp only [hc, if_true]
    exact ⟨by simp [he], rfl, rfl, rfl, rfl, ⟨_, rfl, rfl, rfl, rfl, rfl, rfl, rfl, rfl⟩, rfl, rfl, rfl, rfl⟩
  · have hc : s.extensions.contains name = false := by simpa using he
    simp only [hc]
    exact ⟨by simp [he], hfl, rfl, rfl, rfl, ⟨_, rfl, rfl, rfl, rfl, rfl, rfl, rfl, rfl⟩, rfl, rfl, rfl, rfl⟩

theorem buildPrograms_spec {β : Type} (s : Setup) (o : Object β) (fd : Option Nat)
    (fs : List ((Nat × Nat) × Linker.Func)) (ps : List (Bytes × Prog)) (qs : List (Bytes × Program))
    (h : buildPrograms s o fd fs ps = .ok qs) :
    qs.length = ps.length ∧ ∀ (i : Nat) name p, ps[i]? = some (name, p) →
      ∃ f q, qs[i]? = some (name, q) ∧ Pipe.get fs p.key = some f ∧ Handed s o fd name p f q := by
  induction ps generalizing qs with
  | nil => simp only [buildPrograms, Except.ok.injEq] at h; subst h; simp
  | cons p ps ih =>
    obtain ⟨name, p⟩ := p
    simp only [buildPrograms] at h
    cases hg : Pipe.get fs p.key with
    | none => rw [hg] at h; cases h
    | some f =>
      rw [hg] at h
      simp only at h
      cases hb : buildPrograms s o fd fs ps with
      | error e => rw [hb] at h; cases h
      | ok qs' =>
        rw [hb] at h
        simp only [Except.ok.injEq] at h
        subst h
        obtain ⟨h1, h2⟩ := ih qs' hb
        refine ⟨by simp [h1], ?_⟩
        intro i n q hi
        cases i with
        | zero =>
          simp only [List.getElem?_cons_zero, Option.some.injEq, Prod.mk.injEq] at hi
          obtain ⟨rfl, rfl⟩ := hi
          exact ⟨f, _, rfl, hg, buildProgram_handed s o fd _ _ f⟩
        | succ i =>
          rw [List.getElem?_cons_succ] at hi
          rw [List.getElem?_cons_succ]
          exact h2 i n q hi

/-- **C74 (programs).** Loading an object hands out one program for each of its programs, under the same name, not loaded
into the kernel yet: of the kind its section says, or an extension if the user asked for that, with the flags of this kind,
its license and version, the chosen log level and the BTF of the object. -/
theorem C74_programs {β : Type} (P : Provider β) (k : Maps.Kernel) (s : Setup) (o : Object β) (t t' : Target β)
    (reads reads' : List Fetch) (h h' : Maps.Hist) (eb : Ebpf)
    (hl : load P k s o t reads h = (.ok eb, t', reads', h')) :
    ∃ fd, OwnBtf s o fd ∧ eb.programs.length = o.programs.length ∧
      ∀ (i : Nat) name p, o.programs[i]? = some (name, p) →
        ∃ f q, eb.programs[i]? = some (name, q) ∧ Handed s o fd name p f q := by
  obtain ⟨fd, x, new, po, ms, fs, hown, ha, hr, hx, hm, hc, hb, hbm⟩ := load_ok hl
  obtain ⟨h1, h2⟩ := buildPrograms_spec s o fd fs _ _ hb
  refine ⟨fd, hown, h1, fun i name p hi => ?_⟩
  obtain ⟨f, q, h3, _, h4⟩ := h2 i name p hi
  exact ⟨f, q, h3, h4⟩

theorem parseMap_eq (ty : Nat) : parseMap ty = (variants[ty]?).join := by
  by_cases h : ty < 34
  · have : ∀ ty : Fin 34, parseMap ty.1 = (variants[ty.1]?).join := by decide
    exact this ⟨ty, h⟩
  · have h1 : variants[ty]? = none := List.getElem?_eq_none (by simp [variants]; omega)
    rw [h1]
    unfold parseMap
    split <;> first | rfl | omega

theorem variants_supported (ty : Nat) (v : Variant) (h : (variants[ty]?).join = some v) : v ≠ .unsupported := by
  by_cases hlt : ty < 34
  · have : ∀ ty : Fin 34, (variants[ty.1]?).join ≠ some .unsupported := by decide
    rintro rfl
    exact this ⟨ty, hlt⟩ h
  · have h1 : variants[ty]? = none := List.getElem?_eq_none (by simp [variants]; omega)
    rw [h1] at h; cases h

theorem find_mem {α : Type} {m : List (Bytes × α)} {name : Bytes} {a : α} (h : find m name = some a) : (name, a) ∈ m := by
  unfold find at h
  cases hf : m.find? (fun p => p.1 == name) with
  | none => rw [hf] at h; cases h
  | some p =>
    rw [hf] at h
    simp only [Option.map_some, Option.some.injEq] at h
    subst h
    have h1 := List.find?_some hf
    have h2 := List.mem_of_find?_eq_some hf
    have : p.1 = name := by simpa using h1
    subst this
    exact h2

theorem find_of_mem {α : Type} {m : List (Bytes × α)} {name : Bytes} {a : α} (hn : (m.map Prod.fst).Nodup)
    (h : (name, a) ∈ m) : find m name = some a := by
  induction m with
  | nil => cases h
  | cons p m ih =>
    obtain ⟨n, b⟩ := p
    simp only [List.map_cons, List.nodup_cons] at hn
    unfold find
    rcases List.mem_cons.mp h with h1 | h1
    · cases h1; simp
    · have hne : n ≠ name := by
        rintro rfl
        exact hn.1 (List.mem_map.mpr ⟨_, h1, rfl⟩)
      have hb : (n == name) = false := by simpa using hne
      simp only [List.find?_cons, hb]
      exact ih hn.2 h1

theorem find_some {α : Type} {m : List (Bytes × α)} {name : Bytes} {a : α} (h : (name, a) ∈ m) :
    ∃ b, find m name = some b := by
  unfold find
  cases hf : m.find? (fun p => p.1 == name) with
  | none =>
    have := List.find?_eq_none.mp hf _ h
    simp at this
  | some p => exact ⟨p.2, rfl⟩

theorem made_names {k : Maps.Kernel} {env : Maps.LoadEnv} {maps : List (Bytes × Maps.MapObj)} {h h' : Maps.Hist}
    {ms : List (Bytes × Maps.MapData)} (hm : Maps.Spec.MadeAll k env maps h ms h') :
    ms.map Prod.fst = maps.map Prod.fst := by
  induction hm with
  | done h => rfl
  | step name obj rest h seg h' m ms made ok more ih => simp [ih]

theorem buildMaps_spec (allow : Bool) (objs : List (Bytes × MapEntry)) (ms : List (Bytes × Maps.MapData))
    (maps : List (Bytes × Map)) (h : buildMaps allow objs ms = .ok maps) :
    maps.map (fun m => (m.1, m.2.data)) = ms ∧ ∀ name m, (name, m) ∈ maps → ∃ e, find objs name = some e ∧
      m.variant = variantOf e.map.def_.mapType ∧ (m.variant = .unsupported → allow = true) := by
  induction ms generalizing maps with
  | nil => simp only [buildMaps, Except.ok.injEq] at h; subst h; simp
  | cons p ms ih =>
    obtain ⟨name, d⟩ := p
    simp only [buildMaps] at h
    cases hf : find objs name with
    | none => rw [hf] at h; cases h
    | some e =>
      rw [hf] at h
      simp only at h
      generalize hv : variantFor allow e.map.def_.mapType = V at h
      cases V with
      | none => cases h
      | some v =>
        simp only at h
        cases hb : buildMaps allow objs ms with
        | error e => rw [hb] at h; cases h
        | ok maps' =>
          rw [hb] at h
          simp only [Except.ok.injEq] at h
          subst h
          obtain ⟨h1, h2⟩ := ih maps' hb
          refine ⟨by simp [h1], ?_⟩
          intro n m hm
          rcases List.mem_cons.mp hm with hm | hm
          · cases hm
            refine ⟨e, hf, ?_⟩
            unfold variantFor at hv
            rw [parseMap_eq] at hv
            unfold variantOf
            cases hj : (variants[e.map.def_.mapType]?).join with
            | some v' =>
              rw [hj] at hv
              simp only [Option.some.injEq] at hv
              subst hv
              exact ⟨rfl, fun hu => absurd hu (variants_supported _ _ hj)⟩
            | none =>
              rw [hj] at hv
              simp only at hv
              cases allow with
              | false => cases hv
              | true => cases hv; exact ⟨rfl, fun _ => rfl⟩
          · exact h2 n m hm

/-- **C74 (maps).** The maps handed out are those that were created or opened (C57), under their names. Each is of the
kind its type in the object says; a type the library does not support makes loading fail, unless the user allowed such
maps. -/
theorem C74_maps {β : Type} (P : Provider β) (k : Maps.Kernel) (s : Setup) (o : Object β) (t t' : Target β)
    (reads reads' : List Fetch) (h h' : Maps.Hist) (eb : Ebpf)
    (hl : load P k s o t reads h = (.ok eb, t', reads', h')) :
    ∃ fd ms, OwnBtf s o fd ∧
      Maps.Spec.MadeAll k { s.env with btfFd := fd }
        (((Maps.Spec.wanted { s.env with btfFd := fd } (o.maps.map (fun m => (m.1, m.2.map)))).filter
          (fun m => !Maps.Spec.holdsMaps m)) ++
         (Maps.Spec.wanted { s.env with btfFd := fd } (o.maps.map (fun m => (m.1, m.2.map)))).filter Maps.Spec.holdsMaps)
        h ms h' ∧
      eb.maps.map (fun m => (m.1, m.2.data)) = ms ∧
      ∀ name m, (name, m) ∈ eb.maps → ∃ e, (name, e) ∈ o.maps ∧ m.variant = variantOf e.map.def_.mapType ∧
        (m.variant = .unsupported → s.allowUnsupported = true) := by
  obtain ⟨fd, x, new, po, ms, fs, hown, ha, hr, hx, hm, hc, hb, hbm⟩ := load_ok hl
  obtain ⟨h1, h2⟩ := buildMaps_spec _ _ _ _ hbm
  refine ⟨fd, ms, hown, Maps.C57_maps_created _ _ _ _ _ _ hm, h1, ?_⟩
  intro name m hmm
  obtain ⟨e, h3, h4, h5⟩ := h2 name m hmm
  exact ⟨e, find_mem h3, h4, h5⟩

theorem refs_iff {β : Type} (o : Object β) (hn : (o.maps.map Prod.fst).Nodup) (eb : Ebpf) (ms : List (Bytes × Maps.MapData))
    (h : eb.maps.map (fun m => (m.1, m.2.data)) = ms) (r : Reloc.MapRef) : r ∈ refs o.maps ms ↔ RefOf o eb r := by
  unfold refs RefOf
  rw [List.mem_filterMap]
  constructor
  · rintro ⟨⟨name, d⟩, hd, hr⟩
    rw [← h] at hd
    obtain ⟨⟨n, m⟩, hm, he⟩ := List.mem_map.mp hd
    cases he
    simp only at hr
    cases hf : find o.maps n with
    | none => rw [hf] at hr; cases hr
    | some e =>
      rw [hf] at hr
      cases hr
      exact ⟨n, m, e, hm, find_mem hf, rfl, rfl, rfl, by simp⟩
  · rintro ⟨name, m, e, h1, h2, h3, h4, h5, h6⟩
    refine ⟨(name, m.data), by rw [← h]; exact List.mem_map.mpr ⟨_, h1, rfl⟩, ?_⟩
    rw [find_of_mem hn h2]
    obtain ⟨a, b, c, d⟩ := r
    simp only at h3 h4 h5 h6
    subst h3; subst h4; subst h5
    simp only [Option.map_some, Option.some.injEq, Reloc.MapRef.mk.injEq, true_and]
    cases d with
    | false => simpa using h6
    | true => simpa using h6

/-- **C74 (code), partial.** From the object to the kernel: when an object is loaded and one of the programs handed out is
then loaded into the kernel, every request the kernel gets has, as code, the code of the program with a copy of every
function it reaches, in which references to maps are the descriptors of the maps handed out (`Pipe.Spec.Loaded`), with
program type, attach type and flags of its kind. For objects with the properties C72 asks for. -/
theorem C74_code_partial {β : Type} (P : Provider β) (k : Maps.Kernel) (s : Setup) (o : Object β) (t t' : Target β)
    (reads reads' : List Fetch) (h h' : Maps.Hist) (eb : Ebpf) (hn : (o.maps.map Prod.fst).Nodup)
    (hl : load P k s o t reads h = (.ok eb, t', reads', h'))
    (hres : ∀ x po, o.resolve x = some po → po.programs = o.programs.map (fun p => p.2.key) ∧ Pipe.Spec.WellFormed po ∧
      Pipe.Spec.ExternsKnown po ∧ Pipe.Spec.Separate po ∧ ∀ maps, (∀ r, r ∈ maps ↔ RefOf o eb r) → Pipe.Spec.Unambiguous po maps) :
    ∃ x new po maps, Against P o t reads x t' new ∧ o.resolve x = some po ∧ (∀ r, r ∈ maps ↔ RefOf o eb r) ∧
      ∀ (i : Nat) name p, o.programs[i]? = some (name, p) → ∃ q f f' fs, eb.programs[i]? = some (name, q) ∧
        Pipe.get po.funcs p.key = some f ∧ Pipe.Spec.Loaded po maps s.probeReadKernel f fs f' ∧
        ∀ (utf8 : Bytes → Bool) (kern : Attach.Load.Kern) (current : Nat), kern.Fits → (0 : UInt8) ∉ name →
          ∃ res d' reqs, Attach.Load.loadProgram utf8 kern current q.kind.load.progType q.kind.load.attachType q.data =
              (res, d', reqs) ∧ reqs ≠ [] ∧
            ∀ r ∈ reqs, r.insns = f'.insns ∧ r.progType = q.kind.load.progType ∧ r.flags = q.kind.load.flags ∧
              (∀ a, q.kind.load.attachType = some a → r.attachType = a) ∧ r.license = p.license := by
  obtain ⟨fd, x, new, po, ms, fs, hown, ha, hr, hx, hm, hc, hb, hbm⟩ := load_ok hl
  obtain ⟨h1, h2⟩ := buildMaps_spec _ _ _ _ hbm
  obtain ⟨hpp, hwf, hxk, hsep, hu⟩ := hres x po hx
  have hu := hu _ (fun r => refs_iff o hn eb ms h1 r)
  have hpo : { po with programs := o.programs.map (fun p => p.2.key) } = po := by rw [← hpp]
  rw [hpo] at hc
  obtain ⟨_, h4⟩ := buildPrograms_spec s o fd fs _ _ hb
  refine ⟨x, new, po, refs o.maps ms, ha, hx, fun r => refs_iff o hn eb ms h1 r, ?_⟩
  intro i name p hi
  obtain ⟨g, q, h5, h6, h7⟩ := h4 i name p hi
  have hk : p.key ∈ po.programs := by
    rw [hpp]
    exact List.mem_map.mpr ⟨_, List.mem_of_getElem? hi, rfl⟩
  obtain ⟨f, f', fl, g1, g2, g3⟩ := Pipe.C72_code_partial hwf hxk hsep hu hc hk
  rw [h6] at g2
  cases g2
  refine ⟨q, f, g, fl, h5, g1, g3, ?_⟩
  intro utf8 kern current hfit hz
  obtain ⟨ob, o1, o2, o3, o4, o5, o6, o7, o8⟩ := h7.code
  have hname : (0 : UInt8) ∉ q.data.name.getD [] := by
    rw [h7.name]
    split
    · exact hz
    · simp
  obtain ⟨res, d', reqs, r1, r2, r3, r4, r5⟩ := Attach.Load.C71_request utf8 kern current q.kind.load.progType
    q.kind.load.attachType q.data ob hfit h7.notLoaded o1 hname
  refine ⟨res, d', reqs, r1, by rintro rfl; simp at r2, ?_⟩
  intro r hr
  have hd := r4 r hr
  exact ⟨by rw [hd.insns, o2], hd.progType, by rw [hd.flags, h7.flags], hd.attach, by rw [hd.license, o3]⟩

/-- **C74 (loading succeeds).** If the object's BTF is dealt with, the kernel's types are there as far as they are needed
and the object can be resolved against them, the kernel refuses no call about maps, the maps are well-formed and of
supported types (or others are allowed), and the code can be relocated, then loading succeeds. -/
theorem C74_succeeds {β : Type} (P : Provider β) (k : Maps.Kernel) (hk : Maps.Spec.Accepts k) (s : Setup) (o : Object β)
    (t t' : Target β) (reads new : List Fetch) (h : Maps.Hist) (fd : Option Nat) (hown : OwnBtf s o fd) (x : Option β)
    (ha : Against P o t reads x t' new) (po : Pipe.Object) (hx : o.resolve x = some po)
    (hpp : po.programs = o.programs.map (fun p => p.2.key)) (hwf : Pipe.Spec.WellFormed po)
    (hxk : Pipe.Spec.ExternsKnown po) (hsep : Pipe.Spec.Separate po) (n : Nat) (hcpu : s.env.nrCpus = some n)
    (hmaps : ∀ name e, (name, e) ∈ o.maps → e.map.def_.mapType ≤ 33 ∧ (0 : UInt8) ∉ name ∧
      (∀ path, Maps.Spec.pinPath s.env name e.map.def_ = some path → (0 : UInt8) ∉ path) ∧
      (e.map.def_.mapType = 12 ∨ e.map.def_.mapType = 13 → e.map.inner.isSome) ∧
      (variantOf e.map.def_.mapType = .unsupported → s.allowUnsupported = true))
    (hcode : ∀ ms h', Maps.loadMaps k { s.env with btfFd := fd } (o.maps.map (fun m => (m.1, m.2.map))) h = (.ok ms, h') →
      Pipe.Spec.Unambiguous po (refs o.maps ms) ∧ ∃ fs, Pipe.code (refs o.maps ms) s.probeReadKernel po = .ok fs) :
    ∃ eb h', load P k s o t reads h = (.ok eb, t', reads ++ new, h') := by
  have hr : relocateBtf P o t reads = (orResolve (o.resolve x), t', reads ++ new) := by
    unfold relocateBtf
    cases ha with
    | unneeded hn =>
      have : ¬ (o.hasRelocations || o.hasTypedKsyms) = true := by simpa [Needs] using hn
      rw [if_neg this]; simp
    | known b hn ht =>
      have : (o.hasRelocations || o.hasTypedKsyms) = true := by simpa [Needs] using hn
      rw [if_pos this]; subst ht; simp [targetBtf]
    | read f b hn hf hp =>
      have : (o.hasRelocations || o.hasTypedKsyms) = true := by simpa [Needs] using hn
      rw [if_pos this]; cases hf <;> simp [targetBtf, hp]
    | missing f e hn hf hp he =>
      have : (o.hasRelocations || o.hasTypedKsyms) = true := by simpa [Needs] using hn
      have h2 : ¬ (o.hasRelocations || o.hasStrongTypedKsyms) = true := by simpa [Essential] using he
      rw [if_pos this]; cases hf <;> simp only [targetBtf, hp] <;> rw [if_neg h2]
  obtain ⟨ms, h', hm⟩ := Maps.C57_succeeds k hk { s.env with btfFd := fd } n hcpu (o.maps.map (fun m => (m.1, m.2.map))) h (by
    intro name obj hin
    obtain ⟨⟨n', e⟩, he, heq⟩ := List.mem_map.mp hin
    cases heq
    obtain ⟨a, b, c, d, _⟩ := hmaps _ _ he
    exact ⟨a, b, c, d⟩)
  obtain ⟨hu, fs, hc⟩ := hcode ms h' hm
  have hbp : ∀ ps : List (Bytes × Prog), (∀ p ∈ ps, p.2.key ∈ po.programs) → ∃ qs, buildPrograms s o fd fs ps = .ok qs := by
    intro ps
    induction ps with
    | nil => intro _; exact ⟨[], rfl⟩
    | cons p ps ih =>
      intro hin
      obtain ⟨name, p⟩ := p
      obtain ⟨qs, hq⟩ := ih (fun q hq => hin q (List.mem_cons_of_mem _ hq))
      obtain ⟨f, f', fl, _, g2, _⟩ := Pipe.C72_code_partial hwf hxk hsep hu hc (hin _ List.mem_cons_self)
      exact ⟨_, by simp only [buildPrograms, g2, hq]; rfl⟩
  obtain ⟨qs, hq⟩ := hbp o.programs (by
    intro p hp
    rw [hpp]
    exact List.mem_map.mpr ⟨p, hp, rfl⟩)
  have hnames := made_names (Maps.C57_maps_created _ _ _ _ _ _ hm)
  have hbm : ∀ l : List (Bytes × Maps.MapData), (∀ m ∈ l, ∃ e, (m.1, e) ∈ o.maps) →
      ∃ maps, buildMaps s.allowUnsupported o.maps l = .ok maps := by
    intro l
    induction l with
    | nil => intro _; exact ⟨[], rfl⟩
    | cons m l ih =>
      intro hin
      obtain ⟨name, d⟩ := m
      obtain ⟨maps, hmm⟩ := ih (fun q hq => hin q (List.mem_cons_of_mem _ hq))
      obtain ⟨e0, he0⟩ := hin _ List.mem_cons_self
      obtain ⟨e, he⟩ := find_some he0
      have hv : ∃ v, variantFor s.allowUnsupported e.map.def_.mapType = some v := by
        have := (hmaps _ _ (find_mem he)).2.2.2.2
        unfold variantOf at this
        unfold variantFor
        rw [parseMap_eq]
        cases hj : (variants[e.map.def_.mapType]?).join with
        | some v => exact ⟨v, rfl⟩
        | none =>
          rw [hj] at this
          have := this rfl
          exact ⟨.unsupported, by simp [this]⟩
      obtain ⟨v, hv⟩ := hv
      exact ⟨_, by simp only [buildMaps, he, hv, hmm]; rfl⟩
  obtain ⟨maps, hmm⟩ := hbm ms (by
    intro m hin
    have : m.1 ∈ ms.map Prod.fst := List.mem_map.mpr ⟨m, hin, rfl⟩
    rw [hnames] at this
    obtain ⟨⟨n', ob⟩, hob, heq⟩ := List.mem_map.mp this
    have hmem : (n', ob) ∈ o.maps.map (fun m => (m.1, m.2.map)) := by
      rcases List.mem_append.mp hob with h1 | h1 <;>
        exact (List.mem_filter.mp ((List.mem_filter.mp h1).1)).1
    obtain ⟨⟨n2, e⟩, he, heq2⟩ := List.mem_map.mp hmem
    cases heq2
    simp only at heq
    subst heq
    exact ⟨e, he⟩)
  have hpo : { po with programs := o.programs.map (fun p => p.2.key) } = po := by rw [← hpp]
  refine ⟨⟨maps, qs⟩, h', ?_⟩
  unfold load
  rw [objectBtf_ok.mpr hown]
  simp only [hr, hx, orResolve]
  unfold finish
  rw [hm]
  simp only [hpo, hc, hq, hmm]

/-! ### Examples -/

/-- An `fentry.s` program, with the code of `Pipe.exO`; two maps and a data section. Resolved against the types 5. -/
def exObj : Object Nat where
  programs := [([112], ⟨.fEntry true, [71, 80, 76], none, (1, 0)⟩)]
  maps := [([109], ⟨{ def_ := { mapType := 1, keySize := 4, valueSize := 8, maxEntries := 16 } }, 3, some 1⟩),
    ([46, 100], ⟨{ def_ := { mapType := 2, keySize := 4, valueSize := 9, maxEntries := 1 }, kind := .data, data := [1, 2, 3] }, 4, none⟩),
    ([110], ⟨{ def_ := { mapType := 27, keySize := 0, valueSize := 0, maxEntries := 4096 } }, 3, some 9⟩)]
  bigEndian := false
  hasRelocations := true
  hasTypedKsyms := true
  hasStrongTypedKsyms := true
  btf := some (some [1])
  resolve := fun x => if x = some 5 then some Pipe.exO else none
  funcRec := 8
  lineRec := 16

/-- A machine that takes BTF if `fd` is given. -/
def exSetup (fd : Option Nat) (extensions : List Bytes) : Setup where
  env := { nrCpus := some 4, pageSize := 4096, cpuProgId := true, devProgId := true, globalData := true
           named := true, btfFd := none, userEntries := [], pinPaths := [], pinDir := none }
  extensions := extensions
  logLevel := 1
  allowUnsupported := false
  progNames := true
  probeReadKernel := false
  loadBtf := fun _ => match fd with | some n => .ok n | none => .error 22

/-- Descriptors are handed out from 10 on. -/
def exKernel : Maps.Kernel := fun h c =>
  match c with
  | .objGet _ => .error 2
  | _ => .ok { num := 10 + (h.filter (fun c => match c with | .create _ => true | _ => false)).length }

/-- Nothing can be read at first; later the types are 5. -/
def exProvider : Provider Nat := fun h _ => if h.length = 1 then .ok 5 else .error 2

/-- The same object with a traffic classifier, no relocations, and externs it can do without. -/
def exWeak : Object Nat :=
  { exObj with
    programs := [([112], ⟨.schedClassifier, [71, 80, 76], none, (1, 0)⟩)]
    hasRelocations := false, hasStrongTypedKsyms := false, resolve := fun _ => some Pipe.exO }

example : Required exObj ∧ ¬ Required exWeak ∧ (exSetup none []).loadBtf [1] = .error 22 := by
  refine ⟨.inl rfl, ?_, rfl⟩
  rintro (h | ⟨name, p, h, hr⟩)
  · cases h
  · simp only [exWeak, List.mem_singleton, Prod.mk.injEq] at h
    obtain ⟨-, rfl⟩ := h
    rcases hr with h | h | h <;> cases h

example : OwnBtf (exSetup (some 7) []) exObj (some 7) ∧ OwnBtf (exSetup none []) { exObj with btf := some none } none :=
  ⟨.loaded _ _ rfl rfl, .absent rfl⟩

/-- The first object does without the kernel's types, the second reads them, the third finds them. -/
example :
    (let r := loads exProvider exKernel [(exSetup none [], exWeak), (exSetup (some 7) [], exObj), (exSetup (some 7) [], exObj)]
      .system [] []
     (r.1.map Except.isOk, r.2.1, r.2.2.1)) = ([true, true, true], .parsed 5, [.sysFs, .sysFs]) := by decide +kernel

/-- Loading `exObj`: what is handed out. -/
def exEbpf : Ebpf where
  maps := [([109], ⟨.hashMap, ⟨10, 4, 8, 16⟩⟩), ([46, 100], ⟨.array, ⟨11, 4, 9, 1⟩⟩), ([110], ⟨.ringBuf, ⟨12, 0, 0, 4096⟩⟩)]
  programs := [([112], ⟨.fEntry true,
    ⟨some [112], some ⟨[71, 80, 76], none, Pipe.exOut, [], 8, [], 16⟩, none, none, none, none, some 7, 1, 16⟩⟩)]

theorem ex_load : (load exProvider exKernel (exSetup (some 7) []) exObj (.parsed 5) [] []).1 = .ok exEbpf := by decide +kernel

theorem unambiguous_congr {po : Pipe.Object} {maps maps' : List Reloc.MapRef} (h : ∀ r, r ∈ maps ↔ r ∈ maps')
    (hu : Pipe.Spec.Unambiguous po maps') : Pipe.Spec.Unambiguous po maps := by
  intro s rel hrel sym sec hs hsec m1 m2 h1 h2
  have conv : ∀ m, Reloc.Spec.NamesMap maps sec rel.symbolIndex m → Reloc.Spec.NamesMap maps' sec rel.symbolIndex m := by
    intro m hm
    cases hm with
    | symbol a b => exact .symbol ((h m).mp a) b
    | data a b c => exact .data (fun m' hm' => a m' ((h m').mpr hm')) ((h m).mp b) c
  exact hu s rel hrel sym sec hs hsec m1 m2 (conv m1 h1) (conv m2 h2)

/-- The hypotheses of `C74_code_partial` hold of it. -/
example : (exObj.maps.map Prod.fst).Nodup ∧
    ∀ x po, exObj.resolve x = some po → po.programs = exObj.programs.map (fun p => p.2.key) ∧ Pipe.Spec.WellFormed po ∧
      Pipe.Spec.ExternsKnown po ∧ Pipe.Spec.Separate po ∧
      ∀ maps, (∀ r, r ∈ maps ↔ RefOf exObj exEbpf r) → Pipe.Spec.Unambiguous po maps := by
  have hn : (exObj.maps.map Prod.fst).Nodup := by decide
  refine ⟨hn, ?_⟩
  intro x po hx
  have hx : (if x = some 5 then some Pipe.exO else none) = some po := hx
  split at hx
  · simp only [Option.some.injEq] at hx
    subst hx
    obtain ⟨h1, h2, h3, h4, -⟩ := Pipe.ex_meets
    refine ⟨rfl, h1, h2, h3, fun maps hm => ?_⟩
    refine unambiguous_congr (maps' := Pipe.exMaps) (fun r => ?_) h4
    rw [hm, ← refs_iff exObj hn exEbpf _ rfl]
    have : refs exObj.maps (exEbpf.maps.map (fun m => (m.1, m.2.data))) = Pipe.exMaps := by decide +kernel
    rw [this]
  · cases hx

/-- C73 is false of programs the user wants treated as extensions: extensions require BTF, and an object with an extension
fails to load if the kernel refuses its BTF; but if it is the user who makes the program one
(`EbpfLoader::extension`), it is handed out without BTF, and the kernel's reason is lost. -/
theorem C73_forced_extension_violated :
    ∃ (P : Provider Nat) (k : Maps.Kernel) (s : Setup) (o : Object Nat) (eb : Ebpf) (name : Bytes) (q : Program),
      (load P k s o (.parsed 5) [] []).1 = .ok eb ∧ (name, q) ∈ eb.programs ∧ name ∈ s.extensions ∧ RequiresBtf q.kind ∧
      (∃ bytes e, o.btf = some (some bytes) ∧ s.loadBtf bytes = .error e) ∧ q.data.btfFd = none := by
  refine ⟨exProvider, exKernel, exSetup none [[112]], exWeak, _, [112],
    ⟨.extension, ⟨some [112], some ⟨[71, 80, 76], none, Pipe.exOut, [], 8, [], 16⟩, none, none, none, none, none, 1, 0⟩⟩,
    (by decide +kernel : _ = Except.ok { exEbpf with programs := [([112], ⟨.extension, ⟨some [112], some ⟨[71, 80, 76], none, Pipe.exOut, [], 8, [], 16⟩, none, none, none, none, none, 1, 0⟩⟩)] }),
    by simp, by decide, .inr (.inl rfl), ⟨[1], 22, rfl, rfl⟩, rfl⟩

end Verif.Loader
