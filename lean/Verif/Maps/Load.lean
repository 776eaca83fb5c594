import Verif.Maps.LoadSpec
import Verif.Maps.Props

set_option linter.unusedSimpArgs false
set_option linter.unusedVariables false

/-!
# C57, C58: creating the maps of an object
-/
namespace Verif.Maps
open Spec

theorem noBtf_iff (ty : Nat) : noBtf ty = true ↔ ty ∈ untyped := by
  simp [noBtf, untyped, or_assoc]

theorem createAttr_asks (env : LoadEnv) (name : Bytes) (d : MapDef) (inner : Option Nat) :
    Asks env name d d.maxEntries d.valueSize (inner.getD 0) (createAttr env name d inner) where
  mapType := rfl
  keySize := rfl
  valueSize := rfl
  maxEntries := rfl
  flags := rfl
  extra := rfl
  innerFd := rfl
  legacy := by intro h; simp [createAttr, h]
  typed := by
    intro key value h hu
    have hb : noBtf d.mapType = false := by
      cases hn : noBtf d.mapType with
      | false => rfl
      | true => exact absurd ((noBtf_iff _).mp hn) hu
    by_cases h30 : d.mapType = 30
    · simp only [createAttr, h, hb, h30]
      have hb' : noBtf 30 = false := by decide
      simp [hb']
    · simp [createAttr, h, hb, h30]
  notTyped := by
    intro hu
    have hb := (noBtf_iff _).mpr hu
    cases hd : d.btf with
    | none => simp [createAttr, hd]
    | some p => simp [createAttr, hd, hb]
  name := rfl

/-- The sizes asked for do not depend on the numbers that are overridden. -/
theorem asks_change {env : LoadEnv} {name : Bytes} {d d' : MapDef} {e v i : Nat} {a : CreateAttr}
    (h : Asks env name d' e v i a) (h1 : d'.mapType = d.mapType) (h2 : d'.keySize = d.keySize)
    (h3 : d'.flags = d.flags) (h4 : d'.extra = d.extra) (h5 : d'.btf = d.btf) : Asks env name d e v i a := by
  obtain ⟨a1, a2, a3, a4, a5, a6, a7, a8, a9, a10, a11⟩ := h
  rw [h1] at a1 a9 a10
  rw [h2] at a2
  rw [h3] at a5
  rw [h5] at a6 a8 a9
  rw [h4] at a6
  exact ⟨a1, a2, a3, a4, a5, a6, a7, a8, a9, a10, a11⟩

theorem createMap_ok {k : Kernel} {env : LoadEnv} {d : MapDef} {name : Bytes} {inner : Option Nat}
    {h h' : Hist} {m : MapData} (hc : createMap k env d name inner h = (.ok m, h')) :
    ∃ a o, h' = h ++ [.create a] ∧ k h (.create a) = .ok o ∧
      Asks env name d (entriesInner env d) d.valueSize (inner.getD 0) a ∧
      m.fd = o.num ∧ m.keySize = a.keySize ∧ m.valueSize = a.valueSize ∧ m.maxEntries = a.maxEntries := by
  unfold createMap at hc
  by_cases hz : name.contains 0 = true
  · rw [if_pos hz] at hc; simp at hc
  · rw [if_neg hz] at hc
    have key : ∀ d' : MapDef, d'.maxEntries = entriesInner env d → d'.valueSize = d.valueSize →
        d'.mapType = d.mapType → d'.keySize = d.keySize → d'.flags = d.flags → d'.extra = d.extra →
        d'.btf = d.btf →
        (match sys k (.create (createAttr env name d' inner)) h with
          | (.ok o, h) => ((.ok ⟨o.num, d'.keySize, d'.valueSize, d'.maxEntries⟩ : Except LoadError MapData), h)
          | (.error e, h) => (.error (.create name e), h)) = (.ok m, h') →
        ∃ a o, h' = h ++ [.create a] ∧ k h (.create a) = .ok o ∧
          Asks env name d (entriesInner env d) d.valueSize (inner.getD 0) a ∧
          m.fd = o.num ∧ m.keySize = a.keySize ∧ m.valueSize = a.valueSize ∧ m.maxEntries = a.maxEntries := by
      intro d' e1 e2 e3 e4 e5 e6 e7 hm
      simp only [sys] at hm
      cases hk : k h (.create (createAttr env name d' inner)) with
      | error e => rw [hk] at hm; simp at hm
      | ok o =>
        rw [hk] at hm
        simp only [Prod.mk.injEq, Except.ok.injEq] at hm
        obtain ⟨hm1, hm2⟩ := hm
        refine ⟨_, o, hm2.symm, hk, ?_, ?_⟩
        · rw [← e1, ← e2]
          exact asks_change (createAttr_asks env name d' inner) e3 e4 e5 e6 e7
        · subst hm1
          exact ⟨rfl, rfl, rfl, rfl⟩
    by_cases hp : d.mapType = PERF_EVENT_ARRAY
    · simp only [if_pos hp] at hc
      have hp4 : d.mapType = 4 := hp
      cases hn : env.nrCpus with
      | none => rw [hn] at hc; simp at hc
      | some n =>
        rw [hn] at hc
        simp only at hc
        by_cases hb : d.maxEntries = 0 ∨ d.maxEntries > n
        · rw [if_pos hb] at hc
          exact key { d with maxEntries := n } (by simp [entriesInner, hp4, hn, hb]) rfl rfl rfl rfl rfl rfl hc
        · rw [if_neg hb] at hc
          exact key _ (by simp [entriesInner, hp4, hn, hb]) rfl rfl rfl rfl rfl rfl hc
    · simp only [if_neg hp] at hc
      have hp4 : ¬ d.mapType = 4 := hp
      exact key d (by simp [entriesInner, hp4]) rfl rfl rfl rfl rfl rfl hc

theorem overridden_spec {env : LoadEnv} {name : Bytes} {d d' : MapDef} (h : overridden env name d = some d') :
    d'.mapType = d.mapType ∧ d'.keySize = d.keySize ∧ d'.flags = d.flags ∧ d'.extra = d.extra ∧
    d'.btf = d.btf ∧ d'.pinByName = d.pinByName ∧
    d'.valueSize = valueFor env d ∧ d'.maxEntries = entriesReused env name d ∧
    entriesInner env d' = entriesFor env name d := by
  unfold overridden at h
  generalize hu : env.userEntries.lookup name = user at h
  cases hme : maxEntriesOverride d.mapType user d.maxEntries env.nrCpus env.pageSize with
  | none => rw [hme] at h; simp at h
  | some me =>
    rw [hme] at h
    simp only [Option.some.injEq] at h
    have f1 : d'.mapType = d.mapType := by rw [← h]; rfl
    have f8 : d'.valueSize = (valueSizeOverride d.mapType env.cpuProgId env.devProgId).getD d.valueSize := by
      rw [← h]; rfl
    have f7 : d'.maxEntries = me.getD d.maxEntries := by rw [← h]; rfl
    have hval : d'.valueSize = valueFor env d := by
      rw [f8]
      unfold valueSizeOverride valueFor CPUMAP DEVMAP DEVMAP_HASH RINGBUF
      by_cases h1 : d.mapType = 16
      · simp [h1]
      · by_cases h2 : d.mapType = 14 ∨ d.mapType = 25
        · simp [h1, h2]
        · by_cases h3 : d.mapType = 27 <;> simp [h1, h2, h3]
    have hent : d'.maxEntries = entriesReused env name d := by
      rw [f7]
      unfold entriesReused
      rw [hu]
      dsimp only
      by_cases h27 : d.mapType = 27
      · rw [if_pos h27]
        have := C31_ringbuf_size user d.maxEntries env.nrCpus env.pageSize
        rw [h27] at hme
        have hme' : maxEntriesOverride RINGBUF user d.maxEntries env.nrCpus env.pageSize = some me := hme
        rw [hme'] at this
        simpa using this
      · rw [if_neg h27]
        by_cases h4 : d.mapType = 4 ∧ user.getD d.maxEntries = 0
        · rw [if_pos h4]
          have h4' : d.mapType = PERF_EVENT_ARRAY ∧ user.getD d.maxEntries = 0 := h4
          cases hn : env.nrCpus with
          | none => simp [maxEntriesOverride, h4', hn] at hme
          | some n => simp [maxEntriesOverride, h4', hn] at hme; simp [← hme]
        · rw [if_neg h4]
          have h4' : ¬ (d.mapType = PERF_EVENT_ARRAY ∧ user.getD d.maxEntries = 0) := h4
          have h27' : ¬ d.mapType = RINGBUF := h27
          simp only [maxEntriesOverride, if_neg h4', if_neg h27', Option.some.injEq] at hme
          rw [← hme]
    refine ⟨f1, by rw [← h]; rfl, by rw [← h]; rfl, by rw [← h]; rfl, by rw [← h]; rfl, by rw [← h]; rfl, hval, hent, ?_⟩
    unfold entriesInner
    rw [hent, f1]
    unfold entriesReused entriesFor
    rw [hu]
    dsimp only
    by_cases h27 : d.mapType = 27
    · simp [h27]
    · by_cases h4 : d.mapType = 4
      · simp only [h4, true_and, if_true]
        by_cases hz : user.getD d.maxEntries = 0
        · simp [hz]
        · simp [hz]
      · simp [h27, h4]

theorem innerName_eq (name : Bytes) : innerName name = name ++ ".inner".toUTF8.toList := by
  have : ".inner".toUTF8.toList = [0x2e, 0x69, 0x6e, 0x6e, 0x65, 0x72] := by decide +kernel
  rw [this]
  rfl

/-- The calls of creating the inner map and then the map. -/
theorem createWithInner_ok {k : Kernel} {env : LoadEnv} {d : MapDef} {name : Bytes} {inner : Option MapDef}
    {h h' : Hist} {m : MapData} (hc : createWithInner k env d name inner h = (.ok m, h')) :
    ∃ ins fdI a o, h' = h ++ ins ++ [.create a] ∧
      ((inner = none ∧ ins = [] ∧ fdI = 0) ∨ ∃ i ai oi, inner = some i ∧
        Asks env (name ++ ".inner".toUTF8.toList) i (entriesInner env i) i.valueSize 0 ai ∧
        ins = [.create ai] ∧ k h (.create ai) = .ok oi ∧ fdI = oi.num) ∧
      k (h ++ ins) (.create a) = .ok o ∧
      Asks env name d (entriesInner env d) d.valueSize fdI a ∧
      m.fd = o.num ∧ m.keySize = a.keySize ∧ m.valueSize = a.valueSize ∧ m.maxEntries = a.maxEntries := by
  unfold createWithInner at hc
  cases inner with
  | none =>
    obtain ⟨a, o, h1, h2, h3, h4⟩ := createMap_ok hc
    exact ⟨[], 0, a, o, by simpa using h1, .inl ⟨rfl, rfl, rfl⟩, by simpa using h2, by simpa using h3, h4⟩
  | some i =>
    simp only at hc
    cases hi : createMap k env i (innerName name) none h with
    | mk r hr =>
      rw [hi] at hc
      cases r with
      | error e => simp at hc
      | ok mi =>
        simp only at hc
        obtain ⟨ai, oi, g1, g2, g3, g4, _⟩ := createMap_ok hi
        obtain ⟨a, o, h1, h2, h3, h4⟩ := createMap_ok hc
        subst g1
        refine ⟨[.create ai], oi.num, a, o, h1, .inr ⟨i, ai, oi, rfl, ?_, rfl, g2, rfl⟩, h2, ?_, h4⟩
        · rw [← innerName_eq]; exact g3
        · rw [g4] at h3; exact h3

theorem finalize_ok {k : Kernel} {fd : Nat} {data : Bytes} {ro : Bool} {h h' : Hist}
    (hf : finalize k fd data ro h = (.ok (), h')) :
    h' = h ++ initCalls fd data ro ∧
      ∀ (i : Nat) c, (initCalls fd data ro)[i]? = some c → ∃ o, k (h ++ (initCalls fd data ro).take i) c = .ok o := by
  rcases C33_fill_then_freeze k fd data ro h with ⟨h1, h2, h3⟩ | ⟨i, c, e, nm, _, _, _, h4⟩
  · rw [hf] at h2; exact ⟨h2, h3⟩
  · rw [h4] at hf; simp at hf

/-- Answers of consecutive runs of calls. -/
theorem Answered.append {k : Kernel} {h s t : Hist} (h1 : Answered k h s) (h2 : Answered k (h ++ s) t) :
    Answered k h (s ++ t) := by
  intro i c hc
  by_cases hi : i < s.length
  · rw [List.getElem?_append_left hi] at hc
    rw [List.take_append_of_le_length (by omega)]
    exact h1 i c hc
  · rw [List.getElem?_append_right (by omega)] at hc
    have := h2 _ c hc
    rw [List.take_append, List.take_of_length_le (by omega)]
    simpa [List.append_assoc] using this

theorem Answered.nil (k : Kernel) (h : Hist) : Answered k h [] := by intro i c hc; simp at hc

theorem Answered.single {k : Kernel} {h : Hist} {c : Call} {o : Out} (hk : k h c = .ok o) :
    Answered k h [c] := by
  intro i c' hc
  match i with
  | 0 => simp at hc; subst hc; exact .inr ⟨o, by simpa using hk⟩
  | i + 1 => simp at hc

theorem Answered.get (k : Kernel) (h : Hist) (p : Bytes) : Answered k h [.objGet p] := by
  intro i c' hc
  match i with
  | 0 => simp at hc; subst hc; exact .inl ⟨p, rfl⟩
  | i + 1 => simp at hc

theorem Answered.init {k : Kernel} {h : Hist} {seg : Hist}
    (hk : ∀ (i : Nat) c, seg[i]? = some c → ∃ o, k (h ++ seg.take i) c = .ok o) : Answered k h seg :=
  fun i c hc => .inr (hk i c hc)

theorem bpffs_eq : bpffs = "/sys/fs/bpf".toUTF8.toList := by decide +kernel

theorem joinPath_eq (dir name : Bytes) : joinPath dir name =
    (if name.head? = some 0x2f then name
      else if dir = [] ∨ dir.getLast? = some 0x2f then dir ++ name else dir ++ "/".toUTF8.toList ++ name) := by
  have : "/".toUTF8.toList = [0x2f] := by decide +kernel
  unfold joinPath
  rw [this]
  simp only [List.isEmpty_iff]

/-- **C57 (one map).** When creating one map of the object succeeds, the calls made are exactly those of the
    specification, and all of them succeeded. -/
theorem C57_one_map (k : Kernel) (env : LoadEnv) (name : Bytes) (obj : MapObj) (h h' : Hist) (m : MapData)
    (hl : loadMap k env name obj h = (.ok m, h')) :
    ∃ seg, h' = h ++ seg ∧ Made k env name obj h seg m ∧ Answered k h seg := by
  unfold loadMap at hl
  cases ho : overridden env name obj.def_ with
  | none => rw [ho] at hl; simp at hl
  | some d =>
    rw [ho] at hl
    obtain ⟨e1, e2, e3, e4, e5, e6, e7, e8, e9⟩ := overridden_spec ho
    simp only at hl
    by_cases hmi : isMapOfMaps d.mapType = true ∧ obj.inner.isNone = true
    · rw [if_pos hmi] at hl; simp at hl
    · rw [if_neg hmi] at hl
      generalize hinner : (if isMapOfMaps d.mapType = true then obj.inner else none) = inner at hl
      have hInner : (obj.def_.mapType ≠ 12 ∧ obj.def_.mapType ≠ 13 ∧ inner = none) ∨
          ((obj.def_.mapType = 12 ∨ obj.def_.mapType = 13) ∧ ∃ i, obj.inner = some i ∧ inner = some i) := by
        by_cases hmm : isMapOfMaps d.mapType = true
        · right
          rw [if_pos hmm] at hinner
          have : ¬ obj.inner.isNone = true := fun hh => hmi ⟨hmm, hh⟩
          cases hoi : obj.inner with
          | none => simp [hoi] at this
          | some i =>
            refine ⟨?_, i, rfl, by rw [← hinner, hoi]⟩
            rw [e1] at hmm
            simpa [isMapOfMaps] using hmm
        · left
          rw [if_neg hmm] at hinner
          rw [e1] at hmm
          simp [isMapOfMaps] at hmm
          exact ⟨hmm.1, hmm.2, hinner.symm⟩
      -- how the map of `createWithInner` enters the specification
      have fresh : ∀ (pre pin : Hist) (hm hm' : Hist) (m : MapData),
          pre = (pinPath env name obj.def_).toList.map Call.objGet →
          (∀ path, pinPath env name obj.def_ = some path → ∃ e, k h (.objGet path) = .error e) →
          createWithInner k env d name inner (h ++ pre) = (.ok m, hm) →
          pin = (pinPath env name obj.def_).toList.map (Call.objPin m.fd) →
          Answered k hm pin →
          finalize k m.fd obj.data (obj.kind = .rodata) (hm ++ pin) = (.ok (), hm') →
          ∃ seg, hm' = h ++ seg ∧ Made k env name obj h seg m ∧ Answered k h seg := by
        intro pre pin hm hm' m hpre hmiss hcr hpin hpa hfin
        obtain ⟨ins, fdI, a, o, g1, g2, g3, g4, g5, g6, g7, g8⟩ := createWithInner_ok hcr
        obtain ⟨f1, f2⟩ := finalize_ok hfin
        have g4' : Asks env name obj.def_ (entriesFor env name obj.def_) (valueFor env obj.def_) fdI a := by
          rw [← e9, ← e7]
          exact asks_change g4 e1 e2 e3 e4 e5
        refine ⟨pre ++ ins ++ [.create a] ++ pin ++ initCalls m.fd obj.data (obj.kind = .rodata), ?_, ?_, ?_⟩
        · rw [f1, g1]; simp [List.append_assoc]
        · refine .created pre ins pin fdI a o m hpre hmiss ?_ g4' g3 g5 g6 g7 g8 hpin
          rcases hInner with ⟨n1, n2, n3⟩ | ⟨n1, i, n2, n3⟩
          · left
            rcases g2 with ⟨_, q2, q3⟩ | ⟨i, ai, oi, q1, _⟩
            · exact ⟨n1, n2, q2, q3⟩
            · rw [n3] at q1; simp at q1
          · right
            refine ⟨n1, ?_⟩
            rcases g2 with ⟨q1, _⟩ | ⟨i', ai, oi, q1, q2, q3, q4, q5⟩
            · rw [n3] at q1; simp at q1
            · rw [n3] at q1
              simp at q1
              subst q1
              exact ⟨i, ai, oi, n2, q2, q3, q4, q5⟩
        · have hpreA : Answered k h pre := by
            rw [hpre]
            cases pinPath env name obj.def_ with
            | none => exact Answered.nil k h
            | some p => exact Answered.get k h p
          have hinsA : Answered k (h ++ pre) ins := by
            rcases g2 with ⟨_, q2, _⟩ | ⟨i, ai, oi, _, _, q3, q4, _⟩
            · rw [q2]; exact Answered.nil k _
            · rw [q3]; exact Answered.single q4
          refine Answered.append (Answered.append (Answered.append (Answered.append hpreA hinsA) ?_) ?_) ?_
          · have : h ++ (pre ++ ins) = h ++ pre ++ ins := by simp [List.append_assoc]
            rw [this]; exact Answered.single g3
          · have : h ++ (pre ++ ins ++ [Call.create a]) = hm := by rw [g1]; simp [List.append_assoc]
            rw [this]; exact hpa
          · have : h ++ (pre ++ ins ++ [Call.create a] ++ pin) = hm ++ pin := by
              rw [g1]; simp [List.append_assoc]
            rw [this]; exact Answered.init f2
      -- pinned maps
      have pinned : ∀ (path : Bytes) (m : MapData) (hm hm' : Hist),
          pinPath env name obj.def_ = some path →
          createPinned k env path d name inner h = (.ok m, hm) →
          finalize k m.fd obj.data (obj.kind = .rodata) hm = (.ok (), hm') →
          ∃ seg, hm' = h ++ seg ∧ Made k env name obj h seg m ∧ Answered k h seg := by
        intro path m hm hm' hpp hcr hfin
        unfold createPinned at hcr
        by_cases hz : path.contains 0 = true
        · rw [if_pos hz] at hcr; simp at hcr
        · rw [if_neg hz] at hcr
          simp only [sys] at hcr
          cases hk : k h (.objGet path) with
          | ok o =>
            rw [hk] at hcr
            simp only [Prod.mk.injEq, Except.ok.injEq] at hcr
            obtain ⟨hcm, hch⟩ := hcr
            subst hch
            obtain ⟨f1, f2⟩ := finalize_ok hfin
            refine ⟨.objGet path :: initCalls m.fd obj.data (obj.kind = .rodata), ?_, ?_, ?_⟩
            · rw [f1]; simp
            · subst hcm
              exact .reused path o _ hpp hk rfl e2 e7 e8
            · have := Answered.append (Answered.get k h path) (Answered.init f2)
              simpa using this
          | error e =>
            rw [hk] at hcr
            simp only at hcr
            cases hcw : createWithInner k env d name inner (h ++ [.objGet path]) with
            | mk r hr =>
              rw [hcw] at hcr
              cases r with
              | error e => simp at hcr
              | ok m' =>
                simp only at hcr
                cases hkp : k hr (.objPin m'.fd path) with
                | error e => rw [hkp] at hcr; simp at hcr
                | ok op =>
                  rw [hkp] at hcr
                  simp only [Prod.mk.injEq, Except.ok.injEq] at hcr
                  obtain ⟨hcm, hch⟩ := hcr
                  subst hcm
                  subst hch
                  exact fresh [.objGet path] [.objPin m'.fd path] hr hm' m' (by rw [hpp]; rfl)
                    (by intro p hp; rw [hpp] at hp; cases hp; exact ⟨e, hk⟩) hcw (by rw [hpp]; rfl)
                    (Answered.single hkp) hfin
      -- the three ways
      generalize hmade : openMap k env d name inner h = made at hl
      unfold openMap at hmade
      obtain ⟨r, hm⟩ := made
      cases r with
      | error e => simp at hl
      | ok m' =>
        simp only at hl
        cases hfin : finalize k m'.fd obj.data (decide (obj.kind = .rodata)) hm with
        | mk rf hf =>
          rw [hfin] at hl
          cases rf with
          | error e => simp at hl
          | ok u =>
            simp only [Prod.mk.injEq, Except.ok.injEq] at hl
            obtain ⟨hl1, hl2⟩ := hl
            subst hl1
            subst hl2
            cases hpp : env.pinPaths.lookup name with
            | some path =>
              rw [hpp] at hmade
              exact pinned path m' hm hf (by simp [pinPath, hpp]) hmade hfin
            | none =>
              rw [hpp] at hmade
              simp only at hmade
              by_cases hby : d.pinByName = true
              · rw [if_pos hby] at hmade
                refine pinned _ m' hm hf ?_ hmade hfin
                rw [e6] at hby
                simp only [pinPath, hpp, hby, if_true]
                rw [joinPath_eq, bpffs_eq]
              · rw [if_neg hby] at hmade
                rw [e6] at hby
                have hnp : pinPath env name obj.def_ = none := by simp [pinPath, hpp, hby]
                refine fresh [] [] hm hf m' (by rw [hnp]; rfl) (by intro p hp; rw [hnp] at hp; cases hp) ?_
                  (by rw [hnp]; rfl) (Answered.nil k _) ?_
                · rw [List.append_nil]; exact hmade
                · rw [List.append_nil]; exact hfin

/-- A concrete run: a ring buffer that is not pinned and a map of maps that is. -/
def demoEnv : LoadEnv :=
  { nrCpus := some 4, pageSize := 4096, cpuProgId := true, devProgId := true, globalData := true
    named := true, btfFd := some 3, userEntries := [([0x72], 5000)], pinPaths := [], pinDir := none }

/-- A kernel without pins that hands out the number of calls made so far as the next descriptor. -/
def demoKernel : Kernel := fun h c =>
  match c with
  | .objGet _ => .error 2
  | _ => .ok { num := 10 + h.length }

theorem loadEach_made {k : Kernel} {env : LoadEnv} :
    ∀ (maps : List (Bytes × MapObj)) (h h' : Hist) (ms : List (Bytes × MapData)),
      loadEach k env maps h = (.ok ms, h') → MadeAll k env maps h ms h' := by
  intro maps
  induction maps with
  | nil =>
    intro h h' ms hl
    simp only [loadEach, Prod.mk.injEq, Except.ok.injEq] at hl
    obtain ⟨rfl, rfl⟩ := hl
    exact .done h
  | cons p rest ih =>
    intro h h' ms hl
    obtain ⟨name, obj⟩ := p
    simp only [loadEach] at hl
    cases h1 : loadMap k env name obj h with
    | mk r hr =>
      rw [h1] at hl
      cases r with
      | error e => simp at hl
      | ok m =>
        simp only at hl
        cases h2 : loadEach k env rest hr with
        | mk r2 hr2 =>
          rw [h2] at hl
          cases r2 with
          | error e => simp at hl
          | ok ms' =>
            simp only [Prod.mk.injEq, Except.ok.injEq] at hl
            obtain ⟨rfl, rfl⟩ := hl
            obtain ⟨seg, g1, g2, g3⟩ := C57_one_map k env name obj h hr m h1
            subst g1
            exact .step name obj rest h seg hr2 m ms' g2 g3 (ih _ _ _ h2)

theorem partitionMaps_ok {env : LoadEnv} :
    ∀ (maps a b : List (Bytes × MapObj)), partitionMaps env maps = .ok (a, b) →
      a = (wanted env maps).filter (fun m => !holdsMaps m) ∧ b = (wanted env maps).filter holdsMaps ∧
      ∀ m, m ∈ wanted env maps → m.2.def_.mapType ≤ 33 := by
  intro maps
  induction maps with
  | nil => intro a b h; simp [partitionMaps] at h; obtain ⟨rfl, rfl⟩ := h; simp [wanted]
  | cons p rest ih =>
    intro a b h
    obtain ⟨name, obj⟩ := p
    simp only [partitionMaps] at h
    by_cases hs : skipped env obj = true
    · rw [if_pos hs] at h
      have hw : wanted env ((name, obj) :: rest) = wanted env rest := by
        simp [skipped] at hs
        unfold wanted
        rw [List.filter_cons_of_neg (by simp [hs])]
      rw [hw]
      exact ih a b h
    · rw [if_neg hs] at h
      have hw : wanted env ((name, obj) :: rest) = (name, obj) :: wanted env rest := by
        unfold wanted
        rw [List.filter_cons_of_pos]
        simp [skipped] at hs
        by_cases ho : obj.kind = .other
        · simp [ho]
        · simp [hs ho]
      rw [hw]
      by_cases hv : validType obj.def_.mapType = true
      · simp only [hv, Bool.not_true, if_false, Bool.false_eq_true] at h
        cases hr : partitionMaps env rest with
        | error e => rw [hr] at h; simp at h
        | ok ab =>
          obtain ⟨a', b'⟩ := ab
          rw [hr] at h
          simp only at h
          obtain ⟨i1, i2, i3⟩ := ih a' b' hr
          have hty : ∀ m, m ∈ (name, obj) :: wanted env rest → m.2.def_.mapType ≤ 33 := by
            intro m hm
            rcases List.mem_cons.mp hm with rfl | hm
            · simpa [validType] using hv
            · exact i3 m hm
          by_cases hmm : isMapOfMaps obj.def_.mapType = true
          · rw [if_pos hmm] at h
            simp only [Except.ok.injEq, Prod.mk.injEq] at h
            have hh : holdsMaps (name, obj) = true := by simpa [isMapOfMaps, holdsMaps] using hmm
            refine ⟨?_, ?_, hty⟩
            · rw [List.filter_cons_of_neg (by simp [hh]), ← i1, h.1]
            · rw [List.filter_cons_of_pos hh, ← i2, h.2]
          · rw [if_neg hmm] at h
            simp only [Except.ok.injEq, Prod.mk.injEq] at h
            have hh : holdsMaps (name, obj) = false := by
              simp [isMapOfMaps] at hmm; simp [holdsMaps, hmm]
            refine ⟨?_, ?_, hty⟩
            · rw [List.filter_cons_of_pos (by simp [hh]), ← i1, h.1]
            · rw [List.filter_cons_of_neg (by simp [hh]), ← i2, h.2]
      · simp [hv] at h

/-- **C57.** When creating the maps of an object succeeds, all its maps (but those of global data on a kernel
    without support for it) have been made, ordinary maps before maps of maps, each by exactly the calls the
    specification lists, and every one of those calls succeeded.  In particular nothing is created for a map
    whose pin exists, a created map is pinned before it is filled, and read-only data is frozen last. -/
theorem C57_maps_created (k : Kernel) (env : LoadEnv) (maps : List (Bytes × MapObj)) (h h' : Hist)
    (ms : List (Bytes × MapData)) (hl : loadMaps k env maps h = (.ok ms, h')) :
    MadeAll k env ((wanted env maps).filter (fun m => !holdsMaps m) ++ (wanted env maps).filter holdsMaps)
      h ms h' := by
  unfold loadMaps at hl
  cases hp : partitionMaps env maps with
  | error e => rw [hp] at hl; simp at hl
  | ok ab =>
    obtain ⟨a, b⟩ := ab
    rw [hp] at hl
    obtain ⟨h1, h2, _⟩ := partitionMaps_ok maps a b hp
    rw [← h1, ← h2]
    exact loadEach_made _ _ _ _ hl

example : (loadMaps demoKernel demoEnv
    [([0x6d], { def_ := { mapType := 12, keySize := 4, valueSize := 4, maxEntries := 8, pinByName := true }
                inner := some { mapType := 2, keySize := 4, valueSize := 8, maxEntries := 1 } }),
     ([0x72], { def_ := { mapType := 27, keySize := 0, valueSize := 9, maxEntries := 1 } }),
     ([0x64], { def_ := { mapType := 2, keySize := 4, valueSize := 2, maxEntries := 1 }
                kind := .rodata, data := [7, 8] })] []).1
    = .ok [([0x72], ⟨10, 0, 0, 8192⟩), ([0x64], ⟨11, 4, 2, 1⟩), ([0x6d], ⟨16, 4, 4, 8⟩)] := by decide +kernel

/-- The calls of the same run. -/
example : ((loadMaps demoKernel demoEnv
    [([0x6d], { def_ := { mapType := 12, keySize := 4, valueSize := 4, maxEntries := 8, pinByName := true }
                inner := some { mapType := 2, keySize := 4, valueSize := 8, maxEntries := 1 } }),
     ([0x64], { def_ := { mapType := 2, keySize := 4, valueSize := 2, maxEntries := 1 }
                kind := .rodata, data := [7, 8] })] []).2.map (fun c =>
      match c with
      | .create a => (0, a.innerFd)
      | .objGet _ => (1, 0)
      | .objPin fd _ => (2, fd)
      | .update fd _ _ _ => (3, fd)
      | .freeze fd => (4, fd)
      | _ => (5, 0)))
    = [(0, 0), (3, 10), (4, 10), (1, 0), (0, 0), (0, 14), (2, 15)] := by decide +kernel

/-! ## Loading succeeds -/

/-- A kernel that refuses nothing, except that a pin may be missing. -/
def Spec.Accepts (k : Kernel) : Prop := ∀ h c, (∀ p, c ≠ Call.objGet p) → ∃ o, k h c = .ok o

theorem createMap_succeeds {k : Kernel} (hk : Accepts k) {env : LoadEnv} {n : Nat} (hn : env.nrCpus = some n)
    (d : MapDef) (name : Bytes) (hz : 0 ∉ name) (inner : Option Nat) (h : Hist) :
    ∃ m h', createMap k env d name inner h = (.ok m, h') := by
  have key : ∀ d' : MapDef, ∃ m h', (match sys k (.create (createAttr env name d' inner)) h with
      | (.ok o, h) => ((.ok ⟨o.num, d'.keySize, d'.valueSize, d'.maxEntries⟩ : Except LoadError MapData), h)
      | (.error e, h) => (.error (.create name e), h)) = (.ok m, h') := by
    intro d'
    obtain ⟨o, ho⟩ := hk h (.create (createAttr env name d' inner)) (by intro p hp; cases hp)
    exact ⟨⟨o.num, d'.keySize, d'.valueSize, d'.maxEntries⟩, h ++ [.create (createAttr env name d' inner)], by
      simp only [sys, ho]⟩
  unfold createMap
  rw [if_neg (by simpa using hz), hn]
  by_cases hp : d.mapType = PERF_EVENT_ARRAY
  · simp only [if_pos hp]
    exact key _
  · simp only [if_neg hp]
    exact key _

theorem createWithInner_succeeds {k : Kernel} (hk : Accepts k) {env : LoadEnv} {n : Nat}
    (hn : env.nrCpus = some n) (d : MapDef) (name : Bytes) (hz : 0 ∉ name) (inner : Option MapDef) (h : Hist) :
    ∃ m h', createWithInner k env d name inner h = (.ok m, h') := by
  unfold createWithInner
  cases inner with
  | none => exact createMap_succeeds hk hn d name hz none h
  | some i =>
    obtain ⟨mi, hi, he⟩ := createMap_succeeds hk hn i (innerName name) (by simp [innerName, hz]) none h
    simp only [he]
    exact createMap_succeeds hk hn d name hz _ _

theorem createPinned_succeeds {k : Kernel} (hk : Accepts k) {env : LoadEnv} {n : Nat}
    (hn : env.nrCpus = some n) (path : Bytes) (hp : 0 ∉ path) (d : MapDef) (name : Bytes) (hz : 0 ∉ name)
    (inner : Option MapDef) (h : Hist) : ∃ m h', createPinned k env path d name inner h = (.ok m, h') := by
  unfold createPinned
  rw [if_neg (by simpa using hp)]
  simp only [sys]
  cases hg : k h (.objGet path) with
  | ok o => exact ⟨_, _, rfl⟩
  | error e =>
    obtain ⟨m, hm, he⟩ := createWithInner_succeeds hk hn d name hz inner (h ++ [.objGet path])
    simp only [he]
    obtain ⟨o, ho⟩ := hk hm (.objPin m.fd path) (by intro p hp; cases hp)
    exact ⟨m, hm ++ [.objPin m.fd path], by simp only [ho]⟩

theorem finalize_succeeds {k : Kernel} (hk : Accepts k) (fd : Nat) (data : Bytes) (ro : Bool) (h : Hist) :
    ∃ h', finalize k fd data ro h = (.ok (), h') := by
  rcases C33_fill_then_freeze k fd data ro h with ⟨h1, h2, _⟩ | ⟨i, c, e, nm, g1, _, g3, _⟩
  · exact ⟨(finalize k fd data ro h).2, by rw [← h1]⟩
  · exfalso
    obtain ⟨o, ho⟩ := hk (h ++ (initCalls fd data ro).take i) c (by
      intro p hp
      subst hp
      have := List.mem_of_getElem? g1
      simp only [initCalls, List.mem_append] at this
      rcases this with this | this <;> split at this <;> simp at this)
    rw [ho] at g3
    cases g3

theorem loadMap_succeeds {k : Kernel} (hk : Accepts k) {env : LoadEnv} {n : Nat} (hn : env.nrCpus = some n)
    (name : Bytes) (obj : MapObj) (hz : 0 ∉ name) (hp : ∀ path, pinPath env name obj.def_ = some path → 0 ∉ path)
    (hi : obj.def_.mapType = 12 ∨ obj.def_.mapType = 13 → obj.inner.isSome) (h : Hist) :
    ∃ m h', loadMap k env name obj h = (.ok m, h') := by
  have ho : ∃ d, overridden env name obj.def_ = some d := by
    unfold overridden maxEntriesOverride
    rw [hn]
    by_cases h1 : obj.def_.mapType = PERF_EVENT_ARRAY ∧
        (env.userEntries.lookup name).getD obj.def_.maxEntries = 0
    · simp [h1]
    · rw [if_neg h1]
      by_cases h2 : obj.def_.mapType = RINGBUF
      · rw [if_pos h2]; exact ⟨_, rfl⟩
      · rw [if_neg h2]; exact ⟨_, rfl⟩
  obtain ⟨d, ho⟩ := ho
  obtain ⟨e1, e2, e3, e4, e5, e6, e7, e8, e9⟩ := overridden_spec ho
  unfold loadMap
  rw [ho]
  simp only
  rw [if_neg (by
    rintro ⟨q1, q2⟩
    rw [e1] at q1
    have := hi (by simpa [isMapOfMaps] using q1)
    cases hoi : obj.inner <;> simp [hoi] at this q2)]
  have hopen : ∀ inner, ∃ m h', openMap k env d name inner h = (.ok m, h') := by
    intro inner
    unfold openMap
    cases hpp : env.pinPaths.lookup name with
    | some path => exact createPinned_succeeds hk hn path (hp path (by simp [pinPath, hpp])) d name hz inner h
    | none =>
      by_cases hby : d.pinByName = true
      · simp only [if_pos hby]
        refine createPinned_succeeds hk hn _ (hp _ ?_) d name hz inner h
        rw [e6] at hby
        simp only [pinPath, hpp, hby, if_true]
        rw [joinPath_eq, bpffs_eq]
      · simp only [if_neg hby]
        exact createWithInner_succeeds hk hn d name hz inner h
  obtain ⟨m, hm, he⟩ := hopen (if isMapOfMaps d.mapType then obj.inner else none)
  rw [he]
  simp only
  obtain ⟨h', hf⟩ := finalize_succeeds hk m.fd obj.data (decide (obj.kind = .rodata)) hm
  rw [hf]
  exact ⟨m, h', rfl⟩

/-- **C57 (loading succeeds).** If the kernel refuses nothing (pins may or may not exist), the map types are
    known, maps of maps say what their inner maps are, no name or pin path contains a NUL byte and the
    CPUs can be counted, then creating the maps succeeds. -/
theorem C57_succeeds (k : Kernel) (hk : Accepts k) (env : LoadEnv) (n : Nat) (hn : env.nrCpus = some n)
    (maps : List (Bytes × MapObj)) (h : Hist)
    (hmaps : ∀ name obj, (name, obj) ∈ maps → obj.def_.mapType ≤ 33 ∧ 0 ∉ name ∧
      (∀ path, pinPath env name obj.def_ = some path → 0 ∉ path) ∧
      (obj.def_.mapType = 12 ∨ obj.def_.mapType = 13 → obj.inner.isSome)) :
    ∃ ms h', loadMaps k env maps h = (.ok ms, h') := by
  have hpart : ∀ maps : List (Bytes × MapObj), (∀ m ∈ maps, m.2.def_.mapType ≤ 33) →
      ∃ a b, partitionMaps env maps = .ok (a, b) ∧ (∀ m ∈ a, m ∈ maps) ∧ ∀ m ∈ b, m ∈ maps := by
    intro maps
    induction maps with
    | nil => intro _; exact ⟨[], [], rfl, by simp, by simp⟩
    | cons p rest ih =>
      intro hv
      obtain ⟨name, obj⟩ := p
      obtain ⟨a, b, h1, h2, h3⟩ := ih (fun m hm => hv m (List.mem_cons_of_mem _ hm))
      simp only [partitionMaps]
      by_cases hs : skipped env obj = true
      · rw [if_pos hs]
        exact ⟨a, b, h1, fun m hm => List.mem_cons_of_mem _ (h2 m hm), fun m hm => List.mem_cons_of_mem _ (h3 m hm)⟩
      · rw [if_neg hs]
        have hvt : validType obj.def_.mapType = true := by
          have := hv (name, obj) (List.mem_cons_self ..)
          simpa [validType] using this
        simp only [hvt, Bool.not_true, Bool.false_eq_true, if_false, h1]
        by_cases hm : isMapOfMaps obj.def_.mapType = true
        · rw [if_pos hm]
          refine ⟨a, (name, obj) :: b, rfl, fun m hm => List.mem_cons_of_mem _ (h2 m hm), ?_⟩
          intro m hm
          rcases List.mem_cons.mp hm with rfl | hm
          · exact List.mem_cons_self ..
          · exact List.mem_cons_of_mem _ (h3 m hm)
        · rw [if_neg hm]
          refine ⟨(name, obj) :: a, b, rfl, ?_, fun m hm => List.mem_cons_of_mem _ (h3 m hm)⟩
          intro m hm
          rcases List.mem_cons.mp hm with rfl | hm
          · exact List.mem_cons_self ..
          · exact List.mem_cons_of_mem _ (h2 m hm)
  have heach : ∀ (ms : List (Bytes × MapObj)), (∀ m ∈ ms, m ∈ maps) → ∀ h,
      ∃ r h', loadEach k env ms h = (.ok r, h') := by
    intro ms
    induction ms with
    | nil => intro _ h; exact ⟨[], h, rfl⟩
    | cons p rest ih =>
      intro hsub h
      obtain ⟨name, obj⟩ := p
      obtain ⟨_, g2, g3, g4⟩ := hmaps name obj (hsub _ (List.mem_cons_self ..))
      obtain ⟨m, h1, e1⟩ := loadMap_succeeds hk hn name obj g2 g3 g4 h
      obtain ⟨r, h2, e2⟩ := ih (fun m hm => hsub m (List.mem_cons_of_mem _ hm)) h1
      simp only [loadEach, e1, e2]
      exact ⟨_, _, rfl⟩
  obtain ⟨a, b, h1, h2, h3⟩ := hpart maps (fun m hm => (hmaps m.1 m.2 hm).1)
  unfold loadMaps
  rw [h1]
  simp only
  exact heach (a ++ b) (fun m hm => (List.mem_append.mp hm).elim (h2 m) (h3 m)) h

example : Accepts demoKernel := by
  intro h c hc
  cases c <;> first | exact ⟨_, rfl⟩ | exact absurd rfl (hc _)

/-! ## C58: a handle knows the sizes of its map -/

/-- Calls after which a descriptor is still what it was. -/
theorem sizes_init {k : Kernel} {sizes : Hist → Nat → Option (Nat × Nat × Nat)} (hs : KnowsSizes k sizes)
    (fd : Nat) (seg : Hist) (hseg : ∀ c ∈ seg, (∀ a, c ≠ .create a) ∧ (∀ p, c ≠ .objGet p) ∧
      (∀ i, c ≠ .mapFdById i)) : ∀ h, sizes (h ++ seg) fd = sizes h fd := by
  induction seg with
  | nil => intro h; simp
  | cons c seg ih =>
    intro h
    have := ih (fun c hc => hseg c (List.mem_cons_of_mem _ hc)) (h ++ [c])
    rw [List.append_assoc, List.singleton_append] at this
    rw [this]
    exact hs.kept h c fd (fun o _ => .inr (hseg c (List.mem_cons_self ..)))

/-- **C58 (created maps).** The sizes in the handle of a map created while loading are the kernel's. -/
theorem C58_created_partial (k : Kernel) (sizes : Hist → Nat → Option (Nat × Nat × Nat))
    (hs : KnowsSizes k sizes) (env : LoadEnv) (name : Bytes) (obj : MapObj) (h h' : Hist) (m : MapData)
    (hl : loadMap k env name obj h = (.ok m, h'))
    (hnew : ∀ path o, pinPath env name obj.def_ = some path → k h (.objGet path) ≠ .ok o) :
    sizes h' m.fd = some (m.keySize, m.valueSize, m.maxEntries) := by
  obtain ⟨seg, h1, hm, _⟩ := C57_one_map k env name obj h h' m hl
  subst h1
  cases hm with
  | reused path o _ pinned found => exact absurd found (hnew path o pinned)
  | created pre inner pin innerFd a o _ look missing innerMap asks reply fd key value entries pins =>
    have hc := hs.created _ _ _ reply
    have := sizes_init hs m.fd (pin ++ initCalls m.fd obj.data (decide (obj.kind = .rodata))) (by
      intro c hc
      rcases List.mem_append.mp hc with hc | hc
      · rw [pins] at hc
        obtain ⟨p, _, rfl⟩ := List.mem_map.mp hc
        refine ⟨?_, ?_, ?_⟩ <;> intro x hx <;> cases hx
      · simp only [initCalls, List.mem_append] at hc
        rcases hc with hc | hc
        · split at hc
          · simp at hc
          · simp at hc; subst hc; refine ⟨?_, ?_, ?_⟩ <;> intro x hx <;> cases hx
        · split at hc
          · simp at hc; subst hc; refine ⟨?_, ?_, ?_⟩ <;> intro x hx <;> cases hx
          · simp at hc) (h ++ pre ++ inner ++ [.create a])
    have e : h ++ (pre ++ inner ++ [Call.create a] ++ pin ++ initCalls m.fd obj.data (decide (obj.kind = .rodata)))
        = h ++ pre ++ inner ++ [.create a] ++ (pin ++ initCalls m.fd obj.data (decide (obj.kind = .rodata))) := by
      simp [List.append_assoc]
    rw [e, this, fd, hc, key, value, entries]

/-- **C58 (maps opened by pin, id or descriptor).** The sizes in the handle are the kernel's. -/
theorem C58_opened (k : Kernel) (sizes : Hist → Nat → Option (Nat × Nat × Nat)) (hs : KnowsSizes k sizes)
    (h h' : Hist) (m : MapData)
    (ho : (∃ path, fromPin k path h = (.ok m, h')) ∨ (∃ id, fromId k id h = (.ok m, h')) ∨
      ∃ fd, fromFd k fd h = (.ok m, h')) :
    sizes h' m.fd = some (m.keySize, m.valueSize, m.maxEntries) := by
  have key : ∀ fd h, fromFd k fd h = (.ok m, h') →
      sizes h' m.fd = some (m.keySize, m.valueSize, m.maxEntries) := by
    intro fd h hf
    simp only [fromFd, sys] at hf
    cases hk : k h (.info fd) with
    | error e => rw [hk] at hf; simp at hf
    | ok o =>
      rw [hk] at hf
      simp only [Prod.mk.injEq, Except.ok.injEq] at hf
      obtain ⟨rfl, rfl⟩ := hf
      have h1 := hs.told h fd o hk
      have h2 := hs.kept h (.info fd) fd (fun o _ => .inr (by
        refine ⟨?_, ?_, ?_⟩ <;> intro x hx <;> cases hx))
      rw [h2, h1]
  rcases ho with ⟨path, hp⟩ | ⟨id, hi⟩ | ⟨fd, hf⟩
  · simp only [fromPin, sys] at hp
    split at hp
    · simp at hp
    · cases hk : k h (.objGet path) with
      | error e => rw [hk] at hp; simp at hp
      | ok o => rw [hk] at hp; exact key _ _ hp
  · simp only [fromId, sys] at hi
    cases hk : k h (.mapFdById id) with
    | error e => rw [hk] at hi; simp at hi
    | ok o => rw [hk] at hi; exact key _ _ hi
  · exact key _ _ hf

/-- **C58 (buffers).** If the handle knows the kernel's sizes, a typed map that the handle was accepted for uses
    keys and values of exactly the kernel's sizes, so the kernel never reads or writes past them. -/
theorem C58_buffers (sizes : Option (Nat × Nat × Nat)) (m : MapData) (key value : Nat)
    (hs : sizes = some (m.keySize, m.valueSize, m.maxEntries)) (hc : checkKvSize m key value = .ok ()) :
    sizes = some (key, value, m.maxEntries) := by
  unfold checkKvSize at hc
  split at hc
  · simp at hc
  · split at hc
    · simp at hc
    · rename_i h1 h2
      rw [hs]
      have h1' : key = m.keySize := by simpa using h1
      have h2' : value = m.valueSize := by simpa using h2
      rw [h1', h2']

/-- A kernel in which a map with 64-byte values is pinned at every path. -/
def pinnedKernel : Kernel := fun h c =>
  match c with
  | .objGet _ => .ok { num := 7 }
  | .create _ => .error 1
  | .info fd => if fd = 7 then .ok { sizes := (4, 64, 1) } else .error 9
  | _ => .ok {}

/-- The sizes of what is pinned in `pinnedKernel`. -/
def pinnedSizes : Hist → Nat → Option (Nat × Nat × Nat) := fun _ fd => if fd = 7 then some (4, 64, 1) else none

theorem pinned_knows : KnowsSizes pinnedKernel pinnedSizes := by
  refine ⟨?_, ?_, ?_⟩
  · intro h a o hk; simp [pinnedKernel] at hk
  · intro h fd o hk
    simp only [pinnedKernel] at hk
    split at hk
    · rename_i hfd
      simp only [Except.ok.injEq] at hk
      rw [← hk, pinnedSizes, if_pos hfd]
    · simp at hk
  · intro h c fd _; rfl

/-- An object with a map that is pinned by name. -/
def pinnedObj : MapObj :=
  { def_ := { mapType := 2, keySize := 4, valueSize := 4, maxEntries := 1, pinByName := true } }

theorem pinned_load : loadMaps pinnedKernel demoEnv [([0x6d], pinnedObj)] [] =
    (.ok [([0x6d], ⟨7, 4, 4, 1⟩)], [.objGet "/sys/fs/bpf/m".toUTF8.toList]) := by decide +kernel

/-- **C58 fails for reused pins.** A map reused from its pin gets the sizes written in the object file, not the
    kernel's: here values are taken to have 4 bytes although the pinned map has 64, and a typed map with 4-byte
    values is accepted, so a lookup makes the kernel write 64 bytes into a 4-byte buffer. -/
theorem C58_reused_pin_violated :
    ∃ (k : Kernel) (sizes : Hist → Nat → Option (Nat × Nat × Nat)) (env : LoadEnv) (name : Bytes)
      (obj : MapObj) (m : MapData) (h' : Hist),
      KnowsSizes k sizes ∧ loadMaps k env [(name, obj)] [] = (.ok [(name, m)], h') ∧
      checkKvSize m 4 4 = .ok () ∧ sizes h' m.fd = some (4, 64, 1) := by
  exact ⟨pinnedKernel, pinnedSizes, demoEnv, [0x6d], pinnedObj, ⟨7, 4, 4, 1⟩, _, pinned_knows, pinned_load, by decide, rfl⟩

example : ∃ m h', fromPin pinnedKernel [0x70] [] = (.ok m, h') ∧ m.valueSize = 64 := ⟨_, _, rfl, rfl⟩

end Verif.Maps
