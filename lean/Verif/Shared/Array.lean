import Verif.Shared.Hash

set_option linter.unusedSimpArgs false
set_option linter.unusedVariables false

/-!
# C87: arrays and per-CPU arrays shared with programs
-/
namespace Verif.Shared
open Verif.Maps Verif.Bytes Verif.Shared.Spec

/-- What the process is told about an array. -/
def ofMapErr : MapError → Res
  | .outOfBounds _ _ => .outOfBounds
  | .keyNotFound => .missing
  | .elementNotFound => .missing
  | .syscall _ e => .failed e
  | _ => .failed 0

/-- The outcome of a read. -/
def ofGet : Except MapError Bytes → Res
  | .ok v => .value v
  | .error e => ofMapErr e

/-- The outcome of a write. -/
def ofSet : Except MapError Unit → Res
  | .ok () => .done
  | .error e => ofMapErr e

/-- The outcome of a program's lookup. -/
def ofOpt : Option Bytes → Res
  | some v => .value v
  | none => .missing

/-- The outcome of a program's write through a pointer. -/
def ofWrite : Option Unit → Res
  | some () => .done
  | none => .missing

/-- Run one operation of the process or of a program on the kernel's array. -/
def arrayShared (m : MapData) (es : List Bytes) : ArrayOp → List Bytes × Res
  | .processGet i =>
      let r := asProcess (arrayStep m.fd) (fun k h => arrayGet k m i.toNat 0 h) es
      (r.2, ofGet r.1)
  | .processSet i v flags =>
      let r := asProcess (arrayStep m.fd) (fun k h => arraySet k m i.toNat v flags h) es
      (r.2, ofSet r.1)
  | .programGet i => (es, ofOpt (arrGet (arrayHelpers m.fd) i es))
  | .programSet i v flags =>
      let r := arrSet (arrayHelpers m.fd) i v flags es
      (r.2, ofErr r.1)
  | .programWrite i v =>
      let r := arrWrite (arrayHelpers m.fd) i v es
      (r.2, ofWrite r.1)

/-- Run several. -/
def arraySharedAll (m : MapData) : List Bytes → List ArrayOp → List Bytes × List Res
  | es, [] => (es, [])
  | es, op :: ops =>
      let r := arrayShared m es op
      let rs := arraySharedAll m r.1 ops
      (rs.1, r.2 :: rs.2)

theorem ofLe_u32 (i : BitVec 32) : ofLe (u32Bytes i) = i.toNat := by
  have := i.isLt
  rw [u32Bytes, ofLe_le_of_lt]
  simpa using this

theorem ofLe_idx (i : BitVec 32) : ofLe (idx i.toNat) = i.toNat := ofLe_u32 i

/-- The kernel's array is the array. -/
structure SameArr (n : Nat) (es : List Bytes) (a : Nat → Bytes) : Prop where
  len : es.length = n
  at_ : ∀ i, i < n → es[i]? = some (a i)

theorem sameArr_set {n : Nat} {es : List Bytes} {a : Nat → Bytes} (h : SameArr n es a) (i : Nat) (v : Bytes) :
    SameArr n (es.set i v) (setAt a i v) where
  len := by simp [h.len]
  at_ j hj := by
    rw [List.getElem?_set]
    by_cases hij : i = j
    · subst hij; simp [setAt, h.len, hj]
    · rw [if_neg hij, h.at_ j hj, setAt, if_neg (fun e => hij e.symm)]

theorem arrUpdate (fd n : Nat) {es : List Bytes} {a : Nat → Bytes} (h : SameArr n es a) (key : Bytes) (i : Nat)
    (hk : ofLe key = i) (v : Bytes) (flags : Nat) :
    arrayStep fd es (.update fd (some key) v flags) =
      if flags > 2 then (es, .error 22)
      else if ¬ i < n then (es, .error 7)
      else if flags = 1 then (es, .error 17)
      else (es.set i v, .ok {}) := by
  have : (n ≤ i) ↔ ¬ i < n := by omega
  simp only [arrayStep, hk, h.len, this, ne_eq, not_true_eq_false, if_false]

theorem arrayShared_same (m : MapData) {es : List Bytes} {a : Nat → Bytes} (h : SameArr m.maxEntries es a)
    (op : ArrayOp) :
    SameArr m.maxEntries (arrayShared m es op).1 (arrayOp m.maxEntries a op).1 ∧
      (arrayShared m es op).2 = (arrayOp m.maxEntries a op).2 := by
  cases op with
  | processGet i =>
    by_cases hi : i.toNat < m.maxEntries
    · have hge : ¬ i.toNat ≥ m.maxEntries := by omega
      have hl := h.at_ _ hi
      have : arrayShared m es (.processGet i) = (es, .value (a i.toNat)) := by
        simp [arrayShared, asProcess, seenBy, arrayGet, checkBounds, hge, hashGet, bpfLookup, sys,
          arrayStep, ofLe_idx, hl, ofGet]
      rw [this, arrayOp, if_pos hi]; exact ⟨h, rfl⟩
    · have hge : i.toNat ≥ m.maxEntries := by omega
      have : arrayShared m es (.processGet i) = (es, .outOfBounds) := by
        simp [arrayShared, asProcess, seenBy, arrayGet, checkBounds, hge, ofGet, ofMapErr]
      rw [this, arrayOp, if_neg hi]; exact ⟨h, rfl⟩
  | processSet i v flags =>
    by_cases hi : i.toNat < m.maxEntries
    · have hge : ¬ i.toNat ≥ m.maxEntries := by omega
      have hu := arrUpdate m.fd m.maxEntries h (idx i.toNat) i.toNat (ofLe_idx i) v flags
      simp only [hi, not_true_eq_false, if_false] at hu
      have hr : arrayShared m es (.processSet i v flags)
          = ((arrayStep m.fd es (.update m.fd (some (idx i.toNat)) v flags)).1,
             ofSys (arrayStep m.fd es (.update m.fd (some (idx i.toNat)) v flags)).2) := by
        simp only [arrayShared, asProcess, seenBy, arraySet, checkBounds, hge, if_false, hashInsert, bpfUpdate,
          sys, List.foldl_nil]
        cases (arrayStep m.fd es (.update m.fd (some (idx i.toNat)) v flags)).2 <;> rfl
      rw [hr, hu]
      simp only [arrayOp, hi, not_true_eq_false, if_false]
      by_cases hf : flags > 2
      · simp only [hf, if_true]; exact ⟨h, rfl⟩
      · by_cases h1 : flags = 1
        · simp only [hf, h1, if_true, if_false]; exact ⟨h, rfl⟩
        · simp only [hf, h1, if_false]; exact ⟨sameArr_set h _ _, rfl⟩
    · have hge : i.toNat ≥ m.maxEntries := by omega
      have : arrayShared m es (.processSet i v flags) = (es, .outOfBounds) := by
        simp [arrayShared, asProcess, seenBy, arraySet, checkBounds, hge, ofSet, ofMapErr]
      rw [this, arrayOp, if_pos hi]; exact ⟨h, rfl⟩
  | programGet i =>
    by_cases hi : i.toNat < m.maxEntries
    · have hl := h.at_ _ hi
      simp only [arrayShared, arrGet, lookup, arrayHelpers, ofLe_u32, hl, ofOpt, arrayOp, hi, if_true]
      exact ⟨h, trivial⟩
    · have hl : es[i.toNat]? = none := by rw [List.getElem?_eq_none_iff, h.len]; omega
      simp only [arrayShared, arrGet, lookup, arrayHelpers, ofLe_u32, hl, ofOpt, arrayOp, hi, if_false]
      exact ⟨h, trivial⟩
  | programSet i v flags =>
    have hu := arrUpdate m.fd m.maxEntries h (u32Bytes i) i.toNat (ofLe_u32 i) v flags
    have hres : ∀ e, (arrayStep m.fd es (.update m.fd (some (u32Bytes i)) v flags)).2 = .error e →
        0 < e ∧ e ≤ 4095 := by
      rw [hu]; intro e
      by_cases hf : flags > 2
      · simp only [hf, if_true]; intro he; cases he; omega
      · by_cases hi : i.toNat < m.maxEntries
        · by_cases h1 : flags = 1
          · simp only [hf, hi, h1, not_true_eq_false, if_true, if_false]; intro he; cases he; omega
          · simp only [hf, hi, h1, not_true_eq_false, if_false]; intro he; cases he
        · simp only [hf, hi, not_false_eq_true, if_true, if_false]; intro he; cases he; omega
    obtain ⟨g1, g2⟩ := insert_eq (arrayHelpers m.fd) (u32Bytes i) v flags es _ _ rfl hres
    simp only [arrayShared, arrSet, g1, g2, hu, arrayOp]
    by_cases hf : flags > 2
    · simp only [hf, if_true]; exact ⟨h, rfl⟩
    · by_cases hi : i.toNat < m.maxEntries
      · by_cases h1 : flags = 1
        · simp only [hf, hi, h1, not_true_eq_false, if_true, if_false]; exact ⟨h, rfl⟩
        · simp only [hf, hi, h1, not_true_eq_false, if_false]; exact ⟨sameArr_set h _ _, rfl⟩
      · simp only [hf, hi, not_false_eq_true, if_true, if_false]; exact ⟨h, rfl⟩
  | programWrite i v =>
    by_cases hi : i.toNat < m.maxEntries
    · have hl := h.at_ _ hi
      simp only [arrayShared, arrWrite, lookup, arrayHelpers, ofLe_u32, hl, ofWrite, arrayOp, hi, if_true]
      exact ⟨sameArr_set h _ _, trivial⟩
    · have hl : es[i.toNat]? = none := by rw [List.getElem?_eq_none_iff, h.len]; omega
      simp only [arrayShared, arrWrite, lookup, arrayHelpers, ofLe_u32, hl, ofWrite, arrayOp, hi, if_false]
      exact ⟨h, trivial⟩

/-- **C87 (arrays).** A process and any number of programs use an array, in any order. Every operation
    returns what it returns on one array to which all operations were applied in that order; an index
    outside of it reads and changes nothing for either side. -/
theorem C87_array (m : MapData) (init : List Bytes) (hn : init.length = m.maxEntries) (ops : List ArrayOp) :
    let r := arraySharedAll m init ops
    let a := arrayRun m.maxEntries (fun i => init.getD i []) ops
    r.2 = a.2 ∧ r.1 = (List.range m.maxEntries).map a.1 := by
  intro r a
  have key : ∀ (ops : List ArrayOp) (es : List Bytes) (x : Nat → Bytes), SameArr m.maxEntries es x →
      SameArr m.maxEntries (arraySharedAll m es ops).1 (arrayRun m.maxEntries x ops).1 ∧
        (arraySharedAll m es ops).2 = (arrayRun m.maxEntries x ops).2 := by
    intro ops
    induction ops with
    | nil => intro es x h; exact ⟨h, rfl⟩
    | cons op ops ih =>
      intro es x h
      obtain ⟨h1, h2⟩ := arrayShared_same m h op
      obtain ⟨h3, h4⟩ := ih _ _ h1
      simp only [arraySharedAll, arrayRun]
      exact ⟨h3, by rw [h2, h4]⟩
  obtain ⟨h1, h2⟩ := key ops init (fun i => init.getD i [])
    { len := hn
      at_ := by
        intro i hi
        have : i < init.length := by omega
        simp [List.getD, List.getElem?_eq_getElem this] }
  refine ⟨h2, List.ext_getElem? fun i => ?_⟩
  by_cases hi : i < m.maxEntries
  · rw [h1.at_ i hi]; simp [hi, a]
  · rw [List.getElem?_eq_none_iff.mpr (by rw [h1.len]; omega)]
    simp [hi]

example :
    (arraySharedAll ⟨5, 4, 1, 2⟩ [[0], [0]]
      [.programWrite 1 [7], .processGet 1, .processSet 0 [9] 0, .programGet 0, .programGet 2, .processGet 2,
       .programSet 2 [1] 0, .programWrite 2 [1], .programSet 1 [8] 2, .processGet 1, .processSet 1 [0] 1]).2
    = [.done, .value [7], .done, .value [9], .missing, .outOfBounds, .failed 7, .missing, .done, .value [8],
       .failed 17] := by decide +kernel

/-! ## Per-CPU arrays -/

/-- The outcome of reading all CPUs' values. `none` is memory accessed out of bounds. -/
def ofGetAll : Option (Except MapError (List Bytes)) → Option Res
  | some (.ok vs) => some (.values vs)
  | some (.error e) => some (ofMapErr e)
  | none => none

/-- The outcome of writing all CPUs' values. -/
def ofSetAll : Option (Except MapError Unit) → Option Res
  | some r => some (ofSet r)
  | none => none

/-- Run one operation of the process or of a program on the kernel's per-CPU array. -/
def percpuShared (m : MapData) (cpus stride : Nat) (es : List (List Bytes)) :
    PercpuOp → List (List Bytes) × Option Res
  | .processGet i =>
      let r := asProcess (percpuStep m.fd stride)
        (fun k h => pcArrayGet k m m.valueSize i.toNat h) es
      (r.2, ofGetAll r.1)
  | .processSet i vs flags =>
      let r := asProcess (percpuStep m.fd stride)
        (fun k h => pcArraySet k m cpus m.valueSize i.toNat vs flags h) es
      (r.2, ofSetAll r.1)
  | .programGet cpu i => (es, some (ofOpt (arrGet (percpuHelpers m.valueSize cpu) i es)))
  | .programSet cpu i v flags =>
      let r := arrSet (percpuHelpers m.valueSize cpu) i v flags es
      (r.2, some (ofErr r.1))
  | .programWrite cpu i v =>
      let r := arrWrite (percpuHelpers m.valueSize cpu) i v es
      (r.2, some (ofWrite r.1))

/-- Run several. -/
def percpuSharedAll (m : MapData) (cpus stride : Nat) :
    List (List Bytes) → List PercpuOp → List (List Bytes) × List (Option Res)
  | es, [] => (es, [])
  | es, op :: ops =>
      let r := percpuShared m cpus stride es op
      let rs := percpuSharedAll m cpus stride r.1 ops
      (rs.1, r.2 :: rs.2)

/-- The kernel's blocks hold the table. -/
structure SameTab (n cpus size stride : Nat) (es : List (List Bytes)) (t : Table) : Prop where
  len : es.length = n
  at_ : ∀ i, i < n → ∃ blocks, es[i]? = some blocks ∧ blocks.length = cpus ∧
    (∀ b ∈ blocks, b.length = stride) ∧ ∀ c, c < cpus → (blocks[c]?).map (·.take size) = some (t i c)

theorem sameTab_cell {n cpus size stride : Nat} {es : List (List Bytes)} {t : Table} (hle : size ≤ stride)
    (h : SameTab n cpus size stride es t) (i c : Nat) (v : Bytes) (hc : c < cpus) (hv : v.length = size) :
    SameTab n cpus size stride (percpuStore i c v es) (t.set i c v) := by
  by_cases hi : i < n
  · obtain ⟨blocks, hb, hlen, hst, hval⟩ := h.at_ i hi
    have hcb : c < blocks.length := by omega
    have hcs : blocks[c]? = some (blocks[c]'hcb) := List.getElem?_eq_getElem hcb
    have hbl : (blocks[c]'hcb).length = stride := hst _ (List.getElem_mem hcb)
    have he : percpuStore i c v es = es.set i (blocks.set c (overwrite (blocks[c]'hcb) v)) := by
      simp only [percpuStore, hb, hcs]
    rw [he]
    refine { len := by simp [h.len], at_ := fun j hj => ?_ }
    by_cases hij : i = j
    · subst hij
      refine ⟨blocks.set c (overwrite (blocks[c]'hcb) v), ?_, by simp [hlen], ?_, ?_⟩
      · rw [List.getElem?_set]; simp [h.len, hi]
      · intro b hb'
        rcases List.mem_or_eq_of_mem_set hb' with hm | rfl
        · exact hst b hm
        · simp only [overwrite, List.length_append, List.length_drop, hbl, hv]; omega
      · intro d hd
        rw [List.getElem?_set]
        by_cases hcd : c = d
        · subst hcd
          rw [if_pos rfl, if_pos hcb]
          simp [overwrite, Table.set, ← hv]
        · rw [if_neg hcd, hval d hd]
          have hdc : d ≠ c := fun e => hcd e.symm
          simp [Table.set, hdc]
    · obtain ⟨blocks', hb', hlen', hst', hval'⟩ := h.at_ j hj
      refine ⟨blocks', by rw [List.getElem?_set, if_neg hij]; exact hb', hlen', hst', fun d hd => ?_⟩
      rw [hval' d hd]
      have hji : j ≠ i := fun e => hij e.symm
      simp [Table.set, hji]
  · have hb : es[i]? = none := by rw [List.getElem?_eq_none_iff, h.len]; omega
    have he : percpuStore i c v es = es := by simp only [percpuStore, hb]
    rw [he]
    refine { len := h.len, at_ := fun j hj => ?_ }
    obtain ⟨blocks', hb', hlen', hst', hval'⟩ := h.at_ j hj
    refine ⟨blocks', hb', hlen', hst', fun d hd => ?_⟩
    have : j ≠ i := by omega
    rw [hval' d hd]; simp [Table.set, this]

theorem percpuShared_same (m : MapData) (cpus stride : Nat) (hs : 0 < m.valueSize)
    (hst : Maps.Spec.IsStride m.valueSize stride) {es : List (List Bytes)} {t : Table}
    (h : SameTab m.maxEntries cpus m.valueSize stride es t) (op : PercpuOp)
    (hfit : op.Fits cpus m.valueSize) :
    SameTab m.maxEntries cpus m.valueSize stride (percpuShared m cpus stride es op).1
        (percpuOp m.maxEntries cpus t op).1 ∧
      (percpuShared m cpus stride es op).2 = some (percpuOp m.maxEntries cpus t op).2 := by
  have hle : m.valueSize ≤ stride := hst.2.1
  cases op with
  | processGet i =>
    by_cases hi : i.toNat < m.maxEntries
    · have hge : ¬ i.toNat ≥ m.maxEntries := by omega
      obtain ⟨blocks, hb, hlen, hbs, hval⟩ := h.at_ _ hi
      have hfl : blocks.flatten.length = cpus * stride := by
        rw [← hlen]
        clear hb hlen hval
        induction blocks with
        | nil => simp
        | cons b bs ih =>
          simp only [List.flatten_cons, List.length_append, List.length_cons, Nat.add_mul, Nat.one_mul,
            ih (fun x hx => hbs x (by simp [hx])), hbs b (by simp)]
          omega
      obtain ⟨vs, g1, g2, g3⟩ := C29_read cpus m.valueSize stride hs hst blocks.flatten hfl
      have hvs : vs = (List.range cpus).map (t i.toNat) := by
        apply List.ext_getElem?
        intro c
        by_cases hc : c < cpus
        · rw [g3 c hc]
          have hcb : c < blocks.length := by omega
          have hcs : blocks[c]? = some (blocks[c]'hcb) := List.getElem?_eq_getElem hcb
          rw [flatten_slot blocks hbs c _ hcs]
          have := hval c hc
          rw [hcs] at this
          simp only [Option.map_some, Option.some.injEq] at this
          simp [hc, this]
        · rw [List.getElem?_eq_none_iff.mpr (by omega)]; simp [hc]
      have : percpuShared m cpus stride es (.processGet i)
          = (es, some (.values ((List.range cpus).map (t i.toNat)))) := by
        simp [percpuShared, asProcess, seenBy, pcArrayGet, checkBounds, hge, perCpuGet, bpfLookup, sys,
          percpuStep, ofLe_idx, hb, ofGetAll, g1, hvs]
      rw [this, percpuOp, if_pos hi]; exact ⟨h, rfl⟩
    · have hge : i.toNat ≥ m.maxEntries := by omega
      have : percpuShared m cpus stride es (.processGet i) = (es, some .outOfBounds) := by
        simp [percpuShared, asProcess, seenBy, pcArrayGet, checkBounds, hge, ofGetAll, ofMapErr]
      rw [this, percpuOp, if_neg hi]; exact ⟨h, rfl⟩
  | processSet i vs flags =>
    by_cases hi : i.toNat < m.maxEntries
    · have hge : ¬ i.toNat ≥ m.maxEntries := by omega
      obtain ⟨blocks, hb, hlen, hbs, hval⟩ := h.at_ _ hi
      obtain ⟨hn, hv⟩ := hfit
      obtain ⟨mem, st, g1, g2, g3, g4⟩ := C29_layout cpus m.valueSize vs hn hv
      have hste : st = stride := by rw [stride_unique g2, stride_unique hst]
      subst hste
      have hr : percpuShared m cpus st es (.processSet i vs flags)
          = ((percpuStep m.fd st es (.update m.fd (some (idx i.toNat)) mem flags)).1,
             some (ofSys (percpuStep m.fd st es (.update m.fd (some (idx i.toNat)) mem flags)).2)) := by
        simp only [percpuShared, asProcess, seenBy, pcArraySet, checkBounds, hge, if_false, perCpuInsert, g1,
          bpfUpdate, sys, List.foldl_nil]
        cases (percpuStep m.fd st es (.update m.fd (some (idx i.toNat)) mem flags)).2 <;> rfl
      rw [hr]
      simp only [percpuOp, hi, not_true_eq_false, if_false]
      by_cases hf : flags > 2
      · have hu : percpuStep m.fd st es (.update m.fd (some (idx i.toNat)) mem flags) = (es, .error 22) := by
          simp [percpuStep, hf]
        rw [hu]; simp only [hf, if_true]; exact ⟨h, rfl⟩
      · by_cases h1 : flags = 1
        · have hu : percpuStep m.fd st es (.update m.fd (some (idx i.toNat)) mem flags) = (es, .error 17) := by
            simp [percpuStep, ofLe_idx, hb, h1]
          rw [hu]; simp only [hf, h1, if_true, if_false]; exact ⟨h, rfl⟩
        · have hu : percpuStep m.fd st es (.update m.fd (some (idx i.toNat)) mem flags)
              = (es.set i.toNat ((List.range blocks.length).map fun c => (mem.drop (c * st)).take st),
                .ok {}) := by
            simp [percpuStep, ofLe_idx, hb, h1, hf]
          rw [hu]; simp only [hf, h1, if_false]
          refine ⟨{ len := by simp [h.len], at_ := fun j hj => ?_ }, rfl⟩
          by_cases hij : i.toNat = j
          · subst hij
            refine ⟨_, by rw [List.getElem?_set, if_pos rfl, if_pos (by rw [h.len]; exact hi)],
              by simp [hlen], ?_, ?_⟩
            · intro b hb'
              obtain ⟨c, hc, rfl⟩ := List.mem_map.mp hb'
              have hc' : c < cpus := by rw [← hlen]; simpa using hc
              have : (c + 1) * st ≤ cpus * st := Nat.mul_le_mul_right st (by omega)
              rw [Nat.add_mul, Nat.one_mul] at this
              simp only [List.length_take, List.length_drop, g3]
              omega
            · intro c hc
              have hcv : c < vs.length := by omega
              have hvc : vs[c]? = some (vs[c]'hcv) := List.getElem?_eq_getElem hcv
              have hsl := g4 c _ hvc
              simp only [Maps.Spec.slot] at hsl
              have hvl : (vs[c]'hcv).length = m.valueSize := hv _ (List.getElem_mem hcv)
              have hr2 : (List.range blocks.length)[c]? = some c := by simp [hlen, hc]
              rw [List.getElem?_map, hr2]
              simp only [Option.map_some, hsl, Table.setRow, if_true, List.getD, hvc, Option.getD_some]
              rw [← hvl, List.take_left]
          · obtain ⟨blocks', hb', hlen', hst', hval'⟩ := h.at_ j hj
            refine ⟨blocks', by rw [List.getElem?_set, if_neg hij]; exact hb', hlen', hst', fun d hd => ?_⟩
            rw [hval' d hd]
            have hji : j ≠ i.toNat := fun e => hij e.symm
            simp [Table.setRow, hji]
    · have hge : i.toNat ≥ m.maxEntries := by omega
      have : percpuShared m cpus stride es (.processSet i vs flags) = (es, some .outOfBounds) := by
        simp [percpuShared, asProcess, seenBy, pcArraySet, checkBounds, hge, ofSetAll, ofSet, ofMapErr]
      rw [this, percpuOp, if_pos hi]; exact ⟨h, rfl⟩
  | programGet cpu i =>
    by_cases hi : i.toNat < m.maxEntries
    · obtain ⟨blocks, hb, hlen, hbs, hval⟩ := h.at_ _ hi
      have := hval cpu hfit
      simp only [percpuShared, arrGet, lookup, percpuHelpers, ofLe_u32, hb, this, ofOpt, percpuOp, hi, if_true]
      exact ⟨h, trivial⟩
    · have hb : es[i.toNat]? = none := by rw [List.getElem?_eq_none_iff, h.len]; omega
      simp only [percpuShared, arrGet, lookup, percpuHelpers, ofLe_u32, hb, ofOpt, percpuOp, hi, if_false]
      exact ⟨h, trivial⟩
  | programSet cpu i v flags =>
    obtain ⟨hc, hv⟩ := hfit
    have hiff : (es.length ≤ i.toNat) ↔ ¬ i.toNat < m.maxEntries := by rw [h.len]; omega
    simp only [percpuShared, arrSet, insert, percpuHelpers, ofLe_u32, percpuOp, hiff]
    by_cases hf : flags > 2
    · simp only [hf, if_true]; exact ⟨h, rfl⟩
    · by_cases hi : i.toNat < m.maxEntries
      · by_cases h1 : flags = 1
        · simp only [hf, hi, h1, not_true_eq_false, if_true, if_false]; exact ⟨h, rfl⟩
        · simp only [hf, hi, h1, not_true_eq_false, if_false]
          exact ⟨sameTab_cell hle h _ _ _ hc hv, rfl⟩
      · simp only [hf, hi, not_false_eq_true, if_true, if_false]; exact ⟨h, rfl⟩
  | programWrite cpu i v =>
    obtain ⟨hc, hv⟩ := hfit
    by_cases hi : i.toNat < m.maxEntries
    · obtain ⟨blocks, hb, hlen, hbs, hval⟩ := h.at_ _ hi
      have := hval cpu hc
      simp only [percpuShared, arrWrite, lookup, percpuHelpers, ofLe_u32, hb, this, ofWrite, percpuOp, hi,
        if_true]
      exact ⟨sameTab_cell hle h _ _ _ hc hv, trivial⟩
    · have hb : es[i.toNat]? = none := by rw [List.getElem?_eq_none_iff, h.len]; omega
      simp only [percpuShared, arrWrite, lookup, percpuHelpers, ofLe_u32, hb, ofWrite, percpuOp, hi, if_false]
      exact ⟨h, trivial⟩

/-- **C87 (per-CPU arrays).** A process and programs running on any CPUs use a fresh per-CPU array of
    values of any size, in any order. Every operation returns what it returns on one table with a row for
    every index and a column for every CPU: a program reads and writes the cell of the CPU it runs on and
    no other, the process reads all cells of a row in the order of the CPUs and replaces them, and nobody
    accesses memory out of bounds. -/
theorem C87_percpu (m : MapData) (cpus stride : Nat) (hs : 0 < m.valueSize) (hst : Maps.Spec.IsStride m.valueSize stride)
    (ops : List PercpuOp) (hfit : ∀ op ∈ ops, op.Fits cpus m.valueSize) :
    (percpuSharedAll m cpus stride
        (List.replicate m.maxEntries (List.replicate cpus (List.replicate stride 0))) ops).2
      = (percpuRun m.maxEntries cpus (fun _ _ => List.replicate m.valueSize 0) ops).2.map some := by
  have key : ∀ (ops : List PercpuOp) (es : List (List Bytes)) (t : Table),
      (∀ op ∈ ops, op.Fits cpus m.valueSize) → SameTab m.maxEntries cpus m.valueSize stride es t →
      (percpuSharedAll m cpus stride es ops).2 = (percpuRun m.maxEntries cpus t ops).2.map some := by
    intro ops
    induction ops with
    | nil => intro es t _ h; rfl
    | cons op ops ih =>
      intro es t hf h
      obtain ⟨h1, h2⟩ := percpuShared_same m cpus stride hs hst h op (hf op (by simp))
      have h3 := ih _ _ (fun o ho => hf o (by simp [ho])) h1
      simp only [percpuSharedAll, percpuRun, List.map_cons, h2, h3]
  apply key ops _ _ hfit
  refine { len := by simp, at_ := fun i hi => ?_ }
  refine ⟨List.replicate cpus (List.replicate stride 0), by simp [hi], by simp, ?_, ?_⟩
  · intro b hb; rw [(List.mem_replicate.mp hb).2]; simp
  · intro c hc
    simp [hc, List.take_replicate, Nat.min_eq_left hst.2.1]

example : Maps.Spec.IsStride 3 8 ∧ (∀ op ∈ [PercpuOp.programWrite 1 0 [1, 2, 3], .processGet 0], op.Fits 2 3) := by
  refine ⟨⟨by decide, by decide, by decide⟩, ?_⟩
  intro op hop
  simp at hop
  rcases hop with rfl | rfl
  · exact ⟨by decide, rfl⟩
  · trivial

example :
    (percpuSharedAll ⟨5, 4, 3, 1⟩ 2 8 [[List.replicate 8 0, List.replicate 8 0]]
      [.programWrite 1 0 [1, 2, 3], .processGet 0, .processSet 0 [[7, 7, 7], [8, 8, 8]] 0,
       .programGet 0 0, .programGet 1 0, .programSet 0 0 [9, 9, 9] 0, .processGet 0, .programGet 0 1]).2
    = [some .done, some (.values [[0, 0, 0], [1, 2, 3]]), some .done, some (.value [7, 7, 7]),
       some (.value [8, 8, 8]), some .done, some (.values [[9, 9, 9], [8, 8, 8]]), some .missing] := by
  decide +kernel

end Verif.Shared
