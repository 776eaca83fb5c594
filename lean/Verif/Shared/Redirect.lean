import Verif.Shared.Array

set_option linter.unusedSimpArgs false
set_option linter.unusedVariables false

/-!
# C87: device maps, redirecting packets and sockets
-/
namespace Verif.Shared
open Verif.Maps Verif.Bytes Verif.Shared.Spec

/-- The outcome of a process's read. -/
def ofDevGet : Except MapError (Nat × Option Nat) → DevRes
  | .ok (x, p) => .entry x p
  | .error (.outOfBounds _ _) => .outOfBounds
  | .error .keyNotFound => .missing
  | .error (.syscall _ e) => .failed e
  | .error _ => .failed 0

/-- The outcome of a process's write. -/
def ofDevSet : Except MapError Unit → DevRes
  | .ok () => .done
  | .error (.outOfBounds _ _) => .outOfBounds
  | .error (.syscall _ e) => .failed e
  | .error _ => .failed 0

/-- The outcome of a program's read. -/
def ofDevOpt : Option DevValue → DevRes
  | some (x, p) => .entry x p
  | none => .missing

/-- The outcome of a program's read of the interface. -/
def ofIfindex : Option Nat → DevRes
  | some x => .entry x none
  | none => .missing

/-- The outcome of a redirect. -/
def ofRedirect : Except Nat Nat → DevRes
  | .ok 4 => .redirect
  | .ok a => .action a
  | .error a => .action a

/-- Run one operation of the process or of a program on the kernel's device map. The kernel has chained
    programs. -/
def devShared (w : World) (m : MapData) (es : List (Option (Nat × Nat))) :
    DevOp → List (Option (Nat × Nat)) × DevRes
  | .processGet i =>
      let r := asProcess (devStep w m.fd) (fun k h => chainGet k m true i.toNat 0 h) es
      (r.2, ofDevGet r.1)
  | .processSet i x p flags =>
      let r := asProcess (devStep w m.fd)
        (fun k h => chainSet k m true i.toNat x.toNat (p.map BitVec.toNat) flags h) es
      (r.2, ofDevSet r.1)
  | .programGet i => (es, ofDevOpt (devGet (devHelpers w m.fd) i es))
  | .programIfindex i => (es, ofIfindex (devIfindex (devHelpers w m.fd) i es))
  | .programRedirect i flags =>
      (es, ofRedirect (tryRedirect (redirectRet (es[i.toNat]?.join).isSome flags)))

/-- Run several. -/
def devSharedAll (w : World) (m : MapData) :
    List (Option (Nat × Nat)) → List DevOp → List (Option (Nat × Nat)) × List DevRes
  | es, [] => (es, [])
  | es, op :: ops =>
      let r := devShared w m es op
      let rs := devSharedAll w m r.1 ops
      (rs.1, r.2 :: rs.2)

/-- A slot as the kernel holds it. -/
def slotOf : Option (Nat × Option Nat) → Option (Nat × Nat)
  | none => none
  | some (x, p) => some (x, p.getD 0)

/-- The kernel's table is the table: interfaces fit in 32 bits, ids too, and no program has id 0. -/
structure SameDev (n : Nat) (es : List (Option (Nat × Nat))) (d : Devices) : Prop where
  len : es.length = n
  at_ : ∀ i, i < n → es[i]? = some (slotOf (d i))
  out : ∀ i, ¬ i < n → d i = none
  fits : ∀ i x p, d i = some (x, p) → x < 2 ^ 32 ∧ ∀ id, p = some id → 0 < id ∧ id < 2 ^ 32

theorem sameDev_set {n : Nat} {es : List (Option (Nat × Nat))} {d : Devices} (h : SameDev n es d) (i : Nat)
    (hi : i < n) (v : Option (Nat × Option Nat))
    (hv : ∀ x p, v = some (x, p) → x < 2 ^ 32 ∧ ∀ id, p = some id → 0 < id ∧ id < 2 ^ 32) :
    SameDev n (es.set i (slotOf v)) (fun j => if j = i then v else d j) where
  len := by simp [h.len]
  at_ j hj := by
    rw [List.getElem?_set]
    by_cases hij : i = j
    · subst hij; simp [h.len, hj]
    · rw [if_neg hij, h.at_ j hj, if_neg (fun e => hij e.symm)]
  out j hj := by
    have : j ≠ i := by omega
    simp only [this, if_false]; exact h.out j hj
  fits j x p hj := by
    by_cases hij : j = i
    · simp only [hij, if_true] at hj; exact hv x p hj
    · simp only [hij, if_false] at hj; exact h.fits j x p hj

theorem dev_value (x p : Nat) (hx : x < 2 ^ 32) (hp : p < 2 ^ 32) :
    ofLe ((le 4 x ++ le 4 p).take 4) = x ∧ ofLe (((le 4 x ++ le 4 p).drop 4).take 4) = p := by
  have l1 : (le 4 x).length = 4 := le_length 4 x
  have l2 : (le 4 p).length = 4 := le_length 4 p
  have e1 : (le 4 x ++ le 4 p).take 4 = le 4 x := by
    rw [List.take_append_of_le_length (by omega), List.take_of_length_le (by omega)]
  have e2 : ((le 4 x ++ le 4 p).drop 4).take 4 = le 4 p := by
    rw [List.drop_append_of_le_length (by omega), List.drop_of_length_le (by omega), List.nil_append,
      List.take_of_length_le (by omega)]
  rw [e1, e2, ofLe_le_of_lt 4 x (by simpa using hx), ofLe_le_of_lt 4 p (by simpa using hp)]
  exact ⟨rfl, rfl⟩

theorem devLookup_some (w : World) (fd : Nat) {es : List (Option (Nat × Nat))} (key : Bytes) (f : Nat) (x p : Nat)
    (h : es[ofLe key]? = some (some (x, p))) :
    devStep w fd es (.lookup fd (some key) f) = (es, .ok { data := le 4 x ++ le 4 p }) := by
  simp only [devStep, ne_eq, not_true_eq_false, if_false, h]

theorem devLookup_none (w : World) (fd : Nat) {es : List (Option (Nat × Nat))} (key : Bytes) (f : Nat)
    (h : es[ofLe key]?.join = none) :
    devStep w fd es (.lookup fd (some key) f) = (es, .error 2) := by
  simp only [devStep, ne_eq, not_true_eq_false, if_false]
  cases hl : es[ofLe key]? with
  | none => rfl
  | some v =>
    cases v with
    | none => rfl
    | some xp => rw [hl] at h; simp at h

theorem getD_nonZero (p : Option Nat) (h : ∀ id, p = some id → 0 < id ∧ id < 2 ^ 32) :
    nonZero (p.getD 0) = p ∧ p.getD 0 < 2 ^ 32 := by
  cases p with
  | none => exact ⟨rfl, by decide⟩
  | some id =>
    obtain ⟨h1, h2⟩ := h id rfl
    have : id ≠ 0 := by omega
    exact ⟨by simp [nonZero, this], h2⟩

theorem SameDev.none_at {n : Nat} {es : List (Option (Nat × Nat))} {d : Devices} (h : SameDev n es d) {i : Nat}
    (hd : d i = none) : es[i]?.join = none := by
  by_cases hi : i < n
  · rw [h.at_ i hi, hd]; rfl
  · rw [List.getElem?_eq_none (by rw [h.len]; omega)]; rfl

theorem SameDev.some_at {n : Nat} {es : List (Option (Nat × Nat))} {d : Devices} (h : SameDev n es d) {i x : Nat}
    {p : Option Nat} (hd : d i = some (x, p)) : i < n ∧ es[i]? = some (some (x, p.getD 0)) := by
  by_cases hi : i < n
  · exact ⟨hi, by rw [h.at_ i hi, hd]; rfl⟩
  · rw [h.out i hi] at hd; cases hd

/-- What the kernel answers to an update is told to the process. -/
def ofDevSys : Except Nat Out → DevRes
  | .ok _ => .done
  | .error e => .failed e

theorem devUpdate (w : World) (m : MapData) (i : BitVec 32) (x : BitVec 32) (p : Option (BitVec 32)) (flags : Nat)
    (hi : i.toNat < m.maxEntries) (es : List (Option (Nat × Nat))) :
    devShared w m es (.processSet i x p flags) =
      ((devStep w m.fd es (.update m.fd (some (idx i.toNat))
          (le 4 x.toNat ++ le 4 ((p.map BitVec.toNat).getD 0)) flags)).1,
        ofDevSys (devStep w m.fd es (.update m.fd (some (idx i.toNat))
          (le 4 x.toNat ++ le 4 ((p.map BitVec.toNat).getD 0)) flags)).2) := by
  have hge : ¬ i.toNat ≥ m.maxEntries := by omega
  simp only [devShared, asProcess, seenBy, chainSet, checkBounds, hge, if_false, if_true, hashInsert, bpfUpdate,
    sys, List.foldl_nil]
  cases (devStep w m.fd es (.update m.fd (some (idx i.toNat))
          (le 4 x.toNat ++ le 4 ((p.map BitVec.toNat).getD 0)) flags)).2 <;> rfl

theorem devShared_same (w : World) (hw : ∀ f id, w.program f = some id → 0 < id ∧ id < 2 ^ 32) (m : MapData)
    {es : List (Option (Nat × Nat))} {d : Devices} (h : SameDev m.maxEntries es d) (op : DevOp) (hop : op.Fits) :
    SameDev m.maxEntries (devShared w m es op).1 (devOp w m.maxEntries d op).1 ∧
      (devShared w m es op).2 = (devOp w m.maxEntries d op).2 := by
  cases op with
  | processGet i =>
    by_cases hi : i.toNat < m.maxEntries
    · have hge : ¬ i.toNat ≥ m.maxEntries := by omega
      simp only [devOp, hi, not_true_eq_false, if_false]
      cases hd : d i.toNat with
      | none =>
        have hl := devLookup_none w m.fd (idx i.toNat) 0 (by rw [ofLe_idx]; exact h.none_at hd)
        have : devShared w m es (.processGet i) = (es, .missing) := by
          simp [devShared, asProcess, seenBy, chainGet, checkBounds, hge, bpfLookup, sys, hl, ofDevGet, ENOENT]
        rw [this]; exact ⟨h, rfl⟩
      | some xp =>
        obtain ⟨x, p⟩ := xp
        obtain ⟨hx, hp⟩ := h.fits _ _ _ hd
        obtain ⟨hz, hlt⟩ := getD_nonZero p hp
        have hl := devLookup_some w m.fd (idx i.toNat) 0 x (p.getD 0)
          (by rw [ofLe_idx]; exact (h.some_at hd).2)
        obtain ⟨v1, v2⟩ := dev_value x (p.getD 0) hx hlt
        have : devShared w m es (.processGet i) = (es, .entry x p) := by
          simp only [devShared, asProcess, seenBy, chainGet, checkBounds, hge, if_false, bpfLookup, sys,
            List.foldl_nil, hl, if_true, v1, v2, hz, ofDevGet, List.nil_append, List.foldl_cons]
        rw [this]; exact ⟨h, rfl⟩
    · have hge : i.toNat ≥ m.maxEntries := by omega
      have : devShared w m es (.processGet i) = (es, .outOfBounds) := by
        simp [devShared, asProcess, seenBy, chainGet, checkBounds, hge, ofDevGet]
      rw [this, devOp, if_pos hi]; exact ⟨h, rfl⟩
  | processSet i x p flags =>
    by_cases hi : i.toNat < m.maxEntries
    · rw [devUpdate w m i x p flags hi]
      have hlen : ¬ es.length ≤ i.toNat := by rw [h.len]; omega
      have hx : x.toNat < 2 ^ 32 := x.isLt
      have hp : (p.map BitVec.toNat).getD 0 < 2 ^ 32 := by
        cases p with
        | none => decide
        | some q => exact q.isLt
      obtain ⟨v1, v2⟩ := dev_value x.toNat ((p.map BitVec.toNat).getD 0) hx hp
      have hstep : devStep w m.fd es (.update m.fd (some (idx i.toNat))
          (le 4 x.toNat ++ le 4 ((p.map BitVec.toNat).getD 0)) flags) =
        if flags > 2 then (es, .error 22)
        else if flags = 1 then (es, .error 17)
        else if x.toNat = 0 then
          if (p.map BitVec.toNat).getD 0 = 0 then (es.set i.toNat none, .ok {}) else (es, .error 22)
        else if w.interface x.toNat = false then (es, .error 22)
        else if (p.map BitVec.toNat).getD 0 = 0 then (es.set i.toNat (some (x.toNat, 0)), .ok {})
        else devPut es i.toNat x.toNat (w.program ((p.map BitVec.toNat).getD 0)) := by
        simp only [devStep, ne_eq, not_true_eq_false, if_false, ofLe_idx, hlen, v1, v2]
      rw [hstep]
      simp only [devOp, hi, not_true_eq_false, if_false]
      by_cases hf : flags > 2
      · simp only [hf, if_true]; exact ⟨h, rfl⟩
      · by_cases h1 : flags = 1
        · simp only [hf, h1, if_true, if_false]; exact ⟨h, rfl⟩
        · simp only [hf, h1, if_false, writeDev]
          by_cases hx0 : x.toNat = 0
          · simp only [hx0, if_true]
            cases p with
            | none =>
              simp only [Option.map_none, Option.getD_none, if_true]
              exact ⟨sameDev_set h _ hi none (by intro x p he; cases he), rfl⟩
            | some q =>
              have hq : q.toNat ≠ 0 := hop
              simp only [Option.map_some, Option.getD_some, hq, if_false]
              exact ⟨h, rfl⟩
          · by_cases hw0 : w.interface x.toNat = false
            · simp only [hx0, hw0, if_false, if_true]; exact ⟨h, rfl⟩
            · simp only [hx0, hw0, if_false]
              cases p with
              | none =>
                simp only [Option.map_none, Option.getD_none, if_true]
                exact ⟨sameDev_set h _ hi (some (x.toNat, none))
                  (by intro a b he; cases he; exact ⟨hx, by intro id he; cases he⟩), rfl⟩
              | some q =>
                have hq : q.toNat ≠ 0 := hop
                simp only [Option.map_some, Option.getD_some, hq, if_false]
                cases hpr : w.program q.toNat with
                | none => exact ⟨h, rfl⟩
                | some id =>
                  exact ⟨sameDev_set h _ hi (some (x.toNat, some id))
                    (by intro a b he; cases he; exact ⟨hx, by intro id' he; cases he; exact hw _ _ hpr⟩), rfl⟩
    · have hge : i.toNat ≥ m.maxEntries := by omega
      have : devShared w m es (.processSet i x p flags) = (es, .outOfBounds) := by
        simp [devShared, asProcess, seenBy, chainSet, checkBounds, hge, ofDevSet]
      rw [this, devOp, if_pos hi]; exact ⟨h, rfl⟩
  | programGet i =>
    cases hd : d i.toNat with
    | none =>
      have hl := devLookup_none w m.fd (u32Bytes i) 0 (by rw [ofLe_u32]; exact h.none_at hd)
      simp only [devShared, devGet, lookup, devHelpers, hl, Option.map_none, ofDevOpt, devOp, hd]
      exact ⟨h, trivial⟩
    | some xp =>
      obtain ⟨x, p⟩ := xp
      obtain ⟨hx, hp⟩ := h.fits _ _ _ hd
      obtain ⟨hz, hlt⟩ := getD_nonZero p hp
      have hl := devLookup_some w m.fd (u32Bytes i) 0 x (p.getD 0)
        (by rw [ofLe_u32]; exact (h.some_at hd).2)
      obtain ⟨v1, v2⟩ := dev_value x (p.getD 0) hx hlt
      have hz' : (if p.getD 0 = 0 then none else some (p.getD 0)) = p := hz
      simp only [devShared, devGet, lookup, devHelpers, hl, Option.map_some, v1, v2, hz', ofDevOpt, devOp, hd]
      exact ⟨h, trivial⟩
  | programIfindex i =>
    cases hd : d i.toNat with
    | none =>
      have hl := devLookup_none w m.fd (u32Bytes i) 0 (by rw [ofLe_u32]; exact h.none_at hd)
      simp only [devShared, devIfindex, lookup, devHelpers, hl, Option.map_none, ofIfindex, devOp, hd]
      exact ⟨h, trivial⟩
    | some xp =>
      obtain ⟨x, p⟩ := xp
      obtain ⟨hx, hp⟩ := h.fits _ _ _ hd
      obtain ⟨hz, hlt⟩ := getD_nonZero p hp
      have hl := devLookup_some w m.fd (u32Bytes i) 0 x (p.getD 0)
        (by rw [ofLe_u32]; exact (h.some_at hd).2)
      obtain ⟨v1, v2⟩ := dev_value x (p.getD 0) hx hlt
      simp only [devShared, devIfindex, lookup, devHelpers, hl, Option.map_some, v1, ofIfindex, devOp, hd]
      exact ⟨h, trivial⟩
  | programRedirect i flags =>
    simp only [devShared, devOp, redirectRet]
    by_cases hf : flags > 3
    · simp only [hf, if_true]; exact ⟨h, rfl⟩
    · simp only [hf, if_false]
      cases hd : d i.toNat with
      | none =>
        rw [h.none_at hd]
        refine ⟨h, ?_⟩
        have e1 : (flags : Int).natAbs % 4294967296 = flags := by omega
        have e2 : flags ≠ 4 := by omega
        simp only [Option.isSome_none, Bool.false_eq_true, if_false, tryRedirect, e1, e2, ofRedirect]
      | some xp =>
        obtain ⟨x, p⟩ := xp
        rw [(h.some_at hd).2]
        exact ⟨h, rfl⟩

/-- **C87 (device maps).** A process and XDP programs use a map of devices, in any order. Every operation
    returns what it returns on one table to which all operations were applied in that order: the program
    chained by descriptor is reported by its id on both sides, and a packet is redirected exactly when the
    slot is in use at that moment and the flags are an action, otherwise the program is given the action
    in the flags. -/
theorem C87_devices_partial (w : World) (hw : ∀ f id, w.program f = some id → 0 < id ∧ id < 2 ^ 32) (m : MapData)
    (ops : List DevOp) (hops : ∀ op ∈ ops, op.Fits) :
    (devSharedAll w m (List.replicate m.maxEntries none) ops).2
      = (devRun w m.maxEntries (fun _ => none) ops).2 := by
  have key : ∀ (ops : List DevOp), (∀ op ∈ ops, op.Fits) → ∀ (es : List (Option (Nat × Nat))) (d : Devices),
      SameDev m.maxEntries es d →
      (devSharedAll w m es ops).2 = (devRun w m.maxEntries d ops).2 := by
    intro ops
    induction ops with
    | nil => intro _ es d h; rfl
    | cons op ops ih =>
      intro hf es d h
      obtain ⟨h1, h2⟩ := devShared_same w hw m h op (hf op (by simp))
      have h3 := ih (fun o ho => hf o (by simp [ho])) _ _ h1
      simp only [devSharedAll, devRun]
      rw [h2, h3]
  exact key ops hops _ _
    { len := by simp
      at_ := by intro i hi; simp [hi, slotOf]
      out := by intro i _; rfl
      fits := by intro i x p he; cases he }

/-- Interfaces 3 and 7, and a program with id 41 behind descriptor 9. -/
def someWorld : World :=
  { interface := fun i => i == 3 || i == 7, program := fun f => if f = 9 then some 41 else none }

/-- A map of two devices. -/
def someDevMap : MapData := { fd := 5, keySize := 4, valueSize := 8, maxEntries := 2 }

example : devSharedAll someWorld someDevMap [none, none]
    [.programRedirect 1 2, .processSet 1 3 (some 9) 0, .programRedirect 1 2, .programGet 1, .processGet 1,
     .programIfindex 1, .processSet 1 4 none 0, .processSet 1 7 none 0, .programGet 1, .processSet 1 0 none 0,
     .programGet 1, .programRedirect 1 1, .programRedirect 1 8, .processGet 2, .programGet 2]
    = ([none, none],
       [.action 2, .done, .redirect, .entry 3 (some 41), .entry 3 (some 41),
        .entry 3 none, .failed 22, .done, .entry 7 none, .done,
        .missing, .action 1, .action 0, .outOfBounds, .missing]) := by decide +kernel

example : ∀ f id, someWorld.program f = some id → 0 < id ∧ id < 2 ^ 32 := by
  intro f id h
  simp only [someWorld] at h
  by_cases hf : f = 9
  · simp only [hf, if_true, Option.some.injEq] at h; omega
  · simp only [hf, if_false] at h; cases h

/-- **C87 (violated).** A program whose descriptor is 0, which happens in a process started without a
    standard input, is not chained, and the process is told it was: the descriptor is written as it is,
    and 0 means no program. -/
theorem C87_devices_violated (w : World) (hw : ∀ f id, w.program f = some id → 0 < id ∧ id < 2 ^ 32) (id : Nat) (hid : w.program 0 = some id) (m : MapData) (i x : BitVec 32)
    (hi : i.toNat < m.maxEntries) (hx : x.toNat ≠ 0) (hwx : w.interface x.toNat = true) :
    (devSharedAll w m (List.replicate m.maxEntries none) [.processSet i x (some 0) 0, .processGet i]).2
      = [.done, .entry x.toNat none] ∧
    (devRun w m.maxEntries (fun _ => none) [.processSet i x (some 0) 0, .processGet i]).2
      = [.done, .entry x.toNat (some id)] := by
  constructor
  · have hrun : (devSharedAll w m (List.replicate m.maxEntries none)
          [.processSet i x (some 0) 0, .processGet i]).2
        = (devSharedAll w m (List.replicate m.maxEntries none) [.processSet i x none 0, .processGet i]).2 := rfl
    rw [hrun, C87_devices_partial w hw m _
      (by intro op ho; simp at ho; rcases ho with rfl | rfl <;> trivial)]
    simp [devRun, devOp, hi, writeDev, hx, hwx]
  · simp [devRun, devOp, hi, writeDev, hx, hwx, hid]

/-- **C87 (sockets).** A program that looks up a socket in a map of sockets and assigns it gives back the
    reference to the socket, once, whatever the outcome; assigns no socket if there is none; and is told
    of a failure exactly when there is no socket or it could not be assigned. -/
theorem C87_sockets (found : Option Nat) (assign : Int) (flags : Nat) :
    let r := redirectSkLookup found assign flags
    (∀ sk, r.2.count (.acquired sk) = r.2.count (.released sk) ∧ r.2.count (.acquired sk) ≤ 1) ∧
    (∀ sk, .acquired sk ∈ r.2 ↔ found = some sk) ∧
    (∀ sk f, .assigned sk f ∈ r.2 ↔ found = some sk ∧ f = flags) ∧
    (r.1 = .ok () ↔ found.isSome ∧ assign = 0) ∧
    (found = none → r.1 = .error (-2)) := by
  cases found with
  | none => simp [redirectSkLookup]
  | some s =>
    refine ⟨?_, ?_, ?_, ?_, ?_⟩
    · intro sk
      by_cases ha : assign = 0 <;> by_cases hs : s = sk <;>
        simp [redirectSkLookup, ha, hs, List.count_cons]
    · intro sk
      by_cases ha : assign = 0 <;> simp [redirectSkLookup, ha, eq_comm]
    · intro sk f
      by_cases ha : assign = 0 <;> simp [redirectSkLookup, ha, eq_comm]
    · by_cases ha : assign = 0 <;> simp [redirectSkLookup, ha]
    · intro h; cases h

example : redirectSkLookup (some 7) (-17) 1
    = (.error (-17), [.acquired 7, .assigned 7 1, .released 7]) := by decide

end Verif.Shared
