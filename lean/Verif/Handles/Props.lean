import Verif.Common.Except
import Verif.Handles.Spec
import Verif.Maps.Load
/-! # Typed map handles: proofs -/
set_option linter.unusedSimpArgs false
set_option linter.unusedVariables false
namespace Verif.Handles
open Spec
open Verif.Loader (Variant variantFor parseMap)

private theorem variant_data {n : Nat} {v : Variant} (h : variantOfData n = some v) (ty : Ty) :
    v ∈ variantsFor ty ↔ n ∈ kinds ty := by
  unfold variantOfData at h
  split at h <;> first | (cases h; done) | (cases h; cases ty <;> simp [variantsFor, kinds])

private theorem variant_parse {n : Nat} {v : Variant} (h : parseMap n = some v) (ty : Ty) :
    v ∈ variantsFor ty ↔ n ∈ kinds ty := by
  unfold parseMap at h
  split at h <;> first | (cases h; done) | (cases h; cases ty <;> simp [variantsFor, kinds])

private theorem parse_none {n : Nat} (h : parseMap n = none) (ty : Ty) : n ∉ kinds ty := by
  intro hk
  cases ty <;> simp only [kinds, List.mem_cons, List.not_mem_nil, or_false] at hk <;>
    first
    | (rw [hk] at h; simp [parseMap] at h; done)
    | (rcases hk with hk | hk <;> rw [hk] at h <;> simp [parseMap] at h)

private theorem unsupported_none (ty : Ty) : Variant.unsupported ∉ variantsFor ty := by
  cases ty <;> simp [variantsFor]

private theorem given {d : Data} {m : Map} (hg : Given d m) (ty : Ty) :
    m.data = d ∧ (m.variant ∈ variantsFor ty ↔ d.obj.mapType ∈ kinds ty) := by
  cases hg with
  | loaded allow h =>
    unfold loaded variantFor at h
    cases hp : parseMap d.obj.mapType with
    | some v =>
      rw [hp] at h
      simp at h
      subst h
      exact ⟨rfl, variant_parse hp ty⟩
    | none =>
      rw [hp] at h
      cases allow <;> simp at h
      subst h
      exact ⟨rfl, fun h => absurd h (unsupported_none ty), fun h => absurd h (parse_none hp ty)⟩
  | data h =>
    unfold fromMapData at h
    cases hp : variantOfData d.obj.mapType with
    | some v =>
      rw [hp] at h
      simp at h
      subst h
      exact ⟨rfl, variant_data hp ty⟩
    | none => rw [hp] at h; simp at h

private theorem checkKv_ok {d : Data} {k v : Nat} :
    checkKvSize d k v = .ok () ↔ d.obj.keySize = k ∧ d.obj.valueSize = v := by
  unfold checkKvSize
  by_cases hk : k = d.obj.keySize
  · by_cases hv : v = d.obj.valueSize
    · simp [hk, hv]
    · simp [hk, hv, eq_comm]
  · simp [hk]
    intro h
    exact absurd h.symm hk

private theorem checkV_ok {d : Data} {v : Nat} : checkVSize d v = .ok () ↔ d.obj.valueSize = v := by
  unfold checkVSize
  by_cases hv : v = d.obj.valueSize
  · simp [hv]
  · simp [hv, eq_comm]

private theorem new_ok {env : Env} {ty : Ty} {d : Data} (hk : d.obj.mapType ∈ kinds ty) :
    (∃ h, new env ty d = .ok h) ↔ Describes env ty d.obj := by
  constructor
  · rintro ⟨h, hn⟩
    unfold new at hn
    by_cases hs : ty = .stackTrace
    · subst hs
      rw [if_pos rfl] at hn
      unfold newStackTrace at hn
      split at hn
      · cases hn
      · split at hn
        · cases hn
        · split at hn
          · cases hn
          · rename_i h1 h2 h3
            have h1 := Decidable.not_not.mp h1
            have h2 := Decidable.not_not.mp h2
            refine ⟨hk, ?_, ?_, ?_⟩
            · intro n hn; simp [sizes] at hn; omega
            · intro n hn; simp [sizes] at hn
            · intro _
              refine ⟨?_, by omega, by omega⟩
              rw [Nat.testBit_eq_decide_div_mod_eq]
              simp
              omega
    · rw [if_neg hs] at hn
      cases hc : check env d ty with
      | error e => rw [hc] at hn; cases hn
      | ok u =>
        cases u
        refine ⟨hk, ?_, ?_, fun h => absurd h hs⟩
        · intro n hn
          cases ty <;> simp only [check, checkKv_ok, checkV_ok] at hc <;> simp [sizes] at hn <;>
            first | omega | exact absurd rfl hs
        · intro n hn
          cases ty <;> simp only [check, checkKv_ok, checkV_ok] at hc <;> simp [sizes] at hn <;>
            first | omega | (rw [hc.2]; exact hn)
  · intro hd
    unfold new
    by_cases hs : ty = .stackTrace
    · subst hs
      rw [if_pos rfl]
      obtain ⟨hf, hpos, hdiv⟩ := hd.stack rfl
      have h4 := hd.key 4 rfl
      rw [Nat.testBit_eq_decide_div_mod_eq] at hf
      simp at hf
      unfold newStackTrace
      rw [if_neg (by omega), if_neg (by omega), if_neg (by omega)]
      exact ⟨_, rfl⟩
    · rw [if_neg hs]
      have : check env d ty = .ok () := by
        have h1 := hd.key
        have h2 := hd.value
        cases ty <;> simp only [check, checkKv_ok, checkV_ok] <;> simp [sizes] at h1 h2 <;>
          first | (exact absurd rfl hs) | (constructor <;> first | omega | assumption) | omega | assumption
      rw [this]
      exact ⟨_, rfl⟩

private theorem new_data {env : Env} {ty : Ty} {d : Data} {h : Handle} (hn : new env ty d = .ok h) :
    h.ty = ty ∧ h.data = d := by
  unfold new at hn
  by_cases hs : ty = .stackTrace
  · subst hs
    rw [if_pos rfl] at hn
    unfold newStackTrace at hn
    split at hn
    · cases hn
    · split at hn
      · cases hn
      · split at hn
        · cases hn
        · cases hn; exact ⟨rfl, rfl⟩
  · rw [if_neg hs] at hn
    cases hc : check env d ty with
    | error e => rw [hc] at hn; cases hn
    | ok u => rw [hc] at hn; cases hn; exact ⟨rfl, rfl⟩

/-- **C75 (who gets a typed map).** A `Map` got from the library turns into a typed map exactly if the typed map describes
it: the kind is that of the typed map, and the sizes are those of its keys and values. -/
theorem C75_accepted (env : Env) (ty : Ty) (d : Data) (m : Map) (hg : Given d m) :
    (∃ h, tryFrom env ty m = .ok h) ↔ Describes env ty d.obj := by
  obtain ⟨hd, hv⟩ := given hg ty
  unfold tryFrom
  by_cases hm : m.variant ∈ variantsFor ty
  · rw [if_pos (by simpa using hm), hd]
    exact new_ok (hv.mp hm)
  · rw [if_neg (by simpa using hm)]
    constructor
    · rintro ⟨h, hh⟩; cases hh
    · intro h; exact absurd (hv.mpr h.kind) hm

/-- A per-CPU hash map opened by its pin: keys of 4 bytes, values of 12. -/
def exData : Data := ⟨⟨10, 4, 12, 100, 0⟩, 5⟩
def exEnv : Env := ⟨true, false, some 4⟩
def exMap : Map := ⟨.perCpuLruHashMap, exData⟩

theorem ex_given : Given exData exMap := .data (by decide)

example : Describes exEnv (.perCpuHashMap 4 12) exData.obj :=
  ⟨by decide, fun n h => by cases h; rfl, fun n h => by cases h; rfl, by decide⟩
example : ∃ h, tryFrom exEnv (.perCpuHashMap 4 12) exMap = .ok h := ⟨⟨.perCpuHashMap 4 12, exData, 0⟩, by decide⟩
example : tryFrom exEnv (.perCpuHashMap 4 16) exMap = .error (.invalidValueSize 16 12) := by decide
example : tryFrom exEnv (.hashMap 4 12) exMap = .error (.invalidMapType 10) := by decide
/-- A map of a loaded object. -/
example : Given ⟨⟨7, 4, 1016, 64, 0⟩, 6⟩ ⟨.stackTrace, ⟨⟨7, 4, 1016, 64, 0⟩, 6⟩⟩ := .loaded false (by decide)
example : tryFrom exEnv .stackTrace ⟨.stackTrace, ⟨⟨7, 4, 1016, 64, 0⟩, 6⟩⟩ =
    .ok ⟨.stackTrace, ⟨⟨7, 4, 1016, 64, 0⟩, 6⟩, 127⟩ := by decide
example : tryFrom exEnv .stackTrace ⟨.stackTrace, ⟨⟨7, 4, 1016, 64, 32⟩, 6⟩⟩ = .error (.unsupportedMapFlags 32) := by
  decide

/-- **C75 (no map is refused).** A `Map` is got from every `MapData` whose kind is one of the 33 the library knows, and from
no other: also for those kinds that have no typed map. -/
theorem C75_any_kind (d : Data) :
    ((∃ m, fromMapData d = .ok m ∧ m.data = d) ↔ 1 ≤ d.obj.mapType ∧ d.obj.mapType ≤ 33) ∧
    (¬ (1 ≤ d.obj.mapType ∧ d.obj.mapType ≤ 33) → fromMapData d = .error (.invalidMapType d.obj.mapType)) := by
  obtain ⟨⟨t, ks, vs, me, fl⟩, fd⟩ := d
  by_cases h : 1 ≤ t ∧ t ≤ 33
  · refine ⟨⟨fun _ => h, fun _ => ?_⟩, fun hn => absurd h hn⟩
    obtain ⟨h1, h2⟩ := h
    have hv : ∃ v, variantOfData t = some v := by
      have : ∀ t : Fin 33, (variantOfData (t.val + 1)).isSome := by decide
      have := this ⟨t - 1, by omega⟩
      rw [show t - 1 + 1 = t by omega] at this
      exact Option.isSome_iff_exists.mp this
    obtain ⟨v, hv⟩ := hv
    exact ⟨⟨v, _⟩, by simp only [fromMapData, hv], rfl⟩
  · have hn : variantOfData t = none := by
      unfold variantOfData
      split <;> first | rfl | (exfalso; omega)
    have he : fromMapData ⟨⟨t, ks, vs, me, fl⟩, fd⟩ = .error (.invalidMapType t) := by
      simp only [fromMapData, hn]
    refine ⟨⟨?_, fun hh => absurd hh h⟩, fun _ => he⟩
    rintro ⟨m, hm, _⟩
    rw [he] at hm; cases hm

example : fromMapData ⟨⟨33, 0, 0, 100, 0⟩, 5⟩ = .ok ⟨.unsupported, ⟨⟨33, 0, 0, 100, 0⟩, 5⟩⟩ := by decide

/-- A handle is of the type asked for and of the map it was made from. -/
theorem C75_same_map (env : Env) (ty : Ty) (m : Map) (h : Handle) (hh : tryFrom env ty m = .ok h) :
    h.ty = ty ∧ h.data = m.data := by
  unfold tryFrom at hh
  split at hh
  · exact new_data hh
  · cases hh

private theorem up8_eq (n : Nat) : (n + 7) / 8 * 8 = up8 n := by
  unfold up8
  split <;> omega

/-- What a handle made by the library is known to satisfy. -/
private theorem made {env : Env} {ty : Ty} {d : Data} {m : Map} {h : Handle} (hg : Given d m)
    (hh : tryFrom env ty m = .ok h) : h.ty = ty ∧ h.data = d ∧ Describes env ty d.obj ∧
      (ty = .stackTrace → h.depth * 8 = d.obj.valueSize) := by
  have hd := (C75_accepted env ty d m hg).mp ⟨h, hh⟩
  obtain ⟨h1, h2⟩ := C75_same_map env ty m h hh
  refine ⟨h1, h2.trans (given hg ty).1, hd, ?_⟩
  rintro rfl
  obtain ⟨_, hpos, hdiv⟩ := hd.stack rfl
  unfold tryFrom at hh
  rw [(given hg .stackTrace).1] at hh
  split at hh
  · unfold new at hh
    rw [if_pos rfl] at hh
    unfold newStackTrace at hh
    split at hh
    · cases hh
    · split at hh
      · cases hh
      · split at hh
        · cases hh
        · cases hh
          dsimp only
          omega
  · cases hh

/-- What the request of an operation must look like: `k` is the size of the keys (`none`: no key), `v` that of the values
as exchanged. -/
private def Shape (fd : Nat) (k : Option Nat) (v : Nat) (op : Op) (r : Req) : Prop :=
  r.fd = fd ∧ r.cmd = command op ∧
  (match op with
    | .get _ | .set _ _ | .push | .pop | .contains | .openBuffer _ => r.key = k ∧ r.value = some v
    | .remove _ => r.key = k
    | .nextKey prev => r.nextKey = k ∧ r.key = if prev then k else none)

private theorem shape_fits {cpus : Nat} {m : KMap} {fd : Nat} {op : Op} {r : Req}
    (hs : Shape fd (if m.keySize = 0 then none else some m.keySize) (valueBytes cpus m) op r)
    (hn : ∀ p, op = .nextKey p → m.keySize ≠ 0) : Fits cpus m r := by
  obtain ⟨_, hc, hs⟩ := hs
  constructor
  · intro b n ha
    cases ha with
    | key hk hg =>
      cases op <;> simp_all [command, size]
    | prev hg hp =>
      cases op <;> simp_all [command, size]
    | next hg =>
      cases op <;> simp_all [command, size]
    | value hg =>
      cases op <;> simp_all [command, size]
  · intro h0
    cases op <;> simp_all

private theorem bounded_ok {d : Data} {i : Nat} {x : Except Err Req} {r : Req} (h : bounded d i x = .ok r) :
    i < d.obj.maxEntries ∧ x = .ok r := by
  unfold bounded at h
  split at h
  · cases h
  · exact ⟨by omega, h⟩

private theorem perCpu_ok {env : Env} {v : Nat} {f : Nat → Req} {r : Req} (h : perCpu env v f = .ok r) :
    ∃ n, env.nrCpus = some n ∧ r = f (n * up8 v) := by
  unfold perCpu perCpuMem at h
  cases hn : env.nrCpus with
  | none => rw [hn] at h; cases h
  | some n =>
    rw [hn] at h
    simp only [up8_eq] at h
    cases h
    exact ⟨n, rfl, rfl⟩

private theorem chainGet_ok {p : Bool} {fd : Nat} {r : Req} (h : chainGet p fd = .ok r) :
    r = lookup .lookup fd (some 4) (if p then 8 else 4) := by
  unfold chainGet at h
  cases p <;> simp_all

private theorem chainSet_ok {p q : Bool} {fd : Nat} {r : Req} (h : chainSet p q fd = .ok r) :
    r = update fd (some 4) (if p then 8 else 4) ∧ (q = true → p = true) := by
  unfold chainSet at h
  cases p <;> cases q <;> simp_all

private theorem array_shape {d : Data} {v : Nat} {op : Op} {r : Req} (h : arrayOp d v op = some (.ok r)) :
    Shape d.fd (some 4) v op r := by
  cases op <;> simp only [arrayOp, Option.some.injEq, reduceCtorEq] at h <;> obtain ⟨_, h⟩ := bounded_ok h <;> cases h <;>
    simp [Shape, lookup, update, command]

private theorem arrayOfMaps_shape {d : Data} {op : Op} {r : Req} (h : arrayOfMapsOp d op = some (.ok r)) :
    Shape d.fd (some 4) 4 op r := by
  cases op <;> simp only [arrayOfMapsOp, Option.some.injEq, reduceCtorEq] at h <;> obtain ⟨_, h⟩ := bounded_ok h <;>
    cases h <;> simp [Shape, lookup, update, command]

private theorem bloom_shape {d : Data} {v : Nat} {op : Op} {r : Req} (h : bloomFilterOp d v op = some (.ok r)) :
    Shape d.fd none v op r ∧ ∀ p, op ≠ .nextKey p := by
  cases op <;> simp only [bloomFilterOp, Option.some.injEq, reduceCtorEq, Except.ok.injEq] at h <;> cases h <;>
    simp [Shape, peek, push, command]

private theorem fdArray_shape {d : Data} {op : Op} {r : Req} (h : fdArrayOp d op = some (.ok r)) :
    Shape d.fd (some 4) 4 op r := by
  cases op <;> simp only [fdArrayOp, Option.some.injEq, reduceCtorEq] at h <;> obtain ⟨_, h⟩ := bounded_ok h <;>
    cases h <;> simp [Shape, lookup, update, command, delete]

private theorem fdIndices_shape {d : Data} {op : Op} {r : Req} (h : fdIndicesOp d op = some (.ok r)) :
    Shape d.fd (some 4) 4 op r := by
  cases op
  case nextKey p =>
    simp only [fdIndicesOp, Option.some.injEq, Except.ok.injEq] at h
    subst h
    simp [Shape, getNextKey, command]
  all_goals exact fdArray_shape h

private theorem cgroupStorage_shape {d : Data} {v : Nat} {op : Op} {r : Req} (h : cgroupStorageOp d v op = some (.ok r)) :
    Shape d.fd (some 16) v op r := by
  cases op <;> simp only [cgroupStorageOp, Option.some.injEq, reduceCtorEq, Except.ok.injEq] at h <;> cases h <;>
    simp [Shape, lookup, update, command]

private theorem localStorage_shape {d : Data} {v : Nat} {op : Op} {r : Req} (h : localStorageOp d v op = some (.ok r)) :
    Shape d.fd (some 4) v op r := by
  cases op <;> simp only [localStorageOp, Option.some.injEq, reduceCtorEq, Except.ok.injEq] at h <;> cases h <;>
    simp [Shape, lookup, update, command, delete]

private theorem hash_shape {d : Data} {k v : Nat} {op : Op} {r : Req} (h : hashOp d k v op = some (.ok r)) :
    Shape d.fd (some k) v op r := by
  cases op <;> simp only [hashOp, Option.some.injEq, reduceCtorEq, Except.ok.injEq] at h <;> cases h <;>
    simp [Shape, lookup, update, command, delete, getNextKey]

private theorem chain_shape {p : Bool} {d : Data} {op : Op} {r : Req} (h : chainOp p d op = some (.ok r)) :
    Shape d.fd (some 4) (if p then 8 else 4) op r := by
  cases op <;> simp only [chainOp, Option.some.injEq, reduceCtorEq] at h <;> obtain ⟨_, h⟩ := bounded_ok h
  · rw [chainGet_ok h]; simp [Shape, lookup, command]
  · rw [(chainSet_ok h).1]; simp [Shape, update, command]

private theorem devMapHash_shape {p : Bool} {d : Data} {op : Op} {r : Req} (h : devMapHashOp p d op = some (.ok r)) :
    Shape d.fd (some 4) (if p then 8 else 4) op r := by
  cases op <;> simp only [devMapHashOp, Option.some.injEq, reduceCtorEq, Except.ok.injEq] at h
  · rw [chainGet_ok h]; simp [Shape, lookup, command]
  · rw [(chainSet_ok h).1]; simp [Shape, update, command]
  · subst h; simp [Shape, delete, command]
  · subst h; simp [Shape, getNextKey, command]

private theorem perCpuArray_shape {env : Env} {d : Data} {v : Nat} {op : Op} {r : Req}
    (h : perCpuArrayOp env d v op = some (.ok r)) : ∃ n, env.nrCpus = some n ∧ Shape d.fd (some 4) (n * up8 v) op r := by
  cases op <;> simp only [perCpuArrayOp, Option.some.injEq, reduceCtorEq] at h <;> obtain ⟨_, h⟩ := bounded_ok h <;>
    obtain ⟨n, hn, rfl⟩ := perCpu_ok h <;> exact ⟨n, hn, by simp [Shape, lookupPtr, update, command]⟩

private theorem perCpuCgroup_shape {env : Env} {d : Data} {v : Nat} {op : Op} {r : Req}
    (h : perCpuCgroupStorageOp env d v op = some (.ok r)) :
    ∃ n, env.nrCpus = some n ∧ Shape d.fd (some 16) (n * up8 v) op r := by
  cases op <;> simp only [perCpuCgroupStorageOp, Option.some.injEq, reduceCtorEq] at h <;>
    obtain ⟨n, hn, rfl⟩ := perCpu_ok h <;> exact ⟨n, hn, by simp [Shape, lookupPtr, update, command]⟩

private theorem perCpuHash_shape {env : Env} {d : Data} {k v : Nat} {op : Op} {r : Req}
    (h : perCpuHashOp env d k v op = some (.ok r)) :
    (∃ n, env.nrCpus = some n ∧ Shape d.fd (some k) (n * up8 v) op r) ∨
      ∀ x, Shape d.fd (some k) x op r := by
  cases op <;> simp only [perCpuHashOp, Option.some.injEq, reduceCtorEq, Except.ok.injEq] at h
  · obtain ⟨n, hn, rfl⟩ := perCpu_ok h
    exact .inl ⟨n, hn, by simp [Shape, lookupPtr, command]⟩
  · obtain ⟨n, hn, rfl⟩ := perCpu_ok h
    exact .inl ⟨n, hn, by simp [Shape, update, command]⟩
  · subst h; exact .inr (by simp [Shape, delete, command])
  · subst h; exact .inr (by simp [Shape, getNextKey, command])

private theorem perf_shape {d : Data} {op : Op} {r : Req} (h : perfOp d op = some (.ok r)) :
    Shape d.fd (some 4) 4 op r := by
  cases op <;> simp only [perfOp, Option.some.injEq, reduceCtorEq, Except.ok.injEq] at h <;> cases h <;>
    simp [Shape, update, command]

private theorem queue_shape {d : Data} {v : Nat} {op : Op} {r : Req} (h : queueOp d v op = some (.ok r)) :
    Shape d.fd none v op r ∧ ∀ p, op ≠ .nextKey p := by
  cases op <;> simp only [queueOp, Option.some.injEq, reduceCtorEq, Except.ok.injEq] at h <;> cases h <;>
    simp [Shape, lookup, push, command]

private theorem stack_shape {d : Data} {v : Nat} {op : Op} {r : Req} (h : stackOp d v op = some (.ok r)) :
    Shape d.fd none v op r ∧ ∀ p, op ≠ .nextKey p := by
  cases op <;> simp only [stackOp, Option.some.injEq, reduceCtorEq, Except.ok.injEq] at h <;> cases h <;>
    simp [Shape, lookup, update, command]

private theorem stackTrace_shape {x : Handle} {op : Op} {r : Req} (h : stackTraceOp x op = some (.ok r)) :
    Shape x.data.fd (some 4) (x.depth * 8) op r := by
  cases op <;> simp only [stackTraceOp, Option.some.injEq, reduceCtorEq, Except.ok.injEq] at h <;> cases h <;>
    simp [Shape, lookupPtr, delete, getNextKey, command]

private theorem described {env : Env} {d : Data} {h : Handle} {km : KMap} {cpus : Nat} {op : Op} {r : Req}
    (hdata : h.data = d) (hd : Describes env h.ty d.obj) (hdepth : h.ty = .stackTrace → h.depth * 8 = d.obj.valueSize)
    (hk : Knows d km) (ha : Allowed km)
    (hn : ∀ n, env.nrCpus = some n → n = cpus) (hr : request env h op = some (.ok r)) : Fits cpus km r := by
  obtain ⟨mt, ks, vs, me, fl⟩ := km
  obtain ⟨k1, k2, k3, k4, k5⟩ := hk
  obtain ⟨a1, a2, a3⟩ := ha
  obtain ⟨d1, d2, d3, _⟩ := hd
  rw [k1] at d1
  rw [k2] at d2
  rw [k3] at d3 hdepth
  dsimp only at *
  suffices hs : Shape d.fd (if ks = 0 then none else some ks) (valueBytes cpus ⟨mt, ks, vs, me, fl⟩) op r ∧
      (∀ p, op = .nextKey p → ks ≠ 0) from shape_fits hs.1 hs.2
  unfold request at hr
  cases hty : h.ty <;> rw [hty] at hr d1 d2 d3 hdepth
  all_goals
    simp only [kinds, List.mem_cons, List.not_mem_nil, or_false] at d1
    simp only [sizes, Option.some.injEq, forall_eq'] at d2 d3
  case array v =>
    subst d1 d2 d3
    exact ⟨by simpa [valueBytes, PerCpu, OfObjects, hdata] using array_shape hr, by simp⟩
  case arrayOfMaps =>
    subst d1 d2 d3
    exact ⟨by simpa [valueBytes, PerCpu, OfObjects, hdata] using arrayOfMaps_shape hr, by simp⟩
  case bloomFilter v =>
    subst d1
    have h0 : ks = 0 := a2 (by simp)
    subst h0 d3
    have := bloom_shape hr
    exact ⟨by simpa [valueBytes, PerCpu, OfObjects, hdata] using this.1, fun p hp => absurd hp (this.2 p)⟩
  case cgroupArray =>
    subst d1 d2 d3
    exact ⟨by simpa [valueBytes, PerCpu, OfObjects, hdata] using fdArray_shape hr, by simp⟩
  case cgroupStorage v =>
    subst d1 d2 d3
    exact ⟨by simpa [valueBytes, PerCpu, OfObjects, hdata] using cgroupStorage_shape hr, by simp⟩
  case cgrpStorage v =>
    subst d1 d2 d3
    exact ⟨by simpa [valueBytes, PerCpu, OfObjects, hdata] using localStorage_shape hr, by simp⟩
  case cpuMap =>
    subst d1 d2 d3
    exact ⟨by simpa [valueBytes, PerCpu, OfObjects, hdata] using chain_shape hr, by simp⟩
  case devMap =>
    subst d1 d2 d3
    exact ⟨by simpa [valueBytes, PerCpu, OfObjects, hdata] using chain_shape hr, by simp⟩
  case devMapHash =>
    subst d1 d2 d3
    exact ⟨by simpa [valueBytes, PerCpu, OfObjects, hdata] using devMapHash_shape hr, by simp⟩
  case hashMap k v =>
    have h0 : ks ≠ 0 := by
      intro h0
      have := a3 h0
      simp only [List.mem_cons, List.not_mem_nil, or_false] at this
      omega
    subst d2 d3
    refine ⟨?_, fun _ _ => h0⟩
    have := hash_shape hr
    rw [if_neg h0]
    rcases d1 with rfl | rfl <;> simpa [valueBytes, PerCpu, OfObjects, hdata] using this
  case hashOfMaps k =>
    have h0 : ks ≠ 0 := by
      intro h0
      have := a3 h0
      simp only [List.mem_cons, List.not_mem_nil, or_false] at this
      omega
    subst d2 d3
    refine ⟨?_, fun _ _ => h0⟩
    have := hash_shape hr
    rw [if_neg h0]
    subst d1
    simpa [valueBytes, PerCpu, OfObjects, hdata] using this
  case inodeStorage v =>
    subst d1 d2 d3
    exact ⟨by simpa [valueBytes, PerCpu, OfObjects, hdata] using localStorage_shape hr, by simp⟩
  case lpmTrie k v =>
    subst d1 d2 d3
    have := hash_shape hr
    rw [Nat.add_comm 4 k] at this
    exact ⟨by simpa [valueBytes, PerCpu, OfObjects, hdata] using this, by simp⟩
  case perCpuArray v =>
    subst d1 d2 d3
    obtain ⟨n, hcpu, this⟩ := perCpuArray_shape hr
    have := (hn n hcpu) ▸ this
    exact ⟨by simpa [valueBytes, PerCpu, OfObjects, hdata, Nat.mul_comm] using this, by simp⟩
  case perCpuCgroupStorage v =>
    subst d1 d2 d3
    obtain ⟨n, hcpu, this⟩ := perCpuCgroup_shape hr
    have := (hn n hcpu) ▸ this
    exact ⟨by simpa [valueBytes, PerCpu, OfObjects, hdata, Nat.mul_comm] using this, by simp⟩
  case perCpuHashMap k v =>
    have h0 : ks ≠ 0 := by
      intro h0
      have := a3 h0
      simp only [List.mem_cons, List.not_mem_nil, or_false] at this
      omega
    subst d2 d3
    refine ⟨?_, fun _ _ => h0⟩
    rw [if_neg h0]
    have hv : valueBytes cpus ⟨mt, ks, vs, me, fl⟩ = cpus * up8 vs := by
      rcases d1 with rfl | rfl <;> simp [valueBytes, PerCpu, Nat.mul_comm]
    rw [hv]
    rcases perCpuHash_shape hr with ⟨n, hcpu, this⟩ | this
    · rw [hn n hcpu, hdata] at this
      exact this
    · rw [hdata] at this
      exact this _
  case perfEventArray =>
    subst d1
    have h4 : ks = 4 := a1 rfl
    subst h4
    exact ⟨by simpa [valueBytes, PerCpu, OfObjects, hdata] using perf_shape hr, by simp⟩
  case programArray =>
    subst d1 d2 d3
    exact ⟨by simpa [valueBytes, PerCpu, OfObjects, hdata] using fdIndices_shape hr, by simp⟩
  case queue v =>
    subst d1
    have h0 : ks = 0 := a2 (by simp)
    subst h0 d3
    have := queue_shape hr
    exact ⟨by simpa [valueBytes, PerCpu, OfObjects, hdata] using this.1, fun p hp => absurd hp (this.2 p)⟩
  case reusePortSockArray =>
    subst d1 d2 d3
    exact ⟨by simpa [valueBytes, PerCpu, OfObjects, hdata] using fdIndices_shape hr, by simp⟩
  case ringBuf => cases hr
  case sockHash k =>
    have h0 : ks ≠ 0 := by
      intro h0
      have := a3 h0
      simp only [List.mem_cons, List.not_mem_nil, or_false] at this
      omega
    subst d2 d3
    refine ⟨?_, fun _ _ => h0⟩
    have := hash_shape hr
    rw [if_neg h0]
    subst d1
    simpa [valueBytes, PerCpu, OfObjects, hdata] using this
  case sockMap =>
    subst d1 d2 d3
    exact ⟨by simpa [valueBytes, PerCpu, OfObjects, hdata] using fdIndices_shape hr, by simp⟩
  case skStorage v =>
    subst d1 d2 d3
    exact ⟨by simpa [valueBytes, PerCpu, OfObjects, hdata] using localStorage_shape hr, by simp⟩
  case stack v =>
    subst d1
    have h0 : ks = 0 := a2 (by simp)
    subst h0 d3
    have := stack_shape hr
    exact ⟨by simpa [valueBytes, PerCpu, OfObjects, hdata] using this.1, fun p hp => absurd hp (this.2 p)⟩
  case stackTrace =>
    subst d1 d2
    have := stackTrace_shape hr
    rw [hdepth rfl, hdata] at this
    exact ⟨by simpa [valueBytes, PerCpu, OfObjects] using this, by simp⟩
  case xskMap =>
    subst d1 d2 d3
    exact ⟨by simpa [valueBytes, PerCpu, OfObjects, hdata] using fdArray_shape hr, by simp⟩

private theorem created {env : Env} {ty : Ty} {n fl fd : Nat} {x : Except Err Handle}
    (hc : create env ty n fl fd = some x) : ∃ o, createDef n fl ty = some o ∧ x = new env ty ⟨o, fd⟩ ∧
      o.mapType ∈ kinds ty ∧ ty ≠ .stackTrace := by
  unfold create at hc
  cases ho : createDef n fl ty with
  | none => rw [ho] at hc; cases hc
  | some o =>
    rw [ho] at hc
    simp only [Option.map_some, Option.some.injEq] at hc
    refine ⟨o, rfl, hc.symm, ?_, ?_⟩
    · cases ty <;> simp [createDef] at ho <;> subst ho <;> simp [kinds]
    · rintro rfl; simp [createDef] at ho

/-- **C75 (memory).** An operation of a typed map made by the library from a `MapData` that knows its map gives the kernel
exactly the memory the kernel reads and writes. -/
theorem C75_buffers_partial (env : Env) (d : Data) (h : Handle) (km : KMap) (cpus : Nat) (op : Op)
    (r : Req) (hm : Made env d h) (hk : Knows d km) (ha : Allowed km)
    (hn : ∀ n, env.nrCpus = some n → n = cpus) (hr : request env h op = some (.ok r)) :
    Fits cpus km r := by
  cases hm with
  | «from» m ty hg ht =>
    obtain ⟨rfl, hdata, hd, hdepth⟩ := made hg ht
    exact described hdata hd hdepth hk ha hn hr
  | created ty n fl hc hd =>
    obtain ⟨o, ho, hx, hkind, hne⟩ := created hc
    have hnew := hx.symm
    obtain ⟨rfl, hdata⟩ := new_data hnew
    have hdd : d = ⟨o, d.fd⟩ := hd.symm.trans hdata
    have hdesc := (new_ok (d := ⟨o, d.fd⟩) hkind).mp ⟨h, hnew⟩
    rw [← hdd] at hdesc
    exact described hd hdesc (fun h' => absurd h' hne) hk ha hn hr

/-- The kernel reads 64 bytes: 16 for each of 4 CPUs. -/
example : ∃ h r, Made exEnv exData h ∧ Knows exData ⟨10, 4, 12, 100, 0⟩ ∧ Allowed ⟨10, 4, 12, 100, 0⟩ ∧
    request exEnv h (.set 0 false) = some (.ok r) ∧ Accesses 4 ⟨10, 4, 12, 100, 0⟩ r .value 64 ∧ size r .value = some 64 :=
  ⟨⟨.perCpuHashMap 4 12, exData, 0⟩, ⟨.update, 5, some 4, some 64, none⟩, .from exMap (.perCpuHashMap 4 12) ex_given (by decide),
    ⟨rfl, rfl, rfl, rfl, rfl⟩, ⟨by decide, by decide, by decide⟩, by decide, .value (.inr (.inr rfl)), rfl⟩

/-- **C75 (created maps).** A map is created with the sizes of the typed map, unless they exceed 32 bits: then there is
no typed map. -/
theorem C75_created (env : Env) (ty : Ty) (n fl fd : Nat) :
    ((∃ x, create env ty n fl fd = some x) ↔ creatable ty ≠ none) ∧
    ∀ x, create env ty n fl fd = some x →
      ((∃ h, x = .ok h) ↔ (∀ k, (sizes env ty).1 = some k → k < 2 ^ 32) ∧ ∀ v, (sizes env ty).2 = some v → v < 2 ^ 32) ∧
      ∀ h, x = .ok h → h.ty = ty ∧ h.data.fd = fd ∧ Describes env ty h.data.obj ∧
        creatable ty = some h.data.obj.mapType ∧ h.data.obj.maxEntries = n ∧ h.data.obj.mapFlags = fl ∧
        ((sizes env ty).1 = none → h.data.obj.keySize = 0) := by
  constructor
  · cases ty <;> simp [create, createDef, creatable]
  · intro x hx
    obtain ⟨o, ho, rfl, hkind, hne⟩ := created hx
    constructor
    · rw [new_ok hkind]
      constructor
      · intro hd
        have h1 := hd.key
        have h2 := hd.value
        constructor
        · intro k hk
          have := h1 k hk
          cases ty <;> simp [createDef] at ho <;> subst ho <;> simp [sizes] at hk <;> dsimp only at this <;> omega
        · intro v hv
          have := h2 v hv
          cases ty <;> simp [createDef] at ho <;> subst ho <;> simp [sizes] at hv <;> dsimp only at this <;> omega
      · rintro ⟨h1, h2⟩
        refine ⟨hkind, ?_, ?_, fun h => absurd h hne⟩
        · intro k hk
          have := h1 k hk
          cases ty <;> simp [createDef] at ho <;> subst ho <;> simp [sizes] at hk <;> dsimp only <;> omega
        · intro v hv
          have := h2 v hv
          cases ty <;> simp [createDef] at ho <;> subst ho <;> simp [sizes] at hv <;> dsimp only <;> omega
    · intro h hh
      obtain ⟨rfl, hdata⟩ := new_data hh
      rw [hdata]
      refine ⟨rfl, rfl, (new_ok (d := ⟨o, fd⟩) hkind).mp ⟨h, hh⟩, ?_⟩
      cases hty : h.ty <;> rw [hty] at ho <;> simp [createDef] at ho <;> subst ho <;> simp [creatable, sizes]

example : create exEnv (.lpmTrie 8 3) 16 1 9 = some (.ok ⟨.lpmTrie 8 3, ⟨⟨11, 12, 3, 16, 1⟩, 9⟩, 0⟩) := by decide
example : Made exEnv ⟨⟨11, 12, 3, 16, 1⟩, 9⟩ ⟨.lpmTrie 8 3, ⟨⟨11, 12, 3, 16, 1⟩, 9⟩, 0⟩ :=
  .created (.lpmTrie 8 3) 16 1 (by decide) rfl
example : ∃ e, create exEnv (.array (2 ^ 32 + 4)) 1 0 9 = some (.error e) := ⟨.invalidValueSize (2 ^ 32 + 4) 4, by decide⟩

/-- **C75 fails for mislabelled maps.** The variants of `Map` are public. A `MapData` opened by its pin knows its map, but
can be called an array although it is a per-CPU array; the typed array then has the kernel write a value for every CPU into
memory for one. No unsafe code is needed for that. -/
theorem C75_mislabelled_violated : ∃ (env : Env) (m : Map) (h : Handle) (km : KMap) (cpus : Nat) (r : Req),
    Knows m.data km ∧ Allowed km ∧ env.nrCpus = some cpus ∧ tryFrom env (.array 8) m = .ok h ∧
    request env h (.get 0) = some (.ok r) ∧ Accesses cpus km r .value 32 ∧ size r .value = some 8 := by
  refine ⟨⟨true, true, some 4⟩, ⟨.array, ⟨⟨6, 4, 8, 1, 0⟩, 3⟩⟩, ⟨.array 8, ⟨⟨6, 4, 8, 1, 0⟩, 3⟩, 0⟩, ⟨6, 4, 8, 1, 0⟩, 4,
    ⟨.lookup, 3, some 4, some 8, none⟩, ⟨rfl, rfl, rfl, rfl, rfl⟩, ⟨by decide, by decide, by decide⟩, rfl, by decide,
    by decide, ?_, rfl⟩
  exact .value (.inl rfl)

/-- **C75 fails for reused pins.** A map that is reused because it is already pinned under its name gets the sizes written
in the object (`Verif.Maps.C58_reused_pin_violated`), whatever the pinned map is. Here the typed map is given 4 bytes for
values of 64. -/
theorem C75_reused_pin_violated : ∃ (k : Maps.Kernel) (sizes : Maps.Hist → Nat → Option (Nat × Nat × Nat))
    (env : Maps.LoadEnv) (obj : Maps.MapObj) (hist : Maps.Hist) (md : Maps.MapData) (km : KMap) (m : Map) (h : Handle)
    (r : Req),
    Maps.Spec.KnowsSizes k sizes ∧ Maps.loadMaps k env [([0x6d], obj)] [] = (.ok [([0x6d], md)], hist) ∧
    sizes hist md.fd = some (km.keySize, km.valueSize, km.maxEntries) ∧ km.mapType = obj.def_.mapType ∧ Allowed km ∧
    loaded false ⟨⟨obj.def_.mapType, md.keySize, md.valueSize, md.maxEntries, 0⟩, md.fd⟩ = some m ∧
    tryFrom ⟨true, true, some 4⟩ (.array 4) m = .ok h ∧ request ⟨true, true, some 4⟩ h (.get 0) = some (.ok r) ∧
    Accesses 4 km r .value 64 ∧ size r .value = some 4 := by
  refine ⟨Maps.pinnedKernel, Maps.pinnedSizes, Maps.demoEnv, Maps.pinnedObj, _, ⟨7, 4, 4, 1⟩, ⟨2, 4, 64, 1, 0⟩,
    ⟨.array, ⟨⟨2, 4, 4, 1, 0⟩, 7⟩⟩, ⟨.array 4, ⟨⟨2, 4, 4, 1, 0⟩, 7⟩, 0⟩, ⟨.lookup, 7, some 4, some 4, none⟩,
    Maps.pinned_knows, Maps.pinned_load, rfl, rfl, ⟨by decide, by decide, by decide⟩, by decide, by decide, by decide, ?_,
    rfl⟩
  exact .value (.inl rfl)

/-- **C75 (sockets).** `SockHash` only takes maps with values of 4 bytes, for which the kernel does not answer lookups:
`SockHash::get`, and iterating over its entries, never succeed. -/
theorem C75_sock_hash_get_violated (env : Env) (k : Nat) (d : Data) (h : Handle) (km : KMap) (i : Nat)
    (answer : KMap → Req → Except Nat Unit) (hans : AnswersSockets answer) (m : Map) (hg : Given d m)
    (ht : tryFrom env (.sockHash k) m = .ok h) (hk : Knows d km) :
    ∃ r, request env h (.get i) = some (.ok r) ∧ answer km r = .error 28 := by
  obtain ⟨h1, h2, h3, _⟩ := made hg ht
  unfold request
  rw [h1]
  refine ⟨_, rfl, hans _ _ ?_ rfl ?_⟩
  · have := h3.kind
    rw [hk.mapType] at this
    simp [kinds] at this
    simp [this]
  · have := h3.value 4 rfl
    rw [hk.valueSize] at this
    omega

example : ∃ h, tryFrom exEnv (.sockHash 8) ⟨.sockHash, ⟨⟨18, 8, 4, 10, 0⟩, 3⟩⟩ = .ok h := 
  ⟨⟨.sockHash 8, ⟨⟨18, 8, 4, 10, 0⟩, 3⟩, 0⟩, by decide⟩
example : ∃ e, tryFrom exEnv (.sockHash 8) ⟨.sockHash, ⟨⟨18, 8, 8, 10, 0⟩, 3⟩⟩ = .error e :=
  ⟨.invalidValueSize 4 8, by decide⟩
example : AnswersSockets (fun m r => if m.mapType ∈ [15, 18, 20] ∧ r.cmd = .lookup ∧ m.valueSize ≠ 8 then .error 28 else .ok ()) :=
  fun m r h1 h2 h3 => if_pos ⟨h1, h2, h3⟩

/-- **C75 (stack traces).** The kernel fills the unused entries with zeros; the frames are the entries before. -/
theorem C75_frames (addrs : List Nat) (pad : Nat) (h : ∀ a ∈ addrs, a ≠ 0) :
    frames (addrs ++ List.replicate pad 0) = addrs := by
  unfold frames
  induction addrs with
  | nil => cases pad <;> simp [List.replicate]
  | cons a as ih =>
    have ha := h a (List.mem_cons_self ..)
    simp [ha]
    exact ih (fun b hb => h b (List.mem_cons_of_mem _ hb))

private theorem bounded_iff {d : Data} {i : Nat} {x : Except Err Req} :
    (∃ r, bounded d i x = .ok r) ↔ i < d.obj.maxEntries ∧ ∃ r, x = .ok r := by
  unfold bounded
  by_cases h : i ≥ d.obj.maxEntries
  · rw [if_pos h]
    exact ⟨fun ⟨r, hr⟩ => (by cases hr), fun ⟨h', _⟩ => by omega⟩
  · rw [if_neg h]
    exact ⟨fun h' => ⟨by omega, h'⟩, fun h' => h'.2⟩

private theorem perCpu_iff {env : Env} {v : Nat} {f : Nat → Req} :
    (∃ r, perCpu env v f = .ok r) ↔ env.nrCpus ≠ none := by
  unfold perCpu perCpuMem
  cases env.nrCpus <;> simp

private theorem chainGet_iff {p : Bool} {fd : Nat} : ∃ r, chainGet p fd = .ok r := by
  cases p <;> exact ⟨_, rfl⟩

private theorem chainSet_iff {p q : Bool} {fd : Nat} : (∃ r, chainSet p q fd = .ok r) ↔ ¬(q = true ∧ p = false) := by
  cases p <;> cases q <;> simp [chainSet]

/-- **C75 (operations).** A typed map has the operations of its kind. An operation reaches the kernel exactly if the index
is one of the map, no program is asked for that the kernel cannot run, and the number of CPUs is known where it is needed.
It is then one call, with the command that the operation stands for, on the map. -/
theorem C75_operations (env : Env) (h : Handle) (op : Op) :
    ((∃ x, request env h op = some x) ↔ has h.ty op = true) ∧
    ((∃ r, request env h op = some (.ok r)) ↔ has h.ty op = true ∧ InBounds h.ty op h.data.obj.maxEntries ∧
      ¬ NoChain env h.ty op ∧ (EveryCpu h.ty op → env.nrCpus ≠ none)) ∧
    (∀ r, request env h op = some (.ok r) → r.fd = h.data.fd ∧ r.cmd = command op) := by
  refine ⟨?_, ?_, ?_⟩
  · unfold request
    cases h.ty <;> cases op <;>
      simp [arrayOp, arrayOfMapsOp, bloomFilterOp, fdArrayOp, fdIndicesOp, cgroupStorageOp, perCpuCgroupStorageOp,
        localStorageOp, chainOp, devMapHashOp, hashOp, perCpuArrayOp, perCpuHashOp, perfOp, queueOp, stackOp,
        stackTraceOp, has]
  · unfold request
    cases h.ty <;> cases op <;>
      simp [arrayOp, arrayOfMapsOp, bloomFilterOp, fdArrayOp, fdIndicesOp, cgroupStorageOp, perCpuCgroupStorageOp,
        localStorageOp, chainOp, devMapHashOp, hashOp, perCpuArrayOp, perCpuHashOp, perfOp, queueOp, stackOp,
        stackTraceOp, has, InBounds, NoChain, EveryCpu, indexed, indexOf, kinds, bounded_iff, perCpu_iff, chainGet_iff,
        chainSet_iff]
  · intro r hr
    suffices hs : ∃ k v, Shape h.data.fd k v op r by
      obtain ⟨k, v, hs⟩ := hs
      exact ⟨hs.1, hs.2.1⟩
    unfold request at hr
    cases hty : h.ty <;> rw [hty] at hr
    case ringBuf => cases hr
    case perCpuHashMap k v =>
      rcases perCpuHash_shape hr with ⟨n, _, h⟩ | h
      · exact ⟨_, _, h⟩
      · exact ⟨_, _, h 0⟩
    case perCpuArray v => obtain ⟨n, _, h⟩ := perCpuArray_shape hr; exact ⟨_, _, h⟩
    case perCpuCgroupStorage v => obtain ⟨n, _, h⟩ := perCpuCgroup_shape hr; exact ⟨_, _, h⟩
    all_goals
      first
      | exact ⟨_, _, array_shape hr⟩
      | exact ⟨_, _, arrayOfMaps_shape hr⟩
      | exact ⟨_, _, (bloom_shape hr).1⟩
      | exact ⟨_, _, fdArray_shape hr⟩
      | exact ⟨_, _, fdIndices_shape hr⟩
      | exact ⟨_, _, cgroupStorage_shape hr⟩
      | exact ⟨_, _, localStorage_shape hr⟩
      | exact ⟨_, _, chain_shape hr⟩
      | exact ⟨_, _, devMapHash_shape hr⟩
      | exact ⟨_, _, hash_shape hr⟩
      | exact ⟨_, _, perf_shape hr⟩
      | exact ⟨_, _, (queue_shape hr).1⟩
      | exact ⟨_, _, (stack_shape hr).1⟩
      | exact ⟨_, _, stackTrace_shape hr⟩

example : request exEnv ⟨.devMap, ⟨⟨14, 4, 4, 8, 0⟩, 3⟩, 0⟩ (.set 7 false) =
    some (.ok ⟨.update, 3, some 4, some 4, none⟩) := by decide
example : request exEnv ⟨.devMap, ⟨⟨14, 4, 4, 8, 0⟩, 3⟩, 0⟩ (.set 8 false) = some (.error (.outOfBounds 8 8)) := by decide
example : NoChain exEnv .devMap (.set 7 true) ∧ request exEnv ⟨.devMap, ⟨⟨14, 4, 4, 8, 0⟩, 3⟩, 0⟩ (.set 7 true) =
    some (.error .chainedProgramNotSupported) := ⟨⟨⟨7, rfl⟩, .inr ⟨.inl rfl, rfl⟩⟩, by decide⟩

end Verif.Handles
