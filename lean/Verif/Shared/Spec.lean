import Verif.Shared.Model

/-!
# Maps used by a process and by eBPF programs: the kernel, and what a shared map is

`Verif.Maps.Spec.hashStep` and `queueStep` say what a system call does to a map; helper functions called
by programs run the same map operations in the kernel (Linux `kernel/bpf/helpers.c`:
`bpf_map_update_elem` and the others call `map->ops`), so that one state serves both sides.
-/
namespace Verif.Shared.Spec
open Verif Verif.Maps Verif.Bytes

/-- What a system call does to the state of a map. -/
abbrev Step (σ : Type) := σ → Call → σ × Except Nat Out

/-- The kernel a process meets if the map is in state `s` when it calls. -/
def seenBy {σ : Type} (step : Step σ) (s : σ) : Kernel :=
  fun h c => (step (h.foldl (fun s c => (step s c).1) s) c).2

/-- A process runs one operation while the map is in state `s`: the result, and the state it leaves. -/
def asProcess {σ α : Type} (step : Step σ) (op : Kernel → Hist → α × Hist) (s : σ) : α × σ :=
  let r := op (seenBy step s) []
  (r.1, r.2.foldl (fun s c => (step s c).1) s)

/-- The number a helper returns: 0, or the negated errno. -/
def helperRet : Except Nat Out → Int
  | .ok _ => 0
  | .error e => -(e : Int)

/-- The outcome of an operation, whoever ran it: a value, done, "no such element", an index outside the
    map, or an errno. -/
inductive Res where
  | value (v : Bytes)
  | values (vs : List Bytes)
  | done
  | missing
  | outOfBounds
  | failed (errno : Nat)
deriving DecidableEq, Repr

/-! ## Hash maps -/

/-- The helper functions for a hash map. A pointer to a value stays valid until the element is deleted;
    storing through it replaces the value. -/
def hashHelpers (fd cap : Nat) : Helpers Maps.Spec.Entries where
  lookup key es := es.lookup key
  store key v es := if (es.lookup key).isSome then Maps.Spec.put key v es else es
  update key v flags es :=
    let r := Maps.Spec.hashStep fd cap es (.update fd (some key) v flags)
    (helperRet r.2, r.1)
  delete key es :=
    let r := Maps.Spec.hashStep fd cap es (.delete fd key)
    (helperRet r.2, r.1)
  push _ _ es := (-524, es)
  pop b es := (-524, b, es)
  peek b es := (-524, b, es)

/-- An operation on a shared hash map. -/
inductive HashOp where
  /-- an operation of the process -/
  | process (op : Maps.Spec.HashOp)
  /-- an operation of a program -/
  | program (op : Maps.Spec.HashOp)
  /-- a program stores a value through the pointer of `get_ptr_mut` -/
  | write (key value : Bytes)

/-- One finite map with at most `cap` entries. -/
structure AMap where
  contents : Bytes → Option Bytes
  count : Nat

/-- The map with `key` bound to `v`. -/
def AMap.bind (m : AMap) (key v : Bytes) : AMap :=
  { contents := fun x => if x = key then some v else m.contents x
    count := if (m.contents key).isSome then m.count else m.count + 1 }

/-- The map without `key`. -/
def AMap.unbind (m : AMap) (key : Bytes) : AMap :=
  { contents := fun x => if x = key then none else m.contents x
    count := m.count - 1 }

/-- What an operation does to one finite map. -/
def mapOp (cap : Nat) (m : AMap) : Maps.Spec.HashOp → AMap × Res
  | .get key =>
      match m.contents key with
      | some v => (m, .value v)
      | none => (m, .missing)
  | .insert key v flags =>
      if flags > 2 then (m, .failed 22)
      else
        match m.contents key with
        | some _ => if flags = 1 then (m, .failed 17) else (m.bind key v, .done)
        | none =>
            if flags = 2 then (m, .failed 2)
            else if cap ≤ m.count then (m, .failed 7)
            else (m.bind key v, .done)
  | .remove key =>
      match m.contents key with
      | some _ => (m.unbind key, .done)
      | none => (m, .failed 2)

/-- The same for both sides, and for writes through pointers. -/
def sharedOp (cap : Nat) (m : AMap) : HashOp → AMap × Res
  | .process op => mapOp cap m op
  | .program op => mapOp cap m op
  | .write key v =>
      match m.contents key with
      | some _ => (m.bind key v, .done)
      | none => (m, .missing)

/-- Run several operations on one finite map. -/
def sharedRun (cap : Nat) : AMap → List HashOp → AMap × List Res
  | m, [] => (m, [])
  | m, op :: ops =>
      let r := sharedOp cap m op
      let rs := sharedRun cap r.1 ops
      (rs.1, r.2 :: rs.2)

/-! ## Arrays -/

/-- The kernel's array (Linux `kernel/bpf/arraymap.c`): a key is the index; elements always exist. The
    flag `BPF_F_LOCK` (4) is not considered. -/
def arrayStep (fd : Nat) : Step (List Bytes) := fun es c =>
  match c with
  | .lookup f (some key) _ =>
      if f ≠ fd then (es, .error 9) else
      match es[ofLe key]? with
      | some v => (es, .ok { data := v })
      | none => (es, .error 2)
  | .update f (some key) v flags =>
      if f ≠ fd then (es, .error 9)
      else if flags > 2 then (es, .error 22)
      else if es.length ≤ ofLe key then (es, .error 7)
      else if flags = 1 then (es, .error 17)
      else (es.set (ofLe key) v, .ok {})
  | _ => (es, .error 22)

/-- The helper functions for an array. -/
def arrayHelpers (fd : Nat) : Helpers (List Bytes) where
  lookup key es := es[ofLe key]?
  store key v es := es.set (ofLe key) v
  update key v flags es :=
    let r := arrayStep fd es (.update fd (some key) v flags)
    (helperRet r.2, r.1)
  delete _ es := (-22, es)
  push _ _ es := (-524, es)
  pop b es := (-524, b, es)
  peek b es := (-524, b, es)

/-- An operation on a shared array. -/
inductive ArrayOp where
  | processGet (index : BitVec 32)
  | processSet (index : BitVec 32) (value : Bytes) (flags : Nat)
  | programGet (index : BitVec 32)
  | programSet (index : BitVec 32) (value : Bytes) (flags : Nat)
  | programWrite (index : BitVec 32) (value : Bytes)

/-- Set an element of one array. -/
def setAt (a : Nat → Bytes) (i : Nat) (v : Bytes) : Nat → Bytes := fun j => if j = i then v else a j

/-- What an operation does to one array of `n` elements. Outside of it the process is told so; a
    program gets nothing, or an errno. -/
def arrayOp (n : Nat) (a : Nat → Bytes) : ArrayOp → (Nat → Bytes) × Res
  | .processGet i => if i.toNat < n then (a, .value (a i.toNat)) else (a, .outOfBounds)
  | .processSet i v flags =>
      if ¬ i.toNat < n then (a, .outOfBounds)
      else if flags > 2 then (a, .failed 22)
      else if flags = 1 then (a, .failed 17)
      else (setAt a i.toNat v, .done)
  | .programGet i => if i.toNat < n then (a, .value (a i.toNat)) else (a, .missing)
  | .programSet i v flags =>
      if flags > 2 then (a, .failed 22)
      else if ¬ i.toNat < n then (a, .failed 7)
      else if flags = 1 then (a, .failed 17)
      else (setAt a i.toNat v, .done)
  | .programWrite i v => if i.toNat < n then (setAt a i.toNat v, .done) else (a, .missing)

/-- Run several operations on one array. -/
def arrayRun (n : Nat) : (Nat → Bytes) → List ArrayOp → (Nat → Bytes) × List Res
  | a, [] => (a, [])
  | a, op :: ops =>
      let r := arrayOp n a op
      let rs := arrayRun n r.1 ops
      (rs.1, r.2 :: rs.2)

/-! ## Per-CPU arrays -/

/-- The kernel's per-CPU array (`arraymap.c`, `bpf_percpu_array_copy`, `bpf_percpu_array_update`): for
    every index one block of memory per CPU, of `stride` bytes. A system call reads and writes the blocks
    of all CPUs, one after another. -/
def percpuStep (fd stride : Nat) : Step (List (List Bytes)) := fun es c =>
  match c with
  | .lookup f (some key) _ =>
      if f ≠ fd then (es, .error 9) else
      match es[ofLe key]? with
      | some blocks => (es, .ok { data := blocks.flatten })
      | none => (es, .error 2)
  | .update f (some key) v flags =>
      if f ≠ fd then (es, .error 9)
      else if flags > 2 then (es, .error 22)
      else
        match es[ofLe key]? with
        | none => (es, .error 7)
        | some blocks =>
            if flags = 1 then (es, .error 17)
            else
              (es.set (ofLe key)
                ((List.range blocks.length).map fun c => (v.drop (c * stride)).take stride), .ok {})
  | _ => (es, .error 22)

/-- A block with its first bytes replaced. -/
def overwrite (block v : Bytes) : Bytes := v ++ block.drop v.length

/-- Store `v` at the start of the block of CPU `cpu` at `index`. -/
def percpuStore (index cpu : Nat) (v : Bytes) (es : List (List Bytes)) : List (List Bytes) :=
  match es[index]? with
  | some blocks =>
      match blocks[cpu]? with
      | some b => es.set index (blocks.set cpu (overwrite b v))
      | none => es
  | none => es

/-- The helper functions called by a program running on CPU `cpu`: they use this CPU's block. -/
def percpuHelpers (size cpu : Nat) : Helpers (List (List Bytes)) where
  lookup key es :=
    match es[ofLe key]? with
    | some blocks => blocks[cpu]?.map (·.take size)
    | none => none
  store key v es := percpuStore (ofLe key) cpu v es
  update key v flags es :=
    if flags > 2 then (-22, es)
    else if es.length ≤ ofLe key then (-7, es)
    else if flags = 1 then (-17, es)
    else (0, percpuStore (ofLe key) cpu v es)
  delete _ es := (-22, es)
  push _ _ es := (-524, es)
  pop b es := (-524, b, es)
  peek b es := (-524, b, es)

/-- An operation on a shared per-CPU array; programs run on a CPU. -/
inductive PercpuOp where
  | processGet (index : BitVec 32)
  | processSet (index : BitVec 32) (values : List Bytes) (flags : Nat)
  | programGet (cpu : Nat) (index : BitVec 32)
  | programSet (cpu : Nat) (index : BitVec 32) (value : Bytes) (flags : Nat)
  | programWrite (cpu : Nat) (index : BitVec 32) (value : Bytes)

/-- The operations there are on a machine with `cpus` CPUs, for values of `size` bytes. -/
def PercpuOp.Fits (cpus size : Nat) : PercpuOp → Prop
  | .processGet _ => True
  | .processSet _ values _ => values.length = cpus ∧ ∀ v ∈ values, v.length = size
  | .programGet cpu _ => cpu < cpus
  | .programSet cpu _ v _ => cpu < cpus ∧ v.length = size
  | .programWrite cpu _ v => cpu < cpus ∧ v.length = size

/-- One table: the value of every index on every CPU. -/
abbrev Table := Nat → Nat → Bytes

/-- The table with one cell replaced. -/
def Table.set (t : Table) (i c : Nat) (v : Bytes) : Table :=
  fun j d => if j = i ∧ d = c then v else t j d

/-- The table with the row `i` replaced. -/
def Table.setRow (t : Table) (i : Nat) (vs : List Bytes) : Table :=
  fun j d => if j = i then vs.getD d [] else t j d

/-- What an operation does to one table with `n` rows and `cpus` columns. -/
def percpuOp (n cpus : Nat) (t : Table) : PercpuOp → Table × Res
  | .processGet i =>
      if i.toNat < n then (t, .values ((List.range cpus).map (t i.toNat))) else (t, .outOfBounds)
  | .processSet i vs flags =>
      if ¬ i.toNat < n then (t, .outOfBounds)
      else if flags > 2 then (t, .failed 22)
      else if flags = 1 then (t, .failed 17)
      else (t.setRow i.toNat vs, .done)
  | .programGet c i => if i.toNat < n then (t, .value (t i.toNat c)) else (t, .missing)
  | .programSet c i v flags =>
      if flags > 2 then (t, .failed 22)
      else if ¬ i.toNat < n then (t, .failed 7)
      else if flags = 1 then (t, .failed 17)
      else (t.set i.toNat c v, .done)
  | .programWrite c i v => if i.toNat < n then (t.set i.toNat c v, .done) else (t, .missing)

/-- Run several operations on one table. -/
def percpuRun (n cpus : Nat) : Table → List PercpuOp → Table × List Res
  | t, [] => (t, [])
  | t, op :: ops =>
      let r := percpuOp n cpus t op
      let rs := percpuRun n cpus r.1 ops
      (rs.1, r.2 :: rs.2)

/-! ## Queues and stacks -/

/-- The helper functions for a queue or stack. -/
def queueHelpers (fifo : Bool) (fd cap : Nat) : Helpers (List Bytes) where
  lookup _ _ := none
  store _ _ q := q
  update _ _ _ q := (-22, q)
  delete _ q := (-22, q)
  push v flags q :=
    let r := Maps.Spec.queueStep fifo fd cap q (.update fd none v flags)
    (helperRet r.2, r.1)
  pop b q :=
    match Maps.Spec.queueStep fifo fd cap q (.lookupDelete fd none 0) with
    | (q, .ok o) => (0, o.data, q)
    | (q, .error e) => (-(e : Int), b.map fun _ => 0, q)
  peek b q :=
    match (if fifo then q.head? else q.getLast?) with
    | some v => (0, v, q)
    | none => (-2, b.map fun _ => 0, q)

/-- An operation on a shared queue or stack. -/
inductive QueueOp where
  | processPush (value : Bytes) (flags : Nat)
  | processPop
  | programPush (value : Bytes) (flags : Nat)
  | programPop
  | programPeek

/-- Put a value at the end of the list, as the flags say. -/
def offer (cap : Nat) (q : List Bytes) (v : Bytes) (flags : Nat) : List Bytes × Res :=
  if flags = 1 ∨ flags > 2 then (q, .failed 22)
  else if q.length < cap then (q ++ [v], .done)
  else if flags = 2 then (q.tail ++ [v], .done)
  else (q, .failed 7)

/-- The value next to leave, and what remains. -/
def next (fifo : Bool) (q : List Bytes) : Option (Bytes × List Bytes) :=
  match fifo, q, q.reverse with
  | true, v :: rest, _ => some (v, rest)
  | false, _, v :: rest => some (v, rest.reverse)
  | _, _, _ => none

/-- What an operation does to one queue or stack. -/
def queueOp (fifo : Bool) (cap : Nat) (q : List Bytes) : QueueOp → List Bytes × Res
  | .processPush v flags => offer cap q v flags
  | .programPush v flags => offer cap q v flags
  | .processPop =>
      match next fifo q with
      | some (v, rest) => (rest, .value v)
      | none => (q, .missing)
  | .programPop =>
      match next fifo q with
      | some (v, rest) => (rest, .value v)
      | none => (q, .missing)
  | .programPeek =>
      match next fifo q with
      | some (v, _) => (q, .value v)
      | none => (q, .missing)

/-- Run several operations on one queue or stack. -/
def queueRun (fifo : Bool) (cap : Nat) : List Bytes → List QueueOp → List Bytes × List Res
  | q, [] => (q, [])
  | q, op :: ops =>
      let r := queueOp fifo cap q op
      let rs := queueRun fifo cap r.1 ops
      (rs.1, r.2 :: rs.2)

/-! ## Bloom filters -/

/-- The kernel's Bloom filter (`kernel/bpf/bloom_filter.c`): values inserted so far. `extra` decides which
    other values are reported as present, as a hash collision would. -/
def bloomStep (fd : Nat) (extra : List Bytes → Bytes → Bool) : Step (List Bytes) := fun vs c =>
  match c with
  | .update f none v flags =>
      if f ≠ fd then (vs, .error 9) else if flags ≠ 0 then (vs, .error 22) else (v :: vs, .ok {})
  | .peek f v _ =>
      if f ≠ fd then (vs, .error 9) else
      if v ∈ vs ∨ extra vs v = true then (vs, .ok { data := v }) else (vs, .error 2)
  | _ => (vs, .error 22)

/-- The helper functions for a Bloom filter. -/
def bloomHelpers (fd : Nat) (extra : List Bytes → Bytes → Bool) : Helpers (List Bytes) where
  lookup _ _ := none
  store _ _ vs := vs
  update _ _ _ vs := (-22, vs)
  delete _ vs := (-524, vs)
  push v flags vs :=
    let r := bloomStep fd extra vs (.update fd none v flags)
    (helperRet r.2, r.1)
  pop b vs := (-524, b, vs)
  peek b vs :=
    let r := bloomStep fd extra vs (.peek fd b 0)
    (helperRet r.2, b, r.1)

/-- An operation on a shared Bloom filter. -/
inductive BloomOp where
  | processInsert (value : Bytes)
  | processContains (value : Bytes)
  | programInsert (value : Bytes)
  | programContains (value : Bytes)

/-- The value an operation adds. -/
def BloomOp.added : BloomOp → Option Bytes
  | .processInsert v => some v
  | .programInsert v => some v
  | _ => none

/-- The value an operation asks for. -/
def BloomOp.asked : BloomOp → Option Bytes
  | .processContains v => some v
  | .programContains v => some v
  | _ => none

/-! ## Longest-prefix-match tries -/

/-- The bits of a byte, most significant first. -/
def byteBits (b : UInt8) : List Bool := [7, 6, 5, 4, 3, 2, 1, 0].map b.toNat.testBit

/-- The first `n` bits of some bytes: what a prefix stands for. -/
def prefixBits (n : Nat) (data : Bytes) : List Bool := (data.flatMap byteBits).take n

/-- The rules of a trie: a prefix and its value. -/
abbrev Rules := List (List Bool × Bytes)

/-- The rule with the longest prefix of `bits`. -/
def longest (bits : List Bool) : Rules → Option (List Bool × Bytes)
  | [] => none
  | r :: rs =>
      match longest bits rs with
      | none => if r.1 <+: bits then some r else none
      | some best => if r.1 <+: bits ∧ best.1.length < r.1.length then some r else some best

/-- The kernel's trie (`kernel/bpf/lpm_trie.c`): a key is a 32-bit number of bits in the byte order of the
    machine, then `width` bytes, of which the most significant bit comes first. -/
def trieStep (fd width cap : Nat) : Step Rules := fun rs c =>
  match c with
  | .lookup f (some key) _ =>
      if f ≠ fd then (rs, .error 9)
      else if ofLe (key.take 4) > 8 * width then (rs, .error 2)
      else
        match longest (prefixBits (ofLe (key.take 4)) (key.drop 4)) rs with
        | some r => (rs, .ok { data := r.2 })
        | none => (rs, .error 2)
  | .update f (some key) v flags =>
      if f ≠ fd then (rs, .error 9)
      else if flags > 2 then (rs, .error 22)
      else if ofLe (key.take 4) > 8 * width then (rs, .error 22)
      else
        let p := prefixBits (ofLe (key.take 4)) (key.drop 4)
        if (rs.lookup p).isSome then
          if flags = 1 then (rs, .error 17) else (rs.map fun r => if r.1 = p then (p, v) else r, .ok {})
        else if flags = 2 then (rs, .error 2)
        else if cap ≤ rs.length then (rs, .error 28)
        else (rs ++ [(p, v)], .ok {})
  | .delete f key =>
      if f ≠ fd then (rs, .error 9)
      else if ofLe (key.take 4) > 8 * width then (rs, .error 22)
      else
        let p := prefixBits (ofLe (key.take 4)) (key.drop 4)
        if (rs.lookup p).isSome then (rs.filter fun r => r.1 ≠ p, .ok {}) else (rs, .error 2)
  | _ => (rs, .error 22)

/-- The helper functions for a trie. -/
def trieHelpers (fd width cap : Nat) : Helpers Rules where
  lookup key rs :=
    match trieStep fd width cap rs (.lookup fd (some key) 0) with
    | (_, .ok o) => some o.data
    | (_, .error _) => none
  store _ _ rs := rs
  update key v flags rs :=
    let r := trieStep fd width cap rs (.update fd (some key) v flags)
    (helperRet r.2, r.1)
  delete key rs :=
    let r := trieStep fd width cap rs (.delete fd key)
    (helperRet r.2, r.1)
  push _ _ rs := (-524, rs)
  pop b rs := (-524, b, rs)
  peek b rs := (-524, b, rs)

/-- What either side does to a trie: the number of bits, and the data. -/
inductive LpmAct where
  | get (bits : BitVec 32) (data : Bytes)
  | insert (bits : BitVec 32) (data value : Bytes) (flags : Nat)
  | remove (bits : BitVec 32) (data : Bytes)

/-- An operation on a shared trie. -/
inductive LpmOp where
  | process (act : LpmAct)
  | program (act : LpmAct)

/-- What the operation is, whoever runs it. -/
def LpmOp.act : LpmOp → LpmAct
  | .process a => a
  | .program a => a

/-- The number of bits of an operation. -/
def LpmAct.bits : LpmAct → BitVec 32
  | .get b _ => b
  | .insert b _ _ _ => b
  | .remove b _ => b

/-- The data of an operation. -/
def LpmAct.data : LpmAct → Bytes
  | .get _ d => d
  | .insert _ d _ _ => d
  | .remove _ d => d

/-- A table of rules, at most one per prefix. -/
structure Routes where
  rule : List Bool → Option Bytes
  count : Nat

/-- The rule for `p` is set. -/
def Routes.set (t : Routes) (p : List Bool) (v : Bytes) : Routes :=
  { rule := fun x => if x = p then some v else t.rule x
    count := if (t.rule p).isSome then t.count else t.count + 1 }

/-- The rule for `p` is removed. -/
def Routes.unset (t : Routes) (p : List Bool) : Routes :=
  { rule := fun x => if x = p then none else t.rule x, count := t.count - 1 }

/-- The value found for `bits`: of the longest prefix having a rule. -/
def Routes.find (t : Routes) (bits : List Bool) : Option Bytes :=
  (List.range (bits.length + 1)).reverse.findSome? fun n => t.rule (bits.take n)

/-- What an operation does to a table of rules for keys of `width` bytes. -/
def lpmOp (width cap : Nat) (t : Routes) : LpmAct → Routes × Res
  | .get b d =>
      if b.toNat > 8 * width then (t, .missing)
      else
        match t.find (prefixBits b.toNat d) with
        | some v => (t, .value v)
        | none => (t, .missing)
  | .insert b d v flags =>
      if flags > 2 ∨ b.toNat > 8 * width then (t, .failed 22)
      else
        match t.rule (prefixBits b.toNat d) with
        | some _ => if flags = 1 then (t, .failed 17) else (t.set (prefixBits b.toNat d) v, .done)
        | none =>
            if flags = 2 then (t, .failed 2)
            else if cap ≤ t.count then (t, .failed 28)
            else (t.set (prefixBits b.toNat d) v, .done)
  | .remove b d =>
      if b.toNat > 8 * width then (t, .failed 22)
      else
        match t.rule (prefixBits b.toNat d) with
        | some _ => (t.unset (prefixBits b.toNat d), .done)
        | none => (t, .failed 2)

/-- Run several operations on a table of rules. -/
def lpmRun (width cap : Nat) : Routes → List LpmOp → Routes × List Res
  | t, [] => (t, [])
  | t, op :: ops =>
      let r := lpmOp width cap t op.act
      let rs := lpmRun width cap r.1 ops
      (rs.1, r.2 :: rs.2)

/-! ## Device maps -/

/-- What the kernel knows: which interfaces exist, and the id of the program behind a descriptor, if it
    is one that can be chained. -/
structure World where
  interface : Nat → Bool
  program : Nat → Option Nat

/-- Slot `i` is given the interface and the program, if the descriptor was one of a program. -/
def devPut (es : List (Option (Nat × Nat))) (i interface : Nat) :
    Option Nat → List (Option (Nat × Nat)) × Except Nat Out
  | some id => (es.set i (some (interface, id)), .ok {})
  | none => (es, .error 22)

/-- The kernel's device map (`kernel/bpf/devmap.c`, `__dev_map_update_elem`): interface and program id
    (0 for none) of every slot. A value written holds an interface and a program descriptor, of which
    those not above 0 mean none. -/
def devStep (w : World) (fd : Nat) : Step (List (Option (Nat × Nat))) := fun es c =>
  match c with
  | .lookup f (some key) _ =>
      if f ≠ fd then (es, .error 9) else
      match es[ofLe key]? with
      | some (some (i, p)) => (es, .ok { data := le 4 i ++ le 4 p })
      | _ => (es, .error 2)
  | .update f (some key) v flags =>
      let ifindex := ofLe (v.take 4)
      let progFd := ofLe ((v.drop 4).take 4)
      if f ≠ fd then (es, .error 9)
      else if flags > 2 then (es, .error 22)
      else if es.length ≤ ofLe key then (es, .error 7)
      else if flags = 1 then (es, .error 17)
      else if ifindex = 0 then
        if progFd = 0 then (es.set (ofLe key) none, .ok {}) else (es, .error 22)
      else if w.interface ifindex = false then (es, .error 22)
      else if progFd = 0 then (es.set (ofLe key) (some (ifindex, 0)), .ok {})
      else devPut es (ofLe key) ifindex (w.program progFd)
  | _ => (es, .error 22)

/-- The helper functions for a device map. -/
def devHelpers (w : World) (fd : Nat) : Helpers (List (Option (Nat × Nat))) where
  lookup key es :=
    match devStep w fd es (.lookup fd (some key) 0) with
    | (_, .ok o) => some o.data
    | (_, .error _) => none
  store _ _ es := es
  update _ _ _ es := (-22, es)
  delete _ es := (-22, es)
  push _ _ es := (-524, es)
  pop b es := (-524, b, es)
  peek b es := (-524, b, es)

/-- `bpf_redirect_map` of a device map without broadcasting (`include/linux/filter.h`,
    `__bpf_xdp_redirect_map`): `XDP_REDIRECT` (4) if the slot is in use, the action in the two lowest bits
    of the flags if not, `XDP_ABORTED` (0) if there are other flags. -/
def redirectRet (present : Bool) (flags : Nat) : Int :=
  if flags > 3 then 0 else if present then 4 else (flags : Int)

/-- The outcome of an operation on a device map. -/
inductive DevRes where
  | entry (interface : Nat) (program : Option Nat)
  | done
  | missing
  | outOfBounds
  | failed (errno : Nat)
  /-- the packet is redirected -/
  | redirect
  /-- the packet is not redirected; the action to return instead -/
  | action (a : Nat)
deriving DecidableEq, Repr

/-- An operation on a shared device map. -/
inductive DevOp where
  | processGet (index : BitVec 32)
  | processSet (index : BitVec 32) (interface : BitVec 32) (program : Option (BitVec 32)) (flags : Nat)
  | programGet (index : BitVec 32)
  | programIfindex (index : BitVec 32)
  | programRedirect (index : BitVec 32) (flags : Nat)

/-- A chained program is not given by descriptor 0, which the kernel takes for "none". -/
def DevOp.Fits : DevOp → Prop
  | .processSet _ _ (some p) _ => p.toNat ≠ 0
  | _ => True

/-- One table of devices: the interface and the chained program of every index. -/
abbrev Devices := Nat → Option (Nat × Option Nat)

/-- What is written at `index`. -/
def writeDev (w : World) (d : Devices) (index interface : Nat) (program : Option Nat) : Devices × DevRes :=
  if interface = 0 then
    match program with
    | none => (fun i => if i = index then none else d i, .done)
    | some _ => (d, .failed 22)
  else if w.interface interface = false then (d, .failed 22)
  else
    match program with
    | none => (fun i => if i = index then some (interface, none) else d i, .done)
    | some p =>
        match w.program p with
        | some id => (fun i => if i = index then some (interface, some id) else d i, .done)
        | none => (d, .failed 22)

/-- What an operation does to one table of `n` devices. -/
def devOp (w : World) (n : Nat) (d : Devices) : DevOp → Devices × DevRes
  | .processGet i =>
      if ¬ i.toNat < n then (d, .outOfBounds)
      else
        match d i.toNat with
        | some (x, p) => (d, .entry x p)
        | none => (d, .missing)
  | .processSet i x p flags =>
      if ¬ i.toNat < n then (d, .outOfBounds)
      else if flags > 2 then (d, .failed 22)
      else if flags = 1 then (d, .failed 17)
      else writeDev w d i.toNat x.toNat (p.map BitVec.toNat)
  | .programGet i =>
      match d i.toNat with
      | some (x, p) => (d, .entry x p)
      | none => (d, .missing)
  | .programIfindex i =>
      match d i.toNat with
      | some (x, _) => (d, .entry x none)
      | none => (d, .missing)
  | .programRedirect i flags =>
      if flags > 3 then (d, .action 0)
      else
        match d i.toNat with
        | some _ => (d, .redirect)
        | none => (d, .action flags)

/-- Run several operations on one table of devices. -/
def devRun (w : World) (n : Nat) : Devices → List DevOp → Devices × List DevRes
  | d, [] => (d, [])
  | d, op :: ops =>
      let r := devOp w n d op
      let rs := devRun w n r.1 ops
      (rs.1, r.2 :: rs.2)

end Verif.Shared.Spec
