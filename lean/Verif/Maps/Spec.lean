import Verif.Maps.Model

/-!
# Specification vocabulary for the map API

Only the kernel interface (`Call`, `Out`, `Kernel`, `Hist`) and byte encoding are shared with the model.
-/
namespace Verif.Maps.Spec
open Verif.Bytes

/-- `stride` is `size` rounded up to a multiple of 8. -/
def IsStride (size stride : Nat) : Prop := 8 ∣ stride ∧ size ≤ stride ∧ stride < size + 8

/-- The `stride` bytes the kernel reserves for CPU number `i`. -/
def slot (stride i : Nat) (mem : Bytes) : Bytes := (mem.drop (i * stride)).take stride

/-- The single system call an operation on a map indexed by numbers is meant to make; `none` for storing
    a chained program on a kernel without support, which makes none. -/
def indexedCall (fd index : Nat) : IndexedOp → Option Call
  | .arrayGet flags => some (.lookup fd (some (le 4 index)) flags)
  | .arraySet value flags => some (.update fd (some (le 4 index)) value flags)
  | .fdSet f flags => some (.update fd (some (le 4 index)) (le 4 f) flags)
  | .clear => some (.delete fd (le 4 index))
  | .chainGet _ flags => some (.lookup fd (some (le 4 index)) flags)
  | .chainSet true target prog flags =>
      some (.update fd (some (le 4 index)) (le 4 target ++ le 4 (prog.getD 0)) flags)
  | .chainSet false target none flags => some (.update fd (some (le 4 index)) (le 4 target) flags)
  | .chainSet false _ (some _) _ => none

/-- Whether an operation reads. -/
def isGet : IndexedOp → Bool
  | .arrayGet _ => true
  | .chainGet _ _ => true
  | _ => false

/-- The value an operation returns when its call succeeds with `o`: reads decode the bytes, writes
    return nothing. -/
def indexedOk (o : Out) : IndexedOp → IndexedRes
  | .arrayGet _ => .value o.data
  | .chainGet true _ =>
      .chain (ofLe (o.data.take 4))
        (if ofLe ((o.data.drop 4).take 4) = 0 then none else some (ofLe ((o.data.drop 4).take 4)))
  | .chainGet false _ => .chain (ofLe (o.data.take 4)) none
  | _ => .unit

/-- The contents of an array after the calls `h`, if nobody else writes to it. -/
def arrayContents (fd : Nat) (init : Nat → Bytes) : Hist → Nat → Bytes
  | [], i => init i
  | .update f (some key) v _ :: h, i =>
      if f = fd then arrayContents fd (fun j => if key = le 4 j then v else init j) h i
      else arrayContents fd init h i
  | _ :: h, i => arrayContents fd init h i

/-- The kernel holds an array of `n` elements behind `fd`, nobody else writes to it and no call fails
    for an index below `n`. -/
def IsArray (k : Kernel) (fd n : Nat) (init : Nat → Bytes) : Prop :=
  (∀ h i flags, i < n → k h (.lookup fd (some (le 4 i)) flags) = .ok { data := arrayContents fd init h i }) ∧
  (∀ h i v flags, i < n → ∃ o, k h (.update fd (some (le 4 i)) v flags) = .ok o)

/-- The kernel enumerates exactly the keys `ks`, in this order, ending with `ENOENT` (2). -/
structure Enumerates (k : Kernel) (fd : Nat) (ks : List Bytes) : Prop where
  nodup : ks.Nodup
  empty : ks = [] → ∀ h, k h (.nextKey fd none) = .error 2
  first : ∀ h key, ks[0]? = some key → k h (.nextKey fd none) = .ok { data := key }
  next : ∀ h (i : Nat) key key', ks[i]? = some key → ks[i + 1]? = some key' →
    k h (.nextKey fd (some key)) = .ok { data := key' }
  last : ∀ h key, ks.getLast? = some key → k h (.nextKey fd (some key)) = .error 2

/-- Whether an id is in use may change with time: `live h id`. The kernel answers "the smallest id in
    use above `start`", or `ENOENT` (2) if there is none, and never fails otherwise. Ids are 32-bit. -/
structure LiveIds (k : Kernel) (cmd : Nat) (live : Hist → Nat → Prop) : Prop where
  found : ∀ h start o, k h (.nextId cmd start) = .ok o →
    live h o.num ∧ start < o.num ∧ ∀ j, start < j → j < o.num → ¬ live h j
  done : ∀ h start e, k h (.nextId cmd start) = .error e → e = 2 ∧ ∀ j, start < j → ¬ live h j
  bound : ∀ h j, live h j → j < 2 ^ 32

/-- The calls that fill and protect a map with initial bytes `data`: write the data under key 0, then
    freeze if read-only. -/
def initCalls (fd : Nat) (data : Bytes) (readOnly : Bool) : List Call :=
  (if data = [] then [] else [.update fd (some [0, 0, 0, 0]) data 0]) ++
  (if readOnly then [.freeze fd] else [])

end Verif.Maps.Spec
