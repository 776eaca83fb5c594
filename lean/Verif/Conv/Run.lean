import Verif.Conv.Spec
/-!
# Histories of the code on the kernel

What the operations do when the code runs on the kernel. A process has links at hand, with their descriptors.
-/
namespace Verif.Conv
open Verif.Conv.Spec (K Obj Shape Op Out offers)

/-- A link at hand: `XdpLink` and so on, `FdLink`, `PinnedLink`, `File`. -/
inductive Handle where
  | typed (k : Kind) (l : Inner)
  | fdLink (fd : Nat)
  | pinned (path fd : Nat)
  | file (fd : Nat)
deriving DecidableEq, Repr

structure St where
  hs : List Handle
  k : K
deriving DecidableEq, Repr

variable (pick : List (Nat × Obj) → Nat)

/-- The kernel attaches one program and opens a descriptor for it. -/
def attachOne (prog type : Nat) (o : Nat → Obj) (k : K) : Nat × K :=
  K.open pick { k with made := k.made ++ [(prog, type)] } (o k.made.length)

/-- The kernel attaches a program at several places. -/
def attachMany (prog type : Nat) (o : Nat → Obj) : Nat → K → List Nat × K
  | 0, k => ([], k)
  | n + 1, k => ((attachOne pick prog type o k).1 :: (attachMany prog type o n (attachOne pick prog type o k).2).1,
      (attachMany prog type o n (attachOne pick prog type o k).2).2)

/-- What the kernel does for attaching, and the parts of the link that comes of it. -/
def attach (sh : Shape) (prog : Nat) (k : K) : Inner × K :=
  match sh with
  | .link t => (.fd (attachOne pick prog t .link k).1, (attachOne pick prog t .link k).2)
  | .direct => (.direct k.made.length, { k with made := k.made ++ [(prog, 0)], direct := k.direct ++ [k.made.length] })
  | .perf => (.perf (attachOne pick prog 0 (.perf · true) k).1, (attachOne pick prog 0 (.perf · true) k).2)
  | .links n => (.fds (attachMany pick prog 7 .link n k).1, (attachMany pick prog 7 .link n k).2)
  | .perfs n => (.perfs (attachMany pick prog 0 (.perf · true) n k).1, (attachMany pick prog 0 (.perf · true) n k).2)

/-- `Drop` of whatever is at hand. -/
def dropHandle {σ : Type} (os : Os σ) : Handle → σ → σ
  | .typed k l, s => dropLink os k l s
  | .fdLink fd, s => os.close fd s
  | .pinned _ fd, s => os.close fd s
  | .file fd, s => os.close fd s

/-- The result of an operation that makes a link, or none. -/
def out {α : Type} (n : Nat) : Except Err α → Out
  | .ok _ => .made n
  | .error e => .failed e

/-- What was made, at hand. -/
def new {α : Type} (f : α → Handle) : Except Err α → List Handle
  | .ok x => [f x]
  | .error _ => []

/-- One operation. -/
def step (s : St) (op : Op) (fail : Option Nat) : Out × St :=
  let os := Spec.os pick fail
  let rest (i : Nat) := s.hs.eraseIdx i
  match op with
  | .attach k sh prog =>
    if offers k sh then (.made 1, ⟨s.hs ++ [.typed k (attach pick sh prog s.k).1], (attach pick sh prog s.k).2⟩) else (.noSuch, s)
  | .drop i =>
    match s.hs[i]? with
    | some h => (.made 0, ⟨rest i, dropHandle os h s.k⟩)
    | none => (.noSuch, s)
  | .detach i =>
    match s.hs[i]? with
    | some (.typed k l) => (out 0 (detachLink os k l s.k).1, ⟨rest i, (detachLink os k l s.k).2⟩)
    | some (.fdLink fd) => (.made 0, ⟨rest i, os.close fd s.k⟩)
    | _ => (.noSuch, s)
  | .toFd i =>
    match s.hs[i]? with
    | some (.typed _ l) => (out 1 (toFd os l s.k).1, ⟨rest i ++ new .fdLink (toFd os l s.k).1, (toFd os l s.k).2⟩)
    | _ => (.noSuch, s)
  | .ofFd i k =>
    match s.hs[i]? with
    | some (.fdLink fd) =>
      if fromFd k = false then (.noSuch, s)
      else (out 1 (ofFd os k fd s.k).1, ⟨rest i ++ new (.typed k) (ofFd os k fd s.k).1, (ofFd os k fd s.k).2⟩)
    | _ => (.noSuch, s)
  | .intoFds i =>
    match s.hs[i]? with
    | some (.typed .uprobe l) =>
      match intoFds l with
      | .ok fds => (.made fds.length, ⟨rest i ++ fds.map .fdLink, s.k⟩)
      | .error l => (.back, ⟨rest i ++ [.typed .uprobe l], s.k⟩)
    | _ => (.noSuch, s)
  | .intoFile i =>
    match s.hs[i]? with
    | some (.typed .iter l) =>
      (out 1 (intoFile os l s.k).1, ⟨rest i ++ new .file (intoFile os l s.k).1, (intoFile os l s.k).2⟩)
    | _ => (.noSuch, s)
  | .pin i path =>
    match s.hs[i]? with
    | some (.fdLink fd) =>
      (out 1 (pin os fd path s.k).1, ⟨rest i ++ new (fun _ => .pinned path fd) (pin os fd path s.k).1, (pin os fd path s.k).2⟩)
    | _ => (.noSuch, s)
  | .unpin i =>
    match s.hs[i]? with
    | some (.pinned path fd) =>
      (out 1 (unpin os fd path s.k).1, ⟨rest i ++ new .fdLink (unpin os fd path s.k).1, (unpin os fd path s.k).2⟩)
    | _ => (.noSuch, s)
  /- `From<PinnedLink> for FdLink` (links.rs:331-335). -/
  | .unwrap i =>
    match s.hs[i]? with
    | some (.pinned _ fd) => (.made 1, ⟨rest i ++ [.fdLink fd], s.k⟩)
    | _ => (.noSuch, s)
  | .fromPin path =>
    (out 1 (fromPin os path s.k).1, ⟨s.hs ++ new (.pinned path) (fromPin os path s.k).1, (fromPin os path s.k).2⟩)
  | .info i =>
    match s.hs[i]? with
    | some (.fdLink fd) =>
      match info os fd s.k with
      | .ok x => (.info x, s)
      | .error e => (.failed e, s)
    | _ => (.noSuch, s)
  | .remove path => (.made 0, { s with k := { s.k with files := s.k.files.filter (·.1 ≠ path) } })

def run (s : St) : List (Op × Option Nat) → List Out × St
  | [] => ([], s)
  | (op, fail) :: rest => ((step pick s op fail).1 :: (run (step pick s op fail).2 rest).1, (run (step pick s op fail).2 rest).2)

/-- Nothing attached, nothing at hand. -/
def start : St := ⟨[], ⟨[], [], [], []⟩⟩

end Verif.Conv
