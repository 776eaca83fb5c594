import Verif.Conv.Model
/-!
# Attachments, and what links mean to their users

First the kernel: attachments, the descriptors and files that keep them, and the system calls. Then, without any descriptors,
what the operations on links mean: a link stands for attachments, turning it into another kind of link changes only its kind.
Nothing here uses the code; only the types of its interface are shared.
-/
namespace Verif.Conv.Spec
open Verif.Conv (Info Os Kind Err)

/-! ## The kernel -/

/-- What a descriptor stands for: a link, a perf event with the program on it (and whether it is on), or the output of an
iterator program. Attachments have numbers. -/
inductive Obj where
  | link (u : Nat)
  | perf (u : Nat) (on : Bool)
  | out (u : Nat)
deriving DecidableEq, Repr

/-- The kernel: what was attached so far, by number (program and type of link; 0 if there is no link); open descriptors;
files that pin links; and attachments made through netlink or `BPF_PROG_ATTACH`. -/
structure K where
  made : List (Nat × Nat)
  fds : List (Nat × Obj)
  files : List (Nat × Nat)
  direct : List Nat
deriving DecidableEq, Repr

/-- An attachment is in effect as long as a descriptor or file keeps its link, its perf event is open and on, or it was made
without a link and is not undone. -/
def K.inEffect (k : K) (u : Nat) : Prop :=
  (∃ fd, (fd, Obj.link u) ∈ k.fds) ∨ (∃ fd, (fd, Obj.perf u true) ∈ k.fds) ∨ (∃ path, (path, u) ∈ k.files) ∨ u ∈ k.direct

instance (k : K) (u : Nat) : Decidable (k.inEffect u) :=
  decidable_of_iff (k.fds.any (fun e => e.2 = .link u) ∨ k.fds.any (fun e => e.2 = .perf u true) ∨
      k.files.any (fun e => e.2 = u) ∨ u ∈ k.direct) (by
    unfold K.inEffect
    refine or_congr ?_ (or_congr ?_ (or_congr ?_ Iff.rfl))
    · simp only [List.any_eq_true, decide_eq_true_eq]
      exact ⟨fun ⟨e, h, h'⟩ => ⟨e.1, h' ▸ h⟩, fun ⟨fd, h⟩ => ⟨_, h, rfl⟩⟩
    · simp only [List.any_eq_true, decide_eq_true_eq]
      exact ⟨fun ⟨e, h, h'⟩ => ⟨e.1, h' ▸ h⟩, fun ⟨fd, h⟩ => ⟨_, h, rfl⟩⟩
    · simp only [List.any_eq_true, decide_eq_true_eq]
      exact ⟨fun ⟨e, h, h'⟩ => ⟨e.1, h' ▸ h⟩, fun ⟨p, h⟩ => ⟨_, h, rfl⟩⟩)

/-- What a descriptor stands for. -/
def K.at (k : K) (fd : Nat) : Option Obj := (k.fds.find? (·.1 = fd)).map (·.2)

/-- The link a file pins. -/
def K.named (k : K) (path : Nat) : Option Nat := (k.files.find? (·.1 = path)).map (·.2)

def K.open (pick : List (Nat × Obj) → Nat) (k : K) (o : Obj) : Nat × K :=
  (pick k.fds, { k with fds := k.fds ++ [(pick k.fds, o)] })

/-- The system calls. `pick` chooses the number of a new descriptor; `fail` makes a call fail that can. Errors: 2 no such
file, 9 bad descriptor, 17 file exists, 22 not a link of the right type. -/
def os (pick : List (Nat × Obj) → Nat) (fail : Option Nat) : Os K where
  close fd k := { k with fds := k.fds.filter (·.1 ≠ fd) }
  disable fd k := { k with fds := k.fds.map (fun e => if e.1 = fd then (e.1, match e.2 with
    | .perf u _ => .perf u false
    | o => o) else e) }
  detach u k :=
    match fail with
    | some e => (.error e, k)
    | none => (.ok (), { k with direct := k.direct.filter (· ≠ u) })
  info fd k :=
    match fail, k.at fd with
    | some e, _ => .error e
    | none, some (.link u) => .ok ⟨u, (k.made[u]?.getD (0, 0)).1, (k.made[u]?.getD (0, 0)).2⟩
    | none, _ => .error 22
  createIter fd k :=
    match fail, k.at fd with
    | some e, _ => (.error e, k)
    | none, some (.link u) =>
      if (k.made[u]?.getD (0, 0)).2 = 4 then (.ok (k.open pick (.out u)).1, (k.open pick (.out u)).2) else (.error 22, k)
    | none, _ => (.error 22, k)
  pin fd path k :=
    match fail, k.at fd, k.named path with
    | some e, _, _ => (.error e, k)
    | none, some (.link u), none => (.ok (), { k with files := k.files ++ [(path, u)] })
    | none, some (.link _), some _ => (.error 17, k)
    | none, _, _ => (.error 22, k)
  get path k :=
    match fail, k.named path with
    | some e, _ => (.error e, k)
    | none, some u => (.ok (k.open pick (.link u)).1, (k.open pick (.link u)).2)
    | none, none => (.error 2, k)
  unlink path k :=
    match fail, k.named path with
    | some e, _ => (.error e, k)
    | none, some _ => (.ok (), { k with files := k.files.filter (·.1 ≠ path) })
    | none, none => (.error 2, k)

/-- New descriptors have numbers not in use. -/
def Fresh (pick : List (Nat × Obj) → Nat) : Prop := ∀ fds, ∀ e ∈ fds, e.1 ≠ pick fds

/-! ## Attaching -/

/-- How an attachment is kept: by a link of a type, directly, by a perf event, by several links, by several perf events. -/
inductive Shape where
  | link (type : Nat)
  | direct
  | perf
  | links (n : Nat)
  | perfs (n : Nat)
deriving DecidableEq, Repr

/-- What attaching a program of a kind can give, on one kernel or another: types of links (`enum bpf_link_type`) are 1 raw
trace point, 2 tracing, 3 cgroup, 4 iterator, 5 network name space, 6 XDP, 7 perf event, 11 TCX, 12 many user probes. Many
user probes may need a link or perf event each. -/
def offers : Kind → Shape → Bool
  | .xdp, .link t => t = 6
  | .xdp, .direct => true
  | .tc, .link t => t = 11
  | .tc, .direct => true
  | .tracePoint, .link t | .kprobe, .link t | .perfEvent, .link t => t = 7
  | .tracePoint, .perf | .kprobe, .perf | .perfEvent, .perf => true
  | .uprobe, .link t => t = 7 ∨ t = 12
  | .uprobe, .perf | .uprobe, .links _ | .uprobe, .perfs _ => true
  | .iter, .link t => t = 4
  | .sockOps, .link t | .cgroup, .link t => t = 3
  | .sockOps, .direct | .cgroup, .direct => true
  | .flowDissector, .link t => t = 5
  | .flowDissector, .direct => true
  | .tracing, .link t => t = 1 ∨ t = 2 ∨ t = 5
  | _, _ => false

/-- The operations on links. Links are named by their position among the links at hand; what an operation makes is put at the
end. -/
inductive Op where
  /-- a program is attached and its link taken out of the program -/
  | attach (k : Kind) (sh : Shape) (prog : Nat)
  | drop (i : Nat)
  | detach (i : Nat)
  /-- typed link to `FdLink` -/
  | toFd (i : Nat)
  /-- `FdLink` to typed link -/
  | ofFd (i : Nat) (k : Kind)
  /-- `into_fd_links` -/
  | intoFds (i : Nat)
  /-- `into_file` -/
  | intoFile (i : Nat)
  | pin (i path : Nat)
  | unpin (i : Nat)
  /-- `PinnedLink` to `FdLink` -/
  | unwrap (i : Nat)
  | fromPin (path : Nat)
  | info (i : Nat)
  /-- somebody removes the file -/
  | remove (path : Nat)
deriving DecidableEq, Repr

/-- What an operation returns: `n` new links, an error, the link itself, or information. -/
inductive Out where
  | made (n : Nat)
  | failed (e : Err)
  | back
  | info (i : Info)
  | noSuch
deriving DecidableEq, Repr

/-! ## What the operations mean -/

/-- How a typed link keeps its attachments. -/
inductive By where
  | link | direct | perf | links | perfs
deriving DecidableEq, Repr

/-- What a user has at hand: a typed link, an `FdLink`, a `PinnedLink`, the output of an iterator. -/
inductive Have where
  | typed (k : Kind) (b : By) (us : List Nat)
  | fdLink (u : Nat)
  | pinned (path u : Nat)
  | out (u : Nat)
deriving DecidableEq, Repr

/-- The attachments it stands for. -/
def Have.holds : Have → List Nat
  | .typed _ _ us => us
  | .fdLink u => [u]
  | .pinned _ u => [u]
  | .out _ => []

/-- What was attached, what is at hand, which files pin what, and what is attached although nothing stands for it. -/
structure A where
  made : List (Nat × Nat)
  have_ : List Have
  files : List (Nat × Nat)
  left : List Nat
deriving DecidableEq, Repr

/-- Something at hand, or a file, stands for the attachment. -/
def A.held (a : A) (u : Nat) : Prop := (∃ h ∈ a.have_, u ∈ h.holds) ∨ ∃ path, (path, u) ∈ a.files

def A.type (a : A) (u : Nat) : Nat := (a.made[u]?.getD (0, 0)).2

def A.named (a : A) (path : Nat) : Option Nat := (a.files.find? (·.1 = path)).map (·.2)

/-- The links that can become a typed link of a kind. -/
def accepts (k : Kind) (type : Nat) : Bool :=
  match k with
  | .tracing => true
  | .xdp => type = 6
  | .tc => type = 11
  | .tracePoint | .kprobe | .perfEvent => type = 7
  | .uprobe => type = 7 ∨ type = 12
  | .iter => type = 4
  | _ => false

/-- Whether there is such a conversion, whether or not it succeeds. -/
def convertible : Kind → Bool
  | .sockOps | .cgroup | .flowDissector => false
  | _ => true

def A.take (a : A) (i : Nat) : A := { a with have_ := a.have_.eraseIdx i }

def A.put (a : A) (h : List Have) : A := { a with have_ := a.have_ ++ h }

/-- Letting go of a typed link undoes its attachments, unless they were made without a link and undoing them fails. -/
def A.undo (a : A) (b : By) (us : List Nat) (fail : Option Nat) : A :=
  if b = .direct ∧ fail.isSome then { a with left := a.left ++ us } else a

/-- What letting go returns: failure is told except for XDP. -/
def undone (k : Kind) (b : By) (fail : Option Nat) : Out :=
  match b, fail with
  | .direct, some e => if k = .xdp then .made 0 else .failed (.syscall e)
  | _, _ => .made 0

/-- Giving up a typed link without undoing: what was made without a link stays. -/
def A.giveUp (a : A) (b : By) (us : List Nat) : A :=
  if b = .direct then { a with left := a.left ++ us } else a

/-- What attaching gives. -/
def A.attach (a : A) (k : Kind) (sh : Shape) (prog : Nat) : A :=
  let u := a.made.length
  match sh with
  | .link t => ⟨a.made ++ [(prog, t)], a.have_ ++ [.typed k .link [u]], a.files, a.left⟩
  | .direct => ⟨a.made ++ [(prog, 0)], a.have_ ++ [.typed k .direct [u]], a.files, a.left⟩
  | .perf => ⟨a.made ++ [(prog, 0)], a.have_ ++ [.typed k .perf [u]], a.files, a.left⟩
  | .links n => ⟨a.made ++ List.replicate n (prog, 7), a.have_ ++ [.typed k .links (List.range' u n)], a.files, a.left⟩
  | .perfs n => ⟨a.made ++ List.replicate n (prog, 0), a.have_ ++ [.typed k .perfs (List.range' u n)], a.files, a.left⟩

/-- One operation; `fail` says whether the kernel refuses. -/
def step (a : A) (op : Op) (fail : Option Nat) : Out × A :=
  match op with
  | .attach k sh prog => if offers k sh then (.made 1, a.attach k sh prog) else (.noSuch, a)
  | .drop i =>
    match a.have_[i]? with
    | some (.typed _ b us) => (.made 0, (a.take i).undo b us fail)
    | some _ => (.made 0, a.take i)
    | none => (.noSuch, a)
  | .detach i =>
    match a.have_[i]? with
    | some (.typed k b us) => (undone k b fail, (a.take i).undo b us fail)
    | some (.fdLink _) => (.made 0, a.take i)
    | _ => (.noSuch, a)
  | .toFd i =>
    match a.have_[i]? with
    | some (.typed _ .link [u]) => (.made 1, (a.take i).put [.fdLink u])
    | some (.typed _ b us) => (.failed .invalidLink, (a.take i).giveUp b us)
    | _ => (.noSuch, a)
  | .ofFd i k =>
    match a.have_[i]? with
    | some (.fdLink u) =>
      if convertible k = false then (.noSuch, a)
      else if k = .tracing then (.made 1, (a.take i).put [.typed k .link [u]])
      else
        match fail with
        | some e => (.failed (.syscall e), a.take i)
        | none =>
          if accepts k (a.type u) then (.made 1, (a.take i).put [.typed k .link [u]])
          else (.failed .invalidLink, a.take i)
    | _ => (.noSuch, a)
  | .intoFds i =>
    match a.have_[i]? with
    | some (.typed .uprobe b us) =>
      if b = .link ∨ b = .links then (.made us.length, (a.take i).put (us.map .fdLink))
      else (.back, (a.take i).put [.typed .uprobe b us])
    | _ => (.noSuch, a)
  | .intoFile i =>
    match a.have_[i]? with
    | some (.typed .iter .link [u]) =>
      match fail with
      | some e => (.failed (.syscall e), a.take i)
      | none => (.made 1, (a.take i).put [.out u])
    | _ => (.noSuch, a)
  | .pin i path =>
    match a.have_[i]? with
    | some (.fdLink u) =>
      match fail, a.named path with
      | some e, _ => (.failed (.syscall e), a.take i)
      | none, none => (.made 1, { (a.take i).put [.pinned path u] with files := a.files ++ [(path, u)] })
      | none, some _ => (.failed (.syscall 17), a.take i)
    | _ => (.noSuch, a)
  | .unpin i =>
    match a.have_[i]? with
    | some (.pinned path u) =>
      match fail, a.named path with
      | some e, _ => (.failed (.syscall e), a.take i)
      | none, some _ => (.made 1, { (a.take i).put [.fdLink u] with files := a.files.filter (·.1 ≠ path) })
      | none, none => (.failed (.syscall 2), a.take i)
    | _ => (.noSuch, a)
  | .unwrap i =>
    match a.have_[i]? with
    | some (.pinned _ u) => (.made 1, (a.take i).put [.fdLink u])
    | _ => (.noSuch, a)
  | .fromPin path =>
    match fail, a.named path with
    | some e, _ => (.failed (.syscall e), a)
    | none, some u => (.made 1, a.put [.pinned path u])
    | none, none => (.failed (.syscall 2), a)
  | .info i =>
    match a.have_[i]? with
    | some (.fdLink u) =>
      match fail with
      | some e => (.failed (.syscall e), a)
      | none => (.info ⟨u, (a.made[u]?.getD (0, 0)).1, a.type u⟩, a)
    | _ => (.noSuch, a)
  | .remove path => (.made 0, { a with files := a.files.filter (·.1 ≠ path) })

def run (a : A) : List (Op × Option Nat) → List Out × A
  | [] => ([], a)
  | (op, fail) :: rest => ((step a op fail).1 :: (run (step a op fail).2 rest).1, (run (step a op fail).2 rest).2)

/-- Nothing attached, nothing at hand. -/
def start : A := ⟨[], [], [], []⟩

/-- The kernel undoes what was made without a link when asked to, and links that are no descriptors are not turned into
`FdLink`s. -/
def Careful (a : A) : List (Op × Option Nat) → Prop
  | [] => True
  | (op, fail) :: rest =>
    (∀ i, op = .drop i ∨ op = .detach i → fail = none) ∧
    (∀ i k us, op = .toFd i → a.have_[i]? ≠ some (.typed k .direct us)) ∧ Careful (step a op fail).2 rest

end Verif.Conv.Spec
