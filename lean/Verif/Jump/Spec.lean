import Verif.Jump.Model

/-!
# Jump tables: the system, and what is promised

The system is Linux: tables with a count of those in user space who hold them, programs, descriptors, pins, and programs at work on any
number of CPUs. What is promised speaks of tables, programs and their names only.
-/
namespace Verif.Jump.Spec
open Verif.Jump (Instr Error Data)

/-- A table: number of entries, the type of programs it is for (from its first use), and the entries, which are programs. -/
structure Table where
  max : Nat
  owner : Option Nat := none
  entries : List (Option Nat)
deriving DecidableEq, Repr

/-- A program: its type, the tables it uses, and what it does in each context. -/
structure Program where
  kind : Nat
  uses : List Nat
  body : Nat → List Instr

/-- A program at work: which one it is by now, its context, what it has yet to do, how many tail calls there were, and what could be seen:
    program, context, event. -/
structure Work where
  prog : Nat
  ctx : Nat
  rest : List Instr
  jumps : Nat := 0
  seen : List (Nat × Nat × Nat) := []
deriving DecidableEq, Repr

/-- Tables, programs, pins (of tables), programs attached somewhere, and programs at work, all by number. -/
structure M where
  tables : List Table := []
  progs : List Program := []
  pins : List (Option Nat) := []
  attached : List Nat := []
  works : List Work := []

/-- What the descriptors of the process stand for. -/
inductive Obj where
  | prog (p : Nat)
  | table (t : Nat)
  /-- anything else -/
  | file
deriving DecidableEq, Repr

/-! ## The system -/

/-- `users` is `usercnt` of the maps: descriptors and pins. -/
structure K where
  m : M := {}
  fds : Nat → Option Obj := fun _ => none
  users : Nat → Nat := fun _ => 0

def K.openFd (k : K) (fd : Nat) (x : Obj) : K := { k with fds := fun n => if n = fd then some x else k.fds n }
def K.closeFd (k : K) (fd : Nat) : K := { k with fds := fun n => if n = fd then none else k.fds n }
def K.incUser (k : K) (t : Nat) : K := { k with users := fun n => if n = t then k.users n + 1 else k.users n }

/-- `prog_array_map_clear`. -/
def M.clear (m : M) (t : Nat) : M :=
  match m.tables[t]? with
  | some T => { m with tables := m.tables.set t { T with entries := List.replicate T.max none } }
  | none => m

/-- `bpf_map_put_uref`: the last one in user space empties the table. -/
def K.putUser (k : K) (t : Nat) : K :=
  { k with
    users := fun n => if n = t then k.users n - 1 else k.users n
    m := if k.users t = 1 then k.m.clear t else k.m }

/-- `bpf_prog_map_compatible`: the first program decides about the type of the table. -/
def compatible (T : Table) (kind : Nat) : Option Table :=
  match T.owner with
  | none => some { T with owner := some kind }
  | some o => if o = kind then some T else none

/-- The tables used by a program that is loaded, one after the other. -/
def claimAll (kind : Nat) : List Nat → List Table → Option (List Table)
  | [], ts => some ts
  | t :: rest, ts =>
      match ts[t]? with
      | none => none
      | some T =>
          match compatible T kind with
          | none => none
          | some T' => claimAll kind rest (ts.set t T')

/-- The tables descriptors stand for. -/
def K.tablesOf (k : K) : List Nat → Option (List Nat)
  | [] => some []
  | fd :: rest =>
      match k.fds fd, k.tablesOf rest with
      | some (.table t), some ts => some (t :: ts)
      | _, _ => none

/-- `bpf_fd_array_map_update_elem`. -/
def updateElem (k : K) (fault : Option Nat) (fd : Nat) (key value : Bytes) (flags : Nat) : Except Nat M :=
  match k.fds fd with
  | some (.table t) =>
      match k.m.tables[t]?, fault with
      | none, _ => .error 9
      | some _, some e => .error e
      | some T, none =>
          if flags ≠ 0 then .error 22
          else if Verif.Bytes.ofLe key ≥ T.max then .error 7
          else
            match k.fds (Verif.Bytes.ofLe value) with
            | none => .error 9
            | some (.prog p) =>
                match k.m.progs[p]? with
                | none => .error 9
                | some P =>
                    match compatible T P.kind with
                    | none => .error 22
                    | some T' =>
                        .ok { k.m with tables := k.m.tables.set t { T' with entries := T'.entries.set (Verif.Bytes.ofLe key) (some p) } }
            | some _ => .error 22
  | _ => .error 9

/-- `fd_array_map_delete_elem`. -/
def deleteElem (k : K) (fault : Option Nat) (fd : Nat) (key : Bytes) : Except Nat M :=
  match k.fds fd with
  | some (.table t) =>
      match k.m.tables[t]?, fault with
      | none, _ => .error 9
      | some _, some e => .error e
      | some T, none =>
          if Verif.Bytes.ofLe key ≥ T.max then .error 7
          else
            match T.entries[Verif.Bytes.ofLe key]?.join with
            | none => .error 2
            | some _ => .ok { k.m with tables := k.m.tables.set t { T with entries := T.entries.set (Verif.Bytes.ofLe key) none } }
  | _ => .error 9

/-- `array_map_get_next_key`. -/
def nextKey (k : K) (fault : Option Nat) (fd : Nat) (key : Option Bytes) : Except Nat Bytes :=
  match k.fds fd with
  | some (.table t) =>
      match k.m.tables[t]?, fault with
      | none, _ => .error 9
      | some _, some e => .error e
      | some T, none =>
          let index := match key with
            | some b => Verif.Bytes.ofLe b
            | none => 2 ^ 32 - 1
          if index ≥ T.max then .ok (Verif.Bytes.le 4 0)
          else if index = T.max - 1 then .error 2
          else .ok (Verif.Bytes.le 4 (index + 1))
  | _ => .error 9

/-- Linux: `fresh` picks the numbers of descriptors, if it has any left, `fault` makes a call fail (missing rights, no memory). -/
def sys (fresh : (Nat → Option Obj) → Option Nat) (fault : Option Nat) : Sys K where
  createMap max k :=
    match fault, fresh k.fds with
    | some e, _ => (.error e, k)
    | none, some fd =>
        if max = 0 then (.error 22, k)
        else
          (.ok fd, (({ k with m := { k.m with tables := k.m.tables ++ [⟨max, none, List.replicate max none⟩] } } : K).openFd fd
            (.table k.m.tables.length)).incUser k.m.tables.length)
    | none, none => if max = 0 then (.error 22, k) else (.error 24, k)
  load kind uses body k :=
    match fault, k.tablesOf uses with
    | some e, _ => (.error e, k)
    | none, none => (.error 9, k)
    | none, some ts =>
        match claimAll kind ts k.m.tables with
        | none => (.error 22, k)
        | some tables =>
            match fresh k.fds with
            | none => (.error 24, { k with m := { k.m with tables := tables } })
            | some fd =>
                (.ok fd, ({ k with m := { k.m with tables := tables, progs := k.m.progs ++ [⟨kind, ts, body⟩] } } : K).openFd fd
                  (.prog k.m.progs.length))
  dup fd k :=
    match k.fds fd, fault, fresh k.fds with
    | none, _, _ => (.error 9, k)
    | some _, some e, _ => (.error e, k)
    | some _, none, none => (.error 24, k)
    | some (.table t), none, some fd' => (.ok fd', (k.openFd fd' (.table t)).incUser t)
    | some x, none, some fd' => (.ok fd', k.openFd fd' x)
  close fd k :=
    match k.fds fd with
    | some (.table t) => (k.closeFd fd).putUser t
    | _ => k.closeFd fd
  update fd key value flags k :=
    match updateElem k fault fd key value flags with
    | .ok m => (.ok (), { k with m := m })
    | .error e => (.error e, k)
  delete fd key k :=
    match deleteElem k fault fd key with
    | .ok m => (.ok (), { k with m := m })
    | .error e => (.error e, k)
  nextKey fd key k := nextKey k fault fd key
  pin fd k :=
    match k.fds fd, fault with
    | some (.table t), none => (.ok (), ({ k with m := { k.m with pins := k.m.pins ++ [some t] } } : K).incUser t)
    | some _, some e => (.error e, k)
    | some _, none => (.error 22, k)
    | none, _ => (.error 9, k)
  get path k :=
    match k.m.pins[path]?.join, fault, fresh k.fds with
    | none, _, _ => (.error 2, k)
    | some _, some e, _ => (.error e, k)
    | some _, none, none => (.error 24, k)
    | some t, none, some fd =>
        match k.m.tables[t]? with
        | none => (.error 2, k)
        | some T => (.ok (fd, T.max), (k.openFd fd (.table t)).incUser t)

/-- Descriptors are numbered from what is free, below 2^31. -/
def Fresh (fresh : (Nat → Option Obj) → Option Nat) : Prop :=
  ∀ fds n, fresh fds = some n → fds n = none ∧ n < 2 ^ 31

/-- `bpf_tail_call`: the program to go on with, and the new count. Kernels differ in whether an attempt through an empty entry counts
    (`eager`). -/
def helper (eager : Bool) (m : M) (jumps : Nat) (table : Nat) (index : BitVec 32) : Option Nat × Nat :=
  match m.tables[table]? with
  | none => (none, jumps)
  | some T =>
      if index.toNat ≥ T.max then (none, jumps)
      else if jumps ≥ 33 then (none, jumps)
      else
        match T.entries[index.toNat]?.join with
        | none => (none, if eager then jumps + 1 else jumps)
        | some p => (some p, jumps + 1)

/-! ## Histories -/

/-- What is done. Names of tables and programs are numbers, in the order in which they were made. -/
inductive Op where
  /-- a table is made, by loading an object -/
  | create (max : BitVec 32)
  /-- a program is loaded; `uses` are names of tables -/
  | load (kind : Nat) (uses : List Nat) (body : Nat → List Instr)
  /-- `try_clone` of the descriptor of a program -/
  | clone (h : Nat)
  | set (h : Nat) (index : BitVec 32) (p : Nat) (flags : Nat)
  | clear (h : Nat) (index : BitVec 32)
  /-- up to `n` calls of `next` of `indices` -/
  | indices (h n : Nat)
  /-- the table is pinned at a new path -/
  | pin (h : Nat)
  /-- the table pinned at a path is opened -/
  | fromPin (path : Nat)
  /-- the file at a path is removed -/
  | unlink (path : Nat)
  | drop (h : Nat)
  /-- the program is attached somewhere -/
  | attach (h : Nat)
  /-- an attached program begins to work -/
  | fire (a ctx : Nat)
  /-- a program at work goes on -/
  | advance (w : Nat)

inductive Res where
  | done
  | list (l : List (Except Error (BitVec 32)))
  | failed (e : Error)
  /-- there is no such name, path or program -/
  | nothing
deriving DecidableEq, Repr

/-! ## What is promised -/

inductive Stands where
  | prog (p : Nat)
  | table (t : Nat)
deriving DecidableEq, Repr

structure A where
  m : M := {}
  names : List (Option Stands) := []

def A.tableOf (a : A) (h : Nat) : Option Nat :=
  match a.names[h]?.join with
  | some (.table t) => some t
  | _ => none

def A.progOf (a : A) (h : Nat) : Option Nat :=
  match a.names[h]?.join with
  | some (.prog p) => some p
  | _ => none

/-- Somebody in user space holds the table, by name or by pin. -/
def A.held (a : A) (t : Nat) : Bool := a.names.contains (some (.table t)) || a.m.pins.contains (some t)

/-- The program at an index of a table. -/
def M.entry (m : M) (t : Nat) (index : BitVec 32) : Option Nat := (m.tables[t]?).bind fun T => T.entries[index.toNat]?.join

/-- A change of one table. -/
def M.modify (m : M) (t : Nat) (f : Table → Table) : M := { m with tables := m.tables.modify t f }

/-- A table nobody in user space holds is empty. -/
def A.settle (a : A) (t : Nat) : A :=
  if a.held t then a else { a with m := a.m.modify t fun T => { T with entries := List.replicate T.max none } }

/-- A table is for programs of one type, the one of the first program that uses it or is put into it. -/
def fits (T : Table) (kind : Nat) : Bool := T.owner = none || T.owner = some kind

/-- The tables a name each stands for. -/
def A.tablesOf (a : A) : List Nat → Option (List Nat)
  | [] => some []
  | h :: rest =>
      match a.tableOf h, a.tablesOf rest with
      | some t, some ts => some (t :: ts)
      | _, _ => none

/-- All tables are for programs of this type from now on, if all of them can be. -/
def A.claim (a : A) (kind : Nat) (ts : List Nat) : Option (List Table) :=
  if ts.all fun t => match a.m.tables[t]? with
      | some T => fits T kind
      | none => false
  then some (a.m.tables.mapIdx fun t T => if t ∈ ts then { T with owner := some kind } else T)
  else none

/-- A program at work does the next thing. A tail call goes on in the program at the index, with the same context, unless there is none, or
    there were 33 tail calls already; then the program goes on itself. -/
def promiseAdvance (eager : Bool) (m : M) (w : Work) : Option Work :=
  match w.rest with
  | [] => none
  | .emit n :: rest => some { w with rest := rest, seen := w.seen ++ [(w.prog, w.ctx, n)] }
  | .jump k index :: rest =>
      match (m.progs[w.prog]?).bind fun P => P.uses[k]? with
      | none => some { w with rest := rest }
      | some t =>
          match m.entry t index with
          | some p =>
              if w.jumps < 33 then (m.progs[p]?).map fun P => { w with prog := p, rest := P.body w.ctx, jumps := w.jumps + 1 }
              else some { w with rest := rest }
          | none =>
              let inside := match m.tables[t]? with
                | some T => decide (index.toNat < T.max)
                | none => false
              some { w with rest := rest, jumps := if eager && inside && w.jumps < 33 then w.jumps + 1 else w.jumps }

/-- One step. `room` says if there is a free descriptor. -/
def step (eager : Bool) (a : A) (op : Op) (fault : Option Nat) (room : Bool) : A × Res :=
  match op with
  | .create max =>
      if let some e := fault then (a, .failed (.create e))
      else if max.toNat = 0 then (a, .failed (.create 22))
      else if room then
        ({ m := { a.m with tables := a.m.tables ++ [⟨max.toNat, none, List.replicate max.toNat none⟩] }
           names := a.names ++ [some (.table a.m.tables.length)] }, .done)
      else (a, .failed (.create 24))
  | .load kind uses body =>
      match a.tablesOf uses with
      | none => (a, .nothing)
      | some ts =>
          if let some e := fault then (a, .failed (.load e))
          else
            match a.claim kind ts with
            | none => (a, .failed (.load 22))
            | some tables =>
                if room then
                  ({ m := { a.m with tables := tables, progs := a.m.progs ++ [⟨kind, ts, body⟩] }
                     names := a.names ++ [some (.prog a.m.progs.length)] }, .done)
                else ({ a with m := { a.m with tables := tables } }, .failed (.load 24))
  | .clone h =>
      match a.progOf h with
      | none => (a, .nothing)
      | some p =>
          if let some e := fault then (a, .failed (.io e))
          else if room then ({ a with names := a.names ++ [some (.prog p)] }, .done)
          else (a, .failed (.io 24))
  | .set h index p flags =>
      match a.tableOf h, a.progOf p with
      | some t, some q =>
          match a.m.tables[t]?, a.m.progs[q]? with
          | some T, some Q =>
              if T.max ≤ index.toNat then (a, .failed (.outOfBounds index.toNat T.max))
              else if let some e := fault then (a, .failed (.syscall "bpf_map_update_elem" e))
              else if flags = 0 ∧ fits T Q.kind = true then
                ({ a with m := a.m.modify t fun T => { T with owner := some Q.kind, entries := T.entries.set index.toNat (some q) } }, .done)
              else (a, .failed (.syscall "bpf_map_update_elem" 22))
          | _, _ => (a, .nothing)
      | _, _ => (a, .nothing)
  | .clear h index =>
      match a.tableOf h with
      | some t =>
          match a.m.tables[t]? with
          | some T =>
              if T.max ≤ index.toNat then (a, .failed (.outOfBounds index.toNat T.max))
              else if let some e := fault then (a, .failed (.syscall "bpf_map_delete_elem" e))
              else if (a.m.entry t index).isSome then
                ({ a with m := a.m.modify t fun T => { T with entries := T.entries.set index.toNat none } }, .done)
              else (a, .failed (.syscall "bpf_map_delete_elem" 2))
          | none => (a, .nothing)
      | none => (a, .nothing)
  | .indices h n =>
      match a.tableOf h with
      | some t =>
          match a.m.tables[t]? with
          | some T =>
              match fault, n with
              | some _, 0 => (a, .list [])
              | some e, _ => (a, .list (if e = 2 then [] else [.error (.syscall "bpf_map_get_next_key" e)]))
              | none, n => (a, .list ((List.range (min n T.max)).map fun i => .ok (BitVec.ofNat 32 i)))
          | none => (a, .nothing)
      | none => (a, .nothing)
  | .pin h =>
      match a.tableOf h with
      | some t =>
          if let some e := fault then (a, .failed (.syscall "BPF_OBJ_PIN" e))
          else ({ a with m := { a.m with pins := a.m.pins ++ [some t] } }, .done)
      | none => (a, .nothing)
  | .fromPin path =>
      match a.m.pins[path]?.join with
      | none => (a, .failed (.syscall "BPF_OBJ_GET" 2))
      | some t =>
          if let some e := fault then (a, .failed (.syscall "BPF_OBJ_GET" e))
          else if room then ({ a with names := a.names ++ [some (.table t)] }, .done)
          else (a, .failed (.syscall "BPF_OBJ_GET" 24))
  | .unlink path =>
      match a.m.pins[path]?.join with
      | none => (a, .nothing)
      | some t => (({ a with m := { a.m with pins := a.m.pins.set path none } } : A).settle t, .done)
  | .drop h =>
      match a.names[h]?.join with
      | none => (a, .nothing)
      | some (.prog _) => ({ a with names := a.names.set h none }, .done)
      | some (.table t) => (({ a with names := a.names.set h none } : A).settle t, .done)
  | .attach h =>
      match a.progOf h with
      | none => (a, .nothing)
      | some p => ({ a with m := { a.m with attached := a.m.attached ++ [p] } }, .done)
  | .fire n ctx =>
      match (a.m.attached[n]?).bind fun p => (a.m.progs[p]?).map fun P => (p, P) with
      | none => (a, .nothing)
      | some (p, P) => ({ a with m := { a.m with works := a.m.works ++ [{ prog := p, ctx := ctx, rest := P.body ctx }] } }, .done)
  | .advance n =>
      match (a.m.works[n]?).bind (promiseAdvance eager a.m) with
      | none => (a, .nothing)
      | some w => ({ a with m := { a.m with works := a.m.works.set n w } }, .done)

end Verif.Jump.Spec
