import Verif.Attach.LoadModel
import Verif.Btf.Lookup
import Verif.Section.Props
/-!
# Theorems about loading programs
-/
set_option linter.unusedSimpArgs false
set_option linter.unusedVariables false
namespace Verif.Attach.Load
open Verif.Bytes

/-- What the kernel is told fits the program: its code, type, attach type (0 if none), flags, license, version (that of
the running kernel if the object gives none), the first 15 bytes of its name, its BTF, the target for tracing programs and
extensions; records about functions and lines only together with the BTF. -/
structure Describes (r : Request) (d : Data) (o : Obj) (current progType : Nat) (attachType : Option Nat) : Prop where
  insns : r.insns = o.insns
  insnCnt : o.insns.length < 4294967296 → r.insnCnt = o.insns.length
  progType : r.progType = progType
  attach : ∀ a, attachType = some a → r.attachType = a
  noAttach : attachType = none → r.attachType = 0
  flags : r.flags = d.flags
  license : r.license = o.license
  version : ∀ v, o.kernelVersion = some v → r.version = v
  noVersion : o.kernelVersion = none → r.version = current
  nameLen : r.name.length = 16
  name : ∀ n, d.name = some n → r.name.takeWhile (· ≠ 0) = n.take 15
  noName : d.name = none → r.name.takeWhile (· ≠ 0) = []
  btf : ∀ f, d.btfFd = some f → r.btfFd = f ∧ r.lineInfo = Ext.giveLines o.lineRec o.lineInfo ∧
    r.funcInfo = Ext.giveFuncs o.funcRec o.funcInfo
  noBtf : d.btfFd = none → r.btfFd = 0 ∧ r.lineInfo = none ∧ r.funcInfo = none
  target : ∀ f, d.attachProgFd = some f → r.attachFd = f
  targetBtf : ∀ f, d.attachProgFd = none → d.attachBtfObjFd = some f → r.attachFd = f
  noTarget : d.attachProgFd = none → d.attachBtfObjFd = none → r.attachFd = 0
  targetId : ∀ i, d.attachBtfId = some i → r.attachBtfId = i
  noTargetId : d.attachBtfId = none → r.attachBtfId = 0

theorem takeWhile_zeros (n : List UInt8) (k : Nat) (h : (0 : UInt8) ∉ n) :
    (n ++ List.replicate k 0).takeWhile (· ≠ 0) = n := by
  induction n with
  | nil => cases k <;> simp [List.replicate_succ]
  | cons a n ih =>
    simp only [List.mem_cons, not_or] at h
    have ha : a ≠ 0 := fun hc => h.1 hc.symm
    simp only [List.cons_append, List.takeWhile_cons, ha, ne_eq, not_false_eq_true, decide_true, if_true]
    rw [ih h.2]

theorem request_describes (current progType : Nat) (attachType : Option Nat) (d : Data) (o : Obj) (buf : List UInt8)
    (hn : (0 : UInt8) ∉ d.name.getD []) :
    Describes (request current progType attachType d o buf) d o current progType attachType where
  insns := rfl
  insnCnt := fun h => Nat.mod_eq_of_lt h
  progType := rfl
  attach := by intro a h; subst h; rfl
  noAttach := by intro h; subst h; rfl
  flags := rfl
  license := rfl
  version := by intro v h; simp [request, h]
  noVersion := by intro h; simp [request, h]
  nameLen := by
    simp only [request]
    cases d.name with
    | none => simp [nameField]
    | some n => simp [nameField]; omega
  name := by
    intro n h
    rw [h] at hn
    simp only [request, h, nameField]
    have h0 : (0 : UInt8) ∉ n.take (min n.length 15) := fun hc => hn (List.mem_of_mem_take hc)
    rw [takeWhile_zeros _ _ h0]
    rcases Nat.le_total n.length 15 with hl | hl
    · rw [Nat.min_eq_left hl, List.take_length, List.take_of_length_le hl]
    · rw [Nat.min_eq_right hl]
  noName := by
    intro h
    simp only [request, h, nameField]
    exact takeWhile_zeros [] 16 (by simp)
  btf := by intro f h; simp [request, h]
  noBtf := by intro h; simp [request, h]
  target := by intro f h; simp [request, h]
  targetBtf := by intro f h h2; simp [request, h, h2]
  noTarget := by intro h h2; simp [request, h, h2]
  targetId := by intro i h; simp [request, h]
  noTargetId := by intro h; simp [request, h]

/-- A kernel that writes at most into the log buffer it is given. -/
def Kern.Fits (kern : Kern) : Prop := ∀ acc r buf, (kern acc r buf).2.length = buf.length

/-- **C71.** Loading makes between one and eleven requests, all of which describe this program. The first has no log
buffer, the others one with the chosen log level. The result is the kernel's answer to the last request: if that is a
descriptor, the program is loaded as this; otherwise the program is not loaded, and everything about it is as before. -/
theorem C71_request (utf8 : List UInt8 → Bool) (kern : Kern) (current progType : Nat) (attachType : Option Nat)
    (d : Data) (o : Obj) (hf : kern.Fits) (hfd : d.fd = none) (ho : d.obj = some o) (hn : (0 : UInt8) ∉ d.name.getD []) :
    ∃ res d' reqs, loadProgram utf8 kern current progType attachType d = (res, d', reqs) ∧
      1 ≤ reqs.length ∧ reqs.length ≤ 11 ∧
      (∀ r ∈ reqs, Describes r d o current progType attachType) ∧
      (∀ (i : Nat) r, reqs[i]? = some r →
        (i = 0 → r.log = none) ∧ (0 < i → ∃ n, r.log = some (d.logLevel, n) ∧ 10240 ≤ n)) ∧
      ∃ acc r buf ans left, reqs.getLast? = some r ∧ kern acc r buf = (ans, left) ∧
        ((∃ fd, ans = .ok fd ∧ d' = { d with fd := some fd } ∧ res = .ok ()) ∨
         (∃ e, ans = .error e ∧ d' = d ∧ res = .error (.load e (left.takeWhile (· ≠ 0)))) ∨
         (utf8 (left.takeWhile (· ≠ 0)) = false ∧ d' = d ∧ res = .error .panicked)) := by
  have hc : (d.name.getD []).contains 0 = false := by simpa using hn
  have hk : Retry.KeepsLength (fun acc buf => kern acc (request current progType attachType d o buf) buf) :=
    fun acc buf => hf acc _ buf
  obtain ⟨h1, h2, ⟨lst, h3, h4, -⟩, h5⟩ := Retry.C36_retry utf8 10 _ hk
  have hrun : loadProgram utf8 kern current progType attachType d =
      outcome d ((Retry.retryWithVerifierLogs utf8 10
        (fun acc buf => kern acc (request current progType attachType d o buf) buf)).1)
        ((Retry.retryWithVerifierLogs utf8 10
        (fun acc buf => kern acc (request current progType attachType d o buf) buf)).2.map
          (fun a => request current progType attachType d o a.given)) := by
    unfold loadProgram outcome
    simp only [hfd, Option.isSome_none, Bool.false_eq_true, if_false, ho, hc]
  rw [hrun]
  generalize hR : Retry.retryWithVerifierLogs utf8 10
    (fun acc buf => kern acc (request current progType attachType d o buf) buf) = R at h1 h2 h3 h4 h5 ⊢
  have hlast : ∀ (i : Nat), R.2[i]? = some lst → i = R.2.length - 1 → True := fun _ _ _ => trivial
  have hli : R.2[R.2.length - 1]? = some lst := by rw [← List.getLast?_eq_getElem?]; exact h3
  obtain ⟨hfl, -, -, -⟩ := h5 _ _ hli
  have hreqs : (R.2.map (fun a => request current progType attachType d o a.given)).getLast? =
      some (request current progType attachType d o lst.given) := by
    rw [List.getLast?_map, h3]; rfl
  have hall : ∀ r ∈ R.2.map (fun a => request current progType attachType d o a.given),
      Describes r d o current progType attachType := by
    intro r hr
    obtain ⟨a, -, rfl⟩ := List.mem_map.mp hr
    exact request_describes _ _ _ _ _ _ hn
  have hlog : ∀ (i : Nat) r, (R.2.map (fun a => request current progType attachType d o a.given))[i]? = some r →
      (i = 0 → r.log = none) ∧ (0 < i → ∃ n, r.log = some (d.logLevel, n) ∧ 10240 ≤ n) := by
    intro i r hr
    rw [List.getElem?_map] at hr
    cases ha : R.2[i]? with
    | none => rw [ha] at hr; simp at hr
    | some a =>
      rw [ha] at hr
      simp only [Option.map_some, Option.some.injEq] at hr
      subst hr
      obtain ⟨-, -, g0, g1⟩ := h5 i a ha
      refine ⟨fun hi => by simp [request, g0 hi], fun hi => ?_⟩
      obtain ⟨b1, b2, -⟩ := g1 hi
      refine ⟨a.given.length, ?_, b1⟩
      have : a.given.isEmpty = false := by
        cases hg : a.given with
        | nil => rw [hg] at b1; simp at b1
        | cons _ _ => rfl
      simp [request, this]
  have hw : ∀ res d', outcome d R.1 (R.2.map (fun a => request current progType attachType d o a.given)) =
        (res, d', R.2.map (fun a => request current progType attachType d o a.given)) →
      ((∃ fd, lst.result = .ok fd ∧ d' = { d with fd := some fd } ∧ res = .ok ()) ∨
         (∃ e, lst.result = .error e ∧ d' = d ∧ res = .error (.load e (lst.left.takeWhile (· ≠ 0)))) ∨
         (utf8 (lst.left.takeWhile (· ≠ 0)) = false ∧ d' = d ∧ res = .error .panicked)) := by
    intro res d' hm
    rw [h4] at hm
    unfold outcome at hm
    cases hu : utf8 (lst.left.takeWhile (· ≠ 0)) with
    | false =>
      rw [if_neg (by rw [hu]; simp)] at hm
      simp only [Prod.mk.injEq, and_true] at hm
      exact .inr (.inr ⟨rfl, hm.2.symm, hm.1.symm⟩)
    | true =>
      rw [if_pos hu] at hm
      cases hr : lst.result with
      | ok fd =>
        rw [hr] at hm
        simp only [Prod.mk.injEq, and_true] at hm
        exact .inl ⟨fd, rfl, hm.2.symm, hm.1.symm⟩
      | error e =>
        rw [hr] at hm
        simp only [Prod.mk.injEq, and_true] at hm
        exact .inr (.inl ⟨e, rfl, hm.2.symm, hm.1.symm⟩)
  have hex : ∃ res d', outcome d R.1 (R.2.map (fun a => request current progType attachType d o a.given)) =
        (res, d', R.2.map (fun a => request current progType attachType d o a.given)) := by
    unfold outcome
    split <;> exact ⟨_, _, rfl⟩
  obtain ⟨res, d', he⟩ := hex
  refine ⟨res, d', R.2.map (fun a => request current progType attachType d o a.given), he, by simpa using h1, by simpa using h2,
    hall, hlog, R.2.take (R.2.length - 1), request current progType attachType d o lst.given, lst.given, lst.result, lst.left,
    hreqs, hfl, hw res d' he⟩

/-- **C71.** A program that is loaded, or that was opened from a pin, is not loaded again: nothing is asked of the kernel,
and the program stays as it is. -/
theorem C71_refused (utf8 : List UInt8 → Bool) (kern : Kern) (current progType : Nat) (attachType : Option Nat) (d : Data)
    (h : d.fd ≠ none ∨ d.obj = none) :
    loadProgram utf8 kern current progType attachType d = (.error .alreadyLoaded, d, []) := by
  unfold loadProgram
  cases hf : d.fd with
  | some f => simp
  | none =>
    rcases h with h | h
    · exact absurd hf h
    · simp [h]

/-- Loading and unloading, with the kernel's answers. -/
inductive Op where
  | load (utf8 : List UInt8 → Bool) (kern : Kern) (current : Nat)
  | unload (links : Except Nat Unit)

/-- A history: the program afterwards, the number of successful loads and of successful unloads. -/
def run (progType : Nat) (attachType : Option Nat) : List Op → Data → Data × Nat × Nat
  | [], d => (d, 0, 0)
  | .load u k c :: ops, d =>
    let (r, d', _) := loadProgram u k c progType attachType d
    let (d'', a, b) := run progType attachType ops d'
    (d'', a + (match r with | .ok _ => 1 | .error _ => 0), b)
  | .unload l :: ops, d =>
    let (r, d') := unloadProgram l d
    let (d'', a, b) := run progType attachType ops d'
    (d'', a, b + (match r with | .ok _ => 1 | .error _ => 0))

theorem load_cases (utf8 : List UInt8 → Bool) (kern : Kern) (current progType : Nat) (attachType : Option Nat) (d : Data) :
    ∃ r d' reqs, loadProgram utf8 kern current progType attachType d = (r, d', reqs) ∧
      ((d.fd = none ∧ r = .ok () ∧ ∃ f, d' = { d with fd := some f }) ∨ (∃ e, r = .error e) ∧ d' = d) := by
  unfold loadProgram
  cases hf : d.fd with
  | some f => exact ⟨_, _, _, rfl, .inr ⟨⟨_, rfl⟩, rfl⟩⟩
  | none =>
    cases ho : d.obj with
    | none => exact ⟨_, _, _, rfl, .inr ⟨⟨_, rfl⟩, rfl⟩⟩
    | some o =>
      simp only [Option.isSome_none, Bool.false_eq_true, if_false]
      split
      · exact ⟨_, _, _, rfl, .inr ⟨⟨_, rfl⟩, rfl⟩⟩
      · unfold outcome
        split
        · exact ⟨_, _, _, rfl, .inr ⟨⟨_, rfl⟩, rfl⟩⟩
        · exact ⟨_, _, _, rfl, .inl ⟨trivial, rfl, _, by rw [ho]⟩⟩
        · exact ⟨_, _, _, rfl, .inr ⟨⟨_, rfl⟩, rfl⟩⟩

/-- **C71.** After any history of loading and unloading, the program is loaded exactly if it was loaded once more than it
was unloaded, and never more often; and everything else about it is as in the beginning, so that every load asks for the
same. -/
theorem C71_history (progType : Nat) (attachType : Option Nat) (ops : List Op) (d : Data) :
    let (d', loads, unloads) := run progType attachType ops d
    (if d'.fd.isSome then 1 else 0) + unloads = (if d.fd.isSome then 1 else 0) + loads ∧ d' = { d with fd := d'.fd } := by
  induction ops generalizing d with
  | nil => exact ⟨rfl, rfl⟩
  | cons op ops ih =>
    cases op with
    | load u k c =>
      obtain ⟨r, d1, reqs, h1, h2⟩ := load_cases u k c progType attachType d
      have ih1 := ih d1
      simp only [run, h1] at ih1 ⊢
      rcases h2 with ⟨hf, rfl, f, rfl⟩ | ⟨⟨e, rfl⟩, rfl⟩
      · simp only [hf, Option.isSome_some, Option.isSome_none, if_true] at ih1 ⊢
        refine ⟨by simp; omega, ih1.2⟩
      · exact ⟨ih1.1, ih1.2⟩
    | unload l =>
      cases l with
      | error e =>
        have ih1 := ih d
        simp only [run, unloadProgram] at ih1 ⊢
        exact ⟨ih1.1, ih1.2⟩
      | ok x =>
        cases hf : d.fd with
        | none =>
          have ih1 := ih d
          simp only [run, unloadProgram, hf] at ih1 ⊢
          exact ⟨ih1.1, ih1.2⟩
        | some f =>
          have ih1 := ih { d with fd := none }
          simp only [run, unloadProgram, hf] at ih1 ⊢
          refine ⟨?_, ih1.2⟩
          have := ih1.1
          simp only [Option.isSome_none, Bool.false_eq_true, if_false] at this
          simp
          omega

/-! ### Tracing programs -/

/-- The kernel's name for the target: a function, a function of an iterator or a security hook, or the type of a
tracepoint. -/
def targetName (t : Tracing) (name : List UInt8) : List UInt8 :=
  match t with
  | .fentry => name
  | .fexit => name
  | .iter => [98, 112, 102, 95, 105, 116, 101, 114, 95] ++ name
  | .lsm => [98, 112, 102, 95, 108, 115, 109, 95] ++ name
  | .lsmCgroup => [98, 112, 102, 95, 108, 115, 109, 95] ++ name
  | .btfTracePoint => [98, 116, 102, 95, 116, 114, 97, 99, 101, 95] ++ name

/-- BTF kinds: 12 functions, 8 typedefs. -/
def targetKind : Tracing → Nat
  | .fentry => 12
  | .fexit => 12
  | .iter => 12
  | .lsm => 12
  | .lsmCgroup => 12
  | .btfTracePoint => 8

/-- The section a tracing program comes from. -/
def tracingSection : Tracing → Section.ProgramSection
  | .fentry => .fEntry false
  | .fexit => .fExit false
  | .iter => .iter false
  | .lsm => .lsm false
  | .lsmCgroup => .lsmCgroup
  | .btfTracePoint => .btfTracePoint

theorem prefix_eq (t : Tracing) (name : List UInt8) : t.prefix ++ name = targetName t name := by
  cases t with
  | fentry => rfl
  | fexit => rfl
  | iter => exact congrArg (· ++ name) (by decide +kernel : Tracing.prefix .iter = [98, 112, 102, 95, 105, 116, 101, 114, 95])
  | lsm => exact congrArg (· ++ name) (by decide +kernel : Tracing.prefix .lsm = [98, 112, 102, 95, 108, 115, 109, 95])
  | lsmCgroup =>
    exact congrArg (· ++ name) (by decide +kernel : Tracing.prefix .lsmCgroup = [98, 112, 102, 95, 108, 115, 109, 95])
  | btfTracePoint =>
    exact congrArg (· ++ name)
      (by decide +kernel : Tracing.prefix .btfTracePoint = [98, 116, 102, 95, 116, 114, 97, 99, 101, 95])

/-- **C71.** A tracing program is loaded for the first type of the given BTF that has the kernel's name of the target and
the right kind, as the program type of its section. Without such a type nothing is asked of the kernel. -/
theorem C71_tracing (t : Tracing) (utf8 : List UInt8 → Bool) (kern : Kern) (current : Nat) (name : List UInt8)
    (btf : Btf.Btf) (d : Data) (o : Obj) (hf : kern.Fits) (hfd : d.fd = none) (ho : d.obj = some o)
    (hn : (0 : UInt8) ∉ d.name.getD []) (res : Except Err Unit) (d' : Data) (reqs : List Request)
    (h : t.load utf8 kern current name btf d = (res, d', reqs)) :
    (∃ e, res = .error (.btf e) ∧ d' = d ∧ reqs = []) ∨
    ∃ id ty, btf.types[id]? = some ty ∧ Btf.Spec.Match btf (targetName t name) (targetKind t) ty ∧
      (∀ (j : Nat) u, j < id → btf.types[j]? = some u → ¬ Btf.Spec.Match btf (targetName t name) (targetKind t) u) ∧
      reqs ≠ [] ∧
      ∀ r ∈ reqs, r.attachBtfId = id ∧ r.insns = o.insns ∧
        r.progType = (tracingSection t).load.progType ∧ some r.attachType = (tracingSection t).load.attachType := by
  unfold Tracing.load at h
  rw [prefix_eq] at h
  have hk : t.kind = targetKind t := by cases t <;> rfl
  rw [hk] at h
  cases hb : btf.idByTypeNameKind (targetName t name) (targetKind t) with
  | error e =>
    rw [hb] at h
    simp only [Prod.mk.injEq] at h
    exact .inl ⟨e, h.1.symm, h.2.1.symm, h.2.2.symm⟩
  | ok id =>
    rw [hb] at h
    simp only at h
    obtain ⟨ty, h1, h2, h3⟩ := Btf.C61_found _ _ _ _ hb
    obtain ⟨res', d'', reqs', h4, h5, h6, h7, -⟩ := C71_request utf8 kern current t.type.1 (some t.type.2)
      { d with attachBtfId := some id } o hf hfd ho hn
    rw [h] at h4
    simp only [Prod.mk.injEq] at h4
    obtain ⟨-, -, rfl⟩ := h4
    refine .inr ⟨id, ty, h1, h2, h3, by intro hc; rw [hc] at h5; simp at h5, ?_⟩
    intro r hr
    have hd := h7 r hr
    refine ⟨hd.targetId id rfl, hd.insns, ?_, ?_⟩
    · rw [hd.progType]; cases t <;> rfl
    · rw [hd.attach _ rfl]; cases t <;> rfl

/-! ### Extensions -/

/-- The kernel fills the buffer with the BTF as far as it goes and tells the size of the BTF. -/
def fills (B : List UInt8) (buf : List UInt8) : Except Nat (List UInt8 × Nat) :=
  .ok (B.take buf.length ++ buf.drop B.length, B.length)

theorem fills_length (B buf : List UInt8) : (B.take buf.length ++ buf.drop B.length).length = buf.length := by
  simp only [List.length_append, List.length_take, List.length_drop]
  omega

/-- **C71.** However large the BTF of a program is, all of it is read, in at most two rounds. -/
theorem C71_btf_read (B buf : List UInt8) (n : Nat) : readBtf (fills B) (n + 2) buf = some (.ok B) := by
  have hfit : ∀ b : List UInt8, B.length ≤ b.length →
      (B.take b.length ++ b.drop B.length).take B.length = B := by
    intro b hb
    rw [List.take_of_length_le hb, List.take_left']
    rfl
  rw [readBtf]
  simp only [fills, fills_length]
  split
  · rename_i hgt
    rw [readBtf]
    simp only [fills, fills_length]
    have hl : ∀ k : Nat, (B.take buf.length ++ buf.drop B.length ++ List.replicate k (0 : UInt8)).length = buf.length + k := by
      intro k
      rw [List.length_append, fills_length, List.length_replicate]
    rw [if_neg (by rw [hl]; omega)]
    rw [hfit _ (by rw [hl]; omega)]
  · rename_i hgt
    rw [hfit _ (by omega)]

/-- A loaded program with this BTF, which opens as this descriptor. -/
def HasBtf (I : Info) (prog : Nat) (B : List UInt8) (fd : Nat) : Prop :=
  ∃ id, id ≠ 0 ∧ I.btfId prog = .ok id ∧ I.btfFd id = .ok fd ∧ I.btf fd = fills B

theorem getBtfInfo_eq {I : Info} {prog fd rounds : Nat} {B func : List UInt8} (h : HasBtf I prog B fd) :
    getBtfInfo I (rounds + 2) prog func =
      match Btf.Btf.parse B with
      | .error e => .error (.btf e)
      | .ok b => match b.idByTypeNameKind func 12 with
        | .error e => .error (.btf e)
        | .ok id => .ok (fd, id) := by
  obtain ⟨id, h0, h1, h2, h3⟩ := h
  simp only [getBtfInfo, h1, h0, if_false, h2, h3, C71_btf_read]
  cases Btf.Btf.parse B with
  | error e => rfl
  | ok b => cases b.idByTypeNameKind func 12 <;> rfl

/-- **C71, partial.** An extension loaded for a function of a program: the kernel is told this program and the id of the
function in the program's BTF, and attaching asks for the same. The other half, that this stays so when further calls of
`load` are refused, is false. -/
theorem C71_extension_partial (utf8 : List UInt8 → Bool) (kern : Kern) (current : Nat) (I : Info) (rounds prog fd : Nat)
    (func B : List UInt8) (b : Btf.Btf) (d : Data) (o : Obj) (d' : Data) (reqs : List Request)
    (hf : kern.Fits) (hfd : d.fd = none) (ho : d.obj = some o) (hn : (0 : UInt8) ∉ d.name.getD [])
    (hb : HasBtf I prog B fd) (hB : Btf.Btf.parse B = .ok b)
    (h : extLoad utf8 kern current I (rounds + 2) prog func d = (.ok (), d', reqs)) :
    ∃ id ext ty, b.types[id]? = some ty ∧ Btf.Spec.Match b func 12 ty ∧
      (∀ r ∈ reqs, r.attachFd = prog ∧ r.attachBtfId = id ∧ r.progType = 28) ∧
      d'.fd = some ext ∧ extAttach d' = .ok ⟨ext, prog, 0, 0, id⟩ := by
  unfold extLoad at h
  rw [getBtfInfo_eq hb, hB] at h
  simp only at h
  cases hi : b.idByTypeNameKind func 12 with
  | error e => simp [hi] at h
  | ok id =>
    simp only [hi] at h
    obtain ⟨ty, h1, h2, -⟩ := Btf.C61_found _ _ _ _ hi
    obtain ⟨res', d'', reqs', h4, h5, h6, h7, -, acc, r, buf, ans, left, -, -, hres⟩ := C71_request utf8 kern current 28 none
      { d with attachBtfObjFd := some fd, attachProgFd := some prog, attachBtfId := some id } o hf hfd ho hn
    rw [h] at h4
    simp only [Prod.mk.injEq] at h4
    obtain ⟨rfl, rfl, rfl⟩ := h4
    rcases hres with ⟨ext, -, hd, -⟩ | ⟨e, -, -, he⟩ | ⟨-, -, he⟩
    · subst hd
      refine ⟨id, ext, ty, h1, h2, ?_, rfl, rfl⟩
      intro r hr
      have hd := h7 r hr
      exact ⟨hd.target prog rfl, hd.targetId id rfl, hd.progType⟩
    · simp at he
    · simp at he

/-- **C71, violated.** Loading an extension a second time, for another program, is refused; but afterwards attaching asks
for the other program. -/
theorem C71_extension_violated (utf8 : List UInt8 → Bool) (kern : Kern) (current : Nat) (I : Info)
    (rounds prog other fd id ext : Nat) (func : List UInt8) (d : Data)
    (hd : d.fd = some ext) (hp : extAttach d = .ok ⟨ext, prog, 0, 0, id⟩)
    (other_fd other_id : Nat) (ho : getBtfInfo I rounds other func = .ok (other_fd, other_id)) :
    ∃ d', extLoad utf8 kern current I rounds other func d = (.error .alreadyLoaded, d', []) ∧
      extAttach d' = .ok ⟨ext, other, 0, 0, other_id⟩ := by
  refine ⟨{ d with attachBtfObjFd := some other_fd, attachProgFd := some other, attachBtfId := some other_id }, ?_, ?_⟩
  · simp only [extLoad, ho]
    exact C71_refused _ _ _ _ _ _ (.inl (by simp [hd]))
  · simp [extAttach, hd]

/-- **C71.** Attaching to another program asks for exactly this program and its function, whatever was loaded for. -/
theorem C71_attach_to (I : Info) (rounds prog fd ext : Nat) (func B : List UInt8) (b : Btf.Btf) (d : Data) (l : ExtLink)
    (hb : HasBtf I prog B fd) (hB : Btf.Btf.parse B = .ok b) (hd : d.fd = some ext)
    (h : extAttachTo I (rounds + 2) prog func d = .ok l) :
    ∃ id ty, b.types[id]? = some ty ∧ Btf.Spec.Match b func 12 ty ∧ l = ⟨ext, prog, 0, 0, id⟩ := by
  unfold extAttachTo at h
  rw [getBtfInfo_eq hb, hB] at h
  simp only at h
  cases hi : b.idByTypeNameKind func 12 with
  | error e => simp [hi] at h
  | ok id =>
    obtain ⟨ty, h1, h2, -⟩ := Btf.C61_found _ _ _ _ hi
    simp only [hi, hd, Except.ok.injEq] at h
    exact ⟨id, ty, h1, h2, h.symm⟩

/-- **C71.** A program without BTF cannot be extended: this is reported whatever the kernel says of BTF objects, nothing is
asked of the kernel and the extension is as before. Nor can an extension be attached to such a program. -/
theorem C71_no_btf (utf8 : List UInt8 → Bool) (kern : Kern) (current : Nat) (I : Info) (rounds prog : Nat)
    (func : List UInt8) (d : Data) (h : I.btfId prog = .ok 0) :
    extLoad utf8 kern current I rounds prog func d = (.error .noBtf, d, []) ∧
    extAttachTo I rounds prog func d = .error .noBtf := by
  simp [extLoad, extAttachTo, getBtfInfo, h]

/-! ### License and version -/

/-- **C71.** The license is the text of the section, which must be one non-empty C string; `GPL` without a section. -/
theorem C71_license (data : List UInt8) (s : List UInt8) :
    (license (some data) = .ok s ↔ data = s ++ [0] ∧ (0 : UInt8) ∉ s ∧ s ≠ []) ∧
    license none = .ok [71, 80, 76] := by
  refine ⟨⟨fun h => ?_, ?_⟩, by decide +kernel⟩
  · unfold license at h
    simp only at h
    split at h
    · simp at h
    · rename_i hlen
      split at h
      · simp at h
      · rename_i i hi
        split at h
        · rename_i hil
          simp only [Except.ok.injEq] at h
          obtain ⟨hlt, hz, hbefore⟩ := List.findIdx?_eq_some_iff_getElem.mp hi
          have hz : data[i] = 0 := by simpa using hz
          refine ⟨?_, ?_, ?_⟩
          · rw [← h]
            conv => lhs; rw [← List.take_append_drop i data]
            rw [List.drop_eq_getElem_cons hlt, hz, List.drop_of_length_le (by omega)]
          · rw [← h]
            intro hc
            obtain ⟨j, hj, hj2⟩ := List.getElem_of_mem hc
            simp only [List.length_take] at hj
            have := hbefore j (by omega)
            rw [List.getElem_take] at hj2
            simp [hj2] at this
          · rw [← h]
            intro hc
            have := congrArg List.length hc
            simp only [List.length_take, List.length_nil] at this
            omega
        · simp at h
  · rintro ⟨rfl, h0, hne⟩
    have hs : 0 < s.length := List.length_pos_iff.mpr hne
    have hf : (s ++ [(0 : UInt8)]).findIdx? (· == 0) = some s.length := by
      rw [List.findIdx?_eq_some_iff_getElem]
      refine ⟨by simp, by simp, ?_⟩
      intro j hj
      rw [List.getElem_append_left hj]
      have : s[j] ≠ 0 := fun hc => h0 (hc ▸ List.getElem_mem hj)
      simpa using this
    unfold license
    simp only [hf]
    rw [if_neg (by simp only [List.length_append, List.length_singleton]; omega), if_pos (by simp)]
    simp

/-- **C71.** The version is the number in the section, in the byte order of the object; `0xFFFFFFFE` and a missing
section mean the running kernel's. -/
theorem C71_version (big : Bool) (n : Nat) (hn : n < 4294967296) :
    version big (some (if big then (le 4 n).reverse else le 4 n)) = .ok (if n = 4294967294 then none else some n) ∧
    version big none = .ok none ∧
    ∀ data : List UInt8, data.length ≠ 4 → version big (some data) = .error .invalidKernelVersion := by
  refine ⟨?_, rfl, fun data h => by simp [version, h]⟩
  have h4 : ofLe (le 4 n) = n := ofLe_le_of_lt 4 n (by simpa using hn)
  cases big <;> simp [version, h4, List.reverse_reverse]

/-! ### A case -/

def exObj : Obj := ⟨"GPL".toUTF8.toList, none, [⟨0xb7, 0, 0, 0, 0⟩, ⟨0x95, 0, 0, 0, 0⟩], [], 0, [], 0⟩

def exData : Data :=
  ⟨some "a_rather_long_name".toUTF8.toList, some exObj, none, none, none, none, none, 1, 0⟩

/-- Refuses the first attempt. -/
def exKern : Kern := fun acc _ buf => (if acc.length = 1 then .ok 7 else .error 22, buf)

/-- BTF with a function `f`. -/
def exBtf : List UInt8 :=
  [0x9f, 0xeb, 1, 0, 24, 0, 0, 0, 0, 0, 0, 0, 24, 0, 0, 0, 24, 0, 0, 0, 3, 0, 0, 0,
   0, 0, 0, 0, 0, 0, 0, 13, 0, 0, 0, 0,
   1, 0, 0, 0, 1, 0, 0, 12, 1, 0, 0, 0,
   0, 102, 0]

def exInfo : Info := ⟨fun p => if p = 0 then .error 9 else .ok p, fun i => .ok (100 + i), fun _ => fills exBtf⟩

/-- Hypotheses of `C71_request`, and what it gives: two requests, the second with a log. -/
example : exKern.Fits ∧ exData.fd = none ∧ exData.obj = some exObj ∧ (0 : UInt8) ∉ exData.name.getD [] ∧
    (loadProgram (fun _ => true) exKern 394240 2 none exData).1 = .ok () ∧
    (loadProgram (fun _ => true) exKern 394240 2 none exData).2.1.fd = some 7 ∧
    (loadProgram (fun _ => true) exKern 394240 2 none exData).2.2.map (fun r => (r.log, r.version, r.name)) =
      [(none, 394240, "a_rather_long_n".toUTF8.toList ++ [0]),
       (some (1, 10240), 394240, "a_rather_long_n".toUTF8.toList ++ [0])] :=
  ⟨fun _ _ _ => rfl, rfl, rfl, by decide +kernel, by decide +kernel, by decide +kernel, by decide +kernel⟩

/-- A history: loaded, refused, unloaded, loaded again. -/
example : (run 2 none [.load (fun _ => true) exKern 394240, .load (fun _ => true) exKern 394240, .unload (.ok ()),
    .unload (.error 5), .load (fun _ => true) exKern 394240] exData).2 = (2, 1) := by decide +kernel

/-- An extension of the function `f` of program 5. The same program then is sent elsewhere by a refused load. -/
example : HasBtf exInfo 5 exBtf 105 ∧
    (extLoad (fun _ => true) exKern 394240 exInfo 2 5 [102] exData).1 = .ok () ∧
    extAttach (extLoad (fun _ => true) exKern 394240 exInfo 2 5 [102] exData).2.1 = .ok ⟨7, 5, 0, 0, 2⟩ ∧
    (let d := (extLoad (fun _ => true) exKern 394240 exInfo 2 5 [102] exData).2.1
     let r := extLoad (fun _ => true) exKern 394240 exInfo 2 6 [102] d
     r.1 = .error .alreadyLoaded ∧ extAttach r.2.1 = .ok ⟨7, 6, 0, 0, 2⟩) ∧
    extAttachTo exInfo 2 9 [102] { exData with fd := some 7 } = .ok ⟨7, 9, 0, 0, 2⟩ :=
  ⟨⟨5, by decide, rfl, rfl, rfl⟩, by decide +kernel, by decide +kernel, by decide +kernel, by decide +kernel⟩

/-- A tracing program for the function `f`; there is no security hook of that name. -/
example : (∃ b, Btf.Btf.parse exBtf = .ok b ∧
    (Tracing.load .fentry (fun _ => true) exKern 394240 [102] b exData).2.2.map (·.attachBtfId) = [2, 2] ∧
    (Tracing.load .lsm (fun _ => true) exKern 394240 [102] b exData).2.2 = []) :=
  ⟨_, rfl, by decide +kernel, by decide +kernel⟩

example : license (some [71, 80, 76, 0]) = .ok [71, 80, 76] ∧ license (some [71, 0, 76, 0]) = .error .invalidLicense ∧
    version false (some [1, 2, 3, 0]) = .ok (some 197121) ∧ version true (some [0, 3, 2, 1]) = .ok (some 197121) ∧
    version false (some [254, 255, 255, 255]) = .ok none := by decide +kernel

end Verif.Attach.Load
