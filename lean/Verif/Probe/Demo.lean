import Verif.Probe.Attach
import Verif.Common.Except
/-!
# A kernel to try the theorems on

A small kernel that keeps to `Spec.Sane`, in several versions. It serves the examples and the counterexamples.
-/
set_option linter.unusedSimpArgs false
set_option linter.unusedVariables false
namespace Verif.Probe.Demo
open Verif.Str
open Verif.Probe
open Verif.Probe.Spec (Plain Kernel World Sane Def world eventsPath command)

def sched : Text := "sched".toList
def switch : Text := "sched_switch".toList
def open_ : Text := "do_sys_open".toList
def lib : Text := "/usr/lib/libssl.so".toList

/-- The names of the first definitions of process 77. -/
def name0 : Text := "aya_77_p_do_sys_open_0x10_0".toList
def name1 : Text := "aya_77_r_do_sys_open_0x4_0".toList
def name2 : Text := "aya_77_p__usr_lib_libssl_so_0x1f40_0".toList

def ids : List (Nat × Text × Text) :=
  [(316, sched, switch), (1500, "kprobes".toList, name0), (1501, "kprobes".toList, name1), (1502, "uprobes".toList, name2)]

def root : Text := "/sys/kernel/tracing".toList

def kernel : Kernel where
  kprobeType := 8
  uprobeType := 9
  kprobeBit := 0
  uprobeBit := 0
  root := root
  named id := ((ids.find? (fun e => e.1 = id)).map (·.2)).getD ([], [])

def nothing : World := ⟨[], []⟩

def idFile (c n : Text) : Text := root ++ "/events/".toList ++ c ++ ['/'] ++ n ++ "/id".toList

def table : List (Text × Text) :=
  [("/sys/bus/event_source/devices/kprobe/type".toList, "8\n".toList),
   ("/sys/bus/event_source/devices/uprobe/type".toList, "9\n".toList),
   ("/sys/bus/event_source/devices/kprobe/format/retprobe".toList, "config:0\n".toList),
   ("/sys/bus/event_source/devices/uprobe/format/retprobe".toList, "config:0\n".toList)] ++
  ids.map (fun e => (idFile e.2.1 e.2.2, render 10 e.1 ++ ['\n']))

/-- The listing of the definitions of one file. -/
def listing (kernel : Bool) (ds : List Def) : Text :=
  (ds.filter (fun d => d.group = Spec.group kernel)).flatMap (fun d => 'p' :: ':' :: d.group ++ ['/'] ++ d.name ++ " target\n".toList)

def read (h : Hist) (path : Text) : Except Nat Text :=
  match table.find? (fun e => e.1 = path) with
  | some e => .ok e.2
  | none =>
    if path = eventsPath kernel true then .ok (listing true (world kernel nothing h).events)
    else if path = eventsPath kernel false then .ok (listing false (world kernel nothing h).events)
    else .error 2

def fresh (h : Hist) : Nat := (world kernel nothing h).files.foldr (fun e m => max (e.1 + 1) m) 10

/-- Is a definition in use by an open perf event? -/
def uses (p : Spec.Probe) : Spec.Obj → Bool
  | .perf ev _ _ _ => ev.source = .probe p
  | .link _ ev _ => ev.source = .probe p
  | _ => false

/-- Refuse to remove what is in use. -/
def accepts (kern : Bool) (bytes : Text) (w : World) : Except Nat Nat :=
  match command kern bytes with
  | none => .error 22
  | some (.define _) => .ok 0
  | some (.remove name) =>
    if w.events.any (fun d => decide (d.group = Spec.group kern ∧ d.name = name) && w.files.any (fun e => uses d.probe e.2)) then .error 16 else .ok 0

def ans (h : Hist) : Call → Except Nat Nat
  | .perfOpen .. => .ok (fresh h)
  | .linkCreate .. => .ok (fresh h)
  | .rawOpen .. => .ok (fresh h)
  | .append path bytes =>
    if path = eventsPath kernel true then accepts true bytes (world kernel nothing h)
    else if path = eventsPath kernel false then accepts false bytes (world kernel nothing h)
    else .error 2
  | _ => .ok 0

def env (pmu perfLink : Bool) : Env := ⟨pmu, perfLink, perfLink, some root, 77, read, ans⟩

theorem fresh_lt (l : List (Fd × Spec.Obj)) : ∀ e ∈ l, e.1 < l.foldr (fun e m => max (e.1 + 1) m) 10 := by
  induction l with
  | nil => intro e he; cases he
  | cons x xs ih =>
    intro e he
    rw [List.foldr_cons]
    rcases List.mem_cons.mp he with he | he
    · subst he; exact Nat.lt_of_lt_of_le (Nat.lt_succ_self _) (Nat.le_max_left _ _)
    · exact Nat.lt_of_lt_of_le (ih e he) (Nat.le_max_right _ _)

theorem idFile_inj (c n c' n' : Text) (hc : '/' ∉ c) (hc' : '/' ∉ c') (h : idFile c n = idFile c' n') : c = c' ∧ n = n' := by
  unfold idFile at h
  rw [List.append_assoc, List.append_assoc, List.append_assoc, List.append_assoc, List.append_assoc, List.append_assoc,
    List.append_assoc, List.append_assoc] at h
  have h := List.append_cancel_left (List.append_cancel_left h)
  have e1 := cut_first '/' c (n ++ "/id".toList) hc
  have e2 := cut_first '/' c' (n' ++ "/id".toList) hc'
  simp only [List.singleton_append] at h
  rw [h, e2] at e1
  injection e1 with e1
  injection e1 with e1 e3
  exact ⟨e1.symm, (List.append_cancel_right e3).symm⟩

theorem idFile_at (c n : Text) : (idFile c n)[5]? = some 'k' ∧ (idFile c n)[20]? = some 'e' := by
  unfold idFile
  simp only [List.append_assoc]
  exact ⟨rfl, rfl⟩

theorem read_eq (h : Hist) (p t t' : Text) (hp : (table.find? (fun e => e.1 = p)).map (·.2) = some t') (hr : read h p = .ok t) : t = t' := by
  unfold read at hr
  cases hf : table.find? (fun e => e.1 = p) with
  | none => rw [hf] at hp; cases hp
  | some e =>
    rw [hf] at hr hp
    injection hr with hr
    injection hp with hp
    rw [← hr, ← hp]

theorem ids_plain : ∀ e ∈ ids, '/' ∉ e.2.1 ∧ (ids.find? (fun x => x.1 = e.1)).map (·.2) = some e.2 := by
  decide +kernel

theorem read_tp (h : Hist) (t c n : Text) (hc : Plain c) (hr : read h (idFile c n) = .ok t) :
    ∃ id, t = render 10 id ++ ['\n'] ∧ kernel.named id = (c, n) := by
  unfold read at hr
  cases hf : table.find? (fun e => e.1 = idFile c n) with
  | some e =>
    rw [hf] at hr
    injection hr with hr
    have hm := List.mem_of_find?_eq_some hf
    have he : e.1 = idFile c n := by simpa using List.find?_some hf
    rcases List.mem_append.mp hm with hm | hm
    · have h5 := (idFile_at c n).1
      rw [← he] at h5
      have : ∀ e ∈ [("/sys/bus/event_source/devices/kprobe/type".toList, "8\n".toList),
        ("/sys/bus/event_source/devices/uprobe/type".toList, "9\n".toList),
        ("/sys/bus/event_source/devices/kprobe/format/retprobe".toList, "config:0\n".toList),
        ("/sys/bus/event_source/devices/uprobe/format/retprobe".toList, "config:0\n".toList)], (e : Text × Text).1[5]? ≠ some 'k' := by
        decide +kernel
      exact absurd h5 (this e hm)
    · obtain ⟨x, hx, hxe⟩ := List.mem_map.mp hm
      obtain ⟨h1, h2⟩ := ids_plain x hx
      rw [← hxe] at he
      obtain ⟨e1, e2⟩ := idFile_inj _ _ _ _ h1 hc.2 he
      refine ⟨x.1, by rw [← hr, ← hxe], ?_⟩
      simp only [kernel]
      rw [h2]
      show x.2 = (c, n)
      rw [← e1, ← e2]
  | none =>
    rw [hf] at hr
    simp only at hr
    have h20 := (idFile_at c n).2
    split at hr
    · rename_i he; rw [he] at h20; exact absurd h20 (by decide +kernel)
    · split at hr
      · rename_i he; rw [he] at h20; exact absurd h20 (by decide +kernel)
      · cases hr

theorem accepts_some (kern : Bool) (bytes : Text) (w : World) (n : Nat) (h : accepts kern bytes w = .ok n) : (command kern bytes).isSome = true := by
  unfold accepts at h
  split at h
  · cases h
  · rename_i hc; rw [hc]; rfl
  · rename_i hc; rw [hc]; rfl

/-- The kernel keeps to the assumptions, whatever the features. -/
theorem sane : Sane kernel nothing read ans where
  fresh h c fd hc ha e he := by
    have hlt := fresh_lt (world kernel nothing h).files e he
    cases c <;> first | (injection ha with ha; rw [← ha]; exact Nat.ne_of_lt hlt) | exact Bool.noConfusion hc
  types := by decide
  root := ⟨"sys/kernel/tracing".toList, by decide +kernel, by decide +kernel⟩
  kprobe h t hr := by rw [read_eq h _ t "8\n".toList (by decide +kernel) hr]; decide +kernel
  uprobe h t hr := by rw [read_eq h _ t "9\n".toList (by decide +kernel) hr]; decide +kernel
  kprobeRet h t hr := by rw [read_eq h _ t "config:0\n".toList (by decide +kernel) hr]; decide +kernel
  uprobeRet h t hr := by rw [read_eq h _ t "config:0\n".toList (by decide +kernel) hr]; decide +kernel
  tp h t c n hc hn hr := read_tp h t c n hc hr
  wellFormed h kern line n hl ha := by
    have hne : eventsPath kernel false ≠ eventsPath kernel true := eventsPath_ne kernel
    unfold ans at ha
    cases kern with
    | true =>
      simp only [if_true] at ha
      exact accepts_some _ _ _ _ ha
    | false =>
      simp only [if_neg hne, if_true] at ha
      exact accepts_some _ _ _ _ ha

end Verif.Probe.Demo
