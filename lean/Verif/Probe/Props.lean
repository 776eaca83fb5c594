import Verif.Probe.Demo
/-!
# C76: a program runs at exactly what it was attached to

Kernel probes, user probes, trace points, perf events, raw trace points and tracing programs. `Verif.Probe.Spec` says what the
kernel makes of the calls: which event a `perf_event_attr` stands for, what the text written to tracefs defines, and which
programs run.
-/
set_option linter.unusedSimpArgs false
set_option linter.unusedVariables false
namespace Verif.Probe
open Verif.Str
open Verif.Probe.Spec (MadeBy Plain Symbol Kernel World Sane Obj Ev Whom Source Place Def Runs Meets Sensible world step event source whom eventsPath find fdOf)

variable {k : Kernel} {w₀ : World} {env : Env}

/-- The names of definitions made so far by this process have numbers below the next one. -/
def NamesBelow (k : Kernel) (w₀ : World) (env : Env) (s : St) : Prop :=
  ∀ d ∈ (world k w₀ s.hist).events, ∀ i, MadeBy env.self i d.name → i < s.next

/-- **C76.** When `attach` succeeds there is exactly one new descriptor, the one of the link; the program runs once more than
before; and what it runs on is what was asked for: the function and offset, the file, offset, process and cookie, the trace
point, the event, processes, sampling and inheritance, the raw trace point. This holds on kernels with and without probe event
sources and links on perf events. Partial: the request has to be sensible, which on old kernels excludes return probes with an
offset (`C76_ret_offset_violated`); process numbers of 2³¹ and more are excluded (`C76_pid_violated`); and so is the
empty function name (`C76_address_violated`). -/
theorem C76_attached_partial (sane : Sane k w₀ env.read env.ans) (hroot : ∀ r, env.tracefs = some r → r = k.root) (prog : Fd) (q : Req)
    (s s' : St) (l : Link) (hq : Sensible env.pmu (world k w₀ s.hist).events q) (hn : NamesBelow k w₀ env s)
    (h : attach env (some prog) q s = (.ok l, s')) :
    ∃ what, Meets k (world k w₀ s.hist).events q what ∧
      (world k w₀ s'.hist).running = (world k w₀ s.hist).running ++ [(prog, what)] ∧
      (∃ o : Obj, (world k w₀ s'.hist).files = (world k w₀ s.hist).files ++ [(fdOf l, o)] ∧ o.runs = [(prog, what)]) ∧
      ∀ e ∈ (world k w₀ s.hist).files, e.1 ≠ fdOf l := by
  obtain ⟨_, _, _, h4⟩ := attach_spec sane hroot prog q s hq hn h
  obtain ⟨what, ha, hm⟩ := h4 l rfl
  exact ⟨what, hm, ha.running, ha.files, ha.fresh⟩

/-- **C76.** When `attach` fails nothing new is open and no program runs that did not run before. On kernels with probe event
sources no definition is left behind either. Partial: on other kernels a definition can be left behind, when the kernel refuses
to remove it while its perf event is open (`Verif.UProbe`, C62). -/
theorem C76_failed_partial (sane : Sane k w₀ env.read env.ans) (hroot : ∀ r, env.tracefs = some r → r = k.root) (prog : Fd) (q : Req)
    (s s' : St) (e : Err) (hq : Sensible env.pmu (world k w₀ s.hist).events q) (hn : NamesBelow k w₀ env s)
    (h : attach env (some prog) q s = (.error e, s')) :
    (world k w₀ s'.hist).files = (world k w₀ s.hist).files ∧ (world k w₀ s'.hist).running = (world k w₀ s.hist).running ∧
    (env.pmu = true → (world k w₀ s'.hist).events = (world k w₀ s.hist).events) := by
  obtain ⟨_, h2, h3, _⟩ := attach_spec sane hroot prog q s hq hn h
  have := h3 e rfl
  refine ⟨this, ?_, h2⟩
  unfold Spec.World.running
  rw [show (world k w₀ s'.hist).files = (world k w₀ s.hist).files from this]

/-- **C76.** A program that is not loaded is not attached, and nothing is asked of the system. -/
theorem C76_not_loaded (q : Req) (s : St) : ∃ e, attach env none q s = (.error e, s) ∧ (e = .notLoaded ∨ e = .panicked) := by
  cases q <;> try exact ⟨_, rfl, .inl rfl⟩
  rename_i n
  simp only [attach]
  split
  · exact ⟨_, rfl, .inr rfl⟩
  · exact ⟨_, rfl, .inl rfl⟩

/-- **C76.** A cookie is given only where the kernel has cookies and links on perf events: elsewhere attaching with a cookie
fails, and a link for it is never asked of the system. -/
theorem C76_cookie (prog : Fd) (ret : Bool) (path : Text) (off c : Nat) (pid : Option Nat) (s : St)
    (hno : ¬ (env.pmu = true ∧ env.perfLink = true ∧ env.cookies = true)) :
    ∃ e s', attach env (some prog) (.userProbe ret path off pid (some c)) s = (.error e, s') ∧
      (¬ (env.pmu = true ∧ env.perfLink = true) → e = .cookieNotSupported ∧ s' = s) := by
  simp only [attach, attachProbe]
  by_cases h : env.pmu = true ∧ env.perfLink = true
  · rw [if_pos h]
    have hc : env.cookies = false := by
      cases hk : env.cookies with
      | false => rfl
      | true => exact absurd ⟨h.1, h.2, hk⟩ hno
    simp only [attachBpfProbe]
    cases hp : createAsProbe env uprobe ret path off pid s with
    | mk r s1 =>
      cases r with
      | error e => exact ⟨e, s1, rfl, fun hn => absurd h hn⟩
      | ok fd =>
        refine ⟨.cookieNotSupported, exec env (.close fd) s1, ?_, fun hn => absurd h hn⟩
        simp only [attachBpfLink]
        rw [if_pos ⟨rfl, by simp [hc]⟩]
  · rw [if_neg h]
    exact ⟨.cookieNotSupported, s, by simp [attachPerfEventProbe], fun _ => ⟨rfl, rfl⟩⟩

/-- **C76.** The names of definitions stay below the number of the next one, so that a new name is never that of another
definition, whether `attach` succeeds or not. -/
theorem C76_names (sane : Sane k w₀ env.read env.ans) (hroot : ∀ r, env.tracefs = some r → r = k.root) (prog : Fd) (q : Req)
    (s : St) (hq : Sensible env.pmu (world k w₀ s.hist).events q) (hn : NamesBelow k w₀ env s) :
    NamesBelow k w₀ env (attach env (some prog) q s).2 := by
  cases h : attach env (some prog) q s with
  | mk r s' => exact (attach_spec sane hroot prog q s hq hn h).1

/-- **C76.** Two names are different if they were made by different processes or as definitions of different number. -/
theorem C76_unique (self self' : Nat) (ret ret' : Bool) (t t' : Text) (off off' i j : Nat)
    (h : eventName self ret t off i = eventName self' ret' t' off' j) : self = self' ∧ i = j :=
  madeBy_inj _ _ _ _ _ (madeBy_eventName self ret t off i) (h ▸ madeBy_eventName self' ret' t' off' j)

/-- **C76.** The line that is written for a probe defines, to the kernel, that probe under that name in the group of its kind,
for every function and file whose name has only letters, digits and `_`, `.`, `/`, `-`. -/
theorem C76_definition (kernel ret : Bool) (self i : Nat) (t : Text) (off : Nat) (hne : t ≠ [])
    (ht : ∀ c ∈ t, (Spec.letter c || c.isDigit) = true ∨ c = '.' ∨ c = '/' ∨ c = '-')
    (hk : kernel = true → (∀ c, t.head? = some c → c.isDigit = false) ∧ (ret = true → off = 0)) :
    Spec.command kernel (eventLine (if kernel then kprobe else uprobe) ret (eventName self ret t off i) t off) =
      some (.define ⟨if kernel then "kprobes".toList else "uprobes".toList, eventName self ret t off i,
        ⟨if kernel then .function t off else .file t off, ret⟩⟩) := by
  have hgood := eventName_good self ret t off i ht
  have hb : ∀ c ∈ t, Spec.blank c = false := by
    intro c hc
    have hx : ∀ c : Char, (Spec.blank c = true → (Spec.letter c || c.isDigit) = false ∧ c ≠ '.' ∧ c ≠ '/' ∧ c ≠ '-') := by
      intro c hb
      simp only [Spec.blank, Bool.or_eq_true, decide_eq_true_eq] at hb
      rcases hb with ((((rfl | rfl) | rfl) | rfl) | rfl) | rfl <;> decide
    cases hbl : Spec.blank c with
    | false => rfl
    | true =>
      obtain ⟨h1, h2, h3, h4⟩ := hx c hbl
      rcases ht c hc with h | h | h | h
      · rw [h1] at h; cases h
      · exact absurd h h2
      · exact absurd h h3
      · exact absurd h h4
  have hplus : '+' ∉ t := by
    intro hc
    rcases ht '+' hc with h | h | h | h <;> exact absurd h (by decide)
  cases kernel with
  | true =>
    obtain ⟨h1, h2⟩ := hk rfl
    have hs : Symbol t := by
      cases t with
      | nil => exact absurd rfl hne
      | cons c cs => exact ⟨⟨c, cs, rfl, h1 c rfl⟩, hplus, hb⟩
    have := line_kernel ret (eventName self ret t off i) t off hs h2 (eventName_noBlank self ret t off i hb)
    rw [if_pos hgood] at this
    exact this
  | false =>
    have := line_user ret (eventName self ret t off i) t off hne hb (eventName_noBlank self ret t off i hb)
    rw [if_pos hgood] at this
    exact this

/-- **C76.** Detaching closes the descriptor of the link and no other, whatever the system answers: the programs that run are
those of the other descriptors. No definition appears; if the link has none, the definitions stay as they are. -/
theorem C76_detached (l : Link) (s : St) :
    (world k w₀ (detach env l s).hist).files = (world k w₀ s.hist).files.filter (fun e => e.1 ≠ fdOf l) ∧
    (∀ d ∈ (world k w₀ (detach env l s).hist).events, d ∈ (world k w₀ s.hist).events) ∧
    ((∀ fd e, l ≠ .perf fd (some e)) → (world k w₀ (detach env l s).hist).events = (world k w₀ s.hist).events) := by
  obtain ⟨a, _, b, c⟩ := detach_spec (k := k) (w₀ := w₀) (env := env) l s
  exact ⟨a, c, b⟩

/-- **C76.** Detaching what was just attached leaves open what was open before, and running what ran before. -/
theorem C76_undone (sane : Sane k w₀ env.read env.ans) (hroot : ∀ r, env.tracefs = some r → r = k.root) (prog : Fd) (q : Req)
    (s s' : St) (l : Link) (hq : Sensible env.pmu (world k w₀ s.hist).events q) (hn : NamesBelow k w₀ env s)
    (h : attach env (some prog) q s = (.ok l, s')) :
    (world k w₀ (detach env l s').hist).files = (world k w₀ s.hist).files ∧
    (world k w₀ (detach env l s').hist).running = (world k w₀ s.hist).running := by
  obtain ⟨what, _, _, ⟨o, ho, _⟩, hf⟩ := C76_attached_partial sane hroot prog q s s' l hq hn h
  have hd := (C76_detached (k := k) (w₀ := w₀) (env := env) l s').1
  have : (world k w₀ (detach env l s').hist).files = (world k w₀ s.hist).files := by
    rw [hd, ho, List.filter_append, filter_ne hf]
    simp
  refine ⟨this, ?_⟩
  unfold Spec.World.running
  rw [this]

/-- **C76.** Deleting a definition removes it and no other, if the listing is truthful and the kernel takes the removal. -/
theorem C76_removed (sane : Sane k w₀ env.read env.ans) (htr : env.tracefs = some k.root) (kernel : Bool) (name text : Text)
    (hname : name ≠ [] ∧ ∀ c ∈ name, Spec.blank c = false) (n : Nat) (s : St)
    (hread : env.read s.hist (eventsPath k kernel) = .ok text) (hlist : Spec.Lists text kernel (world k w₀ s.hist).events)
    (hans : env.ans (s.hist ++ [.read (eventsPath k kernel) (.ok text)]) (.append (eventsPath k kernel) ("-:".toList ++ name ++ ['\n'])) = .ok n) :
    (world k w₀ (deleteEvent env ⟨if kernel then "kprobe".toList else "uprobe".toList, name⟩ s).hist).events =
      (world k w₀ s.hist).events.filter (fun d => ¬ (d.group = Spec.group kernel ∧ d.name = name)) := by
  have := deleteEvent_removes (w₀ := w₀) sane htr kernel name text hname n s hread hlist hans
  cases kernel <;> exact this

/-! ## Histories -/

/-- The attachments that are in force: link, program and request. -/
abbrev InForce := List (Link × Fd × Req)

/-- States that are reached from `s₀` by attaching programs, with or without success, and detaching links. -/
inductive Reach (env : Env) (k : Kernel) (w₀ : World) (s₀ : St) : St → InForce → Prop where
  | start : Reach env k w₀ s₀ s₀ []
  | attached (s s' : St) (live : InForce) (prog : Fd) (q : Req) (l : Link) : Reach env k w₀ s₀ s live →
      Sensible env.pmu (world k w₀ s.hist).events q → attach env (some prog) q s = (.ok l, s') →
      Reach env k w₀ s₀ s' (live ++ [(l, prog, q)])
  | failed (s s' : St) (live : InForce) (prog : Fd) (q : Req) (e : Err) : Reach env k w₀ s₀ s live →
      Sensible env.pmu (world k w₀ s.hist).events q → attach env (some prog) q s = (.error e, s') →
      Reach env k w₀ s₀ s' live
  | detached (s : St) (live rest : InForce) (x : Link × Fd × Req) (done : InForce) : Reach env k w₀ s₀ s live →
      live = done ++ x :: rest → Reach env k w₀ s₀ (detach env x.1 s) (done ++ rest)

/-- One descriptor for each attachment, in order, that makes its program run as asked for. -/
inductive Serves (k : Kernel) : InForce → List (Fd × Obj) → Prop where
  | nil : Serves k [] []
  | cons (l : Link) (prog : Fd) (q : Req) (what : Runs) (o : Obj) (events : List Def) (live : InForce) (fs : List (Fd × Obj)) :
      o.runs = [(prog, what)] → Meets k events q what → Serves k live fs → Serves k ((l, prog, q) :: live) ((fdOf l, o) :: fs)

theorem Serves.append {live live' : InForce} {fs fs' : List (Fd × Obj)} (h : Serves k live fs) (h' : Serves k live' fs') :
    Serves k (live ++ live') (fs ++ fs') := by
  induction h with
  | nil => exact h'
  | cons l prog q what o ev live fs h1 h2 _ ih => exact .cons l prog q what o ev _ _ h1 h2 ih

theorem Serves.keys {live : InForce} {fs : List (Fd × Obj)} (h : Serves k live fs) : fs.map (·.1) = live.map (fun x => fdOf x.1) := by
  induction h with
  | nil => rfl
  | cons l prog q what o ev live fs h1 h2 _ ih => rw [List.map_cons, List.map_cons, ih]

theorem Serves.split {done rest : InForce} {x : Link × Fd × Req} {fs : List (Fd × Obj)} (h : Serves k (done ++ x :: rest) fs) :
    ∃ a o b, fs = a ++ (fdOf x.1, o) :: b ∧ Serves k done a ∧ Serves k rest b := by
  induction done generalizing fs with
  | nil =>
    cases h with
    | cons l prog q what o ev live fs h1 h2 h3 => exact ⟨[], o, fs, rfl, .nil, h3⟩
  | cons y ys ih =>
    cases h with
    | cons l prog q what o ev live fs h1 h2 h3 =>
      obtain ⟨a, o', b, rfl, ha, hb⟩ := ih h3
      exact ⟨_ :: a, o', b, rfl, .cons l prog q what o ev _ _ h1 h2 ha, hb⟩

/-- **C76.** After any number of attachments, successful or not, and detachments, what is open is what was open at the start and
one descriptor for each attachment in force, all of them different; and the programs that run are those that ran at the start
and one for each attachment in force, each on what was asked for. Partial as `C76_attached_partial`. -/
theorem C76_history_partial (sane : Sane k w₀ env.read env.ans) (hroot : ∀ r, env.tracefs = some r → r = k.root) (s₀ s : St)
    (live : InForce) (hn : NamesBelow k w₀ env s₀) (h : Reach env k w₀ s₀ s live) :
    ∃ fs, (world k w₀ s.hist).files = (world k w₀ s₀.hist).files ++ fs ∧ Serves k live fs ∧ (live.map (fun x => fdOf x.1)).Nodup ∧
      (∀ e ∈ (world k w₀ s₀.hist).files, ∀ x ∈ live, e.1 ≠ fdOf x.1) ∧ NamesBelow k w₀ env s ∧
      (world k w₀ s.hist).running = (world k w₀ s₀.hist).running ++ (fs.map (fun e => e.2.runs)).flatten := by
  have hrun : ∀ (s : St) (fs : List (Fd × Obj)), (world k w₀ s.hist).files = (world k w₀ s₀.hist).files ++ fs →
      (world k w₀ s.hist).running = (world k w₀ s₀.hist).running ++ (fs.map (fun e => e.2.runs)).flatten := by
    intro s fs hf
    unfold Spec.World.running
    rw [hf, List.map_append, List.flatten_append]
  induction h with
  | start => exact ⟨[], (List.append_nil _).symm, .nil, List.nodup_nil, (by intro e _ x hx; cases hx), hn, by simp⟩
  | attached s s' live prog q l _ hq ha ih =>
    obtain ⟨fs, h1, h2, h3, h4, h5, _⟩ := ih
    obtain ⟨what, hm, _, ⟨o, ho, hor⟩, hf⟩ := C76_attached_partial sane hroot prog q s s' l hq h5 ha
    have hnames := C76_names sane hroot prog q s hq h5
    rw [ha] at hnames
    have hfiles : (world k w₀ s'.hist).files = (world k w₀ s₀.hist).files ++ (fs ++ [(fdOf l, o)]) := by
      rw [ho, h1, List.append_assoc]
    refine ⟨_, hfiles, h2.append (.cons l prog q what o _ _ _ hor hm .nil), ?_, ?_, hnames, hrun _ _ hfiles⟩
    · rw [List.map_append, List.nodup_append]
      refine ⟨h3, by simp, ?_⟩
      intro a ha b hb
      rw [← h2.keys] at ha
      obtain ⟨e, he, rfl⟩ := List.mem_map.mp ha
      simp only [List.map_cons, List.map_nil, List.mem_singleton] at hb
      subst hb
      exact hf e (by rw [h1]; exact List.mem_append_right _ he)
    · intro e he x hx
      rcases List.mem_append.mp hx with hx | hx
      · exact h4 e he x hx
      · rw [List.mem_singleton] at hx
        subst hx
        exact hf e (by rw [h1]; exact List.mem_append_left _ he)
  | failed s s' live prog q e _ hq ha ih =>
    obtain ⟨fs, h1, h2, h3, h4, h5, _⟩ := ih
    have hnames := C76_names sane hroot prog q s hq h5
    rw [ha] at hnames
    have hfiles := ((C76_failed_partial sane hroot prog q s s' e hq h5 ha).1).trans h1
    exact ⟨fs, hfiles, h2, h3, h4, hnames, hrun _ _ hfiles⟩
  | detached s live rest x done _ hl ih =>
    subst hl
    obtain ⟨fs, h1, h2, h3, h4, h5, _⟩ := ih
    obtain ⟨a, o, b, rfl, ha, hb⟩ := h2.split
    obtain ⟨d1, d2, _, d4⟩ := detach_spec (k := k) (w₀ := w₀) (env := env) x.1 s
    have hkeys := h3
    rw [List.map_append, List.map_cons, List.nodup_append] at hkeys
    obtain ⟨n1, n2, n3⟩ := hkeys
    rw [List.nodup_cons] at n2
    have fa : ∀ e ∈ a, e.1 ≠ fdOf x.1 := by
      intro e he
      have : e.1 ∈ done.map (fun x => fdOf x.1) := by rw [← ha.keys]; exact List.mem_map.mpr ⟨e, he, rfl⟩
      exact n3 _ this _ List.mem_cons_self
    have fb : ∀ e ∈ b, e.1 ≠ fdOf x.1 := by
      intro e he hc
      have : e.1 ∈ rest.map (fun x => fdOf x.1) := by rw [← hb.keys]; exact List.mem_map.mpr ⟨e, he, rfl⟩
      exact n2.1 (hc ▸ this)
    have f0 : ∀ e ∈ (world k w₀ s₀.hist).files, e.1 ≠ fdOf x.1 := fun e he => h4 e he x (by simp)
    have hfiles : (world k w₀ (detach env x.1 s).hist).files = (world k w₀ s₀.hist).files ++ (a ++ b) := by
      have : (world k w₀ (detach env x.1 s).hist).files = (world k w₀ s.hist).files.filter (fun e => e.1 ≠ fdOf x.1) := d1
      rw [this, h1, List.filter_append, List.filter_append, filter_ne f0, filter_ne fa,
        List.filter_cons_of_neg (by simp), filter_ne fb]
    refine ⟨_, hfiles, ha.append hb, ?_, ?_, ?_, hrun _ _ hfiles⟩
    · rw [List.map_append, List.nodup_append]
      exact ⟨n1, n2.2, fun a ha b hb => n3 a ha b (List.mem_cons_of_mem _ hb)⟩
    · intro e he y hy
      refine h4 e he y ?_
      rcases List.mem_append.mp hy with hy | hy
      · exact List.mem_append_left _ hy
      · exact List.mem_append_right _ (List.mem_cons_of_mem _ hy)
    · intro d hd i hi
      rw [d2]
      exact h5 d (d4 d hd) i hi

/-! ## Examples -/

open Demo

/-- At the start nothing has been done. -/
def start : St := ⟨[], 0⟩

theorem start_below (pmu perfLink : Bool) : NamesBelow Demo.kernel nothing (Demo.env pmu perfLink) start := by
  intro d hd; cases hd

theorem demo_root (pmu perfLink : Bool) : ∀ r, (Demo.env pmu perfLink).tracefs = some r → r = Demo.kernel.root := by
  intro r hr; injection hr with hr; exact hr.symm

/-- The result of an attachment, what runs afterwards and what is defined. -/
def shown (p : Except Err Link × St) : Except Err Link × List (Fd × Runs) × List Def :=
  (p.1, (world Demo.kernel nothing p.2.hist).running, (world Demo.kernel nothing p.2.hist).events)

/-- A kernel probe on a new kernel: a perf event of the kernel's source for probes, and a link. -/
example : shown (attach (Demo.env true true) (some 5) (.kprobe false open_ 16) start) =
    (.ok (.fd 11), [(5, .event ⟨.probe ⟨.function open_ 16, false⟩, .everyoneOn 0, .period 0, false, 0⟩ 0)], []) := by decide +kernel

/-- On an old one: a definition in tracefs and a perf event of it. -/
example : shown (attach (Demo.env false false) (some 5) (.kprobe false open_ 16) start) =
    (.ok (.perf 10 (some ⟨"kprobe".toList, name0⟩)), [(5, .event ⟨.probe ⟨.function open_ 16, false⟩, .everyoneOn 0, .period 0, false, 1⟩ 0)],
      [⟨"kprobes".toList, name0, ⟨.function open_ 16, false⟩⟩]) := by decide +kernel

/-- A user probe with a process, on an old kernel and, with a cookie, on a new one. -/
example : shown (attach (Demo.env false false) (some 5) (.userProbe false lib 8000 (some 42) none) start) =
    (.ok (.perf 10 (some ⟨"uprobe".toList, name2⟩)), [(5, .event ⟨.probe ⟨.file lib 8000, false⟩, .process 42 none, .period 0, false, 1⟩ 0)],
      [⟨"uprobes".toList, name2, ⟨.file lib 8000, false⟩⟩]) := by decide +kernel
example : shown (attach (Demo.env true true) (some 5) (.userProbe true lib 8000 (some 42) (some 9)) start) =
    (.ok (.fd 11), [(5, .event ⟨.probe ⟨.file lib 8000, true⟩, .process 42 none, .period 0, false, 0⟩ 9)], []) := by decide +kernel
/-- Without links on perf events there are no cookies. -/
example : shown (attach (Demo.env true false) (some 5) (.userProbe true lib 8000 (some 42) (some 9)) start) =
    (.error .cookieNotSupported, [], []) := by decide +kernel

/-- A trace point, a perf event, a raw trace point. -/
example : shown (attach (Demo.env true true) (some 5) (.tracePoint sched switch) start) =
    (.ok (.fd 11), [(5, .event ⟨.tracePoint sched switch, .everyoneOn 0, .period 0, false, 1⟩ 0)], []) := by decide +kernel
example : shown (attach (Demo.env true false) (some 5) (.perfEvent (.hwCache .dtlb .read .miss) (.oneProcess 9 (some 2)) (.frequency 99) true) start) =
    (.ok (.perf 10 none), [(5, .event ⟨.cache .dtlb .read .miss, .process 9 (some 2), .frequency 99, true, 1⟩ 0)], []) := by decide +kernel
example : shown (attach (Demo.env true true) (some 5) (.rawTracePoint switch) start) = (.ok (.fd 10), [(5, .raw (some switch))], []) := by
  decide +kernel
example : shown (attach (Demo.env true true) (some 5) .tracing start) = (.ok (.fd 10), [(5, .raw none)], []) := by decide +kernel

/-- The assumptions of `C76_attached_partial` hold in these cases. -/
example : ∃ what, Meets Demo.kernel [] (.kprobe false open_ 16) what ∧
    (world Demo.kernel nothing (attach (Demo.env false false) (some 5) (.kprobe false open_ 16) start).2.hist).running = [] ++ [(5, what)] := by
  have hok : (attach (Demo.env false false) (some 5) (.kprobe false open_ 16) start).1 = .ok (.perf 10 (some ⟨"kprobe".toList, name0⟩)) := by
    decide +kernel
  obtain ⟨what, h1, h2, _⟩ := C76_attached_partial (env := Demo.env false false) Demo.sane (demo_root _ _) 5 (.kprobe false open_ 16) start
    (attach (Demo.env false false) (some 5) (.kprobe false open_ 16) start).2 _
    ⟨by decide, fun _ => ⟨⟨⟨'d', _, rfl, by decide⟩, by decide, by decide⟩, by decide⟩⟩ (start_below _ _)
    (Prod.ext hok rfl)
  exact ⟨what, h1, h2⟩

/-- And a history: two attachments, the first one detached. -/
example : ∃ s live, Reach (Demo.env true true) Demo.kernel nothing start s live ∧ live.length = 1 ∧
    (world Demo.kernel nothing s.hist).running = [(6, .raw none)] := by
  have h1 : (attach (Demo.env true true) (some 5) (.rawTracePoint switch) start).1 = .ok (.fd 10) := by decide +kernel
  have r1 := Reach.attached (env := Demo.env true true) (k := Demo.kernel) (w₀ := nothing) (s₀ := start) start _ [] 5 (.rawTracePoint switch) _
    .start trivial (Prod.ext h1 rfl)
  have h2 : (attach (Demo.env true true) (some 6) .tracing (attach (Demo.env true true) (some 5) (.rawTracePoint switch) start).2).1 = .ok (.fd 11) := by
    decide +kernel
  have r2 := Reach.attached _ _ _ 6 .tracing _ r1 trivial (Prod.ext h2 rfl)
  have r3 := Reach.detached _ _ [(.fd 11, 6, .tracing)] (.fd 10, 5, .rawTracePoint switch) [] r2 rfl
  exact ⟨_, _, r3, rfl, by decide +kernel⟩

/-- Definitions as text. -/
example : eventLine kprobe false name0 open_ 16 = "p:kprobes/aya_77_p_do_sys_open_0x10_0 do_sys_open+16\n".toList := by decide +kernel
example : eventLine uprobe true name2 lib 8000 = "r:uprobes/aya_77_p__usr_lib_libssl_so_0x1f40_0 /usr/lib/libssl.so:0x1f40\n".toList := by
  decide +kernel
example : eventName 77 false lib 8000 0 = name2 := by decide +kernel

/-- A kernel without cookies: the probe is closed again. -/
example : shown (attach { Demo.env true true with cookies := false } (some 5) (.userProbe false lib 8000 none (some 7)) start) =
    (.error .cookieNotSupported, [], []) := by decide +kernel

/-! ## Where the property fails -/

/-- **C76 is violated**: on kernels without probe event sources the offset of a return probe is dropped without a word. Asked for
offset 4, the program is attached to offset 0. -/
theorem C76_ret_offset_violated : shown (attach (Demo.env false false) (some 5) (.kprobe true open_ 4) start) =
    (.ok (.perf 10 (some ⟨"kprobe".toList, name1⟩)), [(5, .event ⟨.probe ⟨.function open_ 0, true⟩, .everyoneOn 0, .period 0, false, 1⟩ 0)],
      [⟨"kprobes".toList, name1, ⟨.function open_ 0, true⟩⟩]) := by decide +kernel

/-- **C76 is violated**: a process number of 2³² - 1 becomes -1, "every process", so that with a processor the program runs for
all processes instead of none. -/
theorem C76_pid_violated : shown (attach (Demo.env true true) (some 5)
    (.perfEvent (.software .cpuClock) (.oneProcess 4294967295 (some 3)) (.period 1000) false) start) =
    (.ok (.fd 11), [(5, .event ⟨.software .cpuClock, .everyoneOn 3, .period 1000, false, 1⟩ 0)], []) := by decide +kernel

/-- **C76 is violated**: an empty function name makes the offset an absolute address. -/
theorem C76_address_violated : shown (attach (Demo.env true true) (some 5) (.kprobe false [] 4096) start) =
    (.ok (.fd 11), [(5, .event ⟨.probe ⟨.address 4096, false⟩, .everyoneOn 0, .period 0, false, 0⟩ 0)], []) := by decide +kernel

/-- **C76 is violated**: a NUL in the name of a raw trace point panics, on every system. -/
theorem C76_nul_violated (prog : Option Fd) (name : Text) (h : '\x00' ∈ name) (s : St) :
    attach env prog (.rawTracePoint name) s = (.error .panicked, s) := by
  simp only [attach, if_pos h]

/-- The same for a kernel probe. -/
theorem C76_nul_kprobe_violated : (attach (Demo.env true true) (some 5) (.kprobe false ['a', '\x00'] 0) start).1 = .error .panicked := by
  decide +kernel

/-- **C76 is violated**: on kernels without probe event sources no program can be attached to a file whose name has a character
other than letters, digits, `_`, `.`, `/` and `-`, for example `/usr/lib/libstdc++.so.6`: it becomes part of the name of the
definition, and the kernel refuses the name. -/
theorem C76_name_violated (sane : Sane k w₀ env.read env.ans) (hroot : ∀ r, env.tracefs = some r → r = k.root) (prog : Fd) (ret : Bool)
    (path : Text) (off : Nat) (pid : Option Nat) (s : St) (hpmu : env.pmu = false) (hp : path ≠ []) (hb : ∀ c ∈ path, Spec.blank c = false)
    (c : Char) (hc : c ∈ path) (hbad : (Spec.letter c || c.isDigit) = false ∧ c ≠ '.' ∧ c ≠ '/' ∧ c ≠ '-') :
    ∃ e s', attach env (some prog) (.userProbe ret path off pid none) s = (.error e, s') := by
  have hgood : Spec.goodName (eventName env.self ret path off s.next) = false := by
    have hmem : c ∈ eventName env.self ret path off s.next := by
      unfold eventName
      have : c ∈ path.map (fun c => if c = '.' ∨ c = '/' ∨ c = '-' then '_' else c) :=
        List.mem_map.mpr ⟨c, hc, by rw [if_neg (fun h => h.elim hbad.2.1 (fun h => h.elim hbad.2.2.1 hbad.2.2.2))]⟩
      simp only [List.mem_append]
      exact .inl (.inl (.inl (.inl (.inr this))))
    cases hg : Spec.goodName (eventName env.self ret path off s.next) with
    | false => rfl
    | true =>
      cases hn : eventName env.self ret path off s.next with
      | nil => rw [hn] at hg; cases hg
      | cons x xs =>
        rw [hn] at hg hmem
        simp only [Spec.goodName, Bool.and_eq_true, List.all_eq_true] at hg
        rcases List.mem_cons.mp hmem with h | h
        · subst h
          have := hbad.1
          rw [hg.1] at this
          cases this
        · have := hg.2 c h
          rw [hbad.1] at this
          cases this
  have hcmd : Spec.command false (eventLine uprobe ret (eventName env.self ret path off s.next) path off) = none := by
    have := line_user ret (eventName env.self ret path off s.next) path off hp hb (eventName_noBlank env.self ret path off s.next hb)
    rw [hgood] at this
    exact this
  obtain ⟨l, hl, hnl⟩ := line_newline false ret env.self s.next path off ⟨hp, hb⟩
  have hl' : eventLine uprobe ret (eventName env.self ret path off s.next) path off = l ++ ['\n'] := hl
  simp only [attach, attachProbe, hpmu, Bool.false_eq_true, false_and, if_false, attachPerfEventProbe, Option.isSome_none, createAsTracePoint]
  cases hr : env.tracefs with
  | none => exact ⟨_, _, rfl⟩
  | some root =>
    have := hroot root hr
    subst this
    simp only
    rw [show eventsFile k.root uprobe.pmu = eventsPath k false from eventsFile_eq sane false, call_eq]
    cases ha : env.ans s.hist (.append (eventsPath k false) (eventLine uprobe ret (eventName env.self ret path off s.next) path off)) with
    | error e => exact ⟨_, _, rfl⟩
    | ok n =>
      rw [hl'] at ha hcmd
      have := sane.wellFormed _ _ _ _ hnl ha
      rw [hcmd] at this
      cases this

example : (attach (Demo.env false false) (some 5) (.userProbe false "/usr/lib/libstdc++.so.6".toList 8000 none none) start).1 =
    .error (.file "/sys/kernel/tracing/uprobe_events".toList) := by decide +kernel

/-- **C76 is violated**: without links on perf events the descriptor that `PerfEvent::attach` keeps is not closed on `exec`, so
that a child process keeps the attachment alive after it was detached. Those of probes are. -/
theorem C76_inheritable_violated :
    (world Demo.kernel nothing (attach (Demo.env true false) (some 5) (.perfEvent (.software .cpuClock) (.callingProcess none) (.period 1) false) start).2.hist).files =
      [(10, .perf ⟨.software .cpuClock, .caller none, .period 1, false, 1⟩ (some 5) true false)] ∧
    (world Demo.kernel nothing (attach (Demo.env true false) (some 5) (.kprobe false open_ 16) start).2.hist).files =
      [(10, .perf ⟨.probe ⟨.function open_ 16, false⟩, .everyoneOn 0, .period 0, false, 0⟩ (some 5) true true)] := by decide +kernel

/-- **C76 is violated**: on kernels without probe event sources, which refuse to remove a definition in use, the definition is
still there after the link was detached: it is removed before the perf event is closed. -/
theorem C76_definition_left_violated :
    (world Demo.kernel nothing (detach (Demo.env false false) (.perf 10 (some ⟨"kprobe".toList, name0⟩))
      (attach (Demo.env false false) (some 5) (.kprobe false open_ 16) start).2).hist).events =
      [⟨"kprobes".toList, name0, ⟨.function open_ 16, false⟩⟩] ∧
    (world Demo.kernel nothing (detach (Demo.env false false) (.perf 10 (some ⟨"kprobe".toList, name0⟩))
      (attach (Demo.env false false) (some 5) (.kprobe false open_ 16) start).2).hist).files = [] := by decide +kernel

/-- Once nothing uses it, it can be removed: the case of `C76_removed`. -/
example : (world Demo.kernel nothing (deleteEvent (Demo.env false false) ⟨"kprobe".toList, name0⟩
    (exec (Demo.env false false) (.append (eventsPath Demo.kernel true) (eventLine kprobe false name0 open_ 16)) start)).hist).events = [] := by
  decide +kernel

end Verif.Probe
