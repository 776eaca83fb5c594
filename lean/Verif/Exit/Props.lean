import Verif.Exit.Rules
/-!
# C110: what is left of a process
-/
namespace Verif.Exit

/-- The calls that attaching program `p` can make. -/
def AttachCall (p : Prog) : Call → Prop
  | .linkCreate _ q => q = p
  | .rawOpen _ q => q = p
  | .progAttach _ q => q = p
  | .netlinkSet _ q => q = p
  | .perfOpen _ _ => True
  | .setBpf _ q => q = p
  | .enable _ => True
  | .writeProbe _ => True
  | .deleteProbe _ => True
  | .close _ => True
  | _ => False

section keep
variable {I : World → Prop} {φ : Fate} {f : Features} {p : Prog}

theorem giveUp_keeps (hk : ∀ c, AttachCall p c → ∀ w, I w → I (w.act c).2) (fd : Fd) (ev : Option Hook) (e : Nat) :
    Triple I I (giveUp φ.sys fd ev e) (fun _ => I) := by
  cases ev with
  | none => exact keeps_andThen (keeps_sysUnit (hk _ trivial)) fun _ => keeps_ret
  | some h =>
    exact keeps_andThen (keeps_sysUnit (hk _ trivial)) fun _ => keeps_andThen (keeps_sysUnit (hk _ trivial)) fun _ => keeps_ret

theorem attachPerf_keeps (hk : ∀ c, AttachCall p c → ∀ w, I w → I (w.act c).2) (fd : Fd) (ev : Option Hook) :
    Triple I I (attachPerf φ.sys fd ev p) (fun _ => I) := by
  refine keeps_andThen (keeps_sys (hk _ rfl)) fun r => ?_
  cases r with
  | error e => exact giveUp_keeps hk _ _ _
  | ok _ =>
    refine keeps_andThen (keeps_sys (hk _ trivial)) fun r => ?_
    cases r with
    | error e => exact giveUp_keeps hk _ _ _
    | ok _ => exact keeps_ret

theorem attachBpfLink_keeps (hk : ∀ c, AttachCall p c → ∀ w, I w → I (w.act c).2) (fd : Fd) :
    Triple I I (attachBpfLink φ.sys fd p) (fun _ => I) := by
  refine keeps_andThen (keeps_sys (hk _ rfl)) fun r => keeps_andThen (keeps_sysUnit (hk _ trivial)) fun _ => ?_
  cases r <;> exact keeps_ret

theorem perfAttach_keeps (hk : ∀ c, AttachCall p c → ∀ w, I w → I (w.act c).2) (fd : Fd) :
    Triple I I (perfAttach φ.sys f fd p) (fun _ => I) := by
  unfold perfAttach
  split
  · exact attachBpfLink_keeps hk fd
  · exact attachPerf_keeps hk fd none

theorem attach_keeps (hk : ∀ c, AttachCall p c → ∀ w, I w → I (w.act c).2) (k : Kind) (h : Hook) :
    Triple I I (attach φ.sys f k h p) (fun _ => I) := by
  have hl : Triple I I (attachLink φ.sys h p) (fun _ => I) := keeps_onOk (keeps_sys (hk _ rfl)) fun _ => keeps_ret
  have hp : Triple I I (attachProg φ.sys h p) (fun _ => I) := keeps_onOk (keeps_sys (hk _ rfl)) fun _ => keeps_ret
  have hn : Triple I I (attachTcNetlink φ.sys h p) (fun _ => I) := keeps_onOk (keeps_sys (hk _ rfl)) fun _ => keeps_ret
  cases k <;> simp only [attach]
  · unfold attachCgroup; split <;> assumption
  · exact hl
  · exact keeps_onOk (keeps_sys (hk _ rfl)) fun _ => keeps_ret
  · exact hp
  · exact keeps_onOk (keeps_sys (hk _ rfl)) fun _ => keeps_ret
  · refine keeps_andThen (keeps_sys (hk _ rfl)) fun r => ?_
    cases r with
    | ok fd => exact keeps_ret
    | error e =>
      dsimp only
      split
      · exact keeps_ret
      · exact keeps_onOk (keeps_sys (hk _ rfl)) fun _ => keeps_ret
  · unfold attachTc; split <;> assumption
  · exact hl
  · exact hn
  · exact keeps_onOk (keeps_sys (hk _ trivial)) fun fd => perfAttach_keeps hk fd
  · exact keeps_onOk (keeps_sys (hk _ trivial)) fun fd => perfAttach_keeps hk fd
  · unfold attachProbe
    split
    · exact keeps_onOk (keeps_sys (hk _ trivial)) fun fd => attachBpfLink_keeps hk fd
    · split
      · exact keeps_onOk (keeps_sys (hk _ trivial)) fun fd => attachPerf_keeps hk fd none
      · refine keeps_onOk ?_ fun fd => attachPerf_keeps hk fd (some h)
        refine keeps_onOk (keeps_sys (hk _ trivial)) fun _ => keeps_andThen (keeps_sys (hk _ trivial)) fun r => ?_
        cases r with
        | error e => exact keeps_andThen (keeps_sysUnit (hk _ trivial)) fun _ => keeps_ret
        | ok fd => exact keeps_ret

/-- The calls that dropping a link can make. -/
def DropCall : Call → Prop
  | .close _ => True
  | .progDetach _ _ => True
  | .netlinkClear _ => True
  | .disable _ => True
  | .deleteProbe _ => True
  | _ => False

theorem drop_keeps (hk : ∀ c, DropCall c → ∀ w, I w → I (w.act c).2) (l : Lk) : Triple I I (dropLink φ.sys l) (fun _ => I) := by
  rcases l with fd | ⟨h, p⟩ | _ | h | ⟨fd, _ | h⟩ <;> simp only [dropLink]
  · exact keeps_sysUnit (hk _ trivial)
  · exact keeps_sysUnit (hk _ trivial)
  · exact keeps_ret
  · exact keeps_sysUnit (hk _ trivial)
  · exact keeps_andThen (keeps_sysUnit (hk _ trivial)) fun _ => keeps_sysUnit (hk _ trivial)
  · exact keeps_andThen (keeps_sysUnit (hk _ trivial)) fun _ => keeps_andThen (keeps_sysUnit (hk _ trivial)) fun _ =>
      keeps_sysUnit (hk _ trivial)

/-- The calls of everything else, in a history. -/
def OtherCall (ops : List Op) : Call → Prop
  | .close _ => True
  | .pin _ path => ∃ i, .pin i path ∈ ops
  | .objGet _ => True
  | .unlink path => .unpin path ∈ ops
  | .linkUpdate _ p => ∃ i, .update i p ∈ ops
  | .spawn => .spawn ∈ ops
  | _ => False

theorem pinLink_keeps {fd : Fd} {path : Path} (h1 : ∀ w, I w → I (w.act (.pin fd path)).2) (h2 : ∀ w, I w → I (w.act (.close fd)).2) :
    Triple I I (pinLink φ.sys fd path) (fun _ => I) := by
  refine keeps_andThen (keeps_sys h1) fun r => ?_
  cases r with
  | error e => exact keeps_andThen (keeps_sysUnit h2) fun _ => keeps_ret
  | ok _ => exact keeps_ret

theorem attachToLink_keeps {fd : Fd} {p : Prog} (h1 : ∀ w, I w → I (w.act (.linkUpdate fd p)).2)
    (h2 : ∀ w, I w → I (w.act (.close fd)).2) : Triple I I (attachToLink φ.sys fd p) (fun _ => I) := by
  refine keeps_andThen (keeps_sys h1) fun r => ?_
  cases r with
  | error e => exact keeps_andThen (keeps_sysUnit h2) fun _ => keeps_ret
  | ok _ => exact keeps_ret

/-- What attaching, dropping and all other calls of a history keep, its run keeps. -/
theorem runOp_keeps {ops : List Op} (ha : ∀ k h p, .attach k h p ∈ ops → Triple I I (attach φ.sys f k h p) (fun _ => I))
    (hd : ∀ c, DropCall c → ∀ w, I w → I (w.act c).2) (ho : ∀ c, OtherCall ops c → ∀ w, I w → I (w.act c).2) (o : Op) (hm : o ∈ ops)
    (st : Store) : Triple I I (runOp φ.sys f o st) (fun _ => I) := by
  cases o <;> simp only [runOp]
  · exact keeps_andThen (ha _ _ _ hm) fun _ => keeps_ret
  · split
    · exact keeps_andThen (drop_keeps hd _) fun _ => keeps_ret
    · exact keeps_ret
  · split
    · exact keeps_andThen (pinLink_keeps (ho _ ⟨_, hm⟩) (ho _ trivial)) fun _ => keeps_ret
    · exact keeps_ret
  · exact keeps_andThen (keeps_sysUnit (ho _ hm)) fun _ => keeps_ret
  · refine keeps_andThen (keeps_sys (ho _ trivial)) fun r => ?_
    cases r <;> exact keeps_ret
  · split
    · exact keeps_andThen (attachToLink_keeps (ho _ ⟨_, hm⟩) (ho _ trivial)) fun _ => keeps_ret
    · exact keeps_ret
  · exact keeps_andThen (keeps_sysUnit (ho _ hm)) fun _ => keeps_ret

theorem runOps_keeps {ops : List Op} (ha : ∀ k h p, .attach k h p ∈ ops → Triple I I (attach φ.sys f k h p) (fun _ => I))
    (hd : ∀ c, DropCall c → ∀ w, I w → I (w.act c).2) (ho : ∀ c, OtherCall ops c → ∀ w, I w → I (w.act c).2) :
    ∀ (os : List Op), (∀ o ∈ os, o ∈ ops) → ∀ st, Triple I I (runOps φ.sys f os st) (fun _ => I) := by
  intro os
  induction os with
  | nil => intro _ st; exact keeps_ret
  | cons o os ih =>
    intro hm st
    exact keeps_andThen (runOp_keeps ha hd ho o (hm o (List.mem_cons_self ..)) st)
      fun st => ih (fun x hx => hm x (List.mem_cons_of_mem _ hx)) st

end keep

/-! ## What is pinned stays -/

/-- A link is pinned, at a place, with one of some programs. -/
def Kept (path : Path) (id : Nat) (h : Hook) (ok : Prog → Prop) (w : World) : Prop :=
  (path, id) ∈ w.pins ∧ id < w.next ∧ (w.link id).1 = h ∧ ok (w.link id).2

theorem kept_created {path : Path} {id : Nat} {h : Hook} {ok : Prog → Prop} {w : World} (hw : Kept path id h ok w) (x : Hook × Prog)
    (o : Obj) (c : Bool) : Kept path id h ok ({ w with link := setAt w.link w.next x }.opened o c) := by
  obtain ⟨h1, h2, h3, h4⟩ := hw
  have : setAt w.link w.next x id = w.link id := if_neg (Nat.ne_of_lt h2)
  refine ⟨h1, Nat.lt_succ_of_lt h2, ?_, ?_⟩
  · show (setAt w.link w.next x id).1 = h; rw [this]; exact h3
  · show ok (setAt w.link w.next x id).2; rw [this]; exact h4

theorem kept_act {path : Path} {id : Nat} {h : Hook} {ok : Prog → Prop} {w : World} (c : Call) (hw : Kept path id h ok w)
    (hu : c ≠ .unlink path) (hp : ∀ fd p, c = .linkUpdate fd p → ok p) : Kept path id h ok (w.act c).2 := by
  have hw' := hw
  obtain ⟨h1, h2, h3, h4⟩ := hw
  cases c with
  | linkCreate t p =>
    cases t with
    | hook h => exact kept_created hw' _ _ _
    | perf fd =>
      simp only [World.act]
      split
      · exact kept_created hw' _ _ _
      · exact hw'
  | rawOpen h p => exact kept_created hw' _ _ _
  | linkUpdate fd p =>
    simp only [World.act]
    split
    · rename_i i _ _
      refine ⟨h1, h2, ?_, ?_⟩
      · simp only [setAt]; split
        · rename_i e; rw [← e]; exact h3
        · exact h3
      · simp only [setAt]; split
        · exact hp _ _ rfl
        · exact h4
    · exact hw'
  | progAttach h p => exact hw'
  | progDetach h p => exact hw'
  | netlinkSet h p => exact hw'
  | netlinkClear h => exact hw'
  | perfOpen h c => exact ⟨h1, Nat.lt_succ_of_lt h2, h3, h4⟩
  | setBpf fd p => simp only [World.act]; split <;> exact hw'
  | enable fd => simp only [World.act]; split <;> exact hw'
  | disable fd => simp only [World.act]; split <;> exact hw'
  | writeProbe h => exact hw'
  | deleteProbe h => exact hw'
  | close fd => exact hw'
  | pin fd p =>
    simp only [World.act]
    split
    · exact hw'
    · split
      · exact ⟨List.mem_cons_of_mem _ h1, h2, h3, h4⟩
      · exact hw'
  | objGet p =>
    simp only [World.act]
    split
    · exact ⟨h1, Nat.lt_succ_of_lt h2, h3, h4⟩
    · exact hw'
  | unlink p =>
    refine ⟨List.mem_filter.mpr ⟨h1, ?_⟩, h2, h3, h4⟩
    simp only [bne_iff_ne]
    intro e; exact hu (by rw [e])
  | spawn => exact hw'

/-- A link that is pinned stays attached, at the same place, whatever the process does and whenever it ends, unless it removes the
    pin; the program is the one it was, or one that the process put in its place. -/
theorem C110_pinned (φ : Fate) (f : Features) (ops : List Op) (st : Store) (r : Run) (path : Path) (id : Nat) (h : Hook) (p : Prog)
    (hpin : (path, id) ∈ r.w.pins) (hid : id < r.w.next) (hl : r.w.link id = (h, p)) (hno : .unpin path ∉ ops) :
    ∃ q, (q = p ∨ ∃ i, .update i q ∈ ops) ∧ (runOps φ.sys f ops st r).2.w.ended.runs h q := by
  have hk := runOps_keeps (φ := φ) (f := f) (ops := ops) (I := Kept path id h (fun q => q = p ∨ ∃ i, .update i q ∈ ops))
    (fun k h p _ => attach_keeps (fun c hc w hw => kept_act c hw (fun e => by subst e; exact hc) (fun _ _ e => by subst e; exact hc.elim)) k h)
    (fun c hc w hw => kept_act c hw (fun e => by subst e; exact hc) (fun _ _ e => by subst e; exact hc.elim))
    (fun c hc w hw => kept_act c hw (fun e => by subst e; exact hno hc) (fun _ _ e => by subst e; exact .inr hc))
    ops (fun _ h => h) st
  obtain ⟨⟨h1, _, h3, h4⟩, _⟩ := hk r ⟨hpin, hid, by rw [hl], by rw [hl]; exact .inl rfl⟩
  refine ⟨_, h4, .inr (.inl ⟨id, .inr ⟨path, h1⟩, ?_⟩)⟩
  show (runOps φ.sys f ops st r).2.w.link id = _
  rw [← h3]

end Verif.Exit
