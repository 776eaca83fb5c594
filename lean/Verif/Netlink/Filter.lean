import Verif.Netlink.Recv

/-!
# Finding and detaching classifiers by name (C59), the reply to an attach request (C60)
-/
set_option linter.unusedSimpArgs false
set_option linter.unusedVariables false
namespace Verif.Netlink
open Verif.Bytes
open Verif.Netlink.Spec (pad Reads KMsg Holds Parts contents)

namespace Spec

/-- A filter as the kernel lists it: family, interface, handle, parent, `tcm_info` (priority in the
upper half), and its attributes; the attributes of type `TCA_OPTIONS` are themselves lists. -/
structure Filter where
  family : Nat
  ifindex : Nat
  handle : Nat
  parent : Nat
  priority : Nat
  protocol : Nat
  /-- attributes before the options (the kind, the chain, ...) -/
  before : List (Nat × Bytes)
  /-- type of the options attribute, `TCA_OPTIONS` with or without the nesting flag -/
  optionsTy : Nat
  options : List (Nat × Bytes)
  /-- attributes behind the options -/
  after : List (Nat × Bytes)
  deriving DecidableEq, Repr

def Filter.body (f : Filter) : Bytes :=
  tcmsg f.family f.ifindex f.handle f.parent (f.priority * 65536 + f.protocol)
    ++ attrList (f.before ++ (f.optionsTy, attrList f.options) :: f.after)

/-- All numbers and lengths fit, and there is one options attribute. -/
def Filter.Ok (f : Filter) : Prop :=
  f.handle < 2 ^ 32 ∧ f.priority < 2 ^ 16 ∧ f.protocol < 2 ^ 16 ∧ f.optionsTy < 2 ^ 16 ∧
  f.optionsTy % 2 ^ 14 = 2 ∧ 4 + (attrList f.options).length < 2 ^ 16 ∧
  (∀ a ∈ f.options, a.1 < 2 ^ 16 ∧ 4 + a.2.length < 2 ^ 16) ∧
  (∀ a ∈ f.before ++ f.after, a.1 < 2 ^ 16 ∧ 4 + a.2.length < 2 ^ 16 ∧ a.1 % 2 ^ 14 ≠ 2)

/-- A `bpf` filter: its options of type `TCA_BPF_NAME` (7) are C strings. -/
def Filter.Bpf (f : Filter) : Prop :=
  ∀ a ∈ f.options, a.1 % 2 ^ 14 = 7 → ∃ n : Bytes, (0 : UInt8) ∉ n ∧ a.2 = n ++ [0]

/-- The filter carries the name. -/
def Filter.Named (f : Filter) (name : Bytes) : Prop :=
  ∃ a ∈ f.options, a.1 % 2 ^ 14 = 7 ∧ a.2 = name ++ [0]

instance (f : Filter) (name : Bytes) : Decidable (f.Named name) :=
  inferInstanceAs (Decidable (∃ a ∈ f.options, a.1 % 2 ^ 14 = 7 ∧ a.2 = name ++ [0]))

end Spec

open Spec (Filter)

theorem scanOptions_ok (name : Bytes) : ∀ (os : List (Nat × Bytes)) (found : Bool),
    (∀ a ∈ os, a.1 % 2 ^ 14 = 7 → ∃ n : Bytes, (0 : UInt8) ∉ n ∧ a.2 = n ++ [0]) →
    scanOptions name (asAttrs os) found
      = .ok (found || decide (∃ a ∈ os, a.1 % 2 ^ 14 = 7 ∧ a.2 = name ++ [0]))
  | [], found, _ => by simp [asAttrs, scanOptions]
  | a :: os, found, h => by
    have e : asAttrs (a :: os) = ⟨a.1, a.2⟩ :: asAttrs os := rfl
    rw [e, scanOptions, kind_eq]
    have hos : ∀ a ∈ os, a.1 % 2 ^ 14 = 7 → ∃ n : Bytes, (0 : UInt8) ∉ n ∧ a.2 = n ++ [0] :=
      fun x hx => h x (by simp [hx])
    by_cases hk : a.1 % 2 ^ 14 = 7
    · obtain ⟨n, hn, ha⟩ := h a (by simp) hk
      rw [if_neg (by simpa using hk)]
      simp only [ha, cstr_ok n hn]
      rw [scanOptions_ok name os _ hos]
      have hiff : decide (∃ x ∈ a :: os, x.1 % 2 ^ 14 = 7 ∧ x.2 = name ++ [0])
          = ((n == name) || decide (∃ x ∈ os, x.1 % 2 ^ 14 = 7 ∧ x.2 = name ++ [0])) := by
        rw [Bool.eq_iff_iff, Bool.or_eq_true, decide_eq_true_iff, decide_eq_true_iff, beq_iff_eq]
        constructor
        · rintro ⟨x, hx, h1, h2⟩
          rcases List.mem_cons.1 hx with rfl | hx
          · exact .inl (List.append_cancel_right (ha.symm.trans h2))
          · exact .inr ⟨x, hx, h1, h2⟩
        · rintro (rfl | ⟨x, hx, h1, h2⟩)
          · exact ⟨a, by simp, hk, ha⟩
          · exact ⟨x, by simp [hx], h1, h2⟩
      rw [hiff, Bool.or_assoc]
    · rw [if_pos hk, scanOptions_ok name os _ hos]
      have hiff : decide (∃ x ∈ a :: os, x.1 % 2 ^ 14 = 7 ∧ x.2 = name ++ [0])
          = decide (∃ x ∈ os, x.1 % 2 ^ 14 = 7 ∧ x.2 = name ++ [0]) := by
        simp [hk]
      rw [hiff]

theorem scanAttrs_skip (name : Bytes) : ∀ (as : List (Nat × Bytes)) (rest : List Attr) (found : Bool),
    (∀ a ∈ as, a.1 % 2 ^ 14 ≠ 2) →
    scanAttrs name (asAttrs as ++ rest) found = scanAttrs name rest found
  | [], rest, found, _ => rfl
  | a :: as, rest, found, h => by
    have e : asAttrs (a :: as) ++ rest = ⟨a.1, a.2⟩ :: (asAttrs as ++ rest) := rfl
    rw [e, scanAttrs, if_pos (by rw [kind_eq]; exact h a (by simp))]
    exact scanAttrs_skip name as rest found (fun x hx => h x (by simp [hx]))

theorem tcmsg_length (a b c d e : Nat) : (Spec.tcmsg a b c d e).length = 20 := by
  simp [Spec.tcmsg]

/-- What the lookup makes of one filter. -/
theorem filterOf_spec (name : Bytes) (f : Filter) (hf : f.Ok) (hb : f.Bpf) (m : Msg) (hty : m.ty = 44)
    (hd : m.data = f.body) :
    filterOf name m = .ok (if f.Named name then some (f.priority, f.handle) else none) := by
  obtain ⟨h1, h2, h3, h4, h5, h6, h7, h8⟩ := hf
  have hbody : f.body.drop 20
      = Spec.attrList (f.before ++ (f.optionsTy, Spec.attrList f.options) :: f.after) := by
    rw [Spec.Filter.body, ← tcmsg_length f.family f.ifindex f.handle f.parent
      (f.priority * 65536 + f.protocol), List.drop_left]
  have hr : attrs (f.body.drop 20)
      = (asAttrs (f.before ++ (f.optionsTy, Spec.attrList f.options) :: f.after), none) := by
    rw [hbody, C40_iterator]
    apply reads_attrList
    intro a ha
    simp only [List.mem_append, List.mem_cons] at ha
    rcases ha with ha | ha | ha
    · exact ⟨(h8 a (by simp [ha])).1, (h8 a (by simp [ha])).2.1⟩
    · subst ha; exact ⟨h4, h6⟩
    · exact ⟨(h8 a (by simp [ha])).1, (h8 a (by simp [ha])).2.1⟩
  have hopt : attrs (Spec.attrList f.options) = (asAttrs f.options, none) := by
    rw [C40_iterator]; exact reads_attrList _ h7
  have hscan : scanAttrs name (asAttrs (f.before ++ (f.optionsTy, Spec.attrList f.options) :: f.after)) false
      = .ok (decide (f.Named name)) := by
    have e : asAttrs (f.before ++ (f.optionsTy, Spec.attrList f.options) :: f.after)
        = asAttrs f.before ++ ⟨f.optionsTy, Spec.attrList f.options⟩ :: asAttrs f.after := by
      simp [asAttrs]
    rw [e, scanAttrs_skip name _ _ _ (fun a ha => (h8 a (by simp [ha])).2.2), scanAttrs,
      if_neg (by rw [kind_eq]; simpa using h5), scanNested, hopt]
    simp only [scanOptions_ok name f.options false hb, Bool.false_or]
    have := scanAttrs_skip name f.after [] (decide (f.Named name))
      (fun a ha => (h8 a (by simp [ha])).2.2)
    rw [List.append_nil] at this
    exact this
  have hinfo : tcmInfoOf f.body / 2 ^ 16 % 2 ^ 16 = f.priority := by
    have : tcmInfoOf f.body = f.priority * 65536 + f.protocol := by
      rw [tcmInfoOf, Spec.Filter.body, Spec.tcmsg]
      simp only [List.append_assoc]
      rw [drop_le 4 12, drop_le 4 8, drop_le 4 4, drop_le 4 0, List.drop_zero, take_le 4 _ _ (by omega)]
    rw [this]; omega
  have hhandle : tcmHandle f.body = f.handle := by
    rw [tcmHandle, Spec.Filter.body, Spec.tcmsg]
    simp only [List.append_assoc]
    rw [drop_le 4 4, drop_le 4 0, List.drop_zero, take_le 4 _ _ (by omega)]
  have hlen : ¬ f.body.length < 20 := by
    rw [Spec.Filter.body, List.length_append, tcmsg_length]; omega
  rw [filterOf, if_neg (by simp [hty]), hd, if_neg hlen, hr]
  simp only [hscan, hinfo, hhandle]
  by_cases hn : f.Named name
  · simp [hn]
  · simp [hn]

/-- The filters with the name, in the order listed: priority and handle of each. -/
def matching (name : Bytes) (fs : List Filter) : List (Nat × Nat) :=
  (fs.filter (fun f => f.Named name)).map (fun f => (f.priority, f.handle))

theorem collect_spec (name : Bytes) : ∀ (fs : List Filter) (ms : List Msg),
    (∀ f ∈ fs, f.Ok ∧ f.Bpf) → ms.map (·.data) = fs.map Spec.Filter.body → (∀ m ∈ ms, m.ty = 44) →
    collectFilters name ms = .ok (matching name fs)
  | [], [], _, _, _ => rfl
  | [], m :: ms, _, h, _ => by simp at h
  | f :: fs, [], _, h, _ => by simp at h
  | f :: fs, m :: ms, hf, h, hm => by
    simp only [List.map_cons, List.cons.injEq] at h
    have ih := collect_spec name fs ms (fun x hx => hf x (by simp [hx])) h.2 (fun x hx => hm x (by simp [hx]))
    rw [collectFilters, filterOf_spec name f (hf f (by simp)).1 (hf f (by simp)).2 m (hm m (by simp)) h.1]
    by_cases hn : f.Named name
    · simp [hn, ih, matching]
    · simp [hn, ih, matching]

/-- A message of a filter dump. -/
def filterMsg (f : Filter) : KMsg := ⟨44, 2, 1, 0, f.body⟩

/-- **C59.** Looking a classifier up by name in the kernel's list of `bpf` filters, however the list is
spread over datagrams: the result is the priority and handle of exactly the filters with that name, in
order. Missing: filters of other kinds in the list (`C59_other_filter_violated`) and datagrams of more
than 4096 bytes. -/
theorem C59_find_partial (name : Bytes) (fs : List Filter) (hfs : ∀ f ∈ fs, f.Ok ∧ f.Bpf)
    (mss : List (List KMsg)) (ds : List (Except Nat Bytes)) (h : Parts mss ds)
    (ms : List KMsg) (done : KMsg) (d : Bytes) (hd : Holds (ms ++ [done]) d) (hlen : d.length ≤ 4096)
    (hdone : done.ty = 3) (hsplit : mss.flatten ++ ms = fs.map filterMsg)
    (more : List (Except Nat Bytes)) :
    findFilters name (ds ++ .ok d :: more) = .ok (matching name fs) := by
  have hms : ∀ x ∈ ms, x.Data ∨ x.Ack := by
    intro x hx
    have : x ∈ fs.map filterMsg := by rw [← hsplit]; simp [hx]
    obtain ⟨f, hf, rfl⟩ := List.mem_map.1 this
    exact .inl (by simp [Spec.KMsg.Data, filterMsg])
  have hr := C41_multipart_partial mss ds h ms [] done d hd hlen hms hdone more
  rw [hsplit] at hr
  have hc : contents (fs.map filterMsg) = fs.map (fun f => (filterMsg f).view) := by
    rw [contents, List.filter_eq_self.2 (by simp [filterMsg]), List.map_map]
    rfl
  rw [findFilters, hr, hc, collect_spec name fs _ hfs (by simp [filterMsg, Spec.KMsg.view])
    (by simp [filterMsg, Spec.KMsg.view])]

/-- The kernel's listing of a filter that matches on the source address of Ethernet frames (kind
`flower`): its option 7 is `TCA_FLOWER_KEY_ETH_SRC_MASK`, six bytes. -/
def flowerFilter : Filter :=
  ⟨0, 2, 1, 0xFFFFFFF2, 1, 0x300, [(1, [102, 108, 111, 119, 101, 114, 0])], 2,
    [(6, [1, 2, 3, 4, 5, 6]), (7, [255, 255, 255, 255, 255, 255])], []⟩

/-- The kernel's listing of a `bpf` filter named `prog`. -/
def progFilter : Filter :=
  ⟨0, 2, 1, 0xFFFFFFF2, 2, 0x300, [(1, [98, 112, 102, 0])], 2,
    [(7, [112, 114, 111, 103, 0]), (8, [1, 0, 0, 0])], []⟩

/-- The claim fails when another kind of filter is attached to the
same hook, since option 7 is read as a name whatever the kind of the filter. The lookup, and with it
detaching by name, fails although the filter with the name is there; nothing is detached. -/
theorem C59_other_filter_violated :
    flowerFilter.Ok ∧ progFilter.Ok ∧ progFilter.Bpf ∧
    Holds [filterMsg flowerFilter, filterMsg progFilter, ⟨3, 2, 1, 0, [0, 0, 0, 0]⟩]
      ((filterMsg flowerFilter).bytes ++ ((filterMsg progFilter).bytes
        ++ (⟨3, 2, 1, 0, [0, 0, 0, 0]⟩ : KMsg).bytes)) ∧
    (∀ replies, qdiscDetachProgram 2 .ingress [112, 114, 111, 103]
        [.ok ((filterMsg flowerFilter).bytes ++ ((filterMsg progFilter).bytes
          ++ (⟨3, 2, 1, 0, [0, 0, 0, 0]⟩ : KMsg).bytes))] replies
      = ([tcDumpRequest 2 .ingress], .failed (.attr .notCStr))) := by
  refine ⟨by unfold Spec.Filter.Ok flowerFilter; decide +kernel,
    by unfold Spec.Filter.Ok progFilter; decide +kernel, ?_, ?_, ?_⟩
  · intro a ha
    simp only [progFilter, List.mem_cons, List.not_mem_nil, or_false] at ha
    rcases ha with rfl | rfl
    · intro _; exact ⟨[112, 114, 111, 103], by decide, rfl⟩
    · intro h; simp at h
  · have l3 : Holds [(⟨3, 2, 1, 0, [0, 0, 0, 0]⟩ : KMsg)] ((⟨3, 2, 1, 0, [0, 0, 0, 0]⟩ : KMsg).bytes ++ []) :=
      .last _ [] (by unfold Spec.KMsg.Ok; decide) (by decide)
    have l2 := Holds.cons (filterMsg progFilter) [] _ _ (by unfold Spec.KMsg.Ok; decide +kernel)
      (by decide +kernel) l3
    have l1 := Holds.cons (filterMsg flowerFilter) [] _ _ (by unfold Spec.KMsg.Ok; decide +kernel)
      (by decide +kernel) l2
    simpa only [List.append_nil] using l1
  · intro replies
    have : findFilters [112, 114, 111, 103] [.ok ((filterMsg flowerFilter).bytes
        ++ ((filterMsg progFilter).bytes ++ (⟨3, 2, 1, 0, [0, 0, 0, 0]⟩ : KMsg).bytes))]
        = .error (.attr .notCStr) := by decide +kernel
    rw [qdiscDetachProgram, this]

/-- The list with the `bpf` filter alone is searched successfully. -/
example : findFilters [112, 114, 111, 103]
    [.ok ((filterMsg progFilter).bytes ++ (⟨3, 2, 1, 0, [0, 0, 0, 0]⟩ : KMsg).bytes)]
    = .ok [(2, 1)] := by decide +kernel

/-! ## Detaching -/

/-- The bare message that detaches the filter with this priority and handle. -/
def detachMsg (ifIndex : Int) (parent prio handle : Nat) : Bytes :=
  Spec.message 45 5 1 0 (Spec.tcmsg 0 (Spec.u32 ifIndex) handle parent (prio * 65536 + 0x300))

theorem tcmInfo_toNat (p : BitVec 16) : (Util.tcmInfo p 3).toNat = p.toNat * 65536 + 0x300 := by
  have h : Util.tcmInfo p 3 = (p.setWidth 32 <<< 16) ||| 0x300#32 := by
    apply BitVec.eq_of_getLsbD_eq
    intro i hi
    have m1 : ∀ i, i < 32 → (0xFFFF0000#32).getLsbD i = decide (16 ≤ i) := by decide
    have m2 : ((Util.toBe16 3).setWidth 32 &&& 0x0000FFFF#32) = 0x300#32 := by decide
    simp only [Util.tcmInfo, Util.tcHandlerMake, m2, BitVec.getLsbD_or, BitVec.getLsbD_and,
      BitVec.getLsbD_shiftLeft, BitVec.getLsbD_setWidth, m1 i hi]
    by_cases h16 : i < 16
    · simp [h16]
    · have : 16 ≤ i := by omega
      simp [h16, this]
  rw [h, BitVec.toNat_or, BitVec.toNat_shiftLeft, BitVec.toNat_setWidth]
  have hp := p.isLt
  have h1 : p.toNat % 2 ^ 32 = p.toNat := Nat.mod_eq_of_lt (by omega)
  rw [h1, Nat.shiftLeft_eq]
  have h2 : p.toNat * 2 ^ 16 % 2 ^ 32 = 2 ^ 16 * p.toNat := by
    rw [Nat.mod_eq_of_lt (by omega)]; omega
  rw [h2]
  have := Nat.two_pow_add_eq_or_of_lt (i := 16) (b := (0x300#32).toNat) (by decide) p.toNat
  rw [← this]
  simp; omega

theorem handle_roundtrip (v : BitVec 32) : (Util.TcHandle.ofU32 v).toU32 = v := by
  apply BitVec.eq_of_getLsbD_eq
  intro i hi
  simp only [Util.TcHandle.ofU32, Util.TcHandle.toU32, BitVec.getLsbD_or, BitVec.getLsbD_shiftLeft,
    BitVec.getLsbD_setWidth, BitVec.getLsbD_ushiftRight]
  by_cases h : i < 16
  · simp [h, hi]
  · have : 16 + (i - 16) = i := by omega
    have h16 : i - 16 < 16 := by omega
    simp [h, hi, this, h16]
    omega

theorem detach_request (ifIndex : Int) (t : Util.TcAttachType) (prio handle : Nat) (h1 : prio < 2 ^ 16)
    (h2 : handle < 2 ^ 32) :
    tcDetachRequest ifIndex t (BitVec.ofNat 16 prio) (Util.TcHandle.ofU32 (BitVec.ofNat 32 handle))
      = detachMsg ifIndex t.tcParent.toNat prio handle := by
  rw [(C39_tc_other_requests ifIndex t _ _).1, handle_roundtrip, tcmInfo_toNat]
  simp only [BitVec.toNat_ofNat, Nat.mod_eq_of_lt h1, Nat.mod_eq_of_lt h2, detachMsg]

/-- The kernel acknowledges. -/
def Acked (reply : List (Except Nat Bytes)) : Prop :=
  ∃ (m : KMsg) (d : Bytes) (more : List (Except Nat Bytes)), reply = .ok d :: more ∧ Holds [m] d ∧
    d.length ≤ 4096 ∧ m.Ack ∧ ¬ m.Multi

theorem detachAll_acked (ifIndex : Int) (t : Util.TcAttachType) : ∀ (fs : List (Nat × Nat))
    (replies : List (List (Except Nat Bytes))), (∀ f ∈ fs, f.1 < 2 ^ 16 ∧ f.2 < 2 ^ 32) →
    replies.length = fs.length → (∀ r ∈ replies, Acked r) →
    detachAll ifIndex t fs replies
      = (fs.map (fun f => detachMsg ifIndex t.tcParent.toNat f.1 f.2), .ok)
  | [], replies, _, _, _ => by simp [detachAll]
  | f :: fs, [], _, h, _ => by simp at h
  | f :: fs, r :: rs, hf, hl, hr => by
    obtain ⟨m, d, more, e, h1, h2, h3, h4⟩ := hr r (by simp)
    have hs := (C41_ack m d h1 h2 h3 h4 more).2
    have ih := detachAll_acked ifIndex t fs rs (fun x hx => hf x (by simp [hx])) (by simpa using hl)
      (fun x hx => hr x (by simp [hx]))
    rcases f with ⟨p, h⟩
    have hb := hf (p, h) (by simp)
    rw [detachAll]
    simp only [List.headD_cons, e, hs, List.tail_cons, ih, List.map_cons,
      detach_request ifIndex t p h hb.1 hb.2]

/-- **C59.** Detaching by name: after listing the filters of the hook, one request is made for each
filter with the name, in order, for its priority and handle on that interface and hook, and none
otherwise; if no filter has the name, nothing is detached and that is reported. -/
theorem C59_detach_partial (ifIndex : Int) (t : Util.TcAttachType) (name : Bytes) (fs : List Filter)
    (hfs : ∀ f ∈ fs, f.Ok ∧ f.Bpf)
    (mss : List (List KMsg)) (ds : List (Except Nat Bytes)) (h : Parts mss ds)
    (ms : List KMsg) (done : KMsg) (d : Bytes) (hd : Holds (ms ++ [done]) d) (hlen : d.length ≤ 4096)
    (hdone : done.ty = 3) (hsplit : mss.flatten ++ ms = fs.map filterMsg)
    (replies : List (List (Except Nat Bytes))) (hn : replies.length = (matching name fs).length)
    (hr : ∀ r ∈ replies, Acked r) :
    qdiscDetachProgram ifIndex t name (ds ++ [.ok d]) replies
      = (tcDumpRequest ifIndex t :: (matching name fs).map
          (fun f => detachMsg ifIndex t.tcParent.toNat f.1 f.2),
        if matching name fs = [] then .notFound else .ok) := by
  have hf := C59_find_partial name fs hfs mss ds h ms done d hd hlen hdone hsplit []
  have hb : ∀ f ∈ matching name fs, f.1 < 2 ^ 16 ∧ f.2 < 2 ^ 32 := by
    intro f hm
    simp only [matching, List.mem_map, List.mem_filter] at hm
    obtain ⟨g, ⟨hg, _⟩, rfl⟩ := hm
    have := (hfs g hg).1
    exact ⟨this.2.1, this.1⟩
  have hall := detachAll_acked ifIndex t (matching name fs) replies hb hn hr
  rw [qdiscDetachProgram, hf]
  cases hm : matching name fs with
  | nil => simp
  | cons f l =>
    rw [hm] at hall
    simp only [hall, List.map_cons]
    rfl

/-- The kernel refuses with an error. -/
def Refused (errno : Int) (texts : List Bytes) (reply : List (Except Nat Bytes)) : Prop :=
  ∃ (m : KMsg) (d req : Bytes) (as : List (Nat × Bytes)) (more : List (Except Nat Bytes)),
    reply = .ok d :: more ∧ Holds [m] d ∧ d.length ≤ 4096 ∧ m.ty = 2 ∧ req.length = 16 ∧ errno ≠ 0 ∧
    -2 ^ 31 ≤ errno ∧ errno < 2 ^ 31 ∧
    m.body = le 4 (Spec.u32 errno) ++ req ++ Spec.attrList (withNul as) ∧
    (∀ a ∈ as, a.1 < 2 ^ 16 ∧ 5 + a.2.length < 2 ^ 16 ∧ (a.1 % 2 ^ 14 = 1 → (0 : UInt8) ∉ a.2)) ∧
    texts = textsOf as

theorem refused_reply {errno : Int} {texts : List Bytes} {reply : List (Except Nat Bytes)}
    (h : Refused errno texts reply) : simpleReply reply = .error (.kernel (-errno) texts) := by
  obtain ⟨m, d, req, as, more, rfl, h1, h2, h3, h4, h5, h6, h7, h8, h9, rfl⟩ := h
  have := C41_error_partial [] [] .nil [] [] m d h1 h2 (by simp) errno req as h3 h4 h5 h6 h7 h8 h9 more
  simp only [List.nil_append] at this
  rw [simpleReply, this]

theorem detachAll_refused (ifIndex : Int) (t : Util.TcAttachType) (f : Nat × Nat) (rest : List (Nat × Nat))
    (hb : f.1 < 2 ^ 16 ∧ f.2 < 2 ^ 32)
    (errno : Int) (texts : List Bytes) (refusal : List (Except Nat Bytes)) (href : Refused errno texts refusal)
    (more : List (List (Except Nat Bytes))) :
    ∀ (fs : List (Nat × Nat)) (replies : List (List (Except Nat Bytes))),
    (∀ f ∈ fs, f.1 < 2 ^ 16 ∧ f.2 < 2 ^ 32) → replies.length = fs.length → (∀ r ∈ replies, Acked r) →
    detachAll ifIndex t (fs ++ f :: rest) (replies ++ refusal :: more)
      = ((fs ++ [f]).map (fun f => detachMsg ifIndex t.tcParent.toNat f.1 f.2),
        .failed (.kernel (-errno) texts))
  | [], [], _, _, _ => by
    rcases f with ⟨p, h⟩
    simp only [List.nil_append]
    rw [detachAll]
    simp only [List.headD_cons, refused_reply href, List.map_cons, List.map_nil,
      detach_request ifIndex t p h hb.1 hb.2]
  | [], _ :: _, _, h, _ => by simp at h
  | _ :: _, [], _, h, _ => by simp at h
  | g :: fs, r :: rs, hf, hl, hr => by
    obtain ⟨m, d, more', e, h1, h2, h3, h4⟩ := hr r (by simp)
    have hs := (C41_ack m d h1 h2 h3 h4 more').2
    have ih := detachAll_refused ifIndex t f rest hb errno texts refusal href more fs rs
      (fun x hx => hf x (by simp [hx])) (by simpa using hl) (fun x hx => hr x (by simp [hx]))
    rcases g with ⟨p, h⟩
    have hb := hf (p, h) (by simp)
    simp only [List.cons_append]
    rw [detachAll]
    simp only [List.headD_cons, e, hs, List.tail_cons, ih, List.map_cons,
      detach_request ifIndex t p h hb.1 hb.2]

/-- **C59.** If the kernel refuses to detach one of the filters with the name, detaching by name stops
there and reports that error, with the texts of the kernel; the filters before it have been asked for, those
behind it have not. -/
theorem C59_detach_refused_partial (ifIndex : Int) (t : Util.TcAttachType) (name : Bytes) (fs : List Filter)
    (hfs : ∀ f ∈ fs, f.Ok ∧ f.Bpf)
    (mss : List (List KMsg)) (ds : List (Except Nat Bytes)) (h : Parts mss ds)
    (ms : List KMsg) (done : KMsg) (d : Bytes) (hd : Holds (ms ++ [done]) d) (hlen : d.length ≤ 4096)
    (hdone : done.ty = 3) (hsplit : mss.flatten ++ ms = fs.map filterMsg)
    (before after : List (Nat × Nat)) (f : Nat × Nat) (hm : matching name fs = before ++ f :: after)
    (replies : List (List (Except Nat Bytes))) (hn : replies.length = before.length)
    (hr : ∀ r ∈ replies, Acked r)
    (errno : Int) (texts : List Bytes) (refusal : List (Except Nat Bytes)) (href : Refused errno texts refusal)
    (more : List (List (Except Nat Bytes))) :
    qdiscDetachProgram ifIndex t name (ds ++ [.ok d]) (replies ++ refusal :: more)
      = (tcDumpRequest ifIndex t :: (before ++ [f]).map
          (fun f => detachMsg ifIndex t.tcParent.toNat f.1 f.2),
        .failed (.kernel (-errno) texts)) := by
  have hf := C59_find_partial name fs hfs mss ds h ms done d hd hlen hdone hsplit []
  have hb : ∀ f ∈ matching name fs, f.1 < 2 ^ 16 ∧ f.2 < 2 ^ 32 := by
    intro f hm
    simp only [matching, List.mem_map, List.mem_filter] at hm
    obtain ⟨g, ⟨hg, _⟩, rfl⟩ := hm
    have := (hfs g hg).1
    exact ⟨this.2.1, this.1⟩
  rw [hm] at hb
  have hall := detachAll_refused ifIndex t f after (hb f (by simp)) errno texts refusal href more before replies
    (fun g hg => hb g (by simp [hg])) hn hr
  rw [qdiscDetachProgram, hf, hm]
  cases before with
  | nil => simp only [List.nil_append] at hall ⊢; rw [hall]
  | cons b bs => simp only [List.cons_append] at hall ⊢; rw [hall]

/-- `ENOENT` with a text. -/
example : Refused (-2) [[110, 111]] [.ok (⟨2, 0, 1, 0, le 4 (Spec.u32 (-2)) ++ List.replicate 16 0
    ++ Spec.attrList (withNul [(1, [110, 111])])⟩ : KMsg).bytes] := by
  refine ⟨_, _, List.replicate 16 0, [(1, [110, 111])], [], rfl, .last _ [] ?_ (by decide +kernel), ?_, rfl, by simp, by decide, by decide, by decide, rfl, by simp, ?_⟩
  all_goals first | decide +kernel | (unfold Spec.KMsg.Ok; decide +kernel)

/-! ## The reply to an attach request -/

/-- **C60.** Attaching a classifier returns the priority and handle the kernel chose: those of the
single filter echoed in the reply, whether the acknowledgement comes in the same datagram or not. -/
theorem C60_attach_reply (f : Filter) (hf : f.Ok) (flags seq pid : Nat) (acks : List KMsg)
    (d : Bytes) (hd : Holds (⟨44, flags, seq, pid, f.body⟩ :: acks) d)
    (hlen : d.length ≤ 4096) (hacks : ∀ m ∈ acks, m.Ack) (hmulti : ∀ m ∈ (⟨44, flags, seq, pid, f.body⟩ : KMsg) :: acks, ¬ m.Multi)
    (more : List (Except Nat Bytes)) :
    attachReply (.ok d :: more) = .ok f.priority f.handle := by
  obtain ⟨h1, h2, h3, h4, h5, h6, h7, h8⟩ := hf
  have hne : (⟨44, flags, seq, pid, f.body⟩ : KMsg) :: acks ≠ [] := by simp
  have hsp : ∃ ms m, (⟨44, flags, seq, pid, f.body⟩ : KMsg) :: acks = ms ++ [m] :=
    ⟨_, _, (List.dropLast_concat_getLast hne).symm⟩
  obtain ⟨ms, m, e⟩ := hsp
  have hc : contents (ms ++ [m]) = [⟨44, flags, seq, pid, f.body, none⟩] := by
    rw [← e]
    have : acks.filter (fun m => m.ty != 2) = [] := by
      rw [List.filter_eq_nil_iff]
      intro a ha; simp [(hacks a ha).1]
    rw [contents, List.filter_cons_of_pos (by simp), this]
    rfl
  have hr := C41_last_datagram_partial [] [] .nil ms m d (by rw [← e]; exact hd) hlen
    (by
      rw [← e]; intro x hx
      simp only [List.mem_cons] at hx
      rcases hx with rfl | hx
      · exact .inl (by simp [Spec.KMsg.Data])
      · exact .inr (hacks x hx)) (hmulti m (by rw [e]; simp)) more
  rw [List.flatten_nil, List.nil_append, List.nil_append, hc] at hr
  have hinfo : tcmInfoOf f.body / 2 ^ 16 % 2 ^ 16 = f.priority := by
    have : tcmInfoOf f.body = f.priority * 65536 + f.protocol := by
      rw [tcmInfoOf, Spec.Filter.body, Spec.tcmsg]
      simp only [List.append_assoc]
      rw [drop_le 4 12, drop_le 4 8, drop_le 4 4, drop_le 4 0, List.drop_zero, take_le 4 _ _ (by omega)]
    rw [this]; omega
  have hhandle : tcmHandle f.body = f.handle := by
    rw [tcmHandle, Spec.Filter.body, Spec.tcmsg]
    simp only [List.append_assoc]
    rw [drop_le 4 4, drop_le 4 0, List.drop_zero, take_le 4 _ _ (by omega)]
  have hl : ¬ f.body.length < 20 := by
    rw [Spec.Filter.body, List.length_append, tcmsg_length]; omega
  rw [attachReply, hr]
  simp [hl, hinfo, hhandle]

/-- The echo and the acknowledgement in one datagram. -/
example : attachReply [.ok ((⟨44, 0, 1, 9, progFilter.body⟩ : KMsg).bytes
      ++ (⟨2, 0x100, 1, 9, [0, 0, 0, 0] ++ List.replicate 16 0⟩ : KMsg).bytes)] = .ok 2 1 := by
  decide +kernel

/-- A reply without a filter, or with two, is an error, and so is an error of the kernel. -/
theorem C60_attach_errors (input : List (Except Nat Bytes)) (p h : Nat)
    (hok : attachReply input = .ok p h) :
    ∃ m, (recv input).1.filter (fun m => m.ty = 44) = [m] ∧ 20 ≤ m.data.length ∧
      (recv input).2.1 = .over ∧ p = tcmInfoOf m.data / 2 ^ 16 % 2 ^ 16 ∧ h = tcmHandle m.data := by
  rw [attachReply] at hok
  split at hok
  · cases hok
  · rename_i hany
    cases he : (recv input).2.1 with
    | failed e => simp [he] at hok
    | blocked => simp [he] at hok
    | panic => simp [he] at hok
    | over =>
      simp only [he] at hok
      cases hl : (recv input).1.filter (fun m => m.ty = 44) with
      | nil => simp [hl] at hok
      | cons m l =>
        cases l with
        | nil =>
          simp only [hl] at hok
          injection hok with e1 e2
          rw [hl] at hany
          exact ⟨m, rfl, by simpa using hany, rfl, e1.symm, e2.symm⟩
        | cons => simp [hl] at hok

/-- The payload of a filter message is read as a `tcmsg` without looking at its length: on a shorter
payload the read is out of bounds. The kernel does not send such messages. -/
theorem C60_short_payload_unchecked :
    attachReply [.ok (⟨44, 0, 1, 9, [0, 0, 0, 0]⟩ : KMsg).bytes] = .outOfBounds := by decide +kernel

end Verif.Netlink
