import Verif.Ctx.Steps
import Verif.Common.Except
/-!
# Contexts tell programs what the kernel has, and packets rewritten through them keep valid checksums
-/
set_option linter.unusedSimpArgs false
set_option linter.unusedVariables false
namespace Verif.Ctx
open Verif.Bytes Verif.Ctx.Packet Verif.Ctx.Spec

/-! ## Where fields are -/

section
variable (ld : Load) (o : Nat) (t : Ty)

theorem field_eq {s : Struct} {name : String} (h : offsetOf s name = some (o, t)) : field s ld name = ld o t.size := by
  simp only [field, h]

theorem elem_eq {s : Struct} {name : String} {n : Nat} (h : offsetOf s name = some (o, .u32s n)) (i : Nat) :
    elem s ld name i = if i < n then ld (o + 4 * i) 4 else none := by
  simp only [elem, h]

theorem elems_eq {s : Struct} {name : String} (h : offsetOf s name = some (o, .u32s 4)) {a b c d : Nat}
    (ha : ld o 4 = some a) (hb : ld (o + 4) 4 = some b) (hc : ld (o + 8) 4 = some c) (hd : ld (o + 12) 4 = some d) :
    elems s ld name 4 = some [a, b, c, d] := by
  have e : List.range 4 = [0, 1, 2, 3] := by decide
  simp only [elems, e, elem_eq ld o h]
  simp [ha, hb, hc, hd]
end

/-- **C99.** What the context of a packet says is what the kernel has. The socket's addresses are given as they are on the wire. -/
theorem C99_skb (s : Skb) :
    SkBuff.len s.load = some s.len ∧ SkBuff.data s.load = some s.data ∧ SkBuff.dataEnd s.load = some s.dataEnd ∧
    SkBuff.protocol s.load = some s.protocol ∧ SkBuff.family s.load = some s.family ∧
    SkBuff.localIpv4 s.load = some (loaded (s.localIp4 0) (s.localIp4 1) (s.localIp4 2) (s.localIp4 3)) ∧
    SkBuff.remoteIpv4 s.load = some (loaded (s.remoteIp4 0) (s.remoteIp4 1) (s.remoteIp4 2) (s.remoteIp4 3)) ∧
    SkBuff.localIpv6 s.load = some
      [loaded (s.localIp6 0) (s.localIp6 1) (s.localIp6 2) (s.localIp6 3), loaded (s.localIp6 4) (s.localIp6 5) (s.localIp6 6) (s.localIp6 7),
       loaded (s.localIp6 8) (s.localIp6 9) (s.localIp6 10) (s.localIp6 11),
       loaded (s.localIp6 12) (s.localIp6 13) (s.localIp6 14) (s.localIp6 15)] ∧
    SkBuff.remoteIpv6 s.load = some
      [loaded (s.remoteIp6 0) (s.remoteIp6 1) (s.remoteIp6 2) (s.remoteIp6 3),
       loaded (s.remoteIp6 4) (s.remoteIp6 5) (s.remoteIp6 6) (s.remoteIp6 7),
       loaded (s.remoteIp6 8) (s.remoteIp6 9) (s.remoteIp6 10) (s.remoteIp6 11),
       loaded (s.remoteIp6 12) (s.remoteIp6 13) (s.remoteIp6 14) (s.remoteIp6 15)] ∧
    SkBuff.localPort s.load = some s.localPort ∧ SkBuff.flowKeys s.load = some s.flowKeys ∧
    (∀ i : Fin 5, SkBuff.cb s.load i = some (s.cb i)) ∧ (∀ i, 5 ≤ i → SkBuff.cb s.load i = none) := by
  have hcb := elem_eq s.load 48 (s := skBuff) (name := "cb") (n := 5) (by decide +kernel)
  refine ⟨field_eq s.load 0 .u32 (by decide +kernel), field_eq s.load 76 .u32 (by decide +kernel), field_eq s.load 80 .u32 (by decide +kernel),
    field_eq s.load 16 .u32 (by decide +kernel), field_eq s.load 88 .u32 (by decide +kernel), field_eq s.load 96 .u32 (by decide +kernel),
    field_eq s.load 92 .u32 (by decide +kernel), elems_eq s.load 116 (by decide +kernel) rfl rfl rfl rfl,
    elems_eq s.load 100 (by decide +kernel) rfl rfl rfl rfl, field_eq s.load 136 .u32 (by decide +kernel),
    field_eq s.load 144 .ptr (by decide +kernel), ?_, ?_⟩
  · intro i
    rw [SkBuff.cb, hcb, if_pos i.2]
    rcases i with ⟨i, hi⟩
    have : i = 0 ∨ i = 1 ∨ i = 2 ∨ i = 3 ∨ i = 4 := by omega
    rcases this with rfl | rfl | rfl | rfl | rfl <;> rfl
  · intro i hi
    rw [SkBuff.cb, hcb, if_neg (by omega)]

/-- **C99.** What is written through the context of a packet — the mark, a word of the control buffer — is what the kernel has after, and nothing
else changes. -/
theorem C99_skb_set (s : Skb) (v : Nat) :
    SkBuff.setMark Skb.store s v = some { s with mark := v } ∧
    (∀ i : Fin 5, SkBuff.setCb Skb.store s i v = some { s with cb := fun j => if j = i then v else s.cb j }) ∧
    (∀ i, 5 ≤ i → SkBuff.setCb Skb.store s i v = none) := by
  have hm : offsetOf skBuff "mark" = some (8, .u32) := by decide +kernel
  have hc : offsetOf skBuff "cb" = some (48, .u32s 5) := by decide +kernel
  refine ⟨?_, ?_, ?_⟩
  · simp only [SkBuff.setMark, setField, hm]; rfl
  · intro i
    simp only [SkBuff.setCb, setElem, hc, if_pos i.2]
    rcases i with ⟨i, hi⟩
    have : i = 0 ∨ i = 1 ∨ i = 2 ∨ i = 3 ∨ i = 4 := by omega
    rcases this with rfl | rfl | rfl | rfl | rfl <;> rfl
  · intro i hi
    simp only [SkBuff.setCb, setElem, hc, if_neg (show ¬ i < 5 by omega)]

/-- **C99.** What the context of an XDP program says is what the kernel has: the packet, the metadata that end where it begins, and where it
came in. -/
theorem C99_xdp (x : Spec.Xdp) :
    Xdp.data x.load = some x.data ∧ Xdp.dataEnd x.load = some x.dataEnd ∧ Xdp.metadata x.load = some x.dataMeta ∧
    Xdp.metadataEnd x.load = some x.data ∧ Xdp.ingressIfindex x.load = some x.ifindex ∧ Xdp.rxQueueIndex x.load = some x.queue :=
  ⟨field_eq x.load 0 .u32 (by decide +kernel), field_eq x.load 4 .u32 (by decide +kernel), field_eq x.load 8 .u32 (by decide +kernel),
   field_eq (s := xdpMd) (name := "data") x.load 0 .u32 (by decide +kernel), field_eq x.load 12 .u32 (by decide +kernel), field_eq x.load 16 .u32 (by decide +kernel)⟩

/-- **C99.** What the context of a program that chooses sockets says is what the kernel has; a socket that moves is given exactly if one does. -/
theorem C99_reuseport (r : Reuse) :
    SkReuseport.data r.load = some r.data ∧ SkReuseport.dataEnd r.load = some r.dataEnd ∧ SkReuseport.len r.load = some r.len ∧
    (∃ b, SkReuseport.isEmpty r.load = some b ∧ (b = true ↔ r.len = 0)) ∧ SkReuseport.ethProtocol r.load = some r.ethProtocol ∧
    SkReuseport.ipProtocol r.load = some r.ipProtocol ∧ SkReuseport.bindInany r.load = some r.bindInany ∧
    SkReuseport.hash r.load = some r.hash ∧ SkReuseport.sk r.load = some r.sk ∧
    SkReuseport.migratingSk r.load = some (r.migrating.map Subtype.val) := by
  have hl : SkReuseport.len r.load = some r.len := field_eq r.load 16 .u32 (by decide +kernel)
  refine ⟨field_eq r.load 0 .ptr (by decide +kernel), field_eq r.load 8 .ptr (by decide +kernel), hl, ⟨r.len == 0, ?_, by simp⟩,
    field_eq r.load 20 .u32 (by decide +kernel), field_eq r.load 24 .u32 (by decide +kernel), field_eq r.load 28 .u32 (by decide +kernel),
    field_eq r.load 32 .u32 (by decide +kernel), field_eq r.load 40 .ptr (by decide +kernel), ?_⟩
  · simp only [SkReuseport.isEmpty, hl, Option.map_some]
  · simp only [SkReuseport.migratingSk]
    rw [field_eq r.load 48 .ptr (by decide +kernel)]
    rcases e : r.migrating with _ | a
    · simp [Reuse.load, Ty.size, e]
    · have := a.2
      simp [Reuse.load, Ty.size, e, this]

/-- **C99.** What the context of a message says is what the kernel has. -/
theorem C99_msg (m : Spec.Msg) :
    SkMsg.size m.load = some m.size ∧ SkMsg.data m.load = some m.data ∧ SkMsg.dataEnd m.load = some m.dataEnd :=
  ⟨field_eq m.load 68 .u32 (by decide +kernel), field_eq m.load 0 .ptr (by decide +kernel), field_eq m.load 8 .ptr (by decide +kernel)⟩

/-- **C99.** What the context of a socket operation says is what the kernel has. -/
theorem C99_ops (s : Ops) :
    SockOps.op s.load = some s.op ∧ SockOps.family s.load = some s.family ∧ SockOps.cbFlags s.load = some s.cbFlags ∧
    SockOps.remoteIp4 s.load = some (loaded (s.remoteIp4 0) (s.remoteIp4 1) (s.remoteIp4 2) (s.remoteIp4 3)) ∧
    SockOps.localIp4 s.load = some (loaded (s.localIp4 0) (s.localIp4 1) (s.localIp4 2) (s.localIp4 3)) ∧
    SockOps.localIp6 s.load = some
      [loaded (s.localIp6 0) (s.localIp6 1) (s.localIp6 2) (s.localIp6 3), loaded (s.localIp6 4) (s.localIp6 5) (s.localIp6 6) (s.localIp6 7),
       loaded (s.localIp6 8) (s.localIp6 9) (s.localIp6 10) (s.localIp6 11),
       loaded (s.localIp6 12) (s.localIp6 13) (s.localIp6 14) (s.localIp6 15)] ∧
    SockOps.remoteIp6 s.load = some
      [loaded (s.remoteIp6 0) (s.remoteIp6 1) (s.remoteIp6 2) (s.remoteIp6 3),
       loaded (s.remoteIp6 4) (s.remoteIp6 5) (s.remoteIp6 6) (s.remoteIp6 7),
       loaded (s.remoteIp6 8) (s.remoteIp6 9) (s.remoteIp6 10) (s.remoteIp6 11),
       loaded (s.remoteIp6 12) (s.remoteIp6 13) (s.remoteIp6 14) (s.remoteIp6 15)] ∧
    SockOps.localPort s.load = some s.localPort ∧
    (∀ i : Fin 4, SockOps.arg s.load i = some (s.words i)) ∧ (∀ i, 4 ≤ i → SockOps.arg s.load i = none) := by
  have hw := elem_eq s.load 4 (s := sockOps) (name := "anon_1") (n := 4) (by decide +kernel)
  refine ⟨field_eq s.load 0 .u32 (by decide +kernel), field_eq s.load 20 .u32 (by decide +kernel), field_eq s.load 84 .u32 (by decide +kernel),
    field_eq s.load 24 .u32 (by decide +kernel), field_eq s.load 28 .u32 (by decide +kernel),
    elems_eq s.load 48 (by decide +kernel) rfl rfl rfl rfl, elems_eq s.load 32 (by decide +kernel) rfl rfl rfl rfl,
    field_eq s.load 68 .u32 (by decide +kernel), ?_, ?_⟩
  · intro i
    rw [SockOps.arg, hw, if_pos i.2]
    rcases i with ⟨i, hi⟩
    have : i = 0 ∨ i = 1 ∨ i = 2 ∨ i = 3 := by omega
    rcases this with rfl | rfl | rfl | rfl <;> rfl
  · intro i hi
    rw [SockOps.arg, hw, if_neg (by omega)]

theorem setReply_eq (s : Ops) (v : Nat) :
    SockOps.setReply Ops.store s v = some { s with words := fun i => if i = 0 then v else s.words i } := by
  have hc : offsetOf sockOps "anon_1" = some (4, .u32s 4) := by decide +kernel
  simp only [SockOps.setReply, setElem, hc]; rfl

/-- **C99.** A reply is put where the kernel looks for it, and what else the context says does not change; of the arguments all but the first
can still be read. -/
theorem C99_reply_partial (s : Ops) (v : Nat) :
    ∃ t, SockOps.setReply Ops.store s v = some t ∧ t.words 0 = v ∧ { t with words := s.words } = s ∧
      ∀ i : Fin 4, i ≠ 0 → SockOps.arg t.load i = some (s.words i) := by
  refine ⟨_, setReply_eq s v, by simp, rfl, fun i hi => ?_⟩
  rw [(C99_ops _).2.2.2.2.2.2.2.2.1 i]
  simp [hi]

/-- A socket operation. -/
def someOps : Ops := ⟨4, fun i => 10 + i.1, 2, fun _ => 127, fun _ => 127, fun _ => 0, fun _ => 0, 443, 8080, 0⟩

/-- **C99, refuted.** The first argument is lost when a reply is set: the method that gives arguments gives the reply. -/
theorem C99_reply_violated :
    ∃ s t : Ops, SockOps.setReply Ops.store s 99 = some t ∧ SockOps.arg s.load 0 = some 10 ∧ SockOps.arg t.load 0 = some 99 :=
  ⟨someOps, _, setReply_eq _ 99, (C99_ops someOps).2.2.2.2.2.2.2.2.1 0, (C99_ops _).2.2.2.2.2.2.2.2.1 0⟩

/-- **C99.** The port of the peer is given in network byte order, in four bytes. -/
theorem C99_port_partial (s : Skb) (t : Ops) :
    SkBuff.remotePort s.load = some (netOrder s.remotePort) ∧ SockOps.remotePort t.load = some (netOrder t.remotePort) :=
  ⟨field_eq s.load 132 .u32 (by decide +kernel), field_eq t.load 64 .u32 (by decide +kernel)⟩

/-- **C99, refuted.** What is given as the port of the peer is not its number, while what is given as the local port is. -/
theorem C99_port_violated :
    ∃ s : Ops, s.remotePort = 443 ∧ s.localPort = 8080 ∧ SockOps.localPort s.load = some 8080 ∧
      SockOps.remotePort s.load = some 3137404928 :=
  ⟨someOps, rfl, rfl, (C99_ops someOps).2.2.2.2.2.2.2.1, (C99_port_partial
    ⟨0, 0, 0, fun _ => 0, 0, 0, 0, fun _ => 0, fun _ => 0, fun _ => 0, fun _ => 0, 0, 0, 0⟩ someOps).2⟩

/-- **C99.** Flags that the kernel knows are set, and then the call succeeds. -/
theorem C99_flags_partial (s : Ops) (flags : Int) (h0 : 0 ≤ flags) (h1 : flags < 128) :
    SockOps.setCbFlags setFlags s flags = (.ok (), { s with cbFlags := flags.toNat }) := by
  have e : (flags % 4294967296).toNat = flags.toNat := by omega
  have e2 : flags.toNat / 128 = 0 := by omega
  have e3 : flags.toNat % 128 = flags.toNat := by omega
  have e4 : ¬ flags.toNat ≥ 2147483648 := by omega
  simp only [SockOps.setCbFlags, setFlags, e, e2, e3, if_neg e4]
  simp

/-- **C99.** The call fails if, and only if, the kernel does not know one of the flags; the error has those flags. -/
theorem C99_flags_error (s : Ops) (flags : Int) (h0 : -2147483648 ≤ flags) (h1 : flags < 2147483648) :
    ((SockOps.setCbFlags setFlags s flags).1 = .ok () ↔ 0 ≤ flags ∧ flags < 128) ∧
    ∀ e, (SockOps.setCbFlags setFlags s flags).1 = .error e → e = flags / 128 * 128 := by
  have key : (setFlags s flags).1 = flags / 128 * 128 := by
    simp only [setFlags]
    by_cases hn : 0 ≤ flags
    · have e : (flags % 4294967296).toNat = flags.toNat := by omega
      rw [e, if_neg (by omega)]
      simp only [Int.ofNat_eq_natCast]; omega
    · have e : (flags % 4294967296).toNat = (flags + 4294967296).toNat := by omega
      rw [e, if_pos (by omega)]
      simp only [Int.ofNat_eq_natCast]; omega
  simp only [SockOps.setCbFlags, key]
  constructor
  · constructor
    · intro h
      split at h
      · omega
      · exact (nomatch h)
    · intro h
      rw [if_pos (by omega)]
  · intro e h
    split at h
    · exact (nomatch h)
    · simp only [Except.error.injEq] at h
      rw [← h]
      simp only [Int.bmod]
      omega

/-- **C99, refuted.** A call that fails for a flag that is not known sets the others nevertheless. -/
theorem C99_flags_violated :
    ∃ s : Ops, (SockOps.setCbFlags setFlags s 129).1 = .error 128 ∧ s.cbFlags = 0 ∧ (SockOps.setCbFlags setFlags s 129).2.cbFlags = 1 :=
  ⟨someOps, by decide +kernel, rfl, by decide +kernel⟩

/-! ## Messages -/

theorem push_cases (fresh : Nat → UInt8) (m : List UInt8) (start len flags : Nat) :
    push fresh m start len flags = (0, m.take start ++ (List.range len).map fresh ++ m.drop start) ∨
    push fresh m start len flags = (-22, m) := by
  simp only [push]
  by_cases hf : flags ≠ 0
  · rw [if_pos hf]; exact .inr rfl
  · rw [if_neg hf]
    by_cases hl : len = 0
    · rw [if_pos hl]; exact .inl (by rw [hl]; simp)
    · rw [if_neg hl]
      by_cases hs : start ≥ m.length
      · rw [if_pos hs]; exact .inr rfl
      · rw [if_neg hs]; exact .inl rfl

theorem pop_cases (m : List UInt8) (start len flags : Nat) :
    pop m start len flags = (0, m.take start ++ m.drop (start + len)) ∨ pop m start len flags = (-22, m) := by
  simp only [pop]
  by_cases hf : flags ≠ 0
  · rw [if_pos hf]; exact .inr rfl
  · rw [if_neg hf]
    by_cases hl : len = 0
    · rw [if_pos hl]; exact .inl (by rw [hl]; simp)
    · rw [if_neg hl]
      by_cases hs : start ≥ m.length ∨ start + len > m.length
      · rw [if_pos hs]; exact .inr rfl
      · rw [if_neg hs]; exact .inl rfl

/-- **C99.** Bytes pushed into a message are where they were asked for, and all others follow in order; a call that fails says why and changes
nothing. -/
theorem C99_push (fresh : Nat → UInt8) (m n : List UInt8) (start len flags : Nat) (r : Except Int Unit)
    (h : SkMsg.pushData (push fresh) m start len flags = (r, n)) :
    (r = .ok () ∧ n = m.take start ++ (List.range len).map fresh ++ m.drop start) ∨ (r = .error (-22) ∧ n = m) := by
  rcases push_cases fresh m start len flags with e | e
  · simp only [SkMsg.pushData, e] at h
    exact .inl ⟨(Prod.mk.inj h).1.symm, (Prod.mk.inj h).2.symm⟩
  · simp only [SkMsg.pushData, e] at h
    exact .inr ⟨(Prod.mk.inj h).1.symm, (Prod.mk.inj h).2.symm⟩

/-- **C99.** Bytes popped from a message are gone, and all others are there in order; a call that fails says why and changes nothing. -/
theorem C99_pop (m n : List UInt8) (start len flags : Nat) (r : Except Int Unit)
    (h : SkMsg.popData pop m start len flags = (r, n)) :
    (r = .ok () ∧ n = m.take start ++ m.drop (start + len)) ∨ (r = .error (-22) ∧ n = m) := by
  rcases pop_cases m start len flags with e | e
  · simp only [SkMsg.popData, e] at h
    exact .inl ⟨(Prod.mk.inj h).1.symm, (Prod.mk.inj h).2.symm⟩
  · simp only [SkMsg.popData, e] at h
    exact .inr ⟨(Prod.mk.inj h).1.symm, (Prod.mk.inj h).2.symm⟩

/-- **C99.** Pushing bytes within a message and popping them succeeds and gives the message back. -/
theorem C99_push_pop (fresh : Nat → UInt8) (m : List UInt8) (start len : Nat) (hs : start < m.length) :
    ∃ n, SkMsg.pushData (push fresh) m start len 0 = (.ok (), n) ∧ n.length = m.length + len ∧
      SkMsg.popData pop n start len 0 = (.ok (), m) := by
  have hlen : (m.take start ++ (List.range len).map fresh ++ m.drop start).length = m.length + len := by
    simp only [List.length_append, List.length_take, List.length_map, List.length_range, List.length_drop]; omega
  have hpush : push fresh m start len 0 = (0, m.take start ++ (List.range len).map fresh ++ m.drop start) := by
    simp only [push]
    rw [if_neg (by simp)]
    by_cases hl : len = 0
    · rw [if_pos hl, hl]; simp
    · rw [if_neg hl, if_neg (by omega)]
  have hpop : pop (m.take start ++ (List.range len).map fresh ++ m.drop start) start len 0 = (0, m) := by
    have h2 : (m.take start ++ (List.range len).map fresh).length = start + len := by
      simp only [List.length_append, List.length_take, List.length_map, List.length_range]; omega
    have h3 : (m.take start).length = start := by simp only [List.length_take]; omega
    simp only [pop]
    rw [if_neg (by simp)]
    by_cases hl : len = 0
    · rw [if_pos hl, hl]; simp
    · rw [if_neg hl, if_neg (by rw [hlen]; omega)]
      rw [show (m.take start ++ (List.range len).map fresh ++ m.drop start).drop (start + len) = m.drop start by
        rw [← h2, List.drop_left]]
      rw [show (m.take start ++ (List.range len).map fresh ++ m.drop start).take start = m.take start by
        rw [List.append_assoc, List.take_append_of_le_length (by omega), List.take_of_length_le (by omega)]]
      simp
  refine ⟨_, ?_, hlen, ?_⟩
  · simp only [SkMsg.pushData, hpush]; rfl
  · simp only [SkMsg.popData, hpop]; rfl

/-! ## Checksums -/

/-- The edit is of one or two words that a checksum is over, other than its own word; the flags of the helper leave the size to the edit. -/
structure Edits (s : Sum) (e : Edit) : Prop where
  size : e.size = 2 ∨ e.size = 4
  value : e.value < 256 ^ e.size
  first : e.offset ∈ s.words
  second : e.size = 4 → e.offset + 2 ∈ s.words
  csum : e.csum ∈ s.words
  apart : e.csum ≠ e.offset
  apart2 : e.size = 4 → e.csum ≠ e.offset + 2
  layer : ∀ flags, e.layer = .four flags → flags % 16 = 0

/-- The edit has the flag by which zero means that there is no checksum. -/
def Edit.mayBeZero (e : Edit) : Prop := ∃ flags, e.layer = .four flags ∧ flags / 32 % 2 = 1

theorem load_ok {p : Pkt} {o size v : Nat} (ho : o + size ≤ p.length) (hp : p.length < 4294967296) (hs : size < 4294967296)
    (h : load helpers p o size = .ok v) : v = ofLe ((p.drop o).take size) ∧ o ≤ 2147483647 := by
  have e1 : cut o = o := Nat.mod_eq_of_lt (by omega)
  have e2 : cut size = size := Nat.mod_eq_of_lt hs
  simp only [load, helpers, e1, e2] at h
  by_cases hc : o > 2147483647 ∨ o + size > p.length
  · have e : loadBytes p o size = (-14, List.replicate size 0) := by simp only [loadBytes, if_pos hc]
    simp only [e] at h
    exact (nomatch h)
  · have e : loadBytes p o size = (0, (p.drop o).take size) := by simp only [loadBytes, if_neg hc]
    simp only [e] at h
    simp only [if_true, Except.ok.injEq] at h
    exact ⟨h.symm, by omega⟩

theorem store_ok {p : Pkt} {o size v : Nat} (ho : o + size ≤ p.length) (hp : p.length < 4294967296) (hs : size < 4294967296)
    (h31 : o ≤ 2147483647) : store helpers p o size v 0 = (.ok (), put p o (le size v)) := by
  have e1 : cut o = o := Nat.mod_eq_of_lt (by omega)
  have e2 : cut size = size := Nat.mod_eq_of_lt hs
  have e : storeBytes p o (le size v) size 0 = (0, put p o (le size v)) := by
    simp only [storeBytes]
    rw [if_neg (by omega), if_neg (by omega), List.take_of_length_le (by simp)]
  simp only [store, helpers, e1, e2, e]
  rfl

theorem byte_get {p : Pkt} {o : Nat} (h : o < p.length) : byte p o = p[o].toNat := by
  simp only [byte, List.getD_eq_getElem?_getD, List.getElem?_eq_getElem h, Option.getD_some]

theorem ofLe_two {p : Pkt} {o : Nat} (h : o + 2 ≤ p.length) : ofLe ((p.drop o).take 2) = hostWord p o := by
  rw [List.drop_eq_getElem_cons (by omega), List.drop_eq_getElem_cons (by omega)]
  simp only [List.take_succ_cons, List.take_zero, ofLe, hostWord, byte_get (show o < p.length by omega), byte_get (show o + 1 < p.length by omega)]
  omega

theorem ofLe_four {p : Pkt} {o : Nat} (h : o + 4 ≤ p.length) :
    ofLe ((p.drop o).take 4) = hostWord p o + 65536 * hostWord p (o + 2) := by
  rw [List.drop_eq_getElem_cons (by omega), List.drop_eq_getElem_cons (by omega), List.drop_eq_getElem_cons (by omega),
    List.drop_eq_getElem_cons (by omega)]
  simp only [List.take_succ_cons, List.take_zero, ofLe, hostWord, byte_get (show o < p.length by omega),
    byte_get (show o + 1 < p.length by omega), byte_get (show o + 2 < p.length by omega), byte_get (show o + 2 + 1 < p.length by omega),
    show o + 1 + 1 = o + 2 from rfl, show o + 1 + 1 + 1 = o + 2 + 1 from rfl]
  omega

theorem replaced_ok {c a b size c' : Nat} (hs : size = 2 ∨ size = 4) (hc : c < 65536) (ha : a < 256 ^ size) (hb : b < 256 ^ size)
    (h : replaced c a b size = some c') : c' < 65536 ∧ ∃ i j, c' + b + 65535 * i = c + a + 65535 * j := by
  rcases hs with rfl | rfl
  · have e : (256 : Nat) ^ 2 = 65536 := by decide
    rw [e] at ha hb
    simp only [replaced] at h
    rw [if_neg (by decide), if_pos (by decide), Nat.mod_eq_of_lt ha, Nat.mod_eq_of_lt hb] at h
    simp only [Option.some.injEq] at h
    subst h
    exact replace2_spec hc ha hb
  · have e : (256 : Nat) ^ 4 = 4294967296 := by decide
    rw [e] at ha hb
    simp only [replaced] at h
    rw [if_neg (by decide), if_neg (by decide), if_pos (by decide), Nat.mod_eq_of_lt ha, Nat.mod_eq_of_lt hb] at h
    simp only [Option.some.injEq] at h
    subst h
    exact replace4_spec hc ha hb

theorem replaced_some {c a b size : Nat} (hs : size = 2 ∨ size = 4) : ∃ c', replaced c a b size = some c' := by
  rcases hs with rfl | rfl
  · exact ⟨_, rfl⟩
  · exact ⟨_, rfl⟩

theorem l3_cases {p : Pkt} {o a b size : Nat} (hs : size = 2 ∨ size = 4) :
    (∃ e, e ≠ 0 ∧ l3 p o a b size = (e, p)) ∨
    ∃ c', replaced (hostWord p o) a b size = some c' ∧ l3 p o a b size = (0, putWord p o c') := by
  obtain ⟨c', hc⟩ := replaced_some (c := hostWord p o) (a := a) (b := b) hs
  by_cases h1 : size ≥ 16
  · exact .inl ⟨-22, by decide, by simp only [l3, if_pos h1]⟩
  · by_cases h2 : o > 65535 ∨ o % 2 = 1
    · exact .inl ⟨-14, by decide, by simp only [l3, if_neg h1, if_pos h2]⟩
    · by_cases h3 : o + 2 > p.length
      · exact .inl ⟨-14, by decide, by simp only [l3, if_neg h1, if_neg h2, if_pos h3]⟩
      · exact .inr ⟨c', hc, by simp only [l3, if_neg h1, if_neg h2, if_neg h3, hc]⟩

theorem l4_cases {p : Pkt} {o a b flags : Nat} (hs : flags % 16 = 2 ∨ flags % 16 = 4) :
    (∃ e, e ≠ 0 ∧ l4 p o a b flags = (e, p)) ∨
    (flags / 32 % 2 = 1 ∧ hostWord p o = 0 ∧ l4 p o a b flags = (0, p)) ∨
    ∃ c', replaced (hostWord p o) a b (flags % 16) = some c' ∧
      ¬ (flags / 32 % 2 = 1 ∧ flags / 64 % 2 = 0 ∧ hostWord p o = 0) ∧
      l4 p o a b flags = (0, putWord p o (if flags / 32 % 2 = 1 ∧ c' = 0 then 65535 else c')) := by
  obtain ⟨c', hc⟩ := replaced_some (c := hostWord p o) (a := a) (b := b) hs
  by_cases h1 : flags ≥ 128
  · exact .inl ⟨-22, by decide, by simp only [l4, if_pos h1]⟩
  · by_cases h2 : o > 65535 ∨ o % 2 = 1
    · exact .inl ⟨-14, by decide, by simp only [l4, if_neg h1, if_pos h2]⟩
    · by_cases h3 : o + 2 > p.length
      · exact .inl ⟨-14, by decide, by simp only [l4, if_neg h1, if_neg h2, if_pos h3]⟩
      · by_cases h4 : flags / 32 % 2 = 1 ∧ flags / 64 % 2 = 0 ∧ hostWord p o = 0
        · exact .inr (.inl ⟨h4.1, h4.2.2, by simp only [l4, if_neg h1, if_neg h2, if_neg h3, if_pos h4]⟩)
        · exact .inr (.inr ⟨c', hc, h4, by simp only [l4, if_neg h1, if_neg h2, if_neg h3, if_neg h4, hc]⟩)

/-- What replacing the checksum does. -/
theorem fix_ok {s : Sum} {p q : Pkt} {e : Edit} {old : Nat} (he : Edits s e) (hl : e.csum + 2 ≤ p.length) (hp : p.length < 4294967296)
    (ho : old < 256 ^ e.size) (h : fix helpers p e old = (.ok (), q)) :
    (q = p ∧ hostWord p e.csum = 0 ∧ e.mayBeZero) ∨
    ∃ c', q = putWord p e.csum c' ∧ c' < 65536 ∧ (e.mayBeZero → c' ≠ 0) ∧
      (∀ flags, e.layer = .four flags → flags / 32 % 2 = 1 → flags / 64 % 2 = 0 → hostWord p e.csum ≠ 0) ∧
      ∃ i j, c' + e.value + 65535 * i = hostWord p e.csum + old + 65535 * j := by
  have e1 : cut e.csum = e.csum := Nat.mod_eq_of_lt (by omega)
  rcases hlay : e.layer with _ | flags
  · simp only [fix, hlay, l3CsumReplace, helpers, e1] at h
    rcases l3_cases (p := p) (o := e.csum) (a := old) (b := e.value) he.size with ⟨er, hne, hc⟩ | ⟨c', hr, hc⟩
    · simp only [hc, if_neg hne] at h
      exact (nomatch (Prod.mk.inj h).1)
    · simp only [hc] at h
      obtain ⟨hlt, hcong⟩ := replaced_ok he.size (host_lt p e.csum) ho he.value hr
      refine .inr ⟨c', (Prod.mk.inj h).2.symm, hlt, ?_, ?_, hcong⟩
      · rintro ⟨f, hf, _⟩
        rw [hlay] at hf; exact (nomatch hf)
      · intro f hf
        exact (nomatch hf)
  · simp only [fix, hlay, l4CsumReplace, helpers, e1] at h
    have h16 := he.layer flags hlay
    have hsz : (flags + e.size) % 16 = e.size := by rcases he.size with h' | h' <;> omega
    have h32 : (flags + e.size) / 32 % 2 = flags / 32 % 2 := by rcases he.size with h' | h' <;> omega
    rcases l4_cases (p := p) (o := e.csum) (a := old) (b := e.value) (flags := flags + e.size) (by rw [hsz]; exact he.size) with
      ⟨er, hne, hc⟩ | ⟨hz, hh, hc⟩ | ⟨c', hr, hnz, hc⟩
    · simp only [hc, if_neg hne] at h
      exact (nomatch (Prod.mk.inj h).1)
    · simp only [hc] at h
      exact .inl ⟨(Prod.mk.inj h).2.symm, hh, flags, hlay, by omega⟩
    · simp only [hc] at h
      rw [hsz] at hr
      have hnz' : ∀ f, Layer.four flags = .four f → f / 32 % 2 = 1 → f / 64 % 2 = 0 → hostWord p e.csum ≠ 0 := by
        intro f hf hf1 hf2 h0
        cases hf
        refine hnz ⟨by omega, ?_, h0⟩
        rcases he.size with h' | h' <;> omega
      obtain ⟨hlt, i, j, hcong⟩ := replaced_ok he.size (host_lt p e.csum) ho he.value hr
      by_cases hm : flags / 32 % 2 = 1 ∧ c' = 0
      · rw [h32, if_pos hm] at h
        refine .inr ⟨65535, (Prod.mk.inj h).2.symm, by omega, fun _ => by omega, hnz', i, j + 1, by omega⟩
      · rw [h32, if_neg hm] at h
        refine .inr ⟨c', (Prod.mk.inj h).2.symm, hlt, ?_, hnz', i, j, hcong⟩
        rintro ⟨f, hf, hz⟩ h0
        rw [hlay] at hf
        cases hf
        exact hm ⟨hz, h0⟩

/-- The field of an edit is in the packet. -/
theorem edit_in {s : Sum} {p : Pkt} {e : Edit} (hs : s.Over p) (he : Edits s e) : e.offset + e.size ≤ p.length := by
  rcases he.size with h | h
  · have := hs.2 _ he.first; omega
  · have := hs.2 _ (he.second h); omega

/-- What rewriting a field does. -/
theorem rewrite_ok {s : Sum} {p q : Pkt} {e : Edit} (hs : s.Over p) (he : Edits s e) (hp : p.length < 4294967296)
    (h : rewrite helpers p e = (.ok (), q)) :
    (q = put p e.offset (le e.size e.value) ∧ hostWord p e.csum = 0 ∧ e.mayBeZero) ∨
    ∃ c', q = putWord (put p e.offset (le e.size e.value)) e.csum c' ∧ c' < 65536 ∧ (e.mayBeZero → c' ≠ 0) ∧
      (∀ flags, e.layer = .four flags → flags / 32 % 2 = 1 → flags / 64 % 2 = 0 → hostWord p e.csum ≠ 0) ∧
      ∃ i j, c' + e.value + 65535 * i = hostWord p e.csum + ofLe ((p.drop e.offset).take e.size) + 65535 * j := by
  have hin := edit_in hs he
  have hc := hs.2 _ he.csum
  have hsz : e.size < 4294967296 := by rcases he.size with h' | h' <;> omega
  simp only [rewrite] at h
  rcases hl : load helpers p e.offset e.size with er | old
  · simp only [hl] at h
    exact (nomatch (Prod.mk.inj h).1)
  · obtain ⟨ho, h31⟩ := load_ok hin hp hsz hl
    simp only [hl, store_ok hin hp hsz h31] at h
    have hlen : (put p e.offset (le e.size e.value)).length = p.length := put_length (by simpa using hin)
    have hold : old < 256 ^ e.size := by
      have := ofLe_lt ((p.drop e.offset).take e.size)
      have hl' : ((p.drop e.offset).take e.size).length = e.size := by
        simp only [List.length_take, List.length_drop]; omega
      rw [hl'] at this
      omega
    have hhost : hostWord (put p e.offset (le e.size e.value)) e.csum = hostWord p e.csum := by
      have hap : e.csum + 2 ≤ e.offset ∨ e.offset + e.size ≤ e.csum := by
        have h1 := over_apart hs he.csum he.first he.apart
        rcases he.size with h' | h'
        · omega
        · have h2 := over_apart hs he.csum (he.second h') (he.apart2 h')
          omega
      simp only [hostWord]
      rw [byte_eq (put_out (x := e.csum) (by simpa using hin) (by simp only [le_length]; omega)),
        byte_eq (put_out (x := e.csum + 1) (by simpa using hin) (by simp only [le_length]; omega))]
    have := fix_ok he (by rw [hlen]; exact hc) (by rw [hlen]; exact hp) hold h
    rw [hhost, ho] at this
    exact this

theorem swap_mod (w : Nat) : swap w = swap (w % 65536) := by simp only [swap]; omega

/-- Rewriting keeps the sum, modulo 65535, unless there is no checksum. -/
theorem total_kept {s : Sum} {p q : Pkt} {e : Edit} {c' i j : Nat} (hs : s.Over p) (he : Edits s e) (hlt : c' < 65536)
    (hq : q = putWord (put p e.offset (le e.size e.value)) e.csum c')
    (hcong : c' + e.value + 65535 * i = hostWord p e.csum + ofLe ((p.drop e.offset).take e.size) + 65535 * j) :
    s.total q % 65535 = s.total p % 65535 := by
  have hf := hs.2 _ he.first
  have hc := hs.2 _ he.csum
  have hap := over_apart hs he.csum he.first he.apart
  have w1 := swap_spec hlt
  have w2 := swap_spec (host_lt p e.csum)
  have w3 := swap_spec (host_lt p e.offset)
  have hv := he.value
  rcases he.size with h | h
  · rw [h] at hcong hq hv
    rw [ofLe_two hf] at hcong
    rw [put_two] at hq
    rw [show (256 : Nat) ^ 2 = 65536 by decide] at hv
    have w4 := swap_spec hv
    have t1 := total_putWord (w := e.value) hs he.first
    have t2 := total_putWord (w := c') (over_putWord (w := e.value) hs hf) he.csum
    rw [putWord_host_out hf (by omega)] at t2
    rw [← hq] at t2
    omega
  · have hg := hs.2 _ (he.second h)
    have hap2 := over_apart hs he.csum (he.second h) (he.apart2 h)
    rw [h] at hcong hq hv
    rw [ofLe_four (by omega)] at hcong
    rw [put_four (by omega)] at hq
    rw [show (256 : Nat) ^ 4 = 4294967296 by decide] at hv
    have hg' : e.offset + 2 + 2 ≤ (putWord p e.offset e.value).length := by rw [putWord_length hf]; exact hg
    have w4 := swap_spec (w := e.value % 65536) (by omega)
    have w5 := swap_spec (w := e.value / 65536) (by omega)
    have w6 := swap_spec (host_lt p (e.offset + 2))
    have t1 := total_putWord (w := e.value) hs he.first
    have t2 := total_putWord (w := e.value / 65536) (over_putWord (w := e.value) hs hf) (he.second h)
    have t3 := total_putWord (w := c') (over_putWord (w := e.value / 65536) (over_putWord (w := e.value) hs hf) hg') he.csum
    rw [putWord_host_out hf (by omega)] at t2
    rw [putWord_host_out hg' (by omega), putWord_host_out hf (by omega)] at t3
    rw [← hq] at t3
    rw [swap_mod e.value] at t1
    omega

/-- Bytes of the packet that are neither in the field of the edit nor in the checksum. -/
def Edit.Outside (e : Edit) (x : Nat) : Prop := (x < e.offset ∨ e.offset + e.size ≤ x) ∧ (x < e.csum ∨ e.csum + 2 ≤ x)

theorem rewrite_shape {s : Sum} {p q : Pkt} {e : Edit} (hs : s.Over p) (he : Edits s e) (hp : p.length < 4294967296)
    (h : rewrite helpers p e = (.ok (), q)) :
    q.length = p.length ∧ (∀ x, e.Outside x → q[x]? = p[x]?) ∧ (∀ i, i < e.size → q[e.offset + i]? = (le e.size e.value)[i]?) := by
  have hin := edit_in hs he
  have hin' : e.offset + (le e.size e.value).length ≤ p.length := by simpa using hin
  have hc := hs.2 _ he.csum
  have hlen : (put p e.offset (le e.size e.value)).length = p.length := put_length hin'
  have hap : e.csum + 2 ≤ e.offset ∨ e.offset + e.size ≤ e.csum := by
    have h1 := over_apart hs he.csum he.first he.apart
    rcases he.size with h' | h'
    · omega
    · have h2 := over_apart hs he.csum (he.second h') (he.apart2 h')
      omega
  rcases rewrite_ok hs he hp h with ⟨rfl, _⟩ | ⟨c', rfl, _⟩
  · exact ⟨hlen, fun x hx => put_out hin' (by simpa using hx.1), fun i hi => put_in hin' (by simpa using hi)⟩
  · have hc' : e.csum + 2 ≤ (put p e.offset (le e.size e.value)).length := by rw [hlen]; exact hc
    refine ⟨by rw [putWord_length hc', hlen], fun x hx => ?_, fun i hi => ?_⟩
    · rw [putWord_out hc' hx.2, put_out hin' (by simpa using hx.1)]
    · rw [putWord_out hc' (by omega), put_in hin' (by simpa using hi)]

/-- **C99.** Rewriting a field of a packet puts the new value there; besides it, only the checksum changes. -/
theorem C99_rewrites (s : Sum) (p q : Pkt) (e : Edit) (hs : s.Over p) (he : Edits s e) (hp : p.length < 4294967296)
    (h : rewrite helpers p e = (.ok (), q)) :
    q.length = p.length ∧ (∀ x, e.Outside x → q[x]? = p[x]?) ∧ (q.drop e.offset).take e.size = le e.size e.value := by
  obtain ⟨h1, h2, h3⟩ := rewrite_shape hs he hp h
  have hin := edit_in hs he
  refine ⟨h1, h2, ?_⟩
  apply List.ext_getElem?
  intro i
  by_cases hi : i < e.size
  · rw [List.getElem?_take, if_pos hi, List.getElem?_drop, h3 i hi]
  · rw [List.getElem?_take, if_neg hi, List.getElem?_eq_none (by simp; omega)]

theorem over_length {s : Sum} {p q : Pkt} (h : s.Over p) (hl : q.length = p.length) : s.Over q :=
  ⟨h.1, fun x hx => by rw [hl]; exact h.2 x hx⟩

/-- A part of the sum that no edit changes, and that is not zero: what is added from elsewhere, or a word. -/
def Anchored (s : Sum) (p : Pkt) (es : List Edit) : Prop :=
  s.extra ≠ 0 ∨ ∃ o ∈ s.words, word p o ≠ 0 ∧ ∀ e ∈ es, e.Outside o ∧ e.Outside (o + 1)

theorem sum_ne {ws : List Nat} {f : Nat → Nat} {o : Nat} (ho : o ∈ ws) (h : f o ≠ 0) : (ws.map f).sum ≠ 0 := by
  induction ws with
  | nil => simp at ho
  | cons a ws ih =>
    simp only [List.map_cons, List.sum_cons]
    rcases List.mem_cons.1 ho with rfl | ho'
    · omega
    · have := ih ho'; omega

theorem anchored_ne {s : Sum} {p : Pkt} {es : List Edit} (h : Anchored s p es) : s.total p ≠ 0 := by
  simp only [Sum.total]
  rcases h with h | ⟨o, ho, hne, _⟩
  · omega
  · have := sum_ne (f := word p) ho hne; omega

theorem anchored_tail {s : Sum} {p q : Pkt} {e : Edit} {es : List Edit} (h : Anchored s p (e :: es))
    (hq : ∀ x, e.Outside x → q[x]? = p[x]?) : Anchored s q es := by
  rcases h with h | ⟨o, ho, hne, hall⟩
  · exact .inl h
  · have h0 := hall e (by simp)
    refine .inr ⟨o, ho, ?_, fun e' he' => hall e' (by simp [he'])⟩
    simp only [word, byte_eq (hq o h0.1), byte_eq (hq (o + 1) h0.2)]
    exact hne

/-- **C99.** A checksum that is valid is valid after any rewrites of fields it is over: that of an IPv4 header, and that of a TCP segment, with
the pseudo header whose addresses are in the packet. -/
theorem C99_kept (s : Sum) (es : List Edit) (p q : Pkt) (hs : s.Over p) (hp : p.length < 4294967296) (hv : s.Valid p)
    (he : ∀ e ∈ es, Edits s e ∧ ¬ e.mayBeZero) (ha : Anchored s p es) (h : rewrites helpers p es = (.ok (), q)) : s.Valid q := by
  induction es generalizing p with
  | nil =>
    simp only [rewrites] at h
    rw [← (Prod.mk.inj h).2]; exact hv
  | cons e es ih =>
    simp only [rewrites] at h
    obtain ⟨he1, he2⟩ := he e (by simp)
    rcases hr : rewrite helpers p e with ⟨er | _, q1⟩
    · simp only [hr] at h
      exact (nomatch (Prod.mk.inj h).1)
    · simp only [hr] at h
      obtain ⟨hlen, hout, _⟩ := rewrite_shape hs he1 hp hr
      have ha' := anchored_tail ha hout
      refine ih q1 (over_length hs hlen) (by rw [hlen]; exact hp) ?_ (fun e' h' => he e' (by simp [h'])) ha' h
      rcases rewrite_ok hs he1 hp hr with ⟨_, _, hz⟩ | ⟨c', hq1, hlt, _, _, i, j, hcong⟩
      · exact absurd hz he2
      · exact ⟨by rw [total_kept hs he1 hlt hq1 hcong]; exact hv.1, anchored_ne ha'⟩

/-- **C99.** A checksum in which zero means none, as that of UDP: after any rewrites with the flag for that, a datagram with a valid checksum has a
valid one, and one without still has none. -/
theorem C99_udp (s : Sum) (c : Nat) (es : List Edit) (p q : Pkt) (hs : s.Over p) (hp : p.length < 4294967296)
    (he : ∀ e ∈ es, Edits s e ∧ e.csum = c ∧ ∃ flags, e.layer = .four flags ∧ flags / 32 % 2 = 1 ∧ flags / 64 % 2 = 0)
    (h : rewrites helpers p es = (.ok (), q)) :
    (word p c = 0 → word q c = 0) ∧ (c ∈ s.words → word p c ≠ 0 → s.Valid p → word q c ≠ 0 ∧ s.Valid q) := by
  induction es generalizing p with
  | nil =>
    simp only [rewrites] at h
    rw [← (Prod.mk.inj h).2]
    exact ⟨fun h => h, fun _ h1 h2 => ⟨h1, h2⟩⟩
  | cons e es ih =>
    simp only [rewrites] at h
    obtain ⟨he1, hec, flags, hlay, hf32, hf64⟩ := he e (by simp)
    have hz : e.mayBeZero := ⟨flags, hlay, hf32⟩
    rcases hr : rewrite helpers p e with ⟨er | _, q1⟩
    · simp only [hr] at h
      exact (nomatch (Prod.mk.inj h).1)
    · simp only [hr] at h
      obtain ⟨hlen, hout, _⟩ := rewrite_shape hs he1 hp hr
      have hrest := ih q1 (over_length hs hlen) (by rw [hlen]; exact hp) (fun e' h' => he e' (by simp [h'])) h
      have hcin := hs.2 _ he1.csum
      have hap : e.csum + 2 ≤ e.offset ∨ e.offset + e.size ≤ e.csum := by
        have h1 := over_apart hs he1.csum he1.first he1.apart
        rcases he1.size with h' | h'
        · omega
        · have h2 := over_apart hs he1.csum (he1.second h') (he1.apart2 h')
          omega
      have hin' : e.offset + (le e.size e.value).length ≤ p.length := by simpa using edit_in hs he1
      have hsame : word (put p e.offset (le e.size e.value)) e.csum = word p e.csum := by
        simp only [word]
        rw [byte_eq (put_out (x := e.csum) hin' (by simp only [le_length]; omega)),
          byte_eq (put_out (x := e.csum + 1) hin' (by simp only [le_length]; omega))]
      have hw : ∀ {x : Pkt} {o : Nat}, word x o = 0 ↔ hostWord x o = 0 := by
        intro x o
        rw [word_swap x o, swap_zero (host_lt x o)]
      subst hec
      rcases rewrite_ok hs he1 hp hr with ⟨hq1, hz0, _⟩ | ⟨c', hq1, hlt, hcz, hnz, i, j, hcong⟩
      · exact ⟨fun h0 => hrest.1 (by rw [hq1, hsame]; exact h0), fun _ hne _ => absurd (hw.2 hz0) hne⟩
      · have hl' : e.csum + 2 ≤ (put p e.offset (le e.size e.value)).length := by rw [put_length hin']; exact hcin
        have hne' : word q1 e.csum ≠ 0 := by
          rw [hq1, putWord_word hl']
          intro h0
          exact hcz hz ((swap_zero hlt).1 h0)
        refine ⟨fun h0 => absurd (hw.1 h0) (hnz flags hlay hf32 hf64), fun hc hne hv => hrest.2 hc hne' ?_⟩
        refine ⟨by rw [total_kept hs he1 hlt hq1 hcong]; exact hv.1, ?_⟩
        have := sum_ne (f := word q1) hc hne'
        simp only [Sum.total]; omega

/-- **C99.** Fields that are in the packet can be rewritten, if the checksum is at an even offset of at most 65535. -/
theorem C99_succeeds (s : Sum) (p : Pkt) (e : Edit) (hs : s.Over p) (he : Edits s e) (hp : p.length < 4294967296)
    (ho : e.offset < 2147483648) (h1 : e.csum % 2 = 0) (h2 : e.csum ≤ 65535) (hf : ∀ flags, e.layer = .four flags → flags < 112) :
    ∃ q, rewrite helpers p e = (.ok (), q) := by
  have hin := edit_in hs he
  have hc := hs.2 _ he.csum
  have hsz : e.size < 4294967296 := by rcases he.size with h' | h' <;> omega
  have e1 : cut e.offset = e.offset := Nat.mod_eq_of_lt (by omega)
  have e2 : cut e.size = e.size := Nat.mod_eq_of_lt hsz
  have e3 : cut e.csum = e.csum := Nat.mod_eq_of_lt (by omega)
  have hl : load helpers p e.offset e.size = .ok (ofLe ((p.drop e.offset).take e.size)) := by
    have : loadBytes p e.offset e.size = (0, (p.drop e.offset).take e.size) := by
      simp only [loadBytes]; rw [if_neg (by omega)]
    simp only [load, helpers, e1, e2, this]; rfl
  simp only [rewrite, hl, store_ok hin hp hsz (show e.offset ≤ 2147483647 by omega)]
  have hlen : (put p e.offset (le e.size e.value)).length = p.length := put_length (by simpa using hin)
  generalize put p e.offset (le e.size e.value) = q0 at hlen
  generalize ofLe ((p.drop e.offset).take e.size) = old
  obtain ⟨c', hr⟩ := replaced_some (c := hostWord q0 e.csum) (a := old) (b := e.value) he.size
  rcases hlay : e.layer with _ | flags
  · have : l3 q0 e.csum old e.value e.size = (0, putWord q0 e.csum c') := by
      simp only [l3]
      rw [if_neg (by rcases he.size with h' | h' <;> omega), if_neg (by omega), if_neg (by omega)]
      simp only [hr]
    exact ⟨_, by simp only [fix, hlay, l3CsumReplace, helpers, e3, this]; rfl⟩
  · have hf' := hf flags hlay
    have h16 := he.layer flags hlay
    have hsz : (flags + e.size) % 16 = e.size := by rcases he.size with h' | h' <;> omega
    have : ∃ q, l4 q0 e.csum old e.value (flags + e.size) = (0, q) := by
      simp only [l4]
      rw [if_neg (by rcases he.size with h' | h' <;> omega), if_neg (by omega), if_neg (by omega)]
      by_cases hz : (flags + e.size) / 32 % 2 = 1 ∧ (flags + e.size) / 64 % 2 = 0 ∧ hostWord q0 e.csum = 0
      · rw [if_pos hz]; exact ⟨_, rfl⟩
      · rw [if_neg hz, hsz]
        simp only [hr]
        exact ⟨_, rfl⟩
    obtain ⟨q, hq⟩ := this
    exact ⟨q, by simp only [fix, hlay, l4CsumReplace, helpers, e3, hq]; rfl⟩

/-! ## Two checksums over one field -/

theorem total_out {s : Sum} {p : Pkt} {o w : Nat} (ho : o + 2 ≤ p.length) (h : ∀ x ∈ s.words, x + 2 ≤ o ∨ o + 2 ≤ x) :
    s.total (putWord p o w) = s.total p := by
  simp only [Sum.total]
  congr 2
  apply List.map_congr_left
  intro x hx
  exact putWord_word_out ho (h x hx)

theorem putWord_comm {p : Pkt} {o o' w : Nat} {bs : List UInt8} (h : o + 2 ≤ p.length) (h' : o' + bs.length ≤ p.length)
    (hd : o + 2 ≤ o' ∨ o' + bs.length ≤ o) : put (putWord p o w) o' bs = putWord (put p o' bs) o w := by
  have hl := putWord_length (w := w) h
  have hl' := put_length h'
  apply List.ext_getElem?
  intro x
  by_cases h1 : o' ≤ x ∧ x < o' + bs.length
  · rw [put_at (by rw [hl]; exact h') h1.1 h1.2, putWord_out (by rw [hl']; exact h) (by omega), put_at h' h1.1 h1.2]
  · rw [put_out (by rw [hl]; exact h') (by omega)]
    by_cases h2 : o ≤ x ∧ x < o + 2
    · rw [putWord, put_at (by simpa using h) h2.1 (by simpa using h2.2), putWord,
        put_at (by rw [hl']; simpa using h) h2.1 (by simpa using h2.2)]
    · rw [putWord_out h (by omega), putWord_out (by rw [hl']; exact h) (by omega), put_out h' (by omega)]

/-- The checksum of the edit is apart from its field. -/
theorem edit_apart {s : Sum} {p : Pkt} {e : Edit} (hs : s.Over p) (he : Edits s e) : e.csum + 2 ≤ e.offset ∨ e.offset + e.size ≤ e.csum := by
  have h1 := over_apart hs he.csum he.first he.apart
  rcases he.size with h' | h'
  · omega
  · have h2 := over_apart hs he.csum (he.second h') (he.apart2 h')
    omega

/-- What rewriting an address under two checksums does. -/
theorem translate_ok (s3 s4 : Sum) (p q : Pkt) (e : Edit) (ip : Nat) (hp : p.length < 4294967296)
    (h3 : s3.Over p) (h4 : s4.Over p) (he4 : Edits s4 e) (he3 : Edits s3 { e with csum := ip, layer := .three }) (hz : ¬ e.mayBeZero)
    (hip : ∀ x ∈ s4.words, x + 2 ≤ ip ∨ ip + 2 ≤ x) (hc4 : ∀ x ∈ s3.words, x + 2 ≤ e.csum ∨ e.csum + 2 ≤ x)
    (h : translate helpers p e ip = (.ok (), q)) :
    s3.total q % 65535 = s3.total p % 65535 ∧ s4.total q % 65535 = s4.total p % 65535 ∧
      (q.drop e.offset).take e.size = le e.size e.value ∧ q.length = p.length ∧
      ∀ x, e.Outside x → (x < ip ∨ ip + 2 ≤ x) → q[x]? = p[x]? := by
  have hin : e.offset + e.size ≤ p.length := edit_in h4 he4
  have hin' : e.offset + (le e.size e.value).length ≤ p.length := by simpa using hin
  have hc : e.csum + 2 ≤ p.length := h4.2 _ he4.csum
  have hi : ip + 2 ≤ p.length := h3.2 _ he3.csum
  have hci : ip + 2 ≤ e.csum ∨ e.csum + 2 ≤ ip := (hip _ he4.csum).symm
  have hap4 := edit_apart h4 he4
  have hap3 : ip + 2 ≤ e.offset ∨ e.offset + e.size ≤ ip := edit_apart h3 he3
  have hsz : e.size < 4294967296 := by rcases he4.size with h' | h' <;> omega
  have hlen : (put p e.offset (le e.size e.value)).length = p.length := put_length hin'
  simp only [translate] at h
  rcases hl : load helpers p e.offset e.size with er | old
  · simp only [hl] at h
    exact (nomatch (Prod.mk.inj h).1)
  · obtain ⟨ho, h31⟩ := load_ok hin hp hsz hl
    simp only [hl] at h
    have hold : old < 256 ^ e.size := by
      have := ofLe_lt ((p.drop e.offset).take e.size)
      have hl' : ((p.drop e.offset).take e.size).length = e.size := by
        simp only [List.length_take, List.length_drop]; omega
      rw [hl'] at this
      omega
    rcases hf1 : fix helpers p e old with ⟨er | _, q1⟩
    · simp only [hf1] at h
      exact (nomatch (Prod.mk.inj h).1)
    · simp only [hf1] at h
      rcases fix_ok he4 hc hp hold hf1 with ⟨_, _, hz'⟩ | ⟨c4, rfl, hlt4, _, _, i4, j4, hcong4⟩
      · exact absurd hz' hz
      · have hl1 := putWord_length (w := c4) hc
        rcases hf2 : fix helpers (putWord p e.csum c4) { e with csum := ip, layer := .three } old with ⟨er | _, q2⟩
        · simp only [hf2] at h
          exact (nomatch (Prod.mk.inj h).1)
        · simp only [hf2] at h
          rcases fix_ok he3 (by rw [hl1]; exact hi) (by rw [hl1]; exact hp) hold hf2 with
            ⟨_, _, f, hf, _⟩ | ⟨c3, rfl, hlt3, _, _, i3, j3, hcong3⟩
          · exact (nomatch hf)
          · have hl2 : (putWord (putWord p e.csum c4) ip c3).length = p.length := by rw [putWord_length (by rw [hl1]; exact hi), hl1]
            rw [store_ok (by rw [hl2]; exact hin) (by rw [hl2]; exact hp) hsz h31] at h
            have hq := (Prod.mk.inj h).2.symm
            -- the store comes last; it could as well have come first
            rw [putWord_comm (by rw [hl1]; exact hi) (by rw [hl1]; exact hin') (by simp only [le_length]; omega),
              putWord_comm hc hin' (by simp only [le_length]; omega)] at hq
            have hhost : hostWord (putWord p e.csum c4) ip = hostWord p ip := putWord_host_out hc (by omega)
            simp only [hhost] at hcong3
            rw [ho] at hcong3 hcong4
            have hcP : e.csum + 2 ≤ (put p e.offset (le e.size e.value)).length := by rw [hlen]; exact hc
            have hiP : ip + 2 ≤ (put p e.offset (le e.size e.value)).length := by rw [hlen]; exact hi
            have hcomm : putWord (putWord (put p e.offset (le e.size e.value)) e.csum c4) ip c3 =
                putWord (putWord (put p e.offset (le e.size e.value)) ip c3) e.csum c4 := by
              have := putWord_comm (p := put p e.offset (le e.size e.value)) (o := e.csum) (o' := ip) (w := c4)
                (bs := [UInt8.ofNat (c3 % 256), UInt8.ofNat (c3 / 256 % 256)]) hcP (by simpa using hiP) (by simpa using hci.symm)
              exact this
            refine ⟨?_, ?_, ?_, ?_, ?_⟩
            · rw [hq, hcomm, total_out (by rw [putWord_length hiP]; exact hcP) hc4]
              exact total_kept h3 he3 hlt3 rfl hcong3
            · rw [hq, total_out (by rw [putWord_length hcP]; exact hiP) hip]
              exact total_kept h4 he4 hlt4 rfl hcong4
            · rw [hq]
              apply List.ext_getElem?
              intro k
              by_cases hk : k < e.size
              · have d3 : e.offset + k < ip ∨ ip + 2 ≤ e.offset + k := by
                  clear hcong3 hcong4; omega
                have d4 : e.offset + k < e.csum ∨ e.csum + 2 ≤ e.offset + k := by
                  clear hcong3 hcong4; omega
                rw [List.getElem?_take, if_pos hk, List.getElem?_drop,
                  putWord_out (x := e.offset + k) (by rw [putWord_length hcP]; exact hiP) d3,
                  putWord_out (x := e.offset + k) hcP d4, put_in hin' (by simpa using hk)]
              · rw [List.getElem?_take, if_neg hk, List.getElem?_eq_none (by simp; omega)]
            · rw [hq, putWord_length (by rw [putWord_length hcP]; exact hiP), putWord_length hcP, hlen]
            · intro x hx hx2
              rw [hq, putWord_out (by rw [putWord_length hcP]; exact hiP) hx2, putWord_out hcP hx.2, put_out hin' (by simpa using hx.1)]

/-- **C99.** An address that two checksums are over — that of its IPv4 header and that of the segment of TCP in it — is rewritten such that both
are valid after if they were before; nothing but the address and the checksums changes. -/
theorem C99_translate (s3 s4 : Sum) (p q : Pkt) (e : Edit) (ip : Nat) (hp : p.length < 4294967296)
    (h3 : s3.Over p) (h4 : s4.Over p) (he4 : Edits s4 e) (he3 : Edits s3 { e with csum := ip, layer := .three }) (hz : ¬ e.mayBeZero)
    (hip : ∀ x ∈ s4.words, x + 2 ≤ ip ∨ ip + 2 ≤ x) (hc4 : ∀ x ∈ s3.words, x + 2 ≤ e.csum ∨ e.csum + 2 ≤ x)
    (ha3 : Anchored s3 p [e, { e with csum := ip, layer := .three }]) (ha4 : Anchored s4 p [e, { e with csum := ip, layer := .three }])
    (v3 : s3.Valid p) (v4 : s4.Valid p) (h : translate helpers p e ip = (.ok (), q)) :
    s3.Valid q ∧ s4.Valid q ∧ (q.drop e.offset).take e.size = le e.size e.value ∧ q.length = p.length ∧
      ∀ x, e.Outside x → (x < ip ∨ ip + 2 ≤ x) → q[x]? = p[x]? := by
  obtain ⟨t3, t4, hv, hl, hout⟩ := translate_ok s3 s4 p q e ip hp h3 h4 he4 he3 hz hip hc4 h
  have anch : ∀ {s : Sum}, Anchored s p [e, { e with csum := ip, layer := .three }] → s.total q ≠ 0 := by
    intro s ha
    refine anchored_ne (es := []) ?_
    rcases ha with ha | ⟨o, ho, hne, hall⟩
    · exact .inl ha
    · have a1 := hall e (by simp)
      have a2 := hall { e with csum := ip, layer := .three } (by simp)
      refine .inr ⟨o, ho, ?_, fun _ h' => (nomatch h')⟩
      simp only [word, byte_eq (hout o a1.1 a2.1.2), byte_eq (hout (o + 1) a1.2 a2.2.2)]
      exact hne
  exact ⟨⟨by rw [t3]; exact v3.1, anch ha3⟩, ⟨by rw [t4]; exact v4.1, anch ha4⟩, hv, hl, hout⟩

/-! ## A packet -/

/-- Ethernet, IPv4 from 192.168.0.1 to 192.168.0.199, UDP from port 1000 to port 53, two bytes. -/
def somePacket : Pkt :=
  [2, 0, 0, 0, 0, 1, 2, 0, 0, 0, 0, 2, 8, 0,
   0x45, 0, 0, 30, 0, 0, 0x40, 0, 0x40, 17, 0xb8, 0xb6, 192, 168, 0, 1, 192, 168, 0, 199,
   3, 232, 0, 53, 0, 10, 0x5e, 0x6b, 0x1b, 0x39]

/-- The IPv4 header. -/
def ipSum : Sum := ⟨[14, 16, 18, 20, 22, 24, 26, 28, 30, 32], 0⟩

/-- The UDP datagram with its pseudo header: addresses, protocol and length. -/
def udpSum : Sum := ⟨[26, 28, 30, 32, 34, 36, 38, 40, 42], 17 + 10⟩

/-- Another destination. -/
def ipEdit : Edit := ⟨30, 4, 0x0500000a, 24, .three⟩
/-- Another destination, in the checksum of UDP. -/
def udpEdit : Edit := ⟨30, 4, 0x0500000a, 40, .four 48⟩
/-- Another port. -/
def portEdit : Edit := ⟨36, 2, 0xe914, 40, .four 32⟩

example : ipSum.total somePacket % 65535 = 0 := by decide +kernel
example : udpSum.total somePacket % 65535 = 0 := by decide +kernel

theorem ip_edits : Edits ipSum ipEdit :=
  ⟨.inr rfl, by decide, by decide, fun _ => by decide, by decide, by decide, fun _ => by decide, fun _ h => (nomatch h)⟩

theorem udp_edits : Edits udpSum udpEdit ∧ Edits udpSum portEdit := by
  refine ⟨⟨.inr rfl, by decide, by decide, fun _ => by decide, by decide, by decide, fun _ => by decide, ?_⟩,
    ⟨.inl rfl, by decide, by decide, ?_, by decide, by decide, ?_, ?_⟩⟩
  · intro f h; cases h; decide
  · intro h; exact (nomatch h)
  · intro h; exact (nomatch h)
  · intro f h; cases h; decide

example : ipSum.Over somePacket ∧ ipSum.Valid somePacket ∧ Anchored ipSum somePacket [ipEdit] ∧ ¬ ipEdit.mayBeZero ∧
    ∃ q, rewrites helpers somePacket [ipEdit] = (.ok (), q) ∧ q ≠ somePacket := by
  refine ⟨⟨by decide, by decide⟩, ⟨by decide +kernel, by decide +kernel⟩, .inr ⟨14, by decide, by decide +kernel, ?_⟩, ?_,
    _, rfl, by decide +kernel⟩
  · intro e he
    simp only [List.mem_singleton] at he
    subst he
    simp only [Edit.Outside, ipEdit]; omega
  · rintro ⟨f, h, _⟩; exact (nomatch h)

example : udpSum.Over somePacket ∧ udpSum.Valid somePacket ∧ word somePacket 40 ≠ 0 ∧
    ∃ q, rewrites helpers somePacket [udpEdit, portEdit] = (.ok (), q) ∧ q ≠ somePacket :=
  ⟨⟨by decide, by decide⟩, ⟨by decide +kernel, by decide +kernel⟩, by decide +kernel, _, rfl, by decide +kernel⟩

/-- Another destination, in the checksum of TCP (the same place, for this example). -/
def tcpEdit : Edit := ⟨30, 4, 0x0500000a, 40, .four 16⟩

example : Edits udpSum tcpEdit ∧ Edits ipSum { tcpEdit with csum := 24, layer := .three } ∧ ¬ tcpEdit.mayBeZero ∧
    Anchored ipSum somePacket [tcpEdit, { tcpEdit with csum := 24, layer := .three }] ∧
    Anchored udpSum somePacket [tcpEdit, { tcpEdit with csum := 24, layer := .three }] ∧
    (∀ x ∈ udpSum.words, x + 2 ≤ 24 ∨ 24 + 2 ≤ x) ∧ (∀ x ∈ ipSum.words, x + 2 ≤ 40 ∨ 40 + 2 ≤ x) ∧
    ∃ q, translate helpers somePacket tcpEdit 24 = (.ok (), q) ∧ q ≠ somePacket := by
  refine ⟨⟨.inr rfl, by decide, by decide, fun _ => by decide, by decide, by decide, fun _ => by decide, ?_⟩,
    ⟨.inr rfl, by decide, by decide, fun _ => by decide, by decide, by decide, fun _ => by decide, fun _ h => (nomatch h)⟩, ?_,
    .inr ⟨14, by decide, by decide +kernel, ?_⟩, .inl (by decide), by decide, by decide, _, rfl, by decide +kernel⟩
  · intro f h; cases h; decide
  · rintro ⟨f, h, h2⟩; cases h; exact absurd h2 (by decide)
  · intro e he
    simp only [List.mem_cons, List.not_mem_nil, or_false] at he
    rcases he with rfl | rfl <;> simp only [Edit.Outside, tcpEdit] <;> omega

/-- **C99, refuted.** An offset beyond the packet, of 2^32 and more, is no error: the checksum at the low 32 bits is changed. -/
theorem C99_offset_violated :
    ∃ p : Pkt, p.length = 44 ∧ (l3CsumReplace helpers p (4294967296 + 24) 0 1 2).1 = .ok () ∧
      (l3CsumReplace helpers p (4294967296 + 24) 0 1 2).2 ≠ p ∧ ipSum.Valid p ∧
      ¬ ipSum.Valid (l3CsumReplace helpers p (4294967296 + 24) 0 1 2).2 :=
  ⟨somePacket, by decide, by decide +kernel, by decide +kernel, ⟨by decide +kernel, by decide +kernel⟩, fun h =>
    absurd h.1 (by decide +kernel)⟩

end Verif.Ctx
