import Verif.Mapped.Holds
import Mathlib.Tactic.Ring
import Mathlib.Data.Nat.Bitwise

/-!
# Memory shared with the kernel: what each function does to what is held
-/
set_option linter.unusedSimpArgs false
set_option linter.unusedVariables false
namespace Verif.Mapped
open Spec

theorem _root_.Verif.Mapped.Spec.PageOk.dvd {page : Nat} (h : PageOk page) : 4096 ∣ page := by
  obtain ⟨m, h1, _, rfl⟩ := h
  exact Nat.pow_dvd_pow (m := 12) 2 h1

theorem _root_.Verif.Mapped.Spec.PageOk.pos {page : Nat} (h : PageOk page) : 4096 ≤ page := by
  obtain ⟨m, h1, _, rfl⟩ := h
  exact Nat.pow_le_pow_right (n := 2) (by omega) h1

theorem _root_.Verif.Mapped.Spec.PageOk.dvd64 {page : Nat} (h : PageOk page) : page ∣ 2 ^ 64 := by
  obtain ⟨m, _, h2, rfl⟩ := h
  exact Nat.pow_dvd_pow 2 (by omega)

theorem le_up {page : Nat} (hp : 0 < page) (len : Nat) : len ≤ up page len := by
  unfold up
  have h1 := Nat.div_add_mod (len + page - 1) page
  have h2 := Nat.mod_lt (len + page - 1) hp
  rw [Nat.mul_comm] at h1
  omega

theorem up_mul {page : Nat} (hp : 0 < page) (n : Nat) : up page (n * page) = n * page := by
  unfold up
  congr 1
  rw [Nat.add_sub_assoc (by omega), Nat.add_comm, Nat.add_mul_div_right _ _ hp, Nat.div_eq_of_lt (by omega)]
  omega

theorem up_page {page : Nat} (hp : 0 < page) : up page page = page := by
  have := up_mul hp 1
  simpa using this

theorem up_zero {page : Nat} (hp : 0 < page) : up page 0 = 0 := by
  have := up_mul hp 0
  simpa using this

/-- The system. -/
noncomputable abbrev sysOf (E : Env) (fault : Call → Option Nat) : Sys K := sys E.page E.place E.fresh fault

structure Env.Ok (E : Env) : Prop where
  page : PageOk E.page
  place : Places E.page E.place
  fresh : Fresh E.fresh

/-- The memory after mapping. -/
def _root_.Verif.Mapped.Spec.K.map (k : K) (a len : Nat) (write : Bool) : K :=
  { k with mem := fun x => if a ≤ x ∧ x < a + len then some write else k.mem x }

/-- The memory after unmapping. -/
def _root_.Verif.Mapped.Spec.K.unmap (k : K) (a len : Nat) : K := { k with mem := fun x => if a ≤ x ∧ x < a + len then none else k.mem x }

theorem unmap_map (k : K) (a len : Nat) (write : Bool) (h : ∀ x, a ≤ x → x < a + len → k.mem x = none) :
    (k.map a len write).unmap a len = k := by
  unfold K.map K.unmap
  have e : (fun x => if a ≤ x ∧ x < a + len then none else if a ≤ x ∧ x < a + len then some write else k.mem x) = k.mem := by
    funext x
    by_cases hc : a ≤ x ∧ x < a + len
    · simp only [if_pos hc]
      exact (h x hc.1 hc.2).symm
    · simp only [if_neg hc]
  simp only [e]

theorem mmap_cases (E : Env) (hE : E.Ok) (fault : Call → Option Nat) (fd len : Nat) (write : Bool) (off : Nat) (k : K) :
    (∃ e, MMap.new (sysOf E fault) fd len write off k = (.error e, k)) ∨
    (∃ a x, MMap.new (sysOf E fault) fd len write off k = (.ok ⟨a, len⟩, k.map a (up E.page len) write) ∧ 0 < a ∧ a % E.page = 0 ∧
      (∀ x, a ≤ x → x < a + up E.page len → k.mem x = none) ∧ k.fds fd = some x ∧ Allowed E.page len write off x) := by
  have hmm : (sysOf E fault).mmap fd len write off k = (sys E.page E.place E.fresh fault).mmap fd len write off k := rfl
  unfold MMap.new
  rw [hmm]
  simp only [sys]
  rcases e1 : fault (.mmap write) with _ | e
  · rcases e2 : k.fds fd with _ | x
    · exact .inl ⟨_, rfl⟩
    · simp only []
      by_cases hA : Allowed E.page len write off x
      · rw [if_pos hA]
        rcases e3 : E.place k.mem (up E.page len) with _ | a
        · exact .inl ⟨_, rfl⟩
        · obtain ⟨h1, h2, h3⟩ := hE.place _ _ _ e3
          refine .inr ⟨a, x, ?_, h1, h2, h3, rfl, hA⟩
          simp only [if_neg (show ¬ a = 0 by omega), K.map]
      · rw [if_neg hA]
        exact .inl ⟨_, rfl⟩
  · exact .inl ⟨_, rfl⟩

/-! ## Ring buffers -/

def Ring.ranges (page : Nat) (r : Ring) : List Range :=
  [⟨r.consumer.ptr, up page r.consumer.len, true⟩, ⟨r.producer.ptr, up page r.producer.len, false⟩]

structure Ring.Ok (page : Nat) (r : Ring) : Prop where
  cptr : page ∣ r.consumer.ptr
  pptr : page ∣ r.producer.ptr
  clen : r.consumer.len = page
  off : r.dataOffset = page
  plen : page ≤ r.producer.len
  pos : r.pos % 8 = 0
  size : ∃ max, r.producer.len = page + 2 * max ∧ r.mask = (max + (2 ^ 32 - 1)) % 2 ^ 32

/-- What does not change. -/
structure Ring.Same (r q : Ring) : Prop where
  map : q.map = r.map
  consumer : q.consumer = r.consumer
  producer : q.producer = r.producer
  off : q.dataOffset = r.dataOffset
  mask : q.mask = r.mask

theorem Ring.Same.refl (r : Ring) : r.Same r := ⟨rfl, rfl, rfl, rfl, rfl⟩

theorem Ring.Same.trans {r q p : Ring} (h : r.Same q) (h' : q.Same p) : r.Same p :=
  ⟨h'.map.trans h.map, h'.consumer.trans h.consumer, h'.producer.trans h.producer, h'.off.trans h.off, h'.mask.trans h.mask⟩

theorem Ring.Same.ok {page : Nat} {r q : Ring} (h : r.Same q) (ho : r.Ok page) (hp : q.pos % 8 = 0) : q.Ok page :=
  ⟨by rw [h.consumer]; exact ho.cptr, by rw [h.producer]; exact ho.pptr, by rw [h.consumer]; exact ho.clen, by rw [h.off]; exact ho.off,
    by rw [h.producer]; exact ho.plen, hp, by rw [h.producer, h.mask]; exact ho.size⟩

theorem Ring.Same.ranges {page : Nat} {r q : Ring} (h : r.Same q) : q.ranges page = r.ranges page := by
  simp only [Ring.ranges, h.consumer, h.producer]

theorem new_cases (E : Env) (hE : E.Ok) (fault : Call → Option Nat) (owned : Bool) (d : Data) (pos produced : Nat) (hpos : pos % 8 = 0)
    (k0 k : K) (R : List Range) (F O : List Nat) (h : Holds k0 k R F O) :
    (∃ e, Ring.new (sysOf E fault) E.page owned d pos produced k = (.error e, dropMap (sysOf E fault) owned d k)) ∨
    (∃ r k', Ring.new (sysOf E fault) E.page owned d pos produced k = (.ok r, k') ∧ k'.fds = k.fds ∧ k'.on = k.on ∧
      Holds k0 k' (r.ranges E.page ++ R) F O ∧ r.Ok E.page ∧ r.map = (if owned then some d else none) ∧ r.pos = pos ∧
      r.producer.len = E.page + 2 * d.max ∧ r.mask = (d.max + (2 ^ 32 - 1)) % 2 ^ 32 ∧ r.item = none ∧
      ∃ x, k.fds d.fd = some x ∧ Allowed E.page (E.page + 2 * d.max) false E.page x) := by
  have hpg := hE.page.pos
  have h8 : ∀ a, E.page ∣ a → a % 8 = 0 := fun a ha =>
    Nat.mod_eq_zero_of_dvd (Nat.dvd_trans (Nat.dvd_trans (by decide) hE.page.dvd) ha)
  unfold Ring.new
  rcases mmap_cases E hE fault d.fd E.page true 0 k with ⟨e, he⟩ | ⟨a, x, he, ha, hal, hfree, hx, hA⟩
  · rw [he]
    exact .inl ⟨_, rfl⟩
  · rw [he]
    simp only []
    rw [up_page (by omega)] at hfree ⊢
    have h1 : Holds k0 (k.map a E.page true) (⟨a, E.page, true⟩ :: R) F O := h.mapped a E.page true hfree
    have hacc : (sysOf E fault).access ⟨false, a, 8, 8⟩ (k.map a E.page true) = k.map a E.page true :=
      h1.access _ _ List.mem_cons_self (h8 a (Nat.dvd_of_mod_eq_zero hal)) (Nat.le_refl _) (by simp only []; omega) (fun _ => rfl)
    rw [hacc]
    rcases mmap_cases E hE fault d.fd (E.page + 2 * d.max) false E.page (k.map a E.page true) with
      ⟨e, he2⟩ | ⟨b, x2, he2, hb, hbl, hfree2, hx2, hA2⟩
    · rw [he2]
      refine .inl ⟨e, ?_⟩
      have hd : MMap.drop (sysOf E fault) ⟨a, E.page⟩ (k.map a E.page true) = k := by
        have := unmap_map k a E.page true hfree
        simp only [MMap.drop, sysOf, sys, up_page (show 0 < E.page by omega)]
        exact this
      simp only [hd]
    · rw [he2]
      simp only []
      have hup := le_up (show 0 < E.page by omega) (E.page + 2 * d.max)
      have h2 : Holds k0 ((k.map a E.page true).map b (up E.page (E.page + 2 * d.max)) false)
          (⟨b, up E.page (E.page + 2 * d.max), false⟩ :: ⟨a, E.page, true⟩ :: R) F O := h1.mapped b _ false hfree2
      have hacc2 : (sysOf E fault).access ⟨false, b, 8, 8⟩ ((k.map a E.page true).map b (up E.page (E.page + 2 * d.max)) false) =
          (k.map a E.page true).map b (up E.page (E.page + 2 * d.max)) false :=
        h2.access _ _ List.mem_cons_self (h8 b (Nat.dvd_of_mod_eq_zero hbl)) (Nat.le_refl _) (by simp only []; omega)
          (fun hc => by cases hc)
      rw [hacc2]
      refine .inr ⟨_, _, rfl, rfl, rfl, ?_, ?_, rfl, rfl, rfl, rfl, rfl, x2, hx2, hA2⟩
      · refine h2.perm ?_ (List.Perm.refl _) (List.Perm.refl _)
        simp only [Ring.ranges, up_page (show 0 < E.page by omega), List.cons_append, List.nil_append]
        exact List.Perm.swap _ _ _
      · exact ⟨Nat.dvd_of_mod_eq_zero hal, Nat.dvd_of_mod_eq_zero hbl, rfl, rfl, by simp only []; omega, hpos, d.max, rfl, rfl⟩

theorem Ring.offset_mod (r : Ring) (h : r.pos % 8 = 0) : r.offset % 8 = 0 := by
  unfold Ring.offset
  have := Nat.and_mod_two_pow (a := r.pos) (b := r.mask) (n := 3)
  rw [show (2 : Nat) ^ 3 = 8 from rfl, h, Nat.zero_and] at this
  exact this

theorem consume_cases (E : Env) (hE : E.Ok) (fault : Call → Option Nat) (r : Ring) (len : Nat) (k0 k : K) (R : List Range) (F O : List Nat)
    (h : Holds k0 k R F O) (hr : ∀ x ∈ r.ranges E.page, x ∈ R) (hok : r.Ok E.page) :
    ∃ q : Ring, r.consume (sysOf E fault) len k = (q, k) ∧ r.Same q ∧ q.Ok E.page ∧ q.item = r.item ∧
      q.pos = (r.pos + (8 + len + 7) / 8 * 8) % 2 ^ 64 := by
  have hpg := hE.page.pos
  have h8 : r.consumer.ptr % 8 = 0 :=
    Nat.mod_eq_zero_of_dvd (Nat.dvd_trans (Nat.dvd_trans (by decide) hE.page.dvd) hok.cptr)
  have hacc : (sysOf E fault).access ⟨true, r.consumer.ptr, 8, 8⟩ k = k :=
    h.access _ ⟨r.consumer.ptr, up E.page r.consumer.len, true⟩ (hr _ List.mem_cons_self) h8 (Nat.le_refl _)
      (by simp only [hok.clen, up_page (show 0 < E.page by omega)]; omega) (fun _ => rfl)
  unfold Ring.consume
  rw [hacc]
  have hs : r.Same { r with pos := (r.pos + (8 + len + 7) / 8 * 8) % 2 ^ 64, needsWakeup := true } := ⟨rfl, rfl, rfl, rfl, rfl⟩
  refine ⟨_, rfl, hs, hs.ok hok ?_, rfl, rfl⟩
  have hp := hok.pos
  have e64 : (2 : Nat) ^ 64 = 18446744073709551616 := by decide
  simp only [e64]
  omega

/-- The ring buffer was made for a size, a power of two. -/
def Ring.For (page m : Nat) (r : Ring) : Prop := r.producer.len = page + 2 * 2 ^ m ∧ r.mask = 2 ^ m - 1

structure NextOk (page : Nat) (ts : List Turn) (r : Ring) (g : Got) (q : Ring) : Prop where
  same : r.Same q
  ok : q.Ok page
  item : ∀ a l, g = .item a l → q.item = some l ∧ a = r.producer.ptr + page + (q.pos &&& r.mask) + 8 ∧
    a + l ≤ r.producer.ptr + r.producer.len ∧
    ∃ t ∈ ts, l = t.header.toNat &&& r.mask ∧ t.header.getLsbD 31 = false ∧ t.header.getLsbD 30 = false
  none_ : (∀ a l, g ≠ .item a l) → q.item = r.item
  calm : ∀ m, 3 ≤ m → r.For page m → g ≠ .panic

theorem NextOk.after {page : Nat} {t : Turn} {ts : List Turn} {r p q : Ring} {g : Got} (h : NextOk page ts p g q) (hs : r.Same p)
    (hi : p.item = r.item) : NextOk page (t :: ts) r g q where
  same := hs.trans h.same
  ok := h.ok
  item a l hg := by
    obtain ⟨h1, h2, h3, u, hu, h4⟩ := h.item a l hg
    rw [hs.producer, hs.mask] at h2
    rw [hs.producer] at h3
    rw [hs.mask] at h4
    exact ⟨h1, h2, h3, u, List.mem_cons_of_mem _ hu, h4⟩
  none_ hn := (h.none_ hn).trans hi
  calm m hm hf := h.calm m hm (by unfold Ring.For at hf ⊢; rw [hs.producer, hs.mask]; exact hf)

/-- A result that is no item. -/
theorem NextOk.stop {page : Nat} {ts : List Turn} {r q : Ring} {g : Got} (hs : r.Same q) (ho : q.Ok page) (hi : q.item = r.item)
    (hg : ∀ a l, g ≠ .item a l) (hc : ∀ m, 3 ≤ m → r.For page m → g ≠ .panic) : NextOk page ts r g q where
  same := hs
  ok := ho
  item a l e := absurd e (hg a l)
  none_ _ := hi
  calm := hc

theorem Ring.For.offset_le {page m : Nat} {r : Ring} (hm : 3 ≤ m) (h : r.For page m) (hp : r.pos % 8 = 0) : r.offset + 8 ≤ 2 ^ m := by
  have h1 : r.offset = r.pos % 2 ^ m := by
    unfold Ring.offset
    rw [h.2, Nat.and_two_pow_sub_one_eq_mod]
  have h2 := r.offset_mod hp
  have h3 : r.offset < 2 ^ m := by
    rw [h1]
    exact Nat.mod_lt _ (Nat.two_pow_pos m)
  have h4 : 2 ^ m % 8 = 0 := Nat.mod_eq_zero_of_dvd (Nat.pow_dvd_pow (m := 3) 2 hm)
  omega

theorem next_cases (E : Env) (hE : E.Ok) (fault : Call → Option Nat) (k0 k : K) (R : List Range) (F O : List Nat) (h : Holds k0 k R F O) :
    ∀ (ts : List Turn) (r : Ring), (∀ x ∈ r.ranges E.page, x ∈ R) → r.Ok E.page →
      ∃ g q, Ring.next (sysOf E fault) ts r k = (g, q, k) ∧ NextOk E.page ts r g q := by
  have hpg := hE.page.pos
  intro ts
  induction ts with
  | nil =>
      intro r hr hok
      exact ⟨.going, r, rfl, .stop (.refl r) hok rfl (fun _ _ hc => by cases hc) (fun _ _ _ hc => by cases hc)⟩
  | cons t ts ih =>
      intro r hr hok
      have h8 : r.producer.ptr % 8 = 0 :=
        Nat.mod_eq_zero_of_dvd (Nat.dvd_trans (Nat.dvd_trans (by decide) hE.page.dvd) hok.pptr)
      have hpage8 : E.page % 8 = 0 := Nat.mod_eq_zero_of_dvd (Nat.dvd_trans (by decide) hE.page.dvd)
      have hmem : (⟨r.producer.ptr, up E.page r.producer.len, false⟩ : Range) ∈ R := hr _ (List.mem_cons_of_mem _ List.mem_cons_self)
      have hup := le_up (show 0 < E.page by omega) r.producer.len
      have hplen := hok.plen
      -- whether there is data
      have hav : ∃ b p, r.available (sysOf E fault) t.produced k = (b, p, k) ∧ r.Same p ∧ p.pos = r.pos ∧ p.item = r.item := by
        unfold Ring.available
        by_cases hc : r.pos = r.posCache
        · rw [if_pos hc]
          have hacc : (sysOf E fault).access ⟨false, r.producer.ptr, 8, 8⟩ k = k :=
            h.access _ _ hmem h8 (Nat.le_refl _) (by simp only []; omega) (fun hc => by cases hc)
          rw [hacc]
          exact ⟨_, _, rfl, ⟨rfl, rfl, rfl, rfl, rfl⟩, rfl, rfl⟩
        · rw [if_neg hc]
          exact ⟨_, _, rfl, .refl r, rfl, rfl⟩
      obtain ⟨b, p, he, hs, hpos, hitem⟩ := hav
      have hpok : p.Ok E.page := hs.ok hok (by rw [hpos]; exact hok.pos)
      unfold Ring.next
      rw [he]
      rcases b with _ | _
      · exact ⟨.nothing, p, rfl, .stop hs hpok hitem (fun _ _ hc => by cases hc) (fun _ _ _ hc => by cases hc)⟩
      · simp only []
        have hlen : p.dataLen = r.producer.len - E.page := by
          unfold Ring.dataLen
          rw [hs.producer, hs.off, hok.off]
        have hbase : p.producer.ptr + p.dataOffset = r.producer.ptr + E.page := by rw [hs.producer, hs.off, hok.off]
        have hfor : ∀ m, r.For E.page m → p.For E.page m := fun m hf => by
          unfold Ring.For at hf ⊢
          rw [hs.producer, hs.mask]
          exact hf
        by_cases hc1 : p.offset + 4 > p.dataLen
        · rw [if_pos hc1]
          refine ⟨.panic, p, rfl, .stop hs hpok hitem (fun _ _ hc => by cases hc) (fun m hm hf hc => ?_)⟩
          have h1 := Ring.For.offset_le hm (hfor m hf) hpok.pos
          rw [hlen, hf.1] at hc1
          omega
        · rw [if_neg hc1]
          have hoff := p.offset_mod hpok.pos
          have hacc : (sysOf E fault).access ⟨false, p.producer.ptr + p.dataOffset + p.offset, 4, 4⟩ k = k := by
            rw [hbase]
            refine h.access _ _ hmem ?_ ?_ ?_ (fun hc => by cases hc)
            · simp only []
              omega
            · simp only []
              omega
            · simp only []
              rw [hlen] at hc1
              omega
          rw [hacc]
          by_cases hb : t.header.getLsbD 31 = true
          · rw [if_pos hb]
            by_cases hw : p.needsWakeup = true
            · rw [if_pos hw]
              have hs' : p.Same { p with needsWakeup := false } := ⟨rfl, rfl, rfl, rfl, rfl⟩
              obtain ⟨g, q, hq, hn⟩ := ih { p with needsWakeup := false } (by rw [(hs.trans hs').ranges]; exact hr) (hs'.ok hpok hpok.pos)
              exact ⟨g, q, hq, hn.after (hs.trans hs') hitem⟩
            · rw [if_neg hw]
              exact ⟨.nothing, p, rfl, .stop hs hpok hitem (fun _ _ hc => by cases hc) (fun _ _ _ hc => by cases hc)⟩
          · rw [if_neg hb]
            by_cases hd : t.header.getLsbD 30 = true
            · rw [if_pos hd]
              obtain ⟨c, hce, hcs, hcok, hci, _⟩ := consume_cases E hE fault p (t.header.toNat &&& p.mask) k0 k R F O h
                (by rw [hs.ranges]; exact hr) hpok
              rw [hce]
              obtain ⟨g, q, hq, hn⟩ := ih c (by rw [hcs.ranges, hs.ranges]; exact hr) hcok
              exact ⟨g, q, hq, hn.after (hs.trans hcs) (hci.trans hitem)⟩
            · rw [if_neg hd]
              by_cases hc2 : p.offset + 8 + (t.header.toNat &&& p.mask) > p.dataLen
              · rw [if_pos hc2]
                refine ⟨.panic, p, rfl, .stop hs hpok hitem (fun _ _ hc => by cases hc) (fun m hm hf hc => ?_)⟩
                have h1 := Ring.For.offset_le hm (hfor m hf) hpok.pos
                have h2 : t.header.toNat &&& p.mask ≤ 2 ^ m - 1 := by
                  rw [hs.mask, hf.2]
                  exact Nat.and_le_right
                rw [hlen, hf.1] at hc2
                omega
              · rw [if_neg hc2]
                rw [hlen] at hc2
                have hacc2 : (sysOf E fault).access
                    ⟨false, p.producer.ptr + p.dataOffset + (p.offset + 8), t.header.toNat &&& p.mask, 1⟩ k = k := by
                  rw [hbase]
                  refine h.access _ _ hmem ?_ ?_ ?_ (fun hc => by cases hc)
                  · simp only [Nat.mod_one]
                  · simp only []
                    omega
                  · simp only []
                    omega
                rw [hacc2]
                have hs' : r.Same { p with item := some (t.header.toNat &&& p.mask) } := hs.trans ⟨rfl, rfl, rfl, rfl, rfl⟩
                refine ⟨_, _, rfl, ⟨hs', hs'.ok hok hpok.pos, ?_, fun hn => absurd rfl (hn _ _), fun _ _ _ hc => by cases hc⟩⟩
                intro a l hg
                simp only [Got.item.injEq] at hg
                obtain ⟨rfl, rfl⟩ := hg
                rw [hbase]
                refine ⟨rfl, ?_, by omega, t, List.mem_cons_self, ?_, by simpa using hb, by simpa using hd⟩
                · show _ = r.producer.ptr + E.page + (p.pos &&& r.mask) + 8
                  unfold Ring.offset
                  rw [hs.mask]
                  omega
                · rw [hs.mask]

/-- A `RingBuf` is dropped. -/
theorem drop_ring (E : Env) (fault : Call → Option Nat) (r : Ring) (k0 k : K) (R : List Range) (F O : List Nat)
    (h : Holds k0 k (r.ranges E.page ++ R) ((match r.map with | some d => [d.fd] | none => []) ++ F) O)
    (hO : ∀ d, r.map = some d → d.fd ∉ O) :
    Holds k0 (r.drop (sysOf E fault) k) R F O := by
  unfold Ring.drop
  have h1 : Holds k0 (match r.map with | some d => (sysOf E fault).close d.fd k | none => k) (r.ranges E.page ++ R) F O := by
    rcases e : r.map with _ | d
    · rw [e] at h
      exact h
    · rw [e] at h
      exact h.closed d.fd (hO d e)
  have h2 := Holds.unmapped ⟨r.consumer.ptr, up E.page r.consumer.len, true⟩ h1
  exact Holds.unmapped ⟨r.producer.ptr, up E.page r.producer.len, false⟩ h2

/-! ## Perf buffers -/

def Perf.ranges (page : Nat) (b : Perf) : List Range := [⟨b.mmap.ptr, up page b.mmap.len, true⟩]

structure Perf.Ok (page : Nat) (b : Perf) : Prop where
  ptr : page ∣ b.mmap.ptr
  size : page ∣ b.size
  len : b.mmap.len = page + b.size
  bpage : b.page = page

/-- A `PerfBuffer` is dropped. -/
theorem drop_perf (E : Env) (fault : Call → Option Nat) (b : Perf) (k0 k : K) (R : List Range) (F O : List Nat)
    (h : Holds k0 k (b.ranges E.page ++ R) (b.fd :: F) (b.fd :: O)) : Holds k0 (b.drop (sysOf E fault) k) R F O := by
  have hnd := List.nodup_cons.mp h.onodup
  unfold Perf.drop
  have h1 := h.disabled
  have h2 := Holds.unmapped ⟨b.mmap.ptr, up E.page b.mmap.len, true⟩ h1
  exact h2.closed b.fd hnd.1

theorem perfOpen_cases (E : Env) (hE : E.Ok) (fault : Call → Option Nat) (index : Nat) (k : K) :
    (∃ e, (sysOf E fault).perfOpen index k = (.error e, k)) ∨
    (∃ fd, k.fds fd = none ∧ (sysOf E fault).perfOpen index k =
      (.ok fd, { k with fds := fun x => if x = fd then some .event else k.fds x, on := fun x => if x = fd then false else k.on x })) := by
  simp only [sysOf, sys]
  rcases e1 : fault .perfOpen with _ | e
  · rcases e2 : E.fresh k.fds with _ | fd
    · exact .inl ⟨_, rfl⟩
    · exact .inr ⟨fd, hE.fresh _ _ e2, rfl⟩
  · exact .inl ⟨_, rfl⟩

theorem enable_cases (E : Env) (fault : Call → Option Nat) (fd : Nat) (k : K) :
    (∃ e, (sysOf E fault).enable fd k = (.error e, k)) ∨
    (sysOf E fault).enable fd k = (.ok (), { k with on := fun x => if x = fd then true else k.on x }) := by
  simp only [sysOf, sys]
  rcases e1 : fault .enable with _ | e
  · exact .inr rfl
  · exact .inl ⟨_, rfl⟩

theorem update_cases (E : Env) (fault : Call → Option Nat) (a i fd : Nat) (k : K) :
    (∃ e, (sysOf E fault).update a i fd k = (.error e, k)) ∨ (sysOf E fault).update a i fd k = (.ok (), k) := by
  simp only [sysOf, sys]
  rcases e1 : fault .update with _ | e
  · exact .inr rfl
  · exact .inl ⟨_, rfl⟩

theorem open_cases (E : Env) (hE : E.Ok) (fault : Call → Option Nat) (array index pages : Nat)
    (k0 k : K) (R : List Range) (F O : List Nat) (h : Holds k0 k R F O) :
    (∃ e, arrayOpen (sysOf E fault) array index E.page pages k = (.error e, k)) ∨
    (∃ b k', arrayOpen (sysOf E fault) array index E.page pages k = (.ok b, k') ∧
      Holds k0 k' (b.ranges E.page ++ R) (b.fd :: F) (b.fd :: O) ∧ b.Ok E.page ∧ b.size = E.page * pages % 2 ^ 64 ∧
      isPowerOfTwo pages = true ∧ k.fds b.fd = none) := by
  have hpg := hE.page.pos
  unfold arrayOpen Perf.open_
  by_cases hp2 : isPowerOfTwo pages = true
  · rw [hp2]
    simp only [Bool.not_true, Bool.false_eq_true, if_false]
    rcases perfOpen_cases E hE fault index k with ⟨e, hpo⟩ | ⟨fd, hfd, hpo⟩
    · rw [hpo]
      exact .inl ⟨_, rfl⟩
    · rw [hpo]
      simp only []
      have hoff := h.off fd hfd
      generalize hk1 : ({ k with fds := fun x => if x = fd then some Obj.event else k.fds x,
                                 on := fun x => if x = fd then false else k.on x } : K) = k1
      have hk1' : k1 = { k with fds := fun x => if x = fd then some Obj.event else k.fds x } := by
        rw [← hk1]
        have := disabled_off { k with fds := fun x => if x = fd then some Obj.event else k.fds x } fd hoff
        exact this
      have h1 : Holds k0 k1 R (fd :: F) O := by
        rw [hk1']
        exact h.opened fd .event hfd
      have hback : (sysOf E fault).close fd k1 = k := by
        rw [hk1']
        simp only [sysOf, sys]
        have e : (fun x => if x = fd then none else if x = fd then some Obj.event else k.fds x) = k.fds := by
          funext x
          by_cases hc : x = fd
          · simp only [if_pos hc]
            rw [hc, hfd]
          · simp only [if_neg hc]
        simp only [e]
      have hback' : ({ k1 with fds := fun x => if x = fd then none else k1.fds x } : K) = k := hback
      have hnotO : fd ∉ O := fun hc => by
        have := h.on fd hc
        rw [hoff] at this
        cases this
      rcases mmap_cases E hE fault fd ((E.page * pages % 2 ^ 64 + E.page) % 2 ^ 64) true 0 k1 with
        ⟨e, he⟩ | ⟨a, x, he, ha, hal, hfree, hx, hA⟩
      · rw [he]
        exact .inl ⟨_, congrArg (Prod.mk _) hback⟩
      · rw [he]
        simp only []
        -- what was mapped
        have hxe : x = .event := by
          rw [hk1'] at hx
          simpa using hx.symm
        subst hxe
        obtain ⟨_, n, hn, hup⟩ := hA
        have hszd : E.page ∣ E.page * pages % 2 ^ 64 := (Nat.dvd_mod_iff hE.page.dvd64).mpr (Nat.dvd_mul_right _ _)
        have hlen : (E.page * pages % 2 ^ 64 + E.page) % 2 ^ 64 = E.page + E.page * pages % 2 ^ 64 := by
          have h64 : 0 < 2 ^ 64 := by decide
          have hlt := Nat.mod_lt (E.page * pages) h64
          obtain ⟨c, hc⟩ := hszd
          obtain ⟨d, hd⟩ := hE.page.dvd64
          have hle : E.page * pages % 2 ^ 64 + E.page ≤ 2 ^ 64 := by
            rw [hc] at hlt ⊢
            rw [hd] at hlt ⊢
            have h1 : c < d := Nat.lt_of_mul_lt_mul_left hlt
            calc E.page * c + E.page = E.page * (c + 1) := by ring
              _ ≤ E.page * d := Nat.mul_le_mul_left _ h1
          rcases Nat.lt_or_ge (E.page * pages % 2 ^ 64 + E.page) (2 ^ 64) with hc' | hc'
          · rw [Nat.mod_eq_of_lt hc', Nat.add_comm]
          · have heq : E.page * pages % 2 ^ 64 + E.page = 2 ^ 64 := Nat.le_antisymm hle hc'
            rw [heq, Nat.mod_self, up_zero (by omega)] at hup
            omega
        have h2 : Holds k0 (k1.map a (up E.page ((E.page * pages % 2 ^ 64 + E.page) % 2 ^ 64)) true)
            (⟨a, up E.page ((E.page * pages % 2 ^ 64 + E.page) % 2 ^ 64), true⟩ :: R) (fd :: F) O := h1.mapped a _ true hfree
        -- giving everything back
        have hundo : ∀ s : K, s = k1.map a (up E.page ((E.page * pages % 2 ^ 64 + E.page) % 2 ^ 64)) true ∨
            s = { k1.map a (up E.page ((E.page * pages % 2 ^ 64 + E.page) % 2 ^ 64)) true with
                  on := fun x => if x = fd then true else (k1.map a (up E.page ((E.page * pages % 2 ^ 64 + E.page) % 2 ^ 64)) true).on x } →
            Perf.drop (sysOf E fault) ⟨⟨a, (E.page * pages % 2 ^ 64 + E.page) % 2 ^ 64⟩, E.page * pages % 2 ^ 64, E.page, fd⟩ s = k := by
          intro s hs
          have hon1 : k1.on fd = false := by rw [hk1']; exact hoff
          have hs' : (sysOf E fault).disable fd s = k1.map a (up E.page ((E.page * pages % 2 ^ 64 + E.page) % 2 ^ 64)) true := by
            rcases hs with rfl | rfl
            · exact disabled_off _ fd hon1
            · simp only [sysOf, sys]
              have e : (fun x => if x = fd then false else
                  if x = fd then true else (k1.map a (up E.page ((E.page * pages % 2 ^ 64 + E.page) % 2 ^ 64)) true).on x) =
                  (k1.map a (up E.page ((E.page * pages % 2 ^ 64 + E.page) % 2 ^ 64)) true).on := by
                funext x
                by_cases hc : x = fd
                · simp only [if_pos hc]
                  rw [hc]
                  exact hon1.symm
                · simp only [if_neg hc]
              simp only [e]
          unfold Perf.drop MMap.drop
          simp only [hs']
          have hu := unmap_map k1 a (up E.page ((E.page * pages % 2 ^ 64 + E.page) % 2 ^ 64)) true hfree
          have hu' : (sysOf E fault).munmap a ((E.page * pages % 2 ^ 64 + E.page) % 2 ^ 64)
              (k1.map a (up E.page ((E.page * pages % 2 ^ 64 + E.page) % 2 ^ 64)) true) = k1 := hu
          rw [hu']
          exact hback
        rcases enable_cases E fault fd (k1.map a (up E.page ((E.page * pages % 2 ^ 64 + E.page) % 2 ^ 64)) true) with ⟨e, h3e⟩ | h3e
        · rw [h3e]
          exact .inl ⟨_, congrArg (Prod.mk _) (hundo _ (.inl rfl))⟩
        · rw [h3e]
          simp only []
          have h3 := h2.enabled fd List.mem_cons_self hnotO
          rcases update_cases E fault array index fd { k1.map a (up E.page ((E.page * pages % 2 ^ 64 + E.page) % 2 ^ 64)) true with
              on := fun x => if x = fd then true else
                (k1.map a (up E.page ((E.page * pages % 2 ^ 64 + E.page) % 2 ^ 64)) true).on x } with ⟨e, h4⟩ | h4
          · rw [h4]
            exact .inl ⟨_, congrArg (Prod.mk _) (hundo _ (.inr rfl))⟩
          · rw [h4]
            exact .inr ⟨_, _, rfl, h3, ⟨Nat.dvd_of_mod_eq_zero hal, hszd, hlen, rfl⟩, rfl, trivial, hfd⟩
  · simp only [hp2, Bool.not_false, if_true]
    exact .inl ⟨_, rfl⟩

theorem body_same (E : Env) (hE : E.Ok) (fault : Call → Option Nat) (b : Perf) (tail : Nat) (e : Rec) (k0 k : K) (R : List Range) (F O : List Nat)
    (h : Holds k0 k R F O) (hr : ∀ x ∈ b.ranges E.page, x ∈ R) (hok : b.Ok E.page) (hsz : b.size ≠ 0) (ht : tail % 8 = 0)
    (he : e.type = 9 → e.sample ≤ b.size) : b.body (sysOf E fault) tail e k = k := by
  have hpg := hE.page.pos
  have h8 : b.mmap.ptr % 8 = 0 := Nat.mod_eq_zero_of_dvd (Nat.dvd_trans (Nat.dvd_trans (by decide) hE.page.dvd) hok.ptr)
  have hpage8 : E.page % 8 = 0 := Nat.mod_eq_zero_of_dvd (Nat.dvd_trans (by decide) hE.page.dvd)
  have hd8 : 8 ∣ b.size := Nat.dvd_trans (Nat.dvd_trans (by decide) hE.page.dvd) hok.size
  have hsz8 : b.size % 8 = 0 := Nat.mod_eq_zero_of_dvd hd8
  have hmem := hr _ List.mem_cons_self
  have hup := le_up (show 0 < E.page by omega) b.mmap.len
  have hlen := hok.len
  have hbase : b.base = b.mmap.ptr + E.page := by unfold Perf.base; rw [hok.bpage]
  have hin : ∀ off n al, off + n ≤ b.size → (b.mmap.ptr + E.page + off) % al = 0 →
      (sysOf E fault).access ⟨false, b.base + off, n, al⟩ k = k := by
    intro off n al h1 h2
    rw [hbase]
    refine h.access _ _ hmem h2 ?_ ?_ (fun hc => by cases hc)
    · simp only []
      omega
    · simp only []
      omega
  have hmod : ∀ n, n % 8 = 0 → n % b.size % 8 = 0 := fun n hn => by rw [Nat.mod_mod_of_dvd _ hd8]; exact hn
  have hlt : ∀ n, n % b.size < b.size := fun n => Nat.mod_lt _ (by omega)
  unfold Perf.body
  have hs1 := hmod tail ht
  have hs2 := hlt tail
  have ha := hin (tail % b.size) 8 4 (by omega) (by omega)
  simp only [ha]
  by_cases h9 : e.type = 9
  · simp only [if_pos h9]
    have hq1 := hmod (tail % b.size + 8) (by omega)
    have hq2 := hlt (tail % b.size + 8)
    have hb := hin ((tail % b.size + 8) % b.size) 4 4 (by omega) (by omega)
    rw [hb]
    have hsm := he h9
    have hst := hlt (tail % b.size + 8 + 4)
    unfold Perf.sample
    by_cases hc : (tail % b.size + 8 + 4) % b.size + e.sample ≥ b.size
    · rw [if_pos hc]
      have h1 := hin ((tail % b.size + 8 + 4) % b.size) (b.size - (tail % b.size + 8 + 4) % b.size) 1 (by omega) (Nat.mod_one _)
      rw [h1]
      have h2 := hin 0 ((tail % b.size + 8 + 4) % b.size + e.sample - b.size) 1 (by omega) (Nat.mod_one _)
      simpa using h2
    · rw [if_neg hc]
      exact hin _ _ _ (by omega) (Nat.mod_one _)
  · simp only [if_neg h9]
    by_cases h2 : e.type = 2
    · rw [if_pos h2]
      have hq1 := hmod (tail % b.size + 8 + 8) (by omega)
      have hq2 := hlt (tail % b.size + 8 + 8)
      exact hin _ _ _ (by omega) (by omega)
    · rw [if_neg h2]

theorem loop_same (E : Env) (hE : E.Ok) (fault : Call → Option Nat) (b : Perf) (head : Nat) (k0 k : K) (R : List Range) (F O : List Nat)
    (h : Holds k0 k R F O) (hr : ∀ x ∈ b.ranges E.page, x ∈ R) (hok : b.Ok E.page) :
    ∀ (es : List Rec) (tail : Nat), tail % 8 = 0 → (∀ e ∈ es, e.size % 8 = 0 ∧ (e.type = 9 → e.sample ≤ b.size)) →
      (b.loop (sysOf E fault) head es tail k).2.2 = k := by
  intro es
  induction es with
  | nil => intro tail _ _; rfl
  | cons e es ih =>
      intro tail ht hes
      unfold Perf.loop
      by_cases hc : tail = head
      · rw [if_pos hc]
      · rw [if_neg hc]
        by_cases hz : b.size = 0
        · rw [if_pos hz]
        · rw [if_neg hz]
          have he := hes e List.mem_cons_self
          have hb := body_same E hE fault b tail e k0 k R F O h hr hok hz ht he.2
          rw [hb]
          have ht' : (tail + e.size) % 2 ^ 64 % 8 = 0 := by
            have e64 : (2 : Nat) ^ 64 = 18446744073709551616 := by decide
            simp only [e64]
            have := he.1
            omega
          by_cases hst : (e.stop && (e.type == 9 || e.type == 2)) = true
          · rw [if_pos hst]
          · rw [if_neg hst]
            exact ih _ ht' (fun x hx => hes x (List.mem_cons_of_mem _ hx))

theorem fold_same (E : Env) (hE : E.Ok) (fault : Call → Option Nat) (b : Perf) (head tail : Nat) (es : List Rec) (k0 k : K) (R : List Range)
    (F O : List Nat) (h : Holds k0 k R F O) (hr : ∀ x ∈ b.ranges E.page, x ∈ R) (hok : b.Ok E.page) (ht : tail % 8 = 0)
    (hes : ∀ e ∈ es, e.size % 8 = 0 ∧ (e.type = 9 → e.sample ≤ b.size)) : (b.fold (sysOf E fault) head tail es k).2 = k := by
  have hpg := hE.page.pos
  have h8 : b.mmap.ptr % 8 = 0 := Nat.mod_eq_zero_of_dvd (Nat.dvd_trans (Nat.dvd_trans (by decide) hE.page.dvd) hok.ptr)
  have hmem := hr _ List.mem_cons_self
  have hup := le_up (show 0 < E.page by omega) b.mmap.len
  have hlen := hok.len
  have hin : ∀ off w, off % 8 = 0 → off < 2048 → (sysOf E fault).access ⟨w, b.mmap.ptr + off, 8, 8⟩ k = k := by
    intro off w h1 h2
    refine h.access _ _ hmem ?_ ?_ ?_ (fun _ => rfl)
    · simp only []
      omega
    · simp only []
      omega
    · simp only []
      omega
  unfold Perf.fold
  rw [hin 1024 false (by omega) (by omega), hin 1032 false (by omega) (by omega)]
  have hl := loop_same E hE fault b head k0 k R F O h hr hok es tail ht hes
  rcases e : b.loop (sysOf E fault) head es tail k with ⟨p, t, s⟩
  rw [e] at hl
  simp only at hl
  simp only [e, hl]
  by_cases hc : t ≠ tail
  · rw [if_pos hc]
    exact hin 1032 true (by omega) (by omega)
  · rw [if_neg hc]

end Verif.Mapped
