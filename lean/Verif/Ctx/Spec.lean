import Verif.Ctx.Model
/-!
# What the kernel has, where it shows it, and what its helpers do

Offsets are those of `include/uapi/linux/bpf.h`. The helpers follow `net/core/filter.c` and `include/net/checksum.h`; only the types of the
interface are shared with the model. Simplifications: there is memory enough to make the packet writable; `skb->csum` and checksums left to the
hardware are not modelled.
-/
namespace Verif.Ctx.Spec
open Verif.Bytes Verif.Ctx.Packet

/-- A packet or its socket. Addresses are the bytes as they are on the wire. -/
structure Skb where
  len : Nat
  mark : Nat
  protocol : Nat
  cb : Fin 5 → Nat
  data : Nat
  dataEnd : Nat
  family : Nat
  remoteIp4 : Fin 4 → UInt8
  localIp4 : Fin 4 → UInt8
  remoteIp6 : Fin 16 → UInt8
  localIp6 : Fin 16 → UInt8
  remotePort : Nat
  localPort : Nat
  flowKeys : Nat

/-- Four bytes in memory, loaded by a little-endian machine. -/
def loaded (a b c d : UInt8) : Nat := a.toNat + 256 * b.toNat + 65536 * c.toNat + 16777216 * d.toNat

/-- The number `n` in network byte order, in four bytes, loaded by a little-endian machine. -/
def netOrder (n : Nat) : Nat :=
  n / 16777216 % 256 + 256 * (n / 65536 % 256) + 65536 * (n / 256 % 256) + 16777216 * (n % 256)

/-- What a load at an offset of `struct __sk_buff` gives. -/
def Skb.load (s : Skb) : Load
  | 0, 4 => some s.len
  | 8, 4 => some s.mark
  | 16, 4 => some s.protocol
  | 48, 4 => some (s.cb 0)
  | 52, 4 => some (s.cb 1)
  | 56, 4 => some (s.cb 2)
  | 60, 4 => some (s.cb 3)
  | 64, 4 => some (s.cb 4)
  | 76, 4 => some s.data
  | 80, 4 => some s.dataEnd
  | 88, 4 => some s.family
  | 92, 4 => some (loaded (s.remoteIp4 0) (s.remoteIp4 1) (s.remoteIp4 2) (s.remoteIp4 3))
  | 96, 4 => some (loaded (s.localIp4 0) (s.localIp4 1) (s.localIp4 2) (s.localIp4 3))
  | 100, 4 => some (loaded (s.remoteIp6 0) (s.remoteIp6 1) (s.remoteIp6 2) (s.remoteIp6 3))
  | 104, 4 => some (loaded (s.remoteIp6 4) (s.remoteIp6 5) (s.remoteIp6 6) (s.remoteIp6 7))
  | 108, 4 => some (loaded (s.remoteIp6 8) (s.remoteIp6 9) (s.remoteIp6 10) (s.remoteIp6 11))
  | 112, 4 => some (loaded (s.remoteIp6 12) (s.remoteIp6 13) (s.remoteIp6 14) (s.remoteIp6 15))
  | 116, 4 => some (loaded (s.localIp6 0) (s.localIp6 1) (s.localIp6 2) (s.localIp6 3))
  | 120, 4 => some (loaded (s.localIp6 4) (s.localIp6 5) (s.localIp6 6) (s.localIp6 7))
  | 124, 4 => some (loaded (s.localIp6 8) (s.localIp6 9) (s.localIp6 10) (s.localIp6 11))
  | 128, 4 => some (loaded (s.localIp6 12) (s.localIp6 13) (s.localIp6 14) (s.localIp6 15))
  | 132, 4 => some (netOrder s.remotePort)
  | 136, 4 => some s.localPort
  | 144, 8 => some s.flowKeys
  | _, _ => none

/-- What a store at an offset of `struct __sk_buff` does: the mark and the control buffer can be written. -/
def Skb.store : Store Skb
  | s, 8, 4, v => some { s with mark := v }
  | s, 48, 4, v => some { s with cb := fun i => if i = 0 then v else s.cb i }
  | s, 52, 4, v => some { s with cb := fun i => if i = 1 then v else s.cb i }
  | s, 56, 4, v => some { s with cb := fun i => if i = 2 then v else s.cb i }
  | s, 60, 4, v => some { s with cb := fun i => if i = 3 then v else s.cb i }
  | s, 64, 4, v => some { s with cb := fun i => if i = 4 then v else s.cb i }
  | _, _, _, _ => none

/-- What XDP has: where the packet and its metadata are, and where it came in. -/
structure Xdp where
  data : Nat
  dataEnd : Nat
  dataMeta : Nat
  ifindex : Nat
  queue : Nat

/-- What a load at an offset of `struct xdp_md` gives. -/
def Xdp.load (x : Xdp) : Load
  | 0, 4 => some x.data
  | 4, 4 => some x.dataEnd
  | 8, 4 => some x.dataMeta
  | 12, 4 => some x.ifindex
  | 16, 4 => some x.queue
  | _, _ => none

/-- What the kernel has when a socket of a group is to be chosen. `migrating` is the socket that moves, if one does. -/
structure Reuse where
  data : Nat
  dataEnd : Nat
  len : Nat
  ethProtocol : Nat
  ipProtocol : Nat
  bindInany : Nat
  hash : Nat
  sk : Nat
  migrating : Option { a : Nat // a ≠ 0 }

/-- What a load at an offset of `struct sk_reuseport_md` gives. -/
def Reuse.load (r : Reuse) : Load
  | 0, 8 => some r.data
  | 8, 8 => some r.dataEnd
  | 16, 4 => some r.len
  | 20, 4 => some r.ethProtocol
  | 24, 4 => some r.ipProtocol
  | 28, 4 => some r.bindInany
  | 32, 4 => some r.hash
  | 40, 8 => some r.sk
  | 48, 8 => some (match r.migrating with | some a => a.1 | none => 0)
  | _, _ => none

/-- A message that is sent: where its first bytes are, and its size. -/
structure Msg where
  data : Nat
  dataEnd : Nat
  size : Nat

/-- What a load at an offset of `struct sk_msg_md` gives. -/
def Msg.load (m : Msg) : Load
  | 0, 8 => some m.data
  | 8, 8 => some m.dataEnd
  | 68, 4 => some m.size
  | _, _ => none

/-- What the kernel has when a socket operation is reported. `words` are arguments first and the reply later. -/
structure Ops where
  op : Nat
  words : Fin 4 → Nat
  family : Nat
  remoteIp4 : Fin 4 → UInt8
  localIp4 : Fin 4 → UInt8
  remoteIp6 : Fin 16 → UInt8
  localIp6 : Fin 16 → UInt8
  remotePort : Nat
  localPort : Nat
  cbFlags : Nat

/-- What a load at an offset of `struct bpf_sock_ops` gives. -/
def Ops.load (s : Ops) : Load
  | 0, 4 => some s.op
  | 4, 4 => some (s.words 0)
  | 8, 4 => some (s.words 1)
  | 12, 4 => some (s.words 2)
  | 16, 4 => some (s.words 3)
  | 20, 4 => some s.family
  | 24, 4 => some (loaded (s.remoteIp4 0) (s.remoteIp4 1) (s.remoteIp4 2) (s.remoteIp4 3))
  | 28, 4 => some (loaded (s.localIp4 0) (s.localIp4 1) (s.localIp4 2) (s.localIp4 3))
  | 32, 4 => some (loaded (s.remoteIp6 0) (s.remoteIp6 1) (s.remoteIp6 2) (s.remoteIp6 3))
  | 36, 4 => some (loaded (s.remoteIp6 4) (s.remoteIp6 5) (s.remoteIp6 6) (s.remoteIp6 7))
  | 40, 4 => some (loaded (s.remoteIp6 8) (s.remoteIp6 9) (s.remoteIp6 10) (s.remoteIp6 11))
  | 44, 4 => some (loaded (s.remoteIp6 12) (s.remoteIp6 13) (s.remoteIp6 14) (s.remoteIp6 15))
  | 48, 4 => some (loaded (s.localIp6 0) (s.localIp6 1) (s.localIp6 2) (s.localIp6 3))
  | 52, 4 => some (loaded (s.localIp6 4) (s.localIp6 5) (s.localIp6 6) (s.localIp6 7))
  | 56, 4 => some (loaded (s.localIp6 8) (s.localIp6 9) (s.localIp6 10) (s.localIp6 11))
  | 60, 4 => some (loaded (s.localIp6 12) (s.localIp6 13) (s.localIp6 14) (s.localIp6 15))
  | 64, 4 => some (netOrder s.remotePort)
  | 68, 4 => some s.localPort
  | 84, 4 => some s.cbFlags
  | _, _ => none

/-- What a store at an offset of `struct bpf_sock_ops` does: the four words can be written. The kernel takes the first as the reply. -/
def Ops.store : Store Ops
  | s, 4, 4, v => some { s with words := fun i => if i = 0 then v else s.words i }
  | s, 8, 4, v => some { s with words := fun i => if i = 1 then v else s.words i }
  | s, 12, 4, v => some { s with words := fun i => if i = 2 then v else s.words i }
  | s, 16, 4, v => some { s with words := fun i => if i = 3 then v else s.words i }
  | _, _, _, _ => none

/-- `bpf_sock_ops_cb_flags_set` for a full socket: known flags (the low seven bits) are set; the others are given back. -/
def setFlags (s : Ops) (flags : Int) : Int × Ops :=
  let n := (flags % 4294967296).toNat
  (Int.ofNat (n / 128 * 128) - (if n ≥ 2147483648 then 4294967296 else 0), { s with cbFlags := n % 128 })

/-! ## Messages -/

/-- `bpf_msg_push_data`: `fresh` are the bytes that come in. -/
def push (fresh : Nat → UInt8) (m : List UInt8) (start len flags : Nat) : Int × List UInt8 :=
  if flags ≠ 0 then (-22, m)
  else if len = 0 then (0, m)
  else if start ≥ m.length then (-22, m)
  else (0, m.take start ++ (List.range len).map fresh ++ m.drop start)

/-- `bpf_msg_pop_data`. -/
def pop (m : List UInt8) (start len flags : Nat) : Int × List UInt8 :=
  if flags ≠ 0 then (-22, m)
  else if len = 0 then (0, m)
  else if start ≥ m.length ∨ start + len > m.length then (-22, m)
  else (0, m.take start ++ m.drop (start + len))

/-! ## Checksums -/

/-- The byte at an offset. -/
def byte (p : Pkt) (o : Nat) : Nat := (p.getD o 0).toNat

/-- The sixteen-bit word at an offset, in network byte order. -/
def word (p : Pkt) (o : Nat) : Nat := 256 * byte p o + byte p (o + 1)

/-- A checksum: the offsets of the words it is over, and what is added from elsewhere (length and protocol of a pseudo header). -/
structure Sum where
  words : List Nat
  extra : Nat

/-- The words do not overlap and are in the packet. -/
def Sum.Over (s : Sum) (p : Pkt) : Prop :=
  s.words.Pairwise (fun a b => a + 2 ≤ b ∨ b + 2 ≤ a) ∧ ∀ o ∈ s.words, o + 2 ≤ p.length

/-- The sum of all words. -/
def Sum.total (s : Sum) (p : Pkt) : Nat := (s.words.map (word p)).sum + s.extra

/-- RFC 1071: the one's complement sum over all words, that of the checksum included, is all ones: a multiple of 65535, and not zero. -/
def Sum.Valid (s : Sum) (p : Pkt) : Prop := s.total p % 65535 = 0 ∧ s.total p ≠ 0

/-- The sixteen-bit word at an offset, as a little-endian machine has it. -/
def hostWord (p : Pkt) (o : Nat) : Nat := byte p o + 256 * byte p (o + 1)

/-- Bytes put at an offset. -/
def put (p : Pkt) (o : Nat) (bs : List UInt8) : Pkt := p.take o ++ bs ++ p.drop (o + bs.length)

/-- A sixteen-bit word put at an offset by a little-endian machine. -/
def putWord (p : Pkt) (o w : Nat) : Pkt := put p o [UInt8.ofNat (w % 256), UInt8.ofNat (w / 256 % 256)]

/-- `csum16_add`. -/
def add16 (a b : Nat) : Nat := (a + b) % 65536 + (a + b) / 65536

/-- `csum_add`. -/
def add32 (a b : Nat) : Nat := (a + b) % 4294967296 + (a + b) / 4294967296

/-- `csum_fold`: twice `(s & 0xffff) + (s >> 16)`, complemented. -/
def fold (s : Nat) : Nat :=
  let a := s % 65536 + s / 65536
  65535 - (a % 65536 + a / 65536) % 65536

/-- `csum_replace2`. -/
def replace2 (sum from_ to_ : Nat) : Nat := 65535 - add16 (add16 (65535 - sum) (65535 - from_)) to_

/-- `csum_replace4`. -/
def replace4 (sum from_ to_ : Nat) : Nat := fold (add32 (add32 (4294967295 - sum) (4294967295 - from_)) to_)

/-- `csum_replace_by_diff`. -/
def replaceDiff (sum diff : Nat) : Nat := fold (add32 diff (4294967295 - sum))

/-- The checksum replaced as the helpers do, by size. -/
def replaced (sum from_ to_ size : Nat) : Option Nat :=
  if size = 0 then (if from_ ≠ 0 then none else some (replaceDiff sum (to_ % 4294967296)))
  else if size = 2 then some (replace2 sum (from_ % 65536) (to_ % 65536))
  else if size = 4 then some (replace4 sum (from_ % 4294967296) (to_ % 4294967296))
  else none

/-- `bpf_l3_csum_replace`. -/
def l3 (p : Pkt) (offset from_ to_ flags : Nat) : Int × Pkt :=
  if flags ≥ 16 then (-22, p)
  else if offset > 65535 ∨ offset % 2 = 1 then (-14, p)
  else if offset + 2 > p.length then (-14, p)
  else
    match replaced (hostWord p offset) from_ to_ flags with
    | none => (-22, p)
    | some s => (0, putWord p offset s)

/-- `bpf_l4_csum_replace`: flags are the size in the low four bits, 16 for a pseudo header (which matters only for checksums left to the
hardware), 32 for a checksum in which zero means none, and 64 to replace it even then. -/
def l4 (p : Pkt) (offset from_ to_ flags : Nat) : Int × Pkt :=
  if flags ≥ 128 then (-22, p)
  else if offset > 65535 ∨ offset % 2 = 1 then (-14, p)
  else if offset + 2 > p.length then (-14, p)
  else if flags / 32 % 2 = 1 ∧ flags / 64 % 2 = 0 ∧ hostWord p offset = 0 then (0, p)
  else
    match replaced (hostWord p offset) from_ to_ (flags % 16) with
    | none => (-22, p)
    | some s => (0, putWord p offset (if flags / 32 % 2 = 1 ∧ s = 0 then 65535 else s))

/-- `bpf_skb_load_bytes`. -/
def loadBytes (p : Pkt) (offset len : Nat) : Int × List UInt8 :=
  if offset > 2147483647 ∨ offset + len > p.length then (-14, List.replicate len 0) else (0, (p.drop offset).take len)

/-- `bpf_skb_store_bytes`: the first `len` bytes of what is given; flags 1 and 2 are known. -/
def storeBytes (p : Pkt) (offset : Nat) (bs : List UInt8) (len flags : Nat) : Int × Pkt :=
  if flags > 3 then (-22, p)
  else if offset > 2147483647 ∨ offset + len > p.length then (-14, p)
  else (0, put p offset (bs.take len))

/-- The helpers of the kernel. -/
def helpers : Helpers := ⟨loadBytes, storeBytes, l3, l4⟩

end Verif.Ctx.Spec
