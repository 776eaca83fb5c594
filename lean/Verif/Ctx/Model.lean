import Verif.Common.Bytes
/-!
# Model of the contexts of programs

`ebpf/aya-ebpf/src/programs/{sk_buff,xdp,sk_msg,sk_reuseport,sock_ops,flow_dissector}.rs` over the structures of
`ebpf/aya-ebpf-bindings/src/x86_64/bindings.rs` (the same in all nine architectures).

An access to a context is a load or store of so many bytes at an offset in the structure. The verifier turns it into an access to what the kernel
has, so the context is given by what such accesses do: `Load` and `Store`. Offsets follow from the declarations by the rules of `repr(C)`.
A refused access (the program is not loaded) and a panic are `none`. Helpers of the kernel are parameters. `usize` and `c_long` have 64 bits.
-/
namespace Verif.Ctx
open Verif.Bytes

/-- A field type of the generated structures: integers, arrays of `u32`, and the eight-byte unions around pointers. -/
inductive Ty where
  | u8 | u32 | u64 | u32s (n : Nat) | bits (n : Nat) | ptr
  deriving DecidableEq, Repr

def Ty.size : Ty → Nat
  | .u8 => 1 | .u32 => 4 | .u64 => 8 | .u32s n => 4 * n | .bits n => n | .ptr => 8

def Ty.align : Ty → Nat
  | .u8 => 1 | .u32 => 4 | .u64 => 8 | .u32s _ => 4 | .bits _ => 1 | .ptr => 8

abbrev Struct := List (String × Ty)

/-- Where a field of a `repr(C)` structure is, the fields before ending at `at_`. -/
def offsetFrom (at_ : Nat) : Struct → String → Option (Nat × Ty)
  | [], _ => none
  | (n, t) :: rest, name =>
    let o := (at_ + t.align - 1) / t.align * t.align
    if n == name then some (o, t) else offsetFrom (o + t.size) rest name

/-- `offset_of!`. -/
def offsetOf (s : Struct) (name : String) : Option (Nat × Ty) := offsetFrom 0 s name

/-- `__sk_buff`, bindings.rs:1613-1650. -/
def skBuff : Struct :=
  [("len", .u32), ("pkt_type", .u32), ("mark", .u32), ("queue_mapping", .u32), ("protocol", .u32), ("vlan_present", .u32), ("vlan_tci", .u32),
   ("vlan_proto", .u32), ("priority", .u32), ("ingress_ifindex", .u32), ("ifindex", .u32), ("tc_index", .u32), ("cb", .u32s 5), ("hash", .u32),
   ("tc_classid", .u32), ("data", .u32), ("data_end", .u32), ("napi_id", .u32), ("family", .u32), ("remote_ip4", .u32), ("local_ip4", .u32),
   ("remote_ip6", .u32s 4), ("local_ip6", .u32s 4), ("remote_port", .u32), ("local_port", .u32), ("data_meta", .u32), ("flow_keys", .ptr),
   ("tstamp", .u64), ("wire_len", .u32), ("gso_segs", .u32), ("sk", .ptr), ("gso_size", .u32), ("tstamp_type", .u8), ("_bitfield_1", .bits 3),
   ("hwtstamp", .u64)]

/-- `xdp_md`, bindings.rs:1844-1851. -/
def xdpMd : Struct :=
  [("data", .u32), ("data_end", .u32), ("data_meta", .u32), ("ingress_ifindex", .u32), ("rx_queue_index", .u32), ("egress_ifindex", .u32)]

/-- `sk_msg_md`, bindings.rs:1883-1895. -/
def skMsgMd : Struct :=
  [("data", .ptr), ("data_end", .ptr), ("family", .u32), ("remote_ip4", .u32), ("local_ip4", .u32), ("remote_ip6", .u32s 4),
   ("local_ip6", .u32s 4), ("remote_port", .u32), ("local_port", .u32), ("size", .u32), ("sk", .ptr)]

/-- `sk_reuseport_md`, bindings.rs:1940-1950. -/
def skReuseportMd : Struct :=
  [("data", .ptr), ("data_end", .ptr), ("len", .u32), ("eth_protocol", .u32), ("ip_protocol", .u32), ("bind_inany", .u32), ("hash", .u32),
   ("sk", .ptr), ("migrating_sk", .ptr)]

/-- `bpf_sock_ops`, bindings.rs:2364-2406, up to the last field that is used (`anon_1` is the union of `args`, `reply` and `replylong`,
bindings.rs:2409-2413). -/
def sockOps : Struct :=
  [("op", .u32), ("anon_1", .u32s 4), ("family", .u32), ("remote_ip4", .u32), ("local_ip4", .u32), ("remote_ip6", .u32s 4),
   ("local_ip6", .u32s 4), ("remote_port", .u32), ("local_port", .u32), ("is_fullsock", .u32), ("snd_cwnd", .u32), ("srtt_us", .u32),
   ("bpf_sock_ops_cb_flags", .u32)]

/-- What a load of so many bytes at an offset in the context gives; `none` if the verifier refuses it. -/
abbrev Load := Nat → Nat → Option Nat

/-- What a store of a value of so many bytes at an offset in the context does. -/
abbrev Store (κ : Type) := κ → Nat → Nat → Nat → Option κ

/-- `(*ctx).field`. -/
def field (s : Struct) (ld : Load) (name : String) : Option Nat :=
  match offsetOf s name with
  | some (o, t) => ld o t.size
  | none => none

/-- `(*ctx).field[i]`; an index that is not in the array panics. -/
def elem (s : Struct) (ld : Load) (name : String) (i : Nat) : Option Nat :=
  match offsetOf s name with
  | some (o, .u32s n) => if i < n then ld (o + 4 * i) 4 else none
  | _ => none

/-- Copying an array out of the context, element by element. -/
def elems (s : Struct) (ld : Load) (name : String) (n : Nat) : Option (List Nat) := (List.range n).mapM fun i => elem s ld name i

/-- `(*ctx).field = v`. -/
def setField {κ : Type} (s : Struct) (st : Store κ) (k : κ) (name : String) (v : Nat) : Option κ :=
  match offsetOf s name with
  | some (o, t) => st k o t.size v
  | none => none

/-- `(*ctx).field[i] = v`. -/
def setElem {κ : Type} (s : Struct) (st : Store κ) (k : κ) (name : String) (i v : Nat) : Option κ :=
  match offsetOf s name with
  | some (o, .u32s n) => if i < n then st k (o + 4 * i) 4 v else none
  | _ => none

namespace SkBuff
/-- `SkBuff::data`, sk_buff.rs:32-34. -/
def data (ld : Load) : Option Nat := field skBuff ld "data"
/-- `SkBuff::data_end`, sk_buff.rs:37-39. -/
def dataEnd (ld : Load) : Option Nat := field skBuff ld "data_end"
/-- `SkBuff::len`, sk_buff.rs:42-44. -/
def len (ld : Load) : Option Nat := field skBuff ld "len"
/-- `SkBuff::set_mark`, sk_buff.rs:47-49. -/
def setMark {κ : Type} (st : Store κ) (k : κ) (mark : Nat) : Option κ := setField skBuff st k "mark" mark
/-- `SkBuff::cb`, sk_buff.rs:52-54, and reading the element `i` of the slice. -/
def cb (ld : Load) (i : Nat) : Option Nat := elem skBuff ld "cb" i
/-- `SkBuff::cb_mut`, sk_buff.rs:58-60, and writing the element `i` of the slice. -/
def setCb {κ : Type} (st : Store κ) (k : κ) (i v : Nat) : Option κ := setElem skBuff st k "cb" i v
/-- `SkBuff::protocol`, sk_buff.rs:194-196. -/
def protocol (ld : Load) : Option Nat := field skBuff ld "protocol"
/-- `SkBuff::family`, sk_buff.rs:199-201. -/
def family (ld : Load) : Option Nat := field skBuff ld "family"
/-- `SkBuff::local_ipv4`, sk_buff.rs:204-206. -/
def localIpv4 (ld : Load) : Option Nat := field skBuff ld "local_ip4"
/-- `SkBuff::local_ipv6`, sk_buff.rs:209-211, and reading the four elements. -/
def localIpv6 (ld : Load) : Option (List Nat) := elems skBuff ld "local_ip6" 4
/-- `SkBuff::remote_ipv4`, sk_buff.rs:214-216. -/
def remoteIpv4 (ld : Load) : Option Nat := field skBuff ld "remote_ip4"
/-- `SkBuff::remote_ipv6`, sk_buff.rs:219-221, and reading the four elements. -/
def remoteIpv6 (ld : Load) : Option (List Nat) := elems skBuff ld "remote_ip6" 4
/-- `SkBuff::local_port`, sk_buff.rs:224-226. -/
def localPort (ld : Load) : Option Nat := field skBuff ld "local_port"
/-- `SkBuff::remote_port`, sk_buff.rs:229-231. -/
def remotePort (ld : Load) : Option Nat := field skBuff ld "remote_port"
/-- `FlowDissectorContext::flow_keys`, flow_dissector.rs:33-35: the address of the keys. -/
def flowKeys (ld : Load) : Option Nat := field skBuff ld "flow_keys"
end SkBuff

namespace Xdp
/-- `XdpContext::data`, xdp.rs:15-17. -/
def data (ld : Load) : Option Nat := field xdpMd ld "data"
/-- `XdpContext::data_end`, xdp.rs:20-22. -/
def dataEnd (ld : Load) : Option Nat := field xdpMd ld "data_end"
/-- `XdpContext::metadata`, xdp.rs:26-28. -/
def metadata (ld : Load) : Option Nat := field xdpMd ld "data_meta"
/-- `XdpContext::metadata_end`, xdp.rs:32-34. -/
def metadataEnd (ld : Load) : Option Nat := data ld
/-- `XdpContext::ingress_ifindex`, xdp.rs:38-40. -/
def ingressIfindex (ld : Load) : Option Nat := field xdpMd ld "ingress_ifindex"
/-- `XdpContext::rx_queue_index`, xdp.rs:44-46. -/
def rxQueueIndex (ld : Load) : Option Nat := field xdpMd ld "rx_queue_index"
end Xdp

namespace SkReuseport
/-- `SkReuseportContext::data`, sk_reuseport.rs:31-33. -/
def data (ld : Load) : Option Nat := field skReuseportMd ld "data"
/-- `SkReuseportContext::data_end`, sk_reuseport.rs:37-39. -/
def dataEnd (ld : Load) : Option Nat := field skReuseportMd ld "data_end"
/-- `SkReuseportContext::len`, sk_reuseport.rs:43-45. -/
def len (ld : Load) : Option Nat := field skReuseportMd ld "len"
/-- `SkReuseportContext::is_empty`, sk_reuseport.rs:49-51. -/
def isEmpty (ld : Load) : Option Bool := (len ld).map fun n => n == 0
/-- `SkReuseportContext::eth_protocol`, sk_reuseport.rs:55-57. -/
def ethProtocol (ld : Load) : Option Nat := field skReuseportMd ld "eth_protocol"
/-- `SkReuseportContext::ip_protocol`, sk_reuseport.rs:61-63. -/
def ipProtocol (ld : Load) : Option Nat := field skReuseportMd ld "ip_protocol"
/-- `SkReuseportContext::bind_inany`, sk_reuseport.rs:67-69. -/
def bindInany (ld : Load) : Option Nat := field skReuseportMd ld "bind_inany"
/-- `SkReuseportContext::hash`, sk_reuseport.rs:73-75. -/
def hash (ld : Load) : Option Nat := field skReuseportMd ld "hash"
/-- `SkReuseportContext::sk`, sk_reuseport.rs:85-87: the address of the socket. -/
def sk (ld : Load) : Option Nat := field skReuseportMd ld "sk"
/-- `SkReuseportContext::migrating_sk`, sk_reuseport.rs:98-105. -/
def migratingSk (ld : Load) : Option (Option Nat) :=
  (field skReuseportMd ld "migrating_sk").map fun p => if p == 0 then none else some p
end SkReuseport

namespace SockOps
/-- `SockOpsContext::op`, sock_ops.rs:16-18. -/
def op (ld : Load) : Option Nat := field sockOps ld "op"
/-- `SockOpsContext::family`, sock_ops.rs:20-22. -/
def family (ld : Load) : Option Nat := field sockOps ld "family"
/-- `SockOpsContext::cb_flags`, sock_ops.rs:24-26. -/
def cbFlags (ld : Load) : Option Nat := field sockOps ld "bpf_sock_ops_cb_flags"
/-- `SockOpsContext::remote_ip4`, sock_ops.rs:33-35. -/
def remoteIp4 (ld : Load) : Option Nat := field sockOps ld "remote_ip4"
/-- `SockOpsContext::local_ip4`, sock_ops.rs:37-39. -/
def localIp4 (ld : Load) : Option Nat := field sockOps ld "local_ip4"
/-- `SockOpsContext::remote_ip6`, sock_ops.rs:41-43. -/
def remoteIp6 (ld : Load) : Option (List Nat) := elems sockOps ld "remote_ip6" 4
/-- `SockOpsContext::local_ip6`, sock_ops.rs:45-47. -/
def localIp6 (ld : Load) : Option (List Nat) := elems sockOps ld "local_ip6" 4
/-- `SockOpsContext::local_port`, sock_ops.rs:49-51. -/
def localPort (ld : Load) : Option Nat := field sockOps ld "local_port"
/-- `SockOpsContext::remote_port`, sock_ops.rs:53-55. -/
def remotePort (ld : Load) : Option Nat := field sockOps ld "remote_port"
/-- `SockOpsContext::arg`, sock_ops.rs:57-59. -/
def arg (ld : Load) (n : Nat) : Option Nat := elem sockOps ld "anon_1" n
/-- `SockOpsContext::set_reply`, sock_ops.rs:61-63: `reply` is the first `u32` of the union. -/
def setReply {κ : Type} (st : Store κ) (k : κ) (reply : Nat) : Option κ := setElem sockOps st k "anon_1" 0 reply
/-- `SockOpsContext::set_cb_flags`, sock_ops.rs:28-31: the helper gets an `i32`. -/
def setCbFlags {κ : Type} (helper : κ → Int → Int × κ) (k : κ) (flags : Int) : Except Int Unit × κ :=
  let r := helper k flags
  (if r.1 = 0 then .ok () else .error (Int.bmod r.1 (2 ^ 32)), r.2)
end SockOps

namespace SkMsg
/-- `SkMsgContext::size`, sk_msg.rs:18-20. -/
def size (ld : Load) : Option Nat := field skMsgMd ld "size"
/-- `SkMsgContext::data`, sk_msg.rs:22-24. -/
def data (ld : Load) : Option Nat := field skMsgMd ld "data"
/-- `SkMsgContext::data_end`, sk_msg.rs:26-28. -/
def dataEnd (ld : Load) : Option Nat := field skMsgMd ld "data_end"

/-- The bytes of a message. -/
abbrev Msg := List UInt8

/-- `SkMsgContext::push_data`, sk_msg.rs:30-33: the helper gets the place, the number of bytes and the flags and changes the message. -/
def pushData (helper : Msg → Nat → Nat → Nat → Int × Msg) (m : Msg) (start len flags : Nat) : Except Int Unit × Msg :=
  let r := helper m start len flags
  (if r.1 = 0 then .ok () else .error (Int.bmod r.1 (2 ^ 32)), r.2)

/-- `SkMsgContext::pop_data`, sk_msg.rs:35-38. -/
def popData (helper : Msg → Nat → Nat → Nat → Int × Msg) (m : Msg) (start len flags : Nat) : Except Int Unit × Msg :=
  let r := helper m start len flags
  (if r.1 = 0 then .ok () else .error (Int.bmod r.1 (2 ^ 32)), r.2)
end SkMsg

namespace Packet

/-- The bytes of a packet. -/
abbrev Pkt := List UInt8

/-- The helpers of the kernel for packets: status and what is there after. -/
structure Helpers where
  /-- `bpf_skb_load_bytes(skb, offset, to, len)`: the bytes on success. -/
  load : Pkt → Nat → Nat → Int × List UInt8
  /-- `bpf_skb_store_bytes(skb, offset, from, len, flags)`. -/
  store : Pkt → Nat → List UInt8 → Nat → Nat → Int × Pkt
  /-- `bpf_l3_csum_replace(skb, offset, from, to, size)`. -/
  l3 : Pkt → Nat → Nat → Nat → Nat → Int × Pkt
  /-- `bpf_l4_csum_replace(skb, offset, from, to, flags)`. -/
  l4 : Pkt → Nat → Nat → Nat → Nat → Int × Pkt

/-- `offset as u32`. -/
def cut (n : Nat) : Nat := n % 4294967296

/-- `SkBuff::load`, sk_buff.rs:69-84, for `u16` (two bytes) and `u32` (four), on a little-endian machine. -/
def load (h : Helpers) (p : Pkt) (offset size : Nat) : Except Int Nat :=
  let r := h.load p (cut offset) (cut size)
  if r.1 = 0 then .ok (ofLe r.2) else .error r.1

/-- `SkBuff::store`, sk_buff.rs:113-124, for `u16` and `u32`. -/
def store (h : Helpers) (p : Pkt) (offset size v flags : Nat) : Except Int Unit × Pkt :=
  let r := h.store p (cut offset) (le size v) (cut size) flags
  (if r.1 = 0 then .ok () else .error r.1, r.2)

/-- `SkBuff::l3_csum_replace`, sk_buff.rs:127-138. -/
def l3CsumReplace (h : Helpers) (p : Pkt) (offset from_ to_ size : Nat) : Except Int Unit × Pkt :=
  let r := h.l3 p (cut offset) from_ to_ size
  (if r.1 = 0 then .ok () else .error r.1, r.2)

/-- `SkBuff::l4_csum_replace`, sk_buff.rs:141-152. -/
def l4CsumReplace (h : Helpers) (p : Pkt) (offset from_ to_ flags : Nat) : Except Int Unit × Pkt :=
  let r := h.l4 p (cut offset) from_ to_ flags
  (if r.1 = 0 then .ok () else .error r.1, r.2)

end Packet
end Verif.Ctx
