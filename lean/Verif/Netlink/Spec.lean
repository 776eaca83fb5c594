import Verif.Netlink.Model

/-!
# Netlink as the kernel sees it

Independent description of the wire format: attributes, messages, datagrams. Nothing here uses the
writers or readers of the model; only its result types (`Attr`, `AttrErr`, `Msg`) are shared.
-/
namespace Verif.Netlink.Spec
open Verif.Bytes

/-- Number of bytes needed to reach a multiple of four. -/
def pad (n : Nat) : Nat := (4 - n % 4) % 4

/-- An attribute: length (header and data), type, data, zero padding. -/
def attr (ty : Nat) (data : Bytes) : Bytes :=
  le 2 (4 + data.length) ++ le 2 ty ++ data ++ List.replicate (pad data.length) 0

/-- Attributes one after the other. -/
def attrList (as : List (Nat × Bytes)) : Bytes := (as.map (fun a => attr a.1 a.2)).flatten

/-- Size of attributes one after the other. -/
def attrSize (as : List (Nat × Bytes)) : Nat :=
  (as.map (fun a => 4 + a.2.length + pad a.2.length)).sum

/-- A message: length, type, flags, sequence number, port, body. -/
def message (ty flags seq pid : Nat) (body : Bytes) : Bytes :=
  le 4 (16 + body.length) ++ le 2 ty ++ le 2 flags ++ le 4 seq ++ le 4 pid ++ body

/-- `bytes` is a sequence of attributes read as `as`, ending with `e`: cleanly, or with an error at the
first place where no complete attribute stands. Padding may hold anything. -/
inductive Reads : Bytes → List Attr → Option AttrErr → Prop
  | nil : Reads [] [] none
  /-- A complete attribute, then the rest. -/
  | attr (ty : Nat) (data padding rest : Bytes) (as : List Attr) (e : Option AttrErr)
      (hty : ty < 2 ^ 16) (hlen : 4 + data.length < 2 ^ 16)
      (hpad : padding.length = pad data.length) (hrest : Reads rest as e) :
      Reads (le 2 (4 + data.length) ++ le 2 ty ++ data ++ padding ++ rest) (⟨ty, data⟩ :: as) e
  /-- Too few bytes for a header. -/
  | short (b : Bytes) (h0 : b ≠ []) (h : b.length < 4) :
      Reads b [] (some (.bufferLength b.length 4))
  /-- A length smaller than the header. -/
  | header (len : Nat) (rest : Bytes) (h : len < 4) (hr : 2 ≤ rest.length) :
      Reads (le 2 len ++ rest) [] (some (.headerLength len))
  /-- A length reaching, with its padding, beyond the buffer. -/
  | over (len ty : Nat) (rest : Bytes) (h4 : 4 ≤ len) (h16 : len < 2 ^ 16) (hty : ty < 2 ^ 16)
      (h : rest.length < len - 4 + pad len) :
      Reads (le 2 len ++ le 2 ty ++ rest) [] (some (.bufferLength rest.length (len - 4 + pad len)))

/-! ## Messages and datagrams -/

/-- A message sent by the kernel. -/
structure KMsg where
  ty : Nat
  flags : Nat
  seq : Nat
  pid : Nat
  body : Bytes
  deriving DecidableEq, Repr

/-- The fields fit their widths. -/
def KMsg.Ok (m : KMsg) : Prop :=
  m.ty < 2 ^ 16 ∧ m.flags < 2 ^ 16 ∧ m.seq < 2 ^ 32 ∧ m.pid < 2 ^ 32 ∧ 16 + m.body.length < 2 ^ 32

def KMsg.bytes (m : KMsg) : Bytes := message m.ty m.flags m.seq m.pid m.body

/-- `NLM_F_MULTI`, bit 1 of the flags: more messages follow. -/
def KMsg.Multi (m : KMsg) : Prop := m.flags / 2 % 2 = 1

/-- A message with contents for the caller: neither `NLMSG_ERROR` (2) nor `NLMSG_DONE` (3). -/
def KMsg.Data (m : KMsg) : Prop := m.ty ≠ 2 ∧ m.ty ≠ 3

/-- The acknowledgement of a request: `NLMSG_ERROR` with error 0 and the header of the request. -/
def KMsg.Ack (m : KMsg) : Prop := m.ty = 2 ∧ 20 ≤ m.body.length ∧ m.body.take 4 = [0, 0, 0, 0]

/-- What the caller gets to see of a message with contents. -/
def KMsg.view (m : KMsg) : Msg := ⟨m.ty, m.flags, m.seq, m.pid, m.body, none⟩

/-- The messages with contents among `ms`. -/
def contents (ms : List KMsg) : List Msg := (ms.filter (fun m => m.ty != 2)).map KMsg.view

/-- `bytes` holds the messages `ms`, each padded to a multiple of four; the padding behind the last one
may be missing in part or whole. -/
inductive Holds : List KMsg → Bytes → Prop
  | nil : Holds [] []
  | last (m : KMsg) (p : Bytes) (hm : m.Ok) (hp : p.length ≤ pad m.body.length) :
      Holds [m] (m.bytes ++ p)
  | cons (m : KMsg) (p : Bytes) (ms : List KMsg) (b : Bytes) (hm : m.Ok)
      (hp : p.length = pad m.body.length) (h : Holds ms b) : Holds (m :: ms) (m.bytes ++ p ++ b)

/-- Datagrams that carry a part of a reply with more to come: not empty, at most 4096 bytes, messages
with contents and acknowledgements only, the last of them announcing more. -/
inductive Parts : List (List KMsg) → List (Except Nat Bytes) → Prop
  | nil : Parts [] []
  | cons (ms : List KMsg) (m : KMsg) (d : Bytes) (mss : List (List KMsg))
      (ds : List (Except Nat Bytes)) (hd : Holds (ms ++ [m]) d) (hlen : d.length ≤ 4096)
      (hms : ∀ x ∈ ms ++ [m], x.Data ∨ x.Ack) (hmulti : m.Multi) (h : Parts mss ds) :
      Parts ((ms ++ [m]) :: mss) (.ok d :: ds)

/-! ## Filters -/

/-- A `tcmsg`: family, padding, interface, handle, parent, info. -/
def tcmsg (family : Nat) (ifindex : Nat) (handle parent info : Nat) : Bytes :=
  le 4 family ++ le 4 ifindex ++ le 4 handle ++ le 4 parent ++ le 4 info

/-- An `ifinfomsg`: family and type, interface, flags, change mask. -/
def ifinfomsg (family : Nat) (ifindex : Nat) (flags change : Nat) : Bytes :=
  le 4 family ++ le 4 ifindex ++ le 4 flags ++ le 4 change

/-- Two's complement of a 32-bit number. -/
def u32 (v : Int) : Nat := (v % 4294967296).toNat

end Verif.Netlink.Spec
