import Verif.Common.Bytes
import Verif.Common.Except
import Verif.Util.Model

/-!
# Netlink requests and replies

Model of aya/src/sys/netlink.rs. Bytes are `List UInt8`; a `&mut [u8]` that is split and written is
returned as its written part and its remaining part. Integers are little endian (native order of the
hosts considered). The socket is an oracle: the list of what successive `recv` calls return.
-/
namespace Verif.Netlink
open Verif.Bytes

abbrev Bytes := List UInt8

/-- `nla_align!`, netlink.rs:31-39: `next_multiple_of(NLA_ALIGNTO)`, with `NLA_ALIGNTO = 4`. -/
def align (n : Nat) : Nat := (n + 3) / 4 * 4

/-- `NLMSG_HDR_LEN`, netlink.rs:41. -/
def nlmsgHdrLen : Nat := 16
/-- `NLA_HDR_LEN`, netlink.rs:43. -/
def nlaHdrLen : Nat := 4
/-- `CLS_BPF_NAME_LEN`, netlink.rs:48. -/
def clsBpfNameLen : Nat := 256

/-- `tc_request_attrs_size`, netlink.rs:53-68. -/
def tcRequestAttrsSize : Nat :=
  nlaHdrLen + align 4 + nlaHdrLen + (nlaHdrLen + align 4) + (nlaHdrLen + align 4)
    + (nlaHdrLen + align clsBpfNameLen) + (nlaHdrLen + align 4)

/-- The errors of the writers: the buffer is too small (netlink.rs:768) or the program name is longer
than the kernel accepts (netlink.rs:209-214). -/
inductive WErr where
  | noSpace
  | nameTooLong
  deriving DecidableEq, Repr

/-- A partly written buffer: the bytes behind the cursor and those in front of it. -/
structure Cursor where
  done : Bytes
  rest : Bytes
  deriving DecidableEq, Repr

/-- `write_bytes`, netlink.rs:764-772: the value goes to the front of the remaining buffer, which
shrinks by the padded length; the padding bytes keep their old contents. -/
def writeBytes (c : Cursor) (value : Bytes) : Except WErr (Cursor × Nat) :=
  if c.rest.length < align value.length then .error .noSpace
  else .ok (⟨c.done ++ (value ++ (c.rest.take (align value.length)).drop value.length),
             c.rest.drop (align value.length)⟩, align value.length)

/-- The bytes of a C `nlattr { nla_len: u16, nla_type: u16 }`. -/
def nlattrBytes (len ty : Nat) : Bytes := le 2 len ++ le 2 ty

/-- `write_attr_header`, netlink.rs:757-762. -/
def writeAttrHeader (c : Cursor) (len ty : Nat) : Except WErr (Cursor × Nat) :=
  writeBytes c (nlattrBytes len ty)

/-- `write_attr_bytes`, netlink.rs:739-753. `nla_len` is cut to 16 bits by `as u16`. -/
def writeAttrBytes (c : Cursor) (ty : Nat) (value : Bytes) : Except WErr (Cursor × Nat) :=
  match writeAttrHeader c ((nlaHdrLen + value.length) % 2 ^ 16) ty with
  | .error e => .error e
  | .ok (c, headerLen) =>
    match writeBytes c value with
    | .error e => .error e
    | .ok (c, valueLen) => .ok (c, headerLen + valueLen)

/-- `NestedAttrs`, netlink.rs:663-668: the four header bytes, the attributes written so far and the
room left, the type and the running length. -/
structure Nested where
  header : Bytes
  body : Cursor
  ty : Nat
  nlaLen : Nat
  deriving DecidableEq, Repr

/-- `NestedAttrs::new`, netlink.rs:671-687: both slices are empty when there is no room for the
header. -/
def Nested.new (buf : Bytes) (ty : Nat) : Nested :=
  if buf.length < nlaHdrLen then ⟨[], ⟨[], []⟩, ty, nlaHdrLen⟩
  else ⟨buf.take nlaHdrLen, ⟨[], buf.drop nlaHdrLen⟩, ty, nlaHdrLen⟩

/-- `NestedAttrs::write_attr` and `write_attr_bytes`, netlink.rs:689-715. -/
def Nested.writeAttr (n : Nested) (ty : Nat) (value : Bytes) : Except WErr Nested :=
  match writeAttrBytes n.body ty value with
  | .error e => .error e
  | .ok (c, size) => .ok { n with body := c, nlaLen := n.nlaLen + size }

/-- `NestedAttrs::finish`, netlink.rs:717-732: the header is written into the four bytes kept for it.
Returns the memory covered (header and body, then the room left) and the length. -/
def Nested.finish (n : Nested) : Except WErr (Cursor × Nat) :=
  match writeAttrHeader ⟨[], n.header⟩ (n.nlaLen % 2 ^ 16) (0x8000 ||| n.ty) with
  | .error e => .error e
  | .ok (h, _) => .ok (⟨h.done ++ h.rest ++ n.body.done, n.body.rest⟩, n.nlaLen)

/-- Writing a list of attributes one after the other into a nested attribute, the `?` of the callers
stopping at the first failure (netlink.rs:132-153, 222-227). -/
def Nested.writeAttrs : Nested → List (Nat × Bytes) → Except WErr Nested
  | n, [] => .ok n
  | n, (ty, v) :: as =>
    match n.writeAttr ty v with
    | .error e => .error e
    | .ok n' => n'.writeAttrs as

/-- Writing a list of attributes one after the other with `write_attr_bytes`, as callers do: each call
gets the buffer the one before left, and the lengths are added (netlink.rs:190, 218-219). -/
def writeLeaves : Cursor → List (Nat × Bytes) → Except WErr (Cursor × Nat)
  | c, [] => .ok (c, 0)
  | c, (ty, v) :: as =>
    match writeAttrBytes c ty v with
    | .error e => .error e
    | .ok (c, n) =>
      match writeLeaves c as with
      | .error e => .error e
      | .ok (c, k) => .ok (c, n + k)

/-- The shape of all the requests: plain attributes, then one nested attribute in what is left of the
buffer (netlink.rs:216-230 with any attributes instead of those of a filter). Returns the memory and
the length. -/
def writeTree (buf : Bytes) (leaves : List (Nat × Bytes)) (ty : Nat) (children : List (Nat × Bytes)) :
    Except WErr (Cursor × Nat) :=
  match writeLeaves ⟨[], buf⟩ leaves with
  | .error e => .error e
  | .ok (c, n) =>
    match (Nested.new c.rest ty).writeAttrs children with
    | .error e => .error e
    | .ok nest =>
      match nest.finish with
      | .error e => .error e
      | .ok (o, k) => .ok (⟨c.done ++ o.done, o.rest⟩, n + k)

/-- The bytes of a C `nlmsghdr`. -/
def nlmsghdrBytes (len ty flags seq pid : Nat) : Bytes :=
  le 4 len ++ le 2 ty ++ le 2 flags ++ le 4 seq ++ le 4 pid

/-- The bytes of an `i32`. -/
def i32Bytes (v : Int) : Bytes := le 4 (v % 2 ^ 32).toNat

/-- The bytes of an `ifinfomsg` whose family, type, flags and change fields are given; C layout
(generated/linux_bindings_x86_64.rs:4152-4159). -/
def ifinfomsgBytes (family : Nat) (index : Int) (flags change : Nat) : Bytes :=
  le 1 family ++ le 1 0 ++ le 2 0 ++ i32Bytes index ++ le 4 flags ++ le 4 change

/-- The bytes of a `tcmsg`; C layout (generated/linux_bindings_x86_64.rs:4162-4170). -/
def tcmsgBytes (family : Nat) (ifindex : Int) (handle parent info : Nat) : Bytes :=
  le 1 family ++ le 1 0 ++ le 2 0 ++ i32Bytes ifindex ++ le 4 handle ++ le 4 parent ++ le 4 info

/-- `XdpMode`, aya/src/programs/xdp.rs:43-53. -/
inductive XdpMode where
  | default | skb | driver | hardware
  deriving DecidableEq, Repr

/-- `XdpMode::flags`, xdp.rs:56-63. -/
def XdpMode.flags : XdpMode → Nat
  | .default => 0
  | .skb => 2
  | .driver => 4
  | .hardware => 8

/-- The bytes `netlink_set_xdp_fd` sends, netlink.rs:110-161. The request is a zeroed
`Request` (header 16, `ifinfomsg` 16, attributes 64 bytes); `request_attributes` (841-849) gives the
64 bytes since 32 is aligned. The sent slice is the first `nlmsg_len` bytes of the request. -/
def xdpRequest (ifIndex : Int) (fd expectedFd : Option Int) (mode : XdpMode) : Except WErr Bytes :=
  let nlmsgLen := 16 + 16
  let attrs := Nested.new (List.replicate 64 0) 43
  match attrs.writeAttr 1 (i32Bytes (fd.getD (-1))) with
  | .error e => .error e
  | .ok attrs =>
    let flags := mode.flags ||| 1
    let flags := match expectedFd with | none => flags | some _ => flags ||| 16
    match (if flags ≠ 0 then attrs.writeAttr 3 (le 4 flags) else .ok attrs) with
    | .error e => .error e
    | .ok attrs =>
      match (match expectedFd with
             | some fd => attrs.writeAttr 8 (i32Bytes fd)
             | none => .ok attrs) with
      | .error e => .error e
      | .ok attrs =>
        match attrs.finish with
        | .error e => .error e
        | .ok (c, nlaLen) =>
          let total := nlmsgLen + align nlaLen
          .ok ((nlmsghdrBytes total 19 (1 ||| 4) 1 0 ++ ifinfomsgBytes 0 ifIndex 0 0
            ++ (c.done ++ c.rest)).take total)

/-- The bytes `netlink_qdisc_add_clsact` sends, netlink.rs:169-195. -/
def clsactRequest (ifIndex : Int) : Except WErr Bytes :=
  let nlmsgLen := 16 + 20
  match writeAttrBytes ⟨[], List.replicate tcRequestAttrsSize 0⟩ 1
      [0x63, 0x6c, 0x73, 0x61, 0x63, 0x74, 0] with
  | .error e => .error e
  | .ok (c, attrLen) =>
    let total := nlmsgLen + align attrLen
    .ok ((nlmsghdrBytes total 36 (1 ||| 4 ||| 0x200 ||| 0x400) 1 0
      ++ tcmsgBytes 0 ifIndex (Util.tcHandlerMake 0xFFFFFFF1#32 0#32).toNat
          (Util.tcHandlerMake 0xFFFFFFF1#32 0xFFFFFFF1#32).toNat 0
      ++ (c.done ++ c.rest)).take total)

/-- `write_tc_attach_attrs`, netlink.rs:202-231: the attribute memory afterwards and what is added to
`nlmsg_len`. `buf` is the attribute part of the request. -/
def writeTcAttachAttrs (buf : Bytes) (progFd : Int) (progName : Bytes)
    (classid : Option Util.TcHandle) : Except WErr (Bytes × Nat) :=
  if progName.length > clsBpfNameLen then .error .nameTooLong
  else
    match writeAttrBytes ⟨[], buf⟩ 1 [0x62, 0x70, 0x66, 0] with
    | .error e => .error e
    | .ok (c, kindLen) =>
      let options := Nested.new c.rest 2
      match (match classid with
             | some h => options.writeAttr 3 (le 4 h.toU32.toNat)
             | none => .ok options) with
      | .error e => .error e
      | .ok options =>
        match options.writeAttr 6 (i32Bytes progFd) with
        | .error e => .error e
        | .ok options =>
          match options.writeAttr 7 progName with
          | .error e => .error e
          | .ok options =>
            match options.writeAttr 8 (le 4 1) with
            | .error e => .error e
            | .ok options =>
              match options.finish with
              | .error e => .error e
              | .ok (o, optionsLen) =>
                .ok (c.done ++ (o.done ++ o.rest), align (kindLen + optionsLen))

/-- The bytes `netlink_qdisc_attach` sends, netlink.rs:234-285. `progName` is the C string with its
terminator. -/
def tcAttachRequest (ifIndex : Int) (attachType : Util.TcAttachType) (progFd : Int)
    (progName : Bytes) (priority : BitVec 16) (handle : Util.TcHandle)
    (classid : Option Util.TcHandle) (create : Bool) : Except WErr Bytes :=
  let nlmsgLen := 16 + 20
  let requestFlags := if create then 0x400 ||| 0x200 else 0
  match writeTcAttachAttrs (List.replicate tcRequestAttrsSize 0) progFd progName classid with
  | .error e => .error e
  | .ok (attrs, added) =>
    let total := nlmsgLen + added
    .ok ((nlmsghdrBytes total 44 (1 ||| 4 ||| 8 ||| requestFlags) 1 0
      ++ tcmsgBytes 0 ifIndex handle.toU32.toNat attachType.tcParent.toNat
          (Util.tcmInfo priority 3).toNat
      ++ attrs).take total)

/-- The bytes `netlink_qdisc_detach` sends, netlink.rs:315-342: no attributes. -/
def tcDetachRequest (ifIndex : Int) (attachType : Util.TcAttachType) (priority : BitVec 16)
    (handle : Util.TcHandle) : Bytes :=
  let total := 16 + 20
  (nlmsghdrBytes total 45 (1 ||| 4) 1 0
    ++ tcmsgBytes 0 ifIndex handle.toU32.toNat attachType.tcParent.toNat
        (Util.tcmInfo priority 3).toNat
    ++ List.replicate tcRequestAttrsSize 0).take total

/-- The bytes `netlink_find_filter_with_name` sends, netlink.rs:357-373. -/
def tcDumpRequest (ifIndex : Int) (attachType : Util.TcAttachType) : Bytes :=
  let total := 16 + 20
  (nlmsghdrBytes total 46 (1 ||| 0x300) 1 0
    ++ tcmsgBytes 0 ifIndex 0 attachType.tcParent.toNat 0
    ++ List.replicate tcRequestAttrsSize 0).take total

/-! ## Reading attributes -/

/-- `NlAttrError`, netlink.rs:829-839. -/
inductive AttrErr where
  | bufferLength (size expected : Nat)
  | headerLength (len : Nat)
  | notCStr
  deriving DecidableEq, Repr

/-- `NlAttr`, netlink.rs:823-827: raw type and data. -/
structure Attr where
  ty : Nat
  data : Bytes
  deriving DecidableEq, Repr

/-- `NlAttrsIterator::next`, netlink.rs:787-819, on a non-empty buffer: the attribute and the buffer
left, or the error (after which the buffer is empty). -/
def nextAttr (buf : Bytes) : Except AttrErr (Attr × Bytes) :=
  if buf.length < nlaHdrLen then .error (.bufferLength buf.length nlaHdrLen)
  else
    let len := ofLe (buf.take 2)
    let ty := ofLe ((buf.drop 2).take 2)
    let buf := buf.drop nlaHdrLen
    if len < nlaHdrLen then .error (.headerLength len)
    else
      let payloadAlignLen := align len - nlaHdrLen
      if buf.length < payloadAlignLen then .error (.bufferLength buf.length payloadAlignLen)
      else .ok (⟨ty, (buf.take payloadAlignLen).take (len - nlaHdrLen)⟩, buf.drop payloadAlignLen)

/-- A `for` loop over the iterator that stops at the first error: the attributes seen and the error,
if any. `fuel` bounds the number of rounds. -/
def attrsFuel : Nat → Bytes → List Attr × Option AttrErr
  | 0, _ => ([], none)
  | fuel + 1, buf =>
    if buf = [] then ([], none)
    else
      match nextAttr buf with
      | .error e => ([], some e)
      | .ok (a, rest) => (a :: (attrsFuel fuel rest).1, (attrsFuel fuel rest).2)

/-- The whole iteration; every attribute takes at least four bytes, so the length is enough fuel. -/
def attrs (buf : Bytes) : List Attr × Option AttrErr := attrsFuel buf.length buf

/-- `nla_type & NLA_TYPE_MASK`, with `NLA_TYPE_MASK = 0x3fff`. -/
def Attr.kind (a : Attr) : Nat := a.ty &&& 0x3fff

/-- `CStr::from_bytes_with_nul`: the bytes before the terminator when the only NUL is the last byte. -/
def cstrFromBytesWithNul (b : Bytes) : Option Bytes :=
  if b.getLast? = some 0 ∧ (0 : UInt8) ∉ b.dropLast then some b.dropLast else none

/-! ## Reading messages -/

/-- What can go wrong when receiving, netlink.rs:72-83: an error reported by the kernel with its
messages, a failed `recv`, a malformed message or a malformed attribute. `stuck` is not an error of the code: it marks a
call that does not return because it waits for a datagram that never comes. -/
inductive NlErr where
  | kernel (errno : Int) (messages : List Bytes)
  | io (errno : Nat)
  | malformed
  | attr (e : AttrErr)
  | stuck
  deriving DecidableEq, Repr

/-- `NetlinkMessage`, netlink.rs:615-619; `error` is the first field of `nlmsgerr`. -/
structure Msg where
  ty : Nat
  flags : Nat
  seq : Nat
  pid : Nat
  data : Bytes
  error : Option Int
  deriving DecidableEq, Repr

/-- `i32` from its bytes. -/
def i32OfBytes (b : Bytes) : Int :=
  if ofLe b < 2 ^ 31 then (ofLe b : Int) else (ofLe b : Int) - 2 ^ 32

/-- `NetlinkMessage::read`, netlink.rs:622-656, with `nlmsg_len`. -/
def readMsg (buf : Bytes) : Option (Msg × Nat) :=
  if buf.length < nlmsgHdrLen then none
  else
    let msgLen := ofLe (buf.take 4)
    if msgLen < nlmsgHdrLen then none
    else if buf.length < msgLen then none
    else
      let data := (buf.take msgLen).drop nlmsgHdrLen
      let ty := ofLe ((buf.drop 4).take 2)
      let flags := ofLe ((buf.drop 6).take 2)
      let seq := ofLe ((buf.drop 8).take 4)
      let pid := ofLe ((buf.drop 12).take 4)
      if ty = 2 then
        if data.length < 20 then none
        else some (⟨ty, flags, seq, pid, data.drop 20, some (i32OfBytes (data.take 4))⟩, msgLen)
      else some (⟨ty, flags, seq, pid, data, none⟩, msgLen)

/-- The texts collected from the attributes of an error message, netlink.rs:572-585. -/
def errorTexts : List Attr → Except NlErr (List Bytes)
  | [] => .ok []
  | a :: as =>
    if a.kind ≠ 1 then errorTexts as
    else
      match cstrFromBytesWithNul a.data with
      | none => .error (.attr .notCStr)
      | some t =>
        match errorTexts as with
        | .error e => .error e
        | .ok ts => .ok (t :: ts)

/-- The error made from an error message, netlink.rs:571-587. The attributes are read one at a time:
a text that is not a C string is reported before a malformed attribute behind it. -/
def kernelError (error : Int) (data : Bytes) : NlErr :=
  match errorTexts (attrs data).1 with
  | .error e => e
  | .ok texts =>
    match (attrs data).2 with
    | some e => .attr e
    | none => .kernel (-error) texts

/-- How receiving went on after the messages of one datagram: the datagram is used up (with the last
value of `multipart`), the reply is over, or an error is returned. `panic` is the `unwrap` of
netlink.rs:567. -/
inductive Stop where
  | more (multipart : Bool)
  | over
  | failed (e : NlErr)
  | panic
  deriving DecidableEq, Repr

/-- The inner `while offset < len` loop, netlink.rs:560-591, for all the messages of one datagram:
the messages handed out and how it stops. The iterator hands out one message per call; here the
calls are run together until the datagram is used up. -/
def datagramFuel : Nat → Bytes → Bool → List Msg × Stop
  | 0, _, multipart => ([], .more multipart)
  | fuel + 1, buf, multipart =>
    if buf = [] then ([], .more multipart)
    else
      match readMsg buf with
      | none => ([], .failed .malformed)
      | some (m, len) =>
        if m.ty = 2 then
          match m.error with
          | none => ([], .panic)
          | some error =>
            if error = 0 then datagramFuel fuel (buf.drop (align len)) (m.flags &&& 2 != 0)
            else ([], .failed (kernelError error m.data))
        else if m.ty = 3 then ([], .over)
        else
          (m :: (datagramFuel fuel (buf.drop (align len)) (m.flags &&& 2 != 0)).1,
            (datagramFuel fuel (buf.drop (align len)) (m.flags &&& 2 != 0)).2)

/-- One datagram. -/
def datagram (buf : Bytes) (multipart : Bool) : List Msg × Stop :=
  datagramFuel buf.length buf multipart

/-- How a `for msg in sock.recv()` loop that stops at the first error ends. `blocked` is a `recv`
with nothing to receive. -/
inductive End where
  | over
  | failed (e : NlErr)
  | panic
  | blocked
  deriving DecidableEq, Repr

/-- `NetlinkSocket::recv`, netlink.rs:548-612: the messages handed out and the end. `input` lists what
the `recv` calls return; a datagram longer than the 4096-byte scratch buffer is cut. The number of
datagrams consumed is returned too. -/
def recvFrom : List (Except Nat Bytes) → Bool → List Msg × End × Nat
  | [], multipart => if multipart then ([], .blocked, 0) else ([], .over, 0)
  | d :: ds, multipart =>
    if multipart = false then ([], .over, 0)
    else
      match d with
      | .error e => ([], .failed (.io e), 1)
      | .ok d =>
        if (d.take 4096).length = 0 then ([], .over, 1)
        else
          match (datagram (d.take 4096) multipart).2 with
          | .over => ((datagram (d.take 4096) multipart).1, .over, 1)
          | .failed e => ((datagram (d.take 4096) multipart).1, .failed e, 1)
          | .panic => ((datagram (d.take 4096) multipart).1, .panic, 1)
          | .more mp =>
            ((datagram (d.take 4096) multipart).1 ++ (recvFrom ds mp).1,
              (recvFrom ds mp).2.1, (recvFrom ds mp).2.2 + 1)

/-- A fresh iterator: `multipart` starts as `true` so that the first datagram is received. -/
def recv (input : List (Except Nat Bytes)) : List Msg × End × Nat := recvFrom input true

/-! ## Looking up filters by name -/

/-- The fields of a `tcmsg` that are used. -/
def tcmHandle (b : Bytes) : Nat := ofLe ((b.drop 8).take 4)
def tcmInfoOf (b : Bytes) : Nat := ofLe ((b.drop 16).take 4)

/-- The inner loop over the options of a filter, netlink.rs:402-415: `found` is the latest match. -/
def scanOptions (name : Bytes) : List Attr → Bool → Except NlErr Bool
  | [], found => .ok found
  | a :: as, found =>
    if a.kind ≠ 7 then scanOptions name as found
    else
      match cstrFromBytesWithNul a.data with
      | none => .error (.attr .notCStr)
      | some n => scanOptions name as (found || n == name)

/-- One nested options attribute: the scan, then a malformed attribute if the iteration met one. -/
def scanNested (name : Bytes) (data : Bytes) (found : Bool) : Except NlErr Bool :=
  match scanOptions name (attrs data).1 found with
  | .error e => .error e
  | .ok found =>
    match (attrs data).2 with
    | some e => .error (.attr e)
    | none => .ok found

/-- The outer loop over the attributes of a filter, netlink.rs:396-416. -/
def scanAttrs (name : Bytes) : List Attr → Bool → Except NlErr Bool
  | [], found => .ok found
  | a :: as, found =>
    if a.kind ≠ 2 then scanAttrs name as found
    else
      match scanNested name a.data found with
      | .error e => .error e
      | .ok found => scanAttrs name as found

/-- The closure applied to each message, netlink.rs:377-418: nothing, a match (priority and handle), or
an error. -/
def filterOf (name : Bytes) (m : Msg) : Except NlErr (Option (Nat × Nat)) :=
  if m.ty ≠ 44 then .ok none
  else if m.data.length < 20 then .error .malformed
  else
    match scanAttrs name (attrs (m.data.drop 20)).1 false with
    | .error e => .error e
    | .ok found =>
      match (attrs (m.data.drop 20)).2 with
      | some e => .error (.attr e)
      | none =>
        if found then .ok (some (tcmInfoOf m.data / 2 ^ 16 % 2 ^ 16, tcmHandle m.data)) else .ok none

/-- Collecting the iterator of `netlink_find_filter_with_name` (376-424) as `qdisc_detach_program`
does (aya/src/programs/tc.rs:683-686): the first error of any message wins. -/
def collectFilters (name : Bytes) : List Msg → Except NlErr (List (Nat × Nat))
  | [] => .ok []
  | m :: ms =>
    match filterOf name m with
    | .error e => .error e
    | .ok none => collectFilters name ms
    | .ok (some f) =>
      match collectFilters name ms with
      | .error e => .error e
      | .ok fs => .ok (f :: fs)

/-- The filters found in a reply: those of the messages, then the error the reply ended with. -/
def findFilters (name : Bytes) (input : List (Except Nat Bytes)) : Except NlErr (List (Nat × Nat)) :=
  match collectFilters name (recv input).1 with
  | .error e => .error e
  | .ok fs =>
    match (recv input).2.1 with
    | .failed e => .error e
    | .over => .ok fs
    | _ => .error .stuck

/-- What `netlink_qdisc_attach` makes of the reply, netlink.rs:287-312: the priority and handle of the
only `RTM_NEWTFILTER`. `none` stands for the two "bug in the kernel" errors. The unchecked read of a
`tcmsg` from a shorter payload is `.panic` here (undefined behaviour in the code). -/
inductive AttachReply where
  | ok (priority handle : Nat)
  | noReply
  | manyReplies
  | failed (e : NlErr)
  | outOfBounds
  | blocked
  deriving DecidableEq, Repr

def attachReply (input : List (Except Nat Bytes)) : AttachReply :=
  if ((recv input).1.filter (fun m => m.ty = 44)).any (fun m => m.data.length < 20) then .outOfBounds
  else
    match (recv input).2.1 with
    | .failed e => .failed e
    | .blocked => .blocked
    | .panic => .outOfBounds
    | .over =>
      match (recv input).1.filter (fun m => m.ty = 44) with
      | [] => .noReply
      | [m] => .ok (tcmInfoOf m.data / 2 ^ 16 % 2 ^ 16) (tcmHandle m.data)
      | _ => .manyReplies

/-- What the requests that only look for errors make of the reply (netlink.rs:162-166, 196-199,
344-348): `for msg in sock.recv() { msg?; }`. -/
def simpleReply (input : List (Except Nat Bytes)) : Except NlErr Unit :=
  match (recv input).2.1 with
  | .failed e => .error e
  | .over => .ok ()
  | _ => .error .stuck

/-- `qdisc_detach_program`, aya/src/programs/tc.rs:674-698, given what the sockets receive: the detach
requests made, in order, and the result. `replies` holds the input of one socket per detach. -/
inductive DetachResult where
  | ok
  | notFound
  | failed (e : NlErr)
  deriving DecidableEq, Repr

/-- The detach loop of tc.rs:693-695. -/
def detachAll (ifIndex : Int) (t : Util.TcAttachType) :
    List (Nat × Nat) → List (List (Except Nat Bytes)) → List Bytes × DetachResult
  | [], _ => ([], .ok)
  | (prio, handle) :: fs, replies =>
    let req := tcDetachRequest ifIndex t (BitVec.ofNat 16 prio)
      (Util.TcHandle.ofU32 (BitVec.ofNat 32 handle))
    match simpleReply (replies.headD []) with
    | .error e => ([req], .failed e)
    | .ok () =>
      (req :: (detachAll ifIndex t fs replies.tail).1, (detachAll ifIndex t fs replies.tail).2)

/-- `qdisc_detach_program`. -/
def qdiscDetachProgram (ifIndex : Int) (t : Util.TcAttachType) (name : Bytes)
    (dump : List (Except Nat Bytes)) (replies : List (List (Except Nat Bytes))) :
    List Bytes × DetachResult :=
  match findFilters name dump with
  | .error e => ([tcDumpRequest ifIndex t], .failed e)
  | .ok [] => ([tcDumpRequest ifIndex t], .notFound)
  | .ok fs =>
    (tcDumpRequest ifIndex t :: (detachAll ifIndex t fs replies).1, (detachAll ifIndex t fs replies).2)

end Verif.Netlink
