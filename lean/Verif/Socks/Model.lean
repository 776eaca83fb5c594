import Verif.Common.Bytes
import Verif.Common.Except

/-!
# Socket maps: the code

`SockMap`, `SockHash` and `ReusePortSockArray` of the process (`/repo/aya/src/maps/sock/`) and of programs
(`/repo/ebpf/aya-ebpf/src/maps/sock_map.rs`, `sock_hash.rs`, `reuseport_sock_array.rs`, and the same files in
`/repo/ebpf/aya-ebpf/src/btf_maps/`). The system is a parameter. Flags are natural numbers below 2^64.
-/
namespace Verif.Socks
open Verif.Bytes

abbrev Bytes := List UInt8

/-- The three kinds of map. -/
inductive Kind where
  | array | hash | reuse
deriving DecidableEq, Repr

/-- The system calls that are made, on a system in state `σ`: `BPF_MAP_CREATE` with a kind and a number of entries,
    `BPF_MAP_UPDATE_ELEM` with descriptor, key, value and flags, `BPF_MAP_DELETE_ELEM`, `BPF_MAP_GET_NEXT_KEY`, `close`. -/
structure Sys (σ : Type) where
  createMap : Kind → Nat → σ → Except Nat Nat × σ
  update : Nat → Bytes → Bytes → Nat → σ → Except Nat Unit × σ
  delete : Nat → Bytes → σ → Except Nat Unit × σ
  nextKey : Nat → Option Bytes → σ → Except Nat Bytes
  close : Nat → σ → σ

inductive Error where
  | outOfBounds (index max : Nat)
  | syscall (call : String) (errno : Nat)
  | create (errno : Nat)
deriving DecidableEq, Repr

/-- `MapData`: the descriptor and, of the definition, the number of entries. The sizes of key and value are checked when the typed map is
    made (`sock_map.rs:58-63`, `sock_hash.rs:71-79`, `reuseport_sock_array.rs:54-59`; see C82). -/
structure Data where
  fd : Nat
  max : Nat
deriving DecidableEq, Repr

/-- `MapData::create`, `/repo/aya/src/maps/mod.rs:814-862`. -/
def create {σ : Type} (S : Sys σ) (kind : Kind) (max : Nat) (s : σ) : Except Error Data × σ :=
  match S.createMap kind max s with
  | (.ok fd, s) => (.ok ⟨fd, max⟩, s)
  | (.error e, s) => (.error (.create e), s)

/-- `check_bounds`, `/repo/aya/src/maps/mod.rs:771-778`. -/
def checkBounds (d : Data) (index : BitVec 32) : Except Error Unit :=
  if index.toNat ≥ d.max then .error (.outOfBounds index.toNat d.max) else .ok ()

/-- `hash_map::insert`, `/repo/aya/src/maps/hash_map/mod.rs:31-44`. -/
def mapInsert {σ : Type} (S : Sys σ) (d : Data) (key value : Bytes) (flags : Nat) (s : σ) : Except Error Unit × σ :=
  match S.update d.fd key value flags s with
  | (.ok (), s) => (.ok (), s)
  | (.error e, s) => (.error (.syscall "bpf_map_update_elem" e), s)

/-- `hash_map::remove`, `/repo/aya/src/maps/hash_map/mod.rs:46-54`. -/
def mapRemove {σ : Type} (S : Sys σ) (d : Data) (key : Bytes) (s : σ) : Except Error Unit × σ :=
  match S.delete d.fd key s with
  | (.ok (), s) => (.ok (), s)
  | (.error e, s) => (.error (.syscall "bpf_map_delete_elem" e), s)

/-- `SockMap::set`, `sock_map.rs:84-88`. The value is the number of the socket's descriptor, a C int. -/
def sockMapSet {σ : Type} (S : Sys σ) (d : Data) (index : BitVec 32) (socket flags : Nat) (s : σ) : Except Error Unit × σ :=
  match checkBounds d index with
  | .error e => (.error e, s)
  | .ok () => mapInsert S d (le 4 index.toNat) (le 4 socket) flags s

/-- `SockMap::clear_index`, `sock_map.rs:91-95`. -/
def sockMapClear {σ : Type} (S : Sys σ) (d : Data) (index : BitVec 32) (s : σ) : Except Error Unit × σ :=
  match checkBounds d index with
  | .error e => (.error e, s)
  | .ok () => mapRemove S d (le 4 index.toNat) s

/-- `ReusePortSockArray::set`, `reuseport_sock_array.rs:72-82`. -/
def reuseSet {σ : Type} (S : Sys σ) (d : Data) (index : BitVec 32) (socket flags : Nat) (s : σ) : Except Error Unit × σ :=
  match checkBounds d index with
  | .error e => (.error e, s)
  | .ok () =>
      match S.update d.fd (le 4 index.toNat) (le 4 socket) flags s with
      | (.ok (), s) => (.ok (), s)
      | (.error e, s) => (.error (.syscall "bpf_map_update_elem" e), s)

/-- `ReusePortSockArray::clear_index`, `reuseport_sock_array.rs:85-95`. -/
def reuseClear {σ : Type} (S : Sys σ) (d : Data) (index : BitVec 32) (s : σ) : Except Error Unit × σ :=
  match checkBounds d index with
  | .error e => (.error e, s)
  | .ok () =>
      match S.delete d.fd (le 4 index.toNat) s with
      | (.ok (), s) => (.ok (), s)
      | (.error e, s) => (.error (.syscall "bpf_map_delete_elem" e), s)

/-- `SockHash::insert`, `sock_hash.rs:121-123`, given something that does not own the socket: a reference or a number. -/
def sockHashInsert {σ : Type} (S : Sys σ) (d : Data) (key : Bytes) (socket flags : Nat) (s : σ) : Except Error Unit × σ :=
  mapInsert S d key (le 4 socket) flags s

/-- `SockHash::insert`, `sock_hash.rs:121-123`, given the socket itself: the argument is taken by value, so it is dropped, and with it its
    descriptor closed, at the end of the function. -/
def sockHashInsertOwned {σ : Type} (S : Sys σ) (d : Data) (key : Bytes) (socket flags : Nat) (s : σ) : Except Error Unit × σ :=
  match mapInsert S d key (le 4 socket) flags s with
  | (r, s) => (r, S.close socket s)

/-- `SockHash::remove`, `sock_hash.rs:126-128`. -/
def sockHashRemove {σ : Type} (S : Sys σ) (d : Data) (key : Bytes) (s : σ) : Except Error Unit × σ := mapRemove S d key s

/-- `bpf_map_get_next_key`, `/repo/aya/src/sys/bpf.rs:391-410`: `ENOENT` is the end. -/
def getNextKey {σ : Type} (S : Sys σ) (d : Data) (key : Option (BitVec 32)) (s : σ) : Except Error (Option (BitVec 32)) :=
  match S.nextKey d.fd (key.map fun i => le 4 i.toNat) s with
  | .ok next => .ok (some (BitVec.ofNat 32 (ofLe next)))
  | .error e => if e = 2 then .ok none else .error (.syscall "bpf_map_get_next_key" e)

/-- `SockMap::indices` (`sock_map.rs:66-68`) and `ReusePortSockArray::indices` (`reuseport_sock_array.rs:62-64`), a `MapKeys`
    (`/repo/aya/src/maps/mod.rs:1043-1083`): what up to `n` calls of `next` give, until one gives `None`. -/
def indices {σ : Type} (S : Sys σ) (d : Data) : Nat → Option (BitVec 32) → σ → List (Except Error (BitVec 32))
  | 0, _, _ => []
  | n + 1, key, s =>
      match getNextKey S d key s with
      | .error e => [.error e]
      | .ok none => []
      | .ok (some next) => .ok next :: indices S d n (some next) s

/-! ## Programs -/

/-- The helpers of the kernel that are called, on the state `σ` of a program at work: `bpf_sock_map_update` and `bpf_sock_hash_update` (socket of
    the context, map, memory at the key pointer, flags), `bpf_msg_redirect_map`, `bpf_msg_redirect_hash`, `bpf_sk_redirect_map`,
    `bpf_sk_redirect_hash` (map, key, flags), `bpf_map_lookup_elem`, `bpf_sk_assign` (socket, flags), `bpf_sk_release`, and
    `bpf_sk_select_reuseport` (map, key, flags). -/
structure Helpers (σ : Type) where
  sockMapUpdate : Nat → Bytes → Nat → σ → Int × σ
  sockHashUpdate : Nat → Bytes → Nat → σ → Int × σ
  msgRedirectMap : Nat → BitVec 32 → Nat → σ → Int × σ
  msgRedirectHash : Nat → Bytes → Nat → σ → Int × σ
  skRedirectMap : Nat → BitVec 32 → Nat → σ → Int × σ
  skRedirectHash : Nat → Bytes → Nat → σ → Int × σ
  lookup : Nat → Bytes → σ → Option Nat × σ
  assign : Nat → Nat → σ → Int × σ
  release : Nat → σ → σ
  select : Nat → Bytes → Nat → σ → Int × σ

/-- `ret as i32`. -/
def asI32 (ret : Int) : Int := (BitVec.ofInt 32 ret).toInt

/-- `if ret == 0 { Ok(()) } else { Err(ret as i32) }`, also as `(ret == 0).then_some(()).ok_or(ret as i32)`. -/
def outcome (ret : Int) : Except Int Unit := if ret = 0 then .ok () else .error (asI32 ret)

/-- `SockMap::update`, maps/sock_map.rs:38-53, btf_maps/sock_map.rs:65-81. -/
def progMapUpdate {σ : Type} (H : Helpers σ) (m : Nat) (index : BitVec 32) (flags : Nat) (s : σ) : Except Int Unit × σ :=
  match H.sockMapUpdate m (le 4 index.toNat) flags s with
  | (ret, s) => (outcome ret, s)

/-- `SockHash::update`, maps/sock_hash.rs:30-40, btf_maps/sock_hash.rs:62-73. -/
def progHashUpdate {σ : Type} (H : Helpers σ) (m : Nat) (key : Bytes) (flags : Nat) (s : σ) : Except Int Unit × σ :=
  match H.sockHashUpdate m key flags s with
  | (ret, s) => (outcome ret, s)

/-- `SockMap::redirect_msg`, maps/sock_map.rs:56-58, btf_maps/sock_map.rs:84-87. -/
def mapRedirectMsg {σ : Type} (H : Helpers σ) (m : Nat) (index : BitVec 32) (flags : Nat) (s : σ) : Int × σ :=
  H.msgRedirectMap m index flags s

/-- `SockMap::redirect_skb`, maps/sock_map.rs:61-63, btf_maps/sock_map.rs:90-93. -/
def mapRedirectSkb {σ : Type} (H : Helpers σ) (m : Nat) (index : BitVec 32) (flags : Nat) (s : σ) : Int × σ :=
  H.skRedirectMap m index flags s

/-- `SockHash::redirect_msg`, maps/sock_hash.rs:42-51, btf_maps/sock_hash.rs:76-86. -/
def hashRedirectMsg {σ : Type} (H : Helpers σ) (m : Nat) (key : Bytes) (flags : Nat) (s : σ) : Int × σ :=
  H.msgRedirectHash m key flags s

/-- `SockHash::redirect_skb`, maps/sock_hash.rs:53-62, btf_maps/sock_hash.rs:89-99. -/
def hashRedirectSkb {σ : Type} (H : Helpers σ) (m : Nat) (key : Bytes) (flags : Nat) (s : σ) : Int × σ :=
  H.skRedirectHash m key flags s

/-- `SockHash::redirect_sk_lookup`, maps/sock_hash.rs:64-74, btf_maps/sock_hash.rs:115-126, with `lookup` and `ENOENT`,
    `/repo/ebpf/aya-ebpf/src/lib.rs:199-206`. -/
def hashRedirectSkLookup {σ : Type} (H : Helpers σ) (m : Nat) (key : Bytes) (flags : Nat) (s : σ) : Except Int Unit × σ :=
  match H.lookup m key s with
  | (none, s) => (.error (-2), s)
  | (some sk, s) =>
      match H.assign sk flags s with
      | (ret, s) => (outcome ret, H.release sk s)

/-- `SockMap::redirect_sk_lookup`, maps/sock_map.rs:65-75, btf_maps/sock_map.rs:109-120. -/
def mapRedirectSkLookup {σ : Type} (H : Helpers σ) (m : Nat) (index : BitVec 32) (flags : Nat) (s : σ) : Except Int Unit × σ :=
  match H.lookup m (le 4 index.toNat) s with
  | (none, s) => (.error (-2), s)
  | (some sk, s) =>
      match H.assign sk flags s with
      | (ret, s) => (outcome ret, H.release sk s)

/-- `sk_select_reuseport`, `/repo/ebpf/aya-ebpf/src/helpers.rs:854-868`, which is `ReusePortSockArray::select_reuseport`,
    maps/reuseport_sock_array.rs:37-39. -/
def selectReuseport {σ : Type} (H : Helpers σ) (m : Nat) (key : BitVec 32) (s : σ) : Except Int Unit × σ :=
  match H.select m (le 4 key.toNat) 0 s with
  | (ret, s) => (if ret = 0 then .ok () else .error ret, s)

end Verif.Socks
