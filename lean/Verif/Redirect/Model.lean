import Verif.Common.Bytes
import Verif.Common.Except

/-!
# Maps that packets are redirected with: the code

`DevMap`, `DevMapHash`, `CpuMap` and `XskMap` of the process (`/repo/aya/src/maps/xdp/{dev_map,dev_map_hash,cpu_map,xsk_map}.rs`) and of programs
(`/repo/ebpf/aya-ebpf/src/maps/xdp/{mod,dev_map,dev_map_hash,cpu_map,xsk_map}.rs`,
`/repo/ebpf/aya-ebpf/src/btf_maps/{dev_map,dev_map_hash,cpu_map,xsk_map}.rs`). The system is a parameter. A value of a Rust type is the list of its
bytes.
-/
namespace Verif.Redirect
open Verif.Bytes

abbrev Bytes := List UInt8

/-- `DevMap`, `DevMapHash`, `CpuMap`, `XskMap`. -/
inductive Kind where
  | dev | hash | cpu | xsk
deriving DecidableEq, Repr

/-- The system calls that are made, on a system in state `σ`: `BPF_MAP_CREATE` with kind, size of keys and of values, number of entries;
    `BPF_MAP_LOOKUP_ELEM` with descriptor, key and flags, `BPF_MAP_UPDATE_ELEM` with descriptor, key, value and flags, `BPF_MAP_DELETE_ELEM`,
    `close`. -/
structure Sys (σ : Type) where
  createMap : Kind → Nat → Nat → Nat → σ → Except Nat Nat × σ
  lookup : Nat → Bytes → Nat → σ → Except Nat Bytes
  update : Nat → Bytes → Bytes → Nat → σ → Except Nat Unit × σ
  delete : Nat → Bytes → σ → Except Nat Unit × σ
  close : Nat → σ → σ

/-- What `FEATURES` says of `DevMapProgId` and `CpuMapProgId`, `/repo/aya/src/kernel_features.rs:70-73` (how it is found out is C86). -/
structure Features where
  devProg : Bool
  cpuProg : Bool
deriving DecidableEq, Repr

inductive Error where
  | outOfBounds (index max : Nat)
  | invalidKeySize (size expected : Nat)
  | invalidValueSize (size expected : Nat)
  | keyNotFound
  | syscall (call : String) (errno : Nat)
  | create (errno : Nat)
  | chainedProgramNotSupported
deriving DecidableEq, Repr

/-- `MapData`: the descriptor and, of the definition, sizes and number of entries. -/
structure Data where
  fd : Nat
  ksize : Nat
  vsize : Nat
  max : Nat
deriving DecidableEq, Repr

/-- `value_size_override`, `/repo/aya/src/bpf.rs:963-982`, for these kinds. -/
def valueSizeOverride (F : Features) : Kind → Option Nat
  | .cpu => some (if F.cpuProg then 8 else 4)
  | .dev | .hash => some (if F.devProg then 8 else 4)
  | .xsk => none

/-- `MapData::create`, `/repo/aya/src/maps/mod.rs:814-862`. -/
def create {σ : Type} (S : Sys σ) (kind : Kind) (ksize vsize max : Nat) (s : σ) : Except Error Data × σ :=
  match S.createMap kind ksize vsize max s with
  | (.ok fd, s) => (.ok ⟨fd, ksize, vsize, max⟩, s)
  | (.error e, s) => (.error (.create e), s)

/-- `check_bounds`, `/repo/aya/src/maps/mod.rs:771-778`. -/
def checkBounds (d : Data) (index : BitVec 32) : Except Error Unit :=
  if index.toNat ≥ d.max then .error (.outOfBounds index.toNat d.max) else .ok ()

/-- `check_kv_size`, `/repo/aya/src/maps/mod.rs:780-792`. -/
def checkKvSize (d : Data) (key value : Nat) : Except Error Unit :=
  if key ≠ d.ksize then .error (.invalidKeySize key d.ksize)
  else if value ≠ d.vsize then .error (.invalidValueSize value d.vsize)
  else .ok ()

/-- `DevMap::new` (`dev_map.rs:50-60`), `DevMapHash::new` (`dev_map_hash.rs:49-59`), `CpuMap::new` (`cpu_map.rs:59-69`), `XskMap::new`
    (`xsk_map.rs:40-45`). A `bpf_devmap_val` and a `bpf_cpumap_val` have eight bytes. -/
def new (F : Features) (kind : Kind) (d : Data) : Except Error Unit :=
  match kind with
  | .dev => if F.devProg then checkKvSize d 4 8 else checkKvSize d 4 4
  | .hash => if F.devProg then checkKvSize d 4 8 else checkKvSize d 4 4
  | .cpu => if F.cpuProg then checkKvSize d 4 8 else checkKvSize d 4 4
  | .xsk => checkKvSize d 4 4

/-- A map is given its type with `TryFrom<Map>` (`/repo/aya/src/maps/mod.rs:598-612`). If that fails the map is dropped. -/
def typed {σ : Type} (S : Sys σ) (F : Features) (kind : Kind) (d : Data) (s : σ) : Except Error Data × σ :=
  match new F kind d with
  | .error e => (.error e, S.close d.fd s)
  | .ok () => (.ok d, s)

/-- A map of an object is made: `/repo/aya/src/bpf.rs:626-628` puts the value of `value_size_override` in place of the size of values in the object. -/
def load {σ : Type} (S : Sys σ) (F : Features) (kind : Kind) (vsize max : Nat) (s : σ) : Except Error Data × σ :=
  match create S kind 4 ((valueSizeOverride F kind).getD vsize) max s with
  | (.error e, s) => (.error e, s)
  | (.ok d, s) => typed S F kind d s

/-- A map somebody else made is taken over, with `MapData::from_pin`, `from_id` or `from_fd` (`/repo/aya/src/maps/mod.rs:929-972`): the sizes are those
    the kernel tells. Its making is part of this. -/
def adopt {σ : Type} (S : Sys σ) (F : Features) (kind : Kind) (vsize max : Nat) (s : σ) : Except Error Data × σ :=
  match create S kind 4 vsize max s with
  | (.error e, s) => (.error e, s)
  | (.ok d, s) => typed S F kind d s

/-- `bpf_map_lookup_elem`, `/repo/aya/src/sys/bpf.rs:225-255`: `ENOENT` is no error. -/
def bpfLookup {σ : Type} (S : Sys σ) (fd : Nat) (key : Bytes) (flags : Nat) (s : σ) : Except Nat (Option Bytes) :=
  match S.lookup fd key flags s with
  | .ok value => .ok (some value)
  | .error e => if e = 2 then .ok none else .error e

/-- `DevMapValue` (`dev_map.rs:180-191`) and `CpuMapValue` (`cpu_map.rs:189-200`): interface or size of the queue, and program. -/
structure Value where
  target : Nat
  prog : Option Nat
deriving DecidableEq, Repr

/-- `NonZeroU32::new`. -/
def nonZero (n : Nat) : Option Nat := if n = 0 then none else some n

/-- How `get` reads values, `dev_map.rs:80-96`, `dev_map_hash.rs:69-85`, `cpu_map.rs:89-105`: both words, or one if programs are not supported. -/
def value (prog : Bool) (b : Bytes) : Value :=
  if prog then ⟨ofLe (b.take 4), nonZero (ofLe ((b.drop 4).take 4))⟩ else ⟨ofLe (b.take 4), none⟩

/-- The rest of `get`: `dev_map.rs:97-102`, `dev_map_hash.rs:86-91`, `cpu_map.rs:106-111`. -/
def found {σ : Type} (S : Sys σ) (d : Data) (prog : Bool) (key : BitVec 32) (flags : Nat) (s : σ) : Except Error Value :=
  match bpfLookup S d.fd (le 4 key.toNat) flags s with
  | .ok (some b) => .ok (value prog b)
  | .ok none => .error .keyNotFound
  | .error e => .error (.syscall "bpf_map_lookup_elem" e)

/-- `DevMap::get`, `dev_map.rs:75-103`. -/
def devGet {σ : Type} (S : Sys σ) (F : Features) (d : Data) (index : BitVec 32) (flags : Nat) (s : σ) : Except Error Value :=
  match checkBounds d index with
  | .error e => .error e
  | .ok () => found S d F.devProg index flags s

/-- `DevMapHash::get`, `dev_map_hash.rs:66-92`. -/
def hashGet {σ : Type} (S : Sys σ) (F : Features) (d : Data) (key : BitVec 32) (flags : Nat) (s : σ) : Except Error Value :=
  found S d F.devProg key flags s

/-- `CpuMap::get`, `cpu_map.rs:84-112`. -/
def cpuGet {σ : Type} (S : Sys σ) (F : Features) (d : Data) (index : BitVec 32) (flags : Nat) (s : σ) : Except Error Value :=
  match checkBounds d index with
  | .error e => .error e
  | .ok () => found S d F.cpuProg index flags s

/-- `DevMap::iter`, `dev_map.rs:106-108`. -/
def devIter {σ : Type} (S : Sys σ) (F : Features) (d : Data) (s : σ) : List (Except Error Value) :=
  (List.range d.max).map fun i => devGet S F d (BitVec.ofNat 32 i) 0 s

/-- `CpuMap::iter`, `cpu_map.rs:115-117`. -/
def cpuIter {σ : Type} (S : Sys σ) (F : Features) (d : Data) (s : σ) : List (Except Error Value) :=
  (List.range d.max).map fun i => cpuGet S F d (BitVec.ofNat 32 i) 0 s

/-- What `set` and `insert` do once the index is checked, `dev_map.rs:141-165`, `dev_map_hash.rs:139-155`, `cpu_map.rs:151-173`. The program is its
    descriptor, 0 if there is none. -/
def put {σ : Type} (S : Sys σ) (d : Data) (prog : Bool) (key target : BitVec 32) (program : Option Nat) (flags : Nat) (s : σ) :
    Except Error Unit × σ :=
  if prog then
    match S.update d.fd (le 4 key.toNat) (le 4 target.toNat ++ le 4 (program.getD 0)) flags s with
    | (.ok (), s) => (.ok (), s)
    | (.error e, s) => (.error (.syscall "bpf_map_update_elem" e), s)
  else if program.isSome then (.error .chainedProgramNotSupported, s)
  else
    match S.update d.fd (le 4 key.toNat) (le 4 target.toNat) flags s with
    | (.ok (), s) => (.ok (), s)
    | (.error e, s) => (.error (.syscall "bpf_map_update_elem" e), s)

/-- `DevMap::set`, `dev_map.rs:130-165`. -/
def devSet {σ : Type} (S : Sys σ) (F : Features) (d : Data) (index target : BitVec 32) (program : Option Nat) (flags : Nat) (s : σ) :
    Except Error Unit × σ :=
  match checkBounds d index with
  | .error e => (.error e, s)
  | .ok () => put S d F.devProg index target program flags s

/-- `DevMapHash::insert`, `dev_map_hash.rs:132-156`. -/
def hashInsert {σ : Type} (S : Sys σ) (F : Features) (d : Data) (key target : BitVec 32) (program : Option Nat) (flags : Nat) (s : σ) :
    Except Error Unit × σ := put S d F.devProg key target program flags s

/-- `CpuMap::set`, `cpu_map.rs:140-174`. -/
def cpuSet {σ : Type} (S : Sys σ) (F : Features) (d : Data) (index size : BitVec 32) (program : Option Nat) (flags : Nat) (s : σ) :
    Except Error Unit × σ :=
  match checkBounds d index with
  | .error e => (.error e, s)
  | .ok () => put S d F.cpuProg index size program flags s

/-- `hash_map::remove`, `/repo/aya/src/maps/hash_map/mod.rs:46-54`. -/
def mapRemove {σ : Type} (S : Sys σ) (d : Data) (key : Bytes) (s : σ) : Except Error Unit × σ :=
  match S.delete d.fd key s with
  | (.ok (), s) => (.ok (), s)
  | (.error e, s) => (.error (.syscall "bpf_map_delete_elem" e), s)

/-- `DevMapHash::remove`, `dev_map_hash.rs:163-165`. -/
def hashRemove {σ : Type} (S : Sys σ) (d : Data) (key : BitVec 32) (s : σ) : Except Error Unit × σ := mapRemove S d (le 4 key.toNat) s

/-- `XskMap::set`, `xsk_map.rs:66-70`, with `hash_map::insert` (`/repo/aya/src/maps/hash_map/mod.rs:31-44`), given something that does not own the
    descriptor. -/
def xskSet {σ : Type} (S : Sys σ) (d : Data) (index : BitVec 32) (fd flags : Nat) (s : σ) : Except Error Unit × σ :=
  match checkBounds d index with
  | .error e => (.error e, s)
  | .ok () =>
      match S.update d.fd (le 4 index.toNat) (le 4 fd) flags s with
      | (.ok (), s) => (.ok (), s)
      | (.error e, s) => (.error (.syscall "bpf_map_update_elem" e), s)

/-- `XskMap::set`, `xsk_map.rs:66-70`, given the socket itself: the argument is taken by value, so that it is closed at the end. -/
def xskSetOwned {σ : Type} (S : Sys σ) (d : Data) (index : BitVec 32) (fd flags : Nat) (s : σ) : Except Error Unit × σ :=
  match xskSet S d index fd flags s with
  | (r, s) => (r, S.close fd s)

/-- `XskMap::unset`, `xsk_map.rs:78-82`. -/
def xskUnset {σ : Type} (S : Sys σ) (d : Data) (index : BitVec 32) (s : σ) : Except Error Unit × σ :=
  match checkBounds d index with
  | .error e => (.error e, s)
  | .ok () => mapRemove S d (le 4 index.toNat) s

/-! ## Programs -/

/-- The helpers of the kernel that are called, on the state `σ` of a program at work: `bpf_map_lookup_elem` gives a pointer to memory, here the bytes
    the verifier lets programs read; `bpf_redirect_map`. -/
structure Helpers (σ : Type) where
  lookup : Nat → Bytes → σ → Option Bytes
  redirect : Nat → BitVec 32 → BitVec 64 → σ → Int × σ

/-- What becomes of a program that reads memory: it is rejected by the verifier if it may read outside. -/
inductive Read (α : Type) where
  | rejected
  | read (a : α)
deriving DecidableEq, Repr

/-- Four bytes at an offset. -/
def word (b : Bytes) (o : Nat) : Read Nat := if o + 4 ≤ b.length then .read (ofLe ((b.drop o).take 4)) else .rejected

/-- `lookup`, `/repo/ebpf/aya-ebpf/src/lib.rs:200-203`. -/
def lookup {σ : Type} (H : Helpers σ) (m : Nat) (key : BitVec 32) (s : σ) : Option Bytes := H.lookup m (le 4 key.toNat) s

/-- `DevMap::get`, maps/xdp/dev_map.rs:97-108; `DevMapHash::get`, maps/xdp/dev_map_hash.rs:99-110; `devmap_get`, btf_maps/dev_map.rs:8-19. -/
def progGet {σ : Type} (H : Helpers σ) (m : Nat) (key : BitVec 32) (s : σ) : Read (Option Value) :=
  match lookup H m key s with
  | none => .read none
  | some b =>
      match word b 0 with
      | .rejected => .rejected
      | .read x =>
          match word b 4 with
          | .rejected => .rejected
          | .read p => .read (some ⟨x, nonZero p⟩)

/-- `DevMap::get_ifindex`, maps/xdp/dev_map.rs:118-125; `DevMapHash::get_ifindex`, maps/xdp/dev_map_hash.rs:120-127; `devmap_get_ifindex`,
    btf_maps/dev_map.rs:21-27. -/
def progIfindex {σ : Type} (H : Helpers σ) (m : Nat) (key : BitVec 32) (s : σ) : Read (Option Nat) :=
  match lookup H m key s with
  | none => .read none
  | some b =>
      match word b 0 with
      | .rejected => .rejected
      | .read x => .read (some x)

/-- `XskMap::get`, maps/xdp/xsk_map.rs:109-113, btf_maps/xsk_map.rs:44-49: `queue_id` is the first field of `bpf_xdp_sock`. -/
def progQueue {σ : Type} (H : Helpers σ) (m : Nat) (key : BitVec 32) (s : σ) : Read (Option Nat) :=
  match lookup H m key s with
  | none => .read none
  | some b =>
      match word b 0 with
      | .rejected => .rejected
      | .read x => .read (some x)

/-- `try_redirect_map`, maps/xdp/mod.rs:20-29, btf_maps/mod.rs:111-121. `XDP_REDIRECT` is 4. Called by `redirect` of all four maps (maps/xdp/dev_map.rs:146-148,
    dev_map_hash.rs:148-150, cpu_map.rs:100-102, xsk_map.rs:138-140; btf_maps/dev_map.rs:100-103, dev_map_hash.rs:79-82, cpu_map.rs:46-49,
    xsk_map.rs:59-62). -/
def redirect {σ : Type} (H : Helpers σ) (m : Nat) (key : BitVec 32) (flags : BitVec 64) (s : σ) : Except Nat Nat × σ :=
  match H.redirect m key flags s with
  | (ret, s) => (if ret.natAbs % 4294967296 = 4 then .ok 4 else .error (ret.natAbs % 4294967296), s)

end Verif.Redirect
