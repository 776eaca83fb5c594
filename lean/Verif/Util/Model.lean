import Verif.Common.Str
/-!
# Model of `aya/src/util.rs` and the handle types of `aya/src/programs/tc.rs`
-/
namespace Verif.Util
open Verif.Str

/-- `KernelVersion`, aya/src/util.rs:31-36. Fields are `u8`, `u8`, `u16`; see `KernelVersion.WF`. -/
structure KernelVersion where
  major : Nat
  minor : Nat
  patch : Nat
  deriving DecidableEq, Repr

/-- The Rust field types, aya/src/util.rs:33-35. -/
def KernelVersion.WF (v : KernelVersion) : Prop :=
  v.major < 2 ^ 8 ∧ v.minor < 2 ^ 8 ∧ v.patch < 2 ^ 16

instance (v : KernelVersion) : Decidable v.WF := inferInstanceAs (Decidable (_ ∧ _ ∧ _))

/-- `#[derive(PartialOrd)]` on `KernelVersion`, aya/src/util.rs:31: fields compared in declaration
order, the first difference decides. -/
def KernelVersion.cmp (a b : KernelVersion) : Ordering :=
  match compare a.major b.major with
  | .eq =>
    match compare a.minor b.minor with
    | .eq => compare a.patch b.patch
    | o => o
  | o => o

/-- `KernelVersion::at_least`, aya/src/util.rs:81-89. `current` is the result of
`KernelVersion::current()` (`none` for an error, which is logged and answered with `false`). -/
def atLeast (current : Option KernelVersion) (major minor patch : Nat) : Bool :=
  match current with
  | some cur =>
    match cur.cmp ⟨major, minor, patch⟩ with
    | .lt => false
    | _ => true
  | none => false

/-- `max_patch` in `KernelVersion::code`, aya/src/util.rs:101-116. -/
def maxPatch (major minor : Nat) : Nat :=
  if major = 4 ∧ (minor = 4 ∨ minor = 9) then 257
  else if major = 4 ∧ minor = 14 then 252
  else if major = 4 ∧ minor = 19 then 222
  else 255

/-- `KernelVersion::code`, aya/src/util.rs:92-125. The `u32` sum cannot overflow for well-formed
versions (`Props.C27_code_fits`). -/
def KernelVersion.code (v : KernelVersion) : Nat :=
  let patch := if v.patch ≥ maxPatch v.major v.minor then 255 else v.patch
  v.major * 2 ^ 16 + v.minor * 2 ^ 8 + patch

/-- `char::is_ascii_digit`. -/
def isAsciiDigit (c : Char) : Bool := decide ('0' ≤ c) && decide (c ≤ '9')

/-- `KernelVersion::parse_kernel_version_string`, aya/src/util.rs:201-211: split at every
non-digit character and parse the first three pieces as `u8`, `u8`, `u16`. A missing or unparsable
piece is an error. -/
def parseKernelVersionString (s : List Char) : Option KernelVersion :=
  match splitBy (fun c => c == '.' || !isAsciiDigit c) s with
  | a :: b :: c :: _ =>
    match parseUInt 10 8 a, parseUInt 10 8 b, parseUInt 10 16 c with
    | some major, some minor, some patch => some ⟨major, minor, patch⟩
    | _, _, _ => none
  | _ => none

/-- `impl Display for KernelVersion`, aya/src/util.rs:214-218. -/
def KernelVersion.display (v : KernelVersion) : List Char :=
  render 10 v.major ++ '.' :: (render 10 v.minor ++ '.' :: render 10 v.patch)

/-- `char::is_whitespace`, restricted to the ASCII white space characters. Simplification: Unicode
white space outside ASCII is treated as ordinary characters. -/
def isWhitespace (c : Char) : Bool :=
  c == ' ' || c == '\t' || c == '\n' || c == '\r' || c == '\x0b' || c == '\x0c'

/-- `str::split_terminator(p)`: like `split`, without the last piece when that is empty. -/
def splitTerminator (p : Char → Bool) (s : List Char) : List (List Char) :=
  let ps := splitBy p s
  if ps.getLast? = some [] then ps.dropLast else ps

/-- `KernelVersion::parse_ubuntu_kernel_version`, aya/src/util.rs:150-161: third
white-space-separated word of `/proc/version_signature`. -/
def parseUbuntuKernelVersion (s : List Char) : Option KernelVersion :=
  match splitTerminator isWhitespace s with
  | _ :: _ :: v :: _ => parseKernelVersionString v
  | _ => none

/-- `str::split_once(pat)`: text before and after the first occurrence of `pat`. -/
def splitOnce (pat : List Char) : List Char → Option (List Char × List Char)
  | [] => if pat = [] then some ([], []) else none
  | c :: cs =>
    if pat.isPrefixOf (c :: cs) then some ([], (c :: cs).drop pat.length)
    else match splitOnce pat cs with
      | some (a, b) => some (c :: a, b)
      | none => none

/-- `KernelVersion::get_debian_kernel_version`, aya/src/util.rs:163-176. Outer `Option` is the
`Result`, inner one the `Option`. UTF-8 validation of the `utsname` field is not modelled. -/
def getDebianKernelVersion (version : List Char) : Option (Option KernelVersion) :=
  match splitOnce "Debian ".toList version with
  | none => some none
  | some (_, v) => (parseKernelVersionString v).map some

/-- `KernelVersion::get_kernel_version`, aya/src/util.rs:178-199. `ubuntu` is the content of
`/proc/version_signature` if readable, `uts` the `version` and `release` fields of `uname`
(`none` if `uname` fails). -/
def getKernelVersion (ubuntu : Option (List Char)) (uts : Option (List Char × List Char)) :
    Option KernelVersion :=
  match ubuntu.bind parseUbuntuKernelVersion with
  | some v => some v
  | none =>
    match uts with
    | none => none
    | some (version, release) =>
      match getDebianKernelVersion version with
      | none => none
      | some (some v) => some v
      | some none => parseKernelVersionString release

/-- One range of `parse_cpu_ranges`, aya/src/util.rs:264-279: pieces between `-`; one piece is a
single CPU, two are an inclusive range, more are an error. Note the order of the checks: a third
piece is an error before the second one is looked at. -/
def parseCpuRange (range : List Char) : Option (Nat × Nat) :=
  match splitBy (· == '-') range with
  | [] => none
  | a :: rest =>
    match parseUInt 10 32 a with
    | none => none
    | some start =>
      match rest with
      | [] => some (start, start)
      | b :: more =>
        if more ≠ [] then none
        else match parseUInt 10 32 b with
          | none => none
          | some e => some (start, e)

/-- Rust's `start..=end` as a list: empty when `end < start`. -/
def rangeIncl (s e : Nat) : List Nat := (List.range (e + 1 - s)).map (· + s)

/-- The `try_fold` step of `parse_cpu_ranges`, aya/src/util.rs:280-284 (`none` is the early exit). -/
def cpuStep (acc : Option (List Nat)) (range : List Char) : Option (List Nat) :=
  match acc with
  | none => none
  | some cpus =>
    match parseCpuRange range with
    | none => none
    | some (s, e) => some (cpus ++ rangeIncl s e)

/-- `parse_cpu_ranges`, aya/src/util.rs:262-285: ranges between `,`, concatenated in order, first
error wins. -/
def parseCpuRanges (data : List Char) : Option (List Nat) :=
  (splitBy (· == ',') data).foldl cpuStep (some [])

/-- `str::trim`. -/
def trim (s : List Char) : List Char :=
  ((s.dropWhile isWhitespace).reverse.dropWhile isWhitespace).reverse

/-- `read_cpu_ranges`, aya/src/util.rs:254-260, on the file's content. -/
def readCpuRanges (content : List Char) : Option (List Nat) := parseCpuRanges (trim content)

/-- `nr_cpus`, aya/src/util.rs:230-252, on the content of `/sys/devices/system/cpu/possible`. The
thread-local cache is not modelled. -/
def nrCpus (content : List Char) : Option Nat := (readCpuRanges content).map List.length

/-- `str::splitn(n, sep)`. -/
def splitN (sep : Char) : Nat → List Char → List (List Char)
  | 0, _ => []
  | 1, s => [s]
  | n + 2, s =>
    match s.dropWhile (· != sep) with
    | [] => [s]
    | _ :: rest => s.takeWhile (· != sep) :: splitN sep (n + 1) rest

/-- One line of `parse_kernel_symbols`, aya/src/util.rs:298-315. -/
def parseKernelSymbolLine (line : List Char) : Option (Nat × List Char) :=
  match splitN ' ' 4 line with
  | addr :: _kind :: name :: _ =>
    match parseUInt 16 64 addr with
    | some a => some (a, name)
    | none => none
  | _ => none

/-- Insertion into a `BTreeMap`, as a function update. Simplification: the map is represented by its
lookup function. -/
def mapInsert {α β} [DecidableEq α] (m : α → Option β) (k : α) (v : β) : α → Option β :=
  fun x => if x = k then some v else m x

/-- `parse_kernel_symbols`, aya/src/util.rs:295-317, on the list of lines; reader errors are not
modelled. The first malformed line makes the whole result an error. -/
def parseKernelSymbols : List (List Char) → (Nat → Option (List Char)) →
    Option (Nat → Option (List Char))
  | [], m => some m
  | l :: ls, m =>
    match parseKernelSymbolLine l with
    | some (a, n) => parseKernelSymbols ls (mapInsert m a n)
    | none => none

/-- `tc_handler_make`, aya/src/util.rs:372-374, with the masks of
aya-obj/src/generated/linux_bindings_x86_64.rs:289-290. -/
def tcHandlerMake (major minor : BitVec 32) : BitVec 32 :=
  (major &&& 0xFFFF0000#32) ||| (minor &&& 0x0000FFFF#32)

/-- `TcHandle`, aya/src/programs/tc.rs:148-153. -/
structure TcHandle where
  major : BitVec 16
  minor : BitVec 16
  deriving DecidableEq, Repr

/-- `impl From<TcHandle> for u32`, aya/src/programs/tc.rs:168-172. -/
def TcHandle.toU32 (h : TcHandle) : BitVec 32 :=
  (h.major.setWidth 32 <<< 16) ||| h.minor.setWidth 32

/-- `impl From<u32> for TcHandle`, aya/src/programs/tc.rs:174-181. -/
def TcHandle.ofU32 (v : BitVec 32) : TcHandle :=
  ⟨(v >>> 16).setWidth 16, v.setWidth 16⟩

/-- `TcAttachType`, aya/src/programs/tc.rs. -/
inductive TcAttachType where
  | ingress
  | egress
  | custom (parent : BitVec 32)
  deriving DecidableEq, Repr

/-- `TcAttachType::tc_parent`, aya/src/programs/tc.rs:111-117, with `TC_H_CLSACT = 0xFFFFFFF1`,
`TC_H_MIN_INGRESS = 0xFFF2`, `TC_H_MIN_EGRESS = 0xFFF3`. -/
def TcAttachType.tcParent : TcAttachType → BitVec 32
  | .custom p => p
  | .ingress => tcHandlerMake 0xFFFFFFF1#32 0xFFF2#32
  | .egress => tcHandlerMake 0xFFFFFFF1#32 0xFFF3#32

/-- `u16::to_be` on a little-endian host: swap the two bytes. -/
def toBe16 (x : BitVec 16) : BitVec 16 := (x <<< 8) ||| (x >>> 8)

/-- `tcm_info` of a filter request, aya/src/sys/netlink.rs:273-276 and 335-338:
`tc_handler_make(u32::from(priority) << 16, u32::from(htons(ETH_P_ALL)))`. -/
def tcmInfo (priority : BitVec 16) (proto : BitVec 16) : BitVec 32 :=
  tcHandlerMake (priority.setWidth 32 <<< 16) ((toBe16 proto).setWidth 32)

/-- Priority read back from the kernel's reply, aya/src/sys/netlink.rs:304:
`((tcm_info & TC_H_MAJ_MASK) >> 16) as u16`. -/
def tcmInfoPriority (info : BitVec 32) : BitVec 16 :=
  ((info &&& 0xFFFF0000#32) >>> 16).setWidth 16

/-- `bytes_of_bpf_name`, aya/src/util.rs:430-436: everything up to and including the last non-zero
byte of the 16-byte array. -/
def bytesOfBpfName (name : List UInt8) : List UInt8 :=
  (name.reverse.dropWhile (· == 0)).reverse

/-- The name field written by `bpf_create_map` and `bpf_load_program`, aya/src/sys/bpf.rs:118-123:
the first `min(len, 15)` bytes into a zeroed 16-byte array. -/
def encodeBpfName (name : List UInt8) : List UInt8 :=
  let len := min name.length 15
  name.take len ++ List.replicate (16 - len) 0

end Verif.Util
