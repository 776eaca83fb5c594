import Verif.Section.Model
/-!
# Vocabulary for C22 and C54

The table of section names, from the kernel's "Program Types and ELF Sections" (libbpf) as far as aya
supports it. `open_` rows may be followed by `/` and anything; the others stand alone.
-/
namespace Verif.Section.Spec
open Verif.Section

structure Row where
  text : String
  open_ : Bool
  load : Load
  deriving DecidableEq, Repr

private def row (text : String) (progType : Nat) (attach : Option Nat := none) (flags : Nat := 0)
    (ret : Bool := false) (open_ : Bool := true) (later : Option Nat := none) : Row :=
  ⟨text, open_, ⟨progType, attach, flags, ret, later⟩⟩

/-- Name, program type, expected attach type, flags (16 sleepable, 32 XDP fragments). -/
def table : List Row :=
  [row "socket" 1,
   row "kprobe" 2, row "kretprobe" 2 (ret := true),
   row "uprobe" 2, row "uprobe.s" 2 none 16, row "uprobe.multi" 2 (some 48), row "uprobe.multi.s" 2 (some 48) 16,
   row "uretprobe" 2 (ret := true), row "uretprobe.s" 2 none 16 true,
   row "uretprobe.multi" 2 (some 48) 0 true, row "uretprobe.multi.s" 2 (some 48) 16 true,
   row "classifier" 3,
   row "tracepoint" 5, row "tp" 5,
   row "xdp" 6 (some 37) (open_ := false), row "xdp.frags" 6 (some 37) 32 (open_ := false),
   row "xdp/devmap" 6 (some 33), row "xdp.frags/devmap" 6 (some 33) 32,
   row "xdp/cpumap" 6 (some 35), row "xdp.frags/cpumap" 6 (some 35) 32,
   row "perf_event" 7,
   row "cgroup/skb" 8, row "cgroup_skb/ingress" 8 (some 0), row "cgroup_skb/egress" 8 (some 1),
   row "cgroup/sock_create" 9 (some 2), row "cgroup/sock" 9 (some 2), row "cgroup/sock_release" 9 (some 34),
   row "cgroup/post_bind4" 9 (some 12), row "cgroup/post_bind6" 9 (some 13),
   row "sockops" 13 (some 3),
   row "sk_skb/stream_parser" 14 (later := some 4), row "sk_skb/stream_verdict" 14 (later := some 5),
   row "cgroup/dev" 15 (some 6),
   row "sk_msg" 16 (some 7),
   row "raw_tp" 17, row "raw_tracepoint" 17,
   row "cgroup/bind4" 18 (some 8), row "cgroup/bind6" 18 (some 9),
   row "cgroup/connect4" 18 (some 10), row "cgroup/connect6" 18 (some 11),
   row "cgroup/sendmsg4" 18 (some 14), row "cgroup/sendmsg6" 18 (some 15),
   row "cgroup/recvmsg4" 18 (some 19), row "cgroup/recvmsg6" 18 (some 20),
   row "cgroup/getpeername4" 18 (some 29), row "cgroup/getpeername6" 18 (some 30),
   row "cgroup/getsockname4" 18 (some 31), row "cgroup/getsockname6" 18 (some 32),
   row "lirc_mode2" 20 (some 16),
   row "sk_reuseport" 21 (some 39) (open_ := false), row "sk_reuseport/migrate" 21 (some 40),
   row "flow_dissector" 22 (some 17),
   row "cgroup/sysctl" 23 (some 18),
   row "cgroup/getsockopt" 25 (some 21), row "cgroup/setsockopt" 25 (some 22),
   row "tp_btf" 26 (some 23),
   row "fentry" 26 (some 24), row "fentry.s" 26 (some 24) 16,
   row "fexit" 26 (some 25), row "fexit.s" 26 (some 25) 16,
   row "iter" 26 (some 28), row "iter.s" 26 (some 28) 16,
   row "freplace" 28,
   row "lsm" 29 (some 27), row "lsm.s" 29 (some 27) 16, row "lsm_cgroup" 29 (some 43),
   row "sk_lookup" 30 (some 36)]

/-- The section name is the row's, or, for open rows, the row's followed by `/` and anything. -/
def Row.Matches (r : Row) (s : List Char) : Prop :=
  s = r.text.toList ∨ (r.open_ = true ∧ ∃ rest, s = r.text.toList ++ '/' :: rest)

/-- Sections that are not programs: how their names begin, and what they hold. -/
def special : List (String × SectionKind) :=
  [("license", .license), ("version", .version), ("maps", .maps), (".maps", .btfMaps), (".text", .text), (".bss", .bss),
   (".data", .data), (".rodata", .rodata)]

/-- The name marks a section holding `k`: it begins with one of the prefixes, or is the full name of a BTF section. -/
def Marks (s : List Char) (k : SectionKind) : Prop :=
  (∃ p ∈ special, p.2 = k ∧ ∃ rest, s = p.1.toList ++ rest) ∨ (s = ".BTF".toList ∧ k = .btf) ∨
  (s = ".BTF.ext".toList ∧ k = .btfExt)

/-- What the author of a program asked for with the attribute macro: kernel program type, attach type,
flags, entry or return. -/
def wanted : Attr → Load
  | .kprobe ret _ _ => ⟨2, none, 0, ret, none⟩
  | .uprobe ret sleepable multi _ _ =>
    ⟨2, if multi then some 48 else none, if sleepable then 16 else 0, ret, none⟩
  | .xdp frags map =>
    ⟨6, some (match map with | some .cpuMap => 35 | some .devMap => 33 | _ => 37), if frags then 32 else 0, false, none⟩
  | .fentry sleepable _ => ⟨26, some 24, if sleepable then 16 else 0, false, none⟩
  | .fexit sleepable _ => ⟨26, some 25, if sleepable then 16 else 0, false, none⟩
  | .lsm sleepable _ => ⟨29, some 27, if sleepable then 16 else 0, false, none⟩
  | .lsmCgroup _ => ⟨29, some 43, 0, false, none⟩
  | .btfTracepoint _ => ⟨26, some 23, 0, false, none⟩
  | .rawTracepoint _ => ⟨17, none, 0, false, none⟩
  | .tracepoint _ => ⟨5, none, 0, false, none⟩
  | .cgroupSkb none => ⟨8, none, 0, false, none⟩
  | .cgroupSkb (some .ingress) => ⟨8, some 0, 0, false, none⟩
  | .cgroupSkb (some .egress) => ⟨8, some 1, 0, false, none⟩
  | .cgroupSock .postBind4 => ⟨9, some 12, 0, false, none⟩
  | .cgroupSock .postBind6 => ⟨9, some 13, 0, false, none⟩
  | .cgroupSock .sockCreate => ⟨9, some 2, 0, false, none⟩
  | .cgroupSock .sockRelease => ⟨9, some 34, 0, false, none⟩
  | .cgroupSockAddr .bind4 => ⟨18, some 8, 0, false, none⟩
  | .cgroupSockAddr .bind6 => ⟨18, some 9, 0, false, none⟩
  | .cgroupSockAddr .connect4 => ⟨18, some 10, 0, false, none⟩
  | .cgroupSockAddr .connect6 => ⟨18, some 11, 0, false, none⟩
  | .cgroupSockAddr .udpSendMsg4 => ⟨18, some 14, 0, false, none⟩
  | .cgroupSockAddr .udpSendMsg6 => ⟨18, some 15, 0, false, none⟩
  | .cgroupSockAddr .udpRecvMsg4 => ⟨18, some 19, 0, false, none⟩
  | .cgroupSockAddr .udpRecvMsg6 => ⟨18, some 20, 0, false, none⟩
  | .cgroupSockAddr .getPeerName4 => ⟨18, some 29, 0, false, none⟩
  | .cgroupSockAddr .getPeerName6 => ⟨18, some 30, 0, false, none⟩
  | .cgroupSockAddr .getSockName4 => ⟨18, some 31, 0, false, none⟩
  | .cgroupSockAddr .getSockName6 => ⟨18, some 32, 0, false, none⟩
  | .cgroupSockopt .get => ⟨25, some 21, 0, false, none⟩
  | .cgroupSockopt .set => ⟨25, some 22, 0, false, none⟩
  | .cgroupSysctl => ⟨23, some 18, 0, false, none⟩
  | .cgroupDevice => ⟨15, some 6, 0, false, none⟩
  | .flowDissector => ⟨22, some 17, 0, false, none⟩
  | .perfEvent => ⟨7, none, 0, false, none⟩
  | .skLookup => ⟨30, some 36, 0, false, none⟩
  | .skMsg => ⟨16, some 7, 0, false, none⟩
  | .sockOps => ⟨13, some 3, 0, false, none⟩
  | .socketFilter => ⟨1, none, 0, false, none⟩
  | .classifier => ⟨3, none, 0, false, none⟩
  | .skSkb .streamParser => ⟨14, none, 0, false, some 4⟩
  | .skSkb .streamVerdict => ⟨14, none, 0, false, some 5⟩
  | .skReuseport migrate => ⟨21, some (if migrate then 40 else 39), 0, false, none⟩

end Verif.Section.Spec
