import Verif.Common.Str
/-!
# Model of program section names

`ProgramSection::from_str` (aya-obj/src/obj.rs:204-406), `EbpfSectionKind::from_name` (1016-1040), the
mapping from section to program and load parameters (aya/src/bpf.rs:700-875 and the `load` function of
each program type), and the section names written by the eBPF-side attribute macros (aya-ebpf-macros).
-/
namespace Verif.Section
open Verif.Str

inductive XdpAttachType where
  | interface | cpuMap | devMap
  deriving DecidableEq, Repr

inductive SkSkbKind where
  | streamParser | streamVerdict
  deriving DecidableEq, Repr

inductive CgroupSkbAttachType where
  | ingress | egress
  deriving DecidableEq, Repr

inductive CgroupSockAddrAttachType where
  | bind4 | bind6 | connect4 | connect6 | getPeerName4 | getPeerName6 | getSockName4 | getSockName6
  | udpSendMsg4 | udpSendMsg6 | udpRecvMsg4 | udpRecvMsg6
  deriving DecidableEq, Repr

inductive CgroupSockoptAttachType where
  | get | set
  deriving DecidableEq, Repr

inductive CgroupSockAttachType where
  | postBind4 | postBind6 | sockCreate | sockRelease
  deriving DecidableEq, Repr

inductive SkReuseportAttachType where
  | select | selectOrMigrate
  deriving DecidableEq, Repr

/-- `ProgramSection`, aya-obj/src/obj.rs:142-202. -/
inductive ProgramSection where
  | kRetProbe
  | kProbe
  | uProbe (sleepable multi : Bool)
  | uRetProbe (sleepable multi : Bool)
  | tracePoint
  | socketFilter
  | xdp (frags : Bool) (attach : XdpAttachType)
  | skMsg
  | skSkbStream (kind : SkSkbKind)
  | sockOps
  | schedClassifier
  | cgroupSkb (attach : Option CgroupSkbAttachType)
  | cgroupSockAddr (attach : CgroupSockAddrAttachType)
  | cgroupSysctl
  | cgroupSockopt (attach : CgroupSockoptAttachType)
  | lircMode2
  | perfEvent
  | rawTracePoint
  | lsm (sleepable : Bool)
  | lsmCgroup
  | btfTracePoint
  | fEntry (sleepable : Bool)
  | fExit (sleepable : Bool)
  | flowDissector
  | extension
  | skLookup
  | skReuseport (attach : SkReuseportAttachType)
  | cgroupSock (attach : CgroupSockAttachType)
  | cgroupDevice
  | iter (sleepable : Bool)
  deriving DecidableEq, Repr

/-- `ProgramSection::from_str` after splitting at `/`, aya-obj/src/obj.rs:207-404. `none` is
`InvalidProgramSection`. -/
def parsePieces : List String → Option ProgramSection
  | [] => none
  | kind :: rest =>
    match kind with
    | "kprobe" => some .kProbe
    | "kretprobe" => some .kRetProbe
    | "uprobe" => some (.uProbe false false)
    | "uprobe.s" => some (.uProbe true false)
    | "uprobe.multi" => some (.uProbe false true)
    | "uprobe.multi.s" => some (.uProbe true true)
    | "uretprobe" => some (.uRetProbe false false)
    | "uretprobe.s" => some (.uRetProbe true false)
    | "uretprobe.multi" => some (.uRetProbe false true)
    | "uretprobe.multi.s" => some (.uRetProbe true true)
    | "xdp" => xdp false rest
    | "xdp.frags" => xdp true rest
    | "tp_btf" => some .btfTracePoint
    | "tracepoint" => some .tracePoint
    | "tp" => some .tracePoint
    | "socket" => some .socketFilter
    | "sk_msg" => some .skMsg
    | "sk_skb" =>
      match rest with
      | "stream_parser" :: _ => some (.skSkbStream .streamParser)
      | "stream_verdict" :: _ => some (.skSkbStream .streamVerdict)
      | _ => none
    | "sockops" => some .sockOps
    | "classifier" => some .schedClassifier
    | "cgroup_skb" =>
      match rest with
      | "ingress" :: _ => some (.cgroupSkb (some .ingress))
      | "egress" :: _ => some (.cgroupSkb (some .egress))
      | _ => none
    | "cgroup" => cgroup rest
    | "lirc_mode2" => some .lircMode2
    | "perf_event" => some .perfEvent
    | "raw_tp" => some .rawTracePoint
    | "raw_tracepoint" => some .rawTracePoint
    | "lsm" => some (.lsm false)
    | "lsm.s" => some (.lsm true)
    | "lsm_cgroup" => some .lsmCgroup
    | "fentry" => some (.fEntry false)
    | "fentry.s" => some (.fEntry true)
    | "fexit" => some (.fExit false)
    | "fexit.s" => some (.fExit true)
    | "flow_dissector" => some .flowDissector
    | "freplace" => some .extension
    | "sk_lookup" => some .skLookup
    | "sk_reuseport" =>
      match rest with
      | [] => some (.skReuseport .select)
      | "migrate" :: _ => some (.skReuseport .selectOrMigrate)
      | _ => none
    | "iter" => some (.iter false)
    | "iter.s" => some (.iter true)
    | _ => none
where
  /-- obj.rs:255-268 -/
  xdp (frags : Bool) : List String → Option ProgramSection
    | [] => some (.xdp frags .interface)
    | "cpumap" :: _ => some (.xdp frags .cpuMap)
    | "devmap" :: _ => some (.xdp frags .devMap)
    | _ => none
  /-- obj.rs:300-369 -/
  cgroup : List String → Option ProgramSection
    | "skb" :: _ => some (.cgroupSkb none)
    | "sysctl" :: _ => some .cgroupSysctl
    | "dev" :: _ => some .cgroupDevice
    | "getsockopt" :: _ => some (.cgroupSockopt .get)
    | "setsockopt" :: _ => some (.cgroupSockopt .set)
    | "sock" :: _ => some (.cgroupSock .sockCreate)
    | "post_bind4" :: _ => some (.cgroupSock .postBind4)
    | "post_bind6" :: _ => some (.cgroupSock .postBind6)
    | "sock_create" :: _ => some (.cgroupSock .sockCreate)
    | "sock_release" :: _ => some (.cgroupSock .sockRelease)
    | "bind4" :: _ => some (.cgroupSockAddr .bind4)
    | "bind6" :: _ => some (.cgroupSockAddr .bind6)
    | "connect4" :: _ => some (.cgroupSockAddr .connect4)
    | "connect6" :: _ => some (.cgroupSockAddr .connect6)
    | "getpeername4" :: _ => some (.cgroupSockAddr .getPeerName4)
    | "getpeername6" :: _ => some (.cgroupSockAddr .getPeerName6)
    | "getsockname4" :: _ => some (.cgroupSockAddr .getSockName4)
    | "getsockname6" :: _ => some (.cgroupSockAddr .getSockName6)
    | "sendmsg4" :: _ => some (.cgroupSockAddr .udpSendMsg4)
    | "sendmsg6" :: _ => some (.cgroupSockAddr .udpSendMsg6)
    | "recvmsg4" :: _ => some (.cgroupSockAddr .udpRecvMsg4)
    | "recvmsg6" :: _ => some (.cgroupSockAddr .udpRecvMsg6)
    | _ => none

/-- `ProgramSection::from_str`, aya-obj/src/obj.rs:204-406. -/
def fromStr (s : List Char) : Option ProgramSection :=
  parsePieces ((splitBy (· == '/') s).map String.ofList)

/-- `EbpfSectionKind`, aya-obj/src/obj.rs:988-1013. -/
inductive SectionKind where
  | undefined | maps | btfMaps | program | data | rodata | bss | text | btf | btfExt | license | version
  deriving DecidableEq, Repr

/-- `str::starts_with`. -/
def startsWith (p : String) (s : List Char) : Bool := p.toList.isPrefixOf s

/-- `EbpfSectionKind::from_name`, aya-obj/src/obj.rs:1016-1040. -/
def kindFromName (name : List Char) : SectionKind :=
  if startsWith "license" name then .license
  else if startsWith "version" name then .version
  else if startsWith "maps" name then .maps
  else if startsWith ".maps" name then .btfMaps
  else if startsWith ".text" name then .text
  else if startsWith ".bss" name then .bss
  else if startsWith ".data" name then .data
  else if startsWith ".rodata" name then .rodata
  else if name = ".BTF".toList then .btf
  else if name = ".BTF.ext".toList then .btfExt
  else .undefined

/-- The kind given to a section, aya-obj/src/obj.rs:1064-1073. -/
def sectionKind (name : List Char) (isText : Bool) (size : Nat) : SectionKind :=
  match kindFromName name with
  | .undefined => if isText && size > 0 then .program else .undefined
  | k => k

/-- What the loader and the program's `load` pass to the kernel: `prog_type`, `expected_attach_type`
(`none`: left 0), `prog_flags`; whether a probe fires on return; and the attach type used by `attach`
where it is not given at load time (`sk_skb`). -/
structure Load where
  progType : Nat
  attachType : Option Nat
  flags : Nat
  isReturn : Bool
  attachLater : Option Nat
  deriving DecidableEq, Repr

/-- `From<CgroupSockAddrAttachType> for bpf_attach_type`, aya-obj/src/programs/cgroup_sock_addr.rs:33-50. -/
def CgroupSockAddrAttachType.num : CgroupSockAddrAttachType → Nat
  | .bind4 => 8 | .bind6 => 9 | .connect4 => 10 | .connect6 => 11
  | .getPeerName4 => 29 | .getPeerName6 => 30 | .getSockName4 => 31 | .getSockName6 => 32
  | .udpSendMsg4 => 14 | .udpSendMsg6 => 15 | .udpRecvMsg4 => 19 | .udpRecvMsg6 => 20

/-- aya-obj/src/programs/cgroup_sock.rs:18-27. -/
def CgroupSockAttachType.num : CgroupSockAttachType → Nat
  | .postBind4 => 12 | .postBind6 => 13 | .sockCreate => 2 | .sockRelease => 34

/-- aya-obj/src/programs/xdp.rs:16-24. -/
def XdpAttachType.num : XdpAttachType → Nat
  | .interface => 37 | .cpuMap => 35 | .devMap => 33

/-- aya-obj/src/programs/sk_skb.rs:13-20. -/
def SkSkbKind.num : SkSkbKind → Nat
  | .streamParser => 4 | .streamVerdict => 5

/-- aya-obj/src/programs/sk_reuseport.rs:15-22. -/
def SkReuseportAttachType.num : SkReuseportAttachType → Nat
  | .select => 39 | .selectOrMigrate => 40

/-- aya-obj/src/programs/cgroup_sockopt.rs:13-20. -/
def CgroupSockoptAttachType.num : CgroupSockoptAttachType → Nat
  | .get => 21 | .set => 22

/-- aya-obj/src/programs/cgroup_skb.rs:13-20. -/
def CgroupSkbAttachType.num : CgroupSkbAttachType → Nat
  | .ingress => 0 | .egress => 1

def sleepFlag (sleepable : Bool) : Nat := if sleepable then 16 else 0

/-- The program built from a section, aya/src/bpf.rs:708-875, and its `load` (aya/src/programs/*.rs, the
calls of `load_program*`). Numbers are those of aya-obj/src/generated/linux_bindings_x86_64.rs:541-637. -/
def ProgramSection.load : ProgramSection → Load
  | .kProbe => ⟨2, none, 0, false, none⟩
  | .kRetProbe => ⟨2, none, 0, true, none⟩
  | .uProbe s m => ⟨2, if m then some 48 else none, sleepFlag s, false, none⟩
  | .uRetProbe s m => ⟨2, if m then some 48 else none, sleepFlag s, true, none⟩
  | .tracePoint => ⟨5, none, 0, false, none⟩
  | .socketFilter => ⟨1, none, 0, false, none⟩
  | .xdp frags a => ⟨6, some a.num, if frags then 32 else 0, false, none⟩
  | .skMsg => ⟨16, some 7, 0, false, none⟩
  | .skSkbStream k => ⟨14, none, 0, false, some k.num⟩
  | .sockOps => ⟨13, some 3, 0, false, none⟩
  | .schedClassifier => ⟨3, none, 0, false, none⟩
  | .cgroupSkb a => ⟨8, a.map CgroupSkbAttachType.num, 0, false, none⟩
  | .cgroupSockAddr a => ⟨18, some a.num, 0, false, none⟩
  | .cgroupSysctl => ⟨23, some 18, 0, false, none⟩
  | .cgroupSockopt a => ⟨25, some a.num, 0, false, none⟩
  | .lircMode2 => ⟨20, some 16, 0, false, none⟩
  | .perfEvent => ⟨7, none, 0, false, none⟩
  | .rawTracePoint => ⟨17, none, 0, false, none⟩
  | .lsm s => ⟨29, some 27, sleepFlag s, false, none⟩
  | .lsmCgroup => ⟨29, some 43, 0, false, none⟩
  | .btfTracePoint => ⟨26, some 23, 0, false, none⟩
  | .fEntry s => ⟨26, some 24, sleepFlag s, false, none⟩
  | .fExit s => ⟨26, some 25, sleepFlag s, false, none⟩
  | .flowDissector => ⟨22, some 17, 0, false, none⟩
  | .extension => ⟨28, none, 0, false, none⟩
  | .skLookup => ⟨30, some 36, 0, false, none⟩
  | .skReuseport a => ⟨21, some a.num, 0, false, none⟩
  | .cgroupSock a => ⟨9, some a.num, 0, false, none⟩
  | .cgroupDevice => ⟨15, some 6, 0, false, none⟩
  | .iter s => ⟨26, some 28, sleepFlag s, false, none⟩

/-! ## The eBPF side: attribute macros -/

/-- The program attribute macros of `aya-ebpf-macros` with their parsed arguments. String arguments are
arbitrary, attach types are those accepted by the macro's parser. -/
inductive Attr where
  | kprobe (ret : Bool) (function : Option (List Char)) (offset : Option Nat)
  | uprobe (ret sleepable multi : Bool) (target : Option (List Char × List Char)) (offset : Option Nat)
  | xdp (frags : Bool) (map : Option XdpAttachType)
  | fentry (sleepable : Bool) (function : Option (List Char))
  | fexit (sleepable : Bool) (function : Option (List Char))
  | lsm (sleepable : Bool) (hook : Option (List Char))
  | lsmCgroup (hook : Option (List Char))
  | btfTracepoint (function : Option (List Char))
  | rawTracepoint (tracepoint : Option (List Char))
  | tracepoint (nameCategory : Option (List Char × List Char))
  | cgroupSkb (attach : Option CgroupSkbAttachType)
  | cgroupSock (attach : CgroupSockAttachType)
  | cgroupSockAddr (attach : CgroupSockAddrAttachType)
  | cgroupSockopt (attach : CgroupSockoptAttachType)
  | cgroupSysctl | cgroupDevice | flowDissector | perfEvent | skLookup | skMsg | sockOps | socketFilter
  | classifier
  | skSkb (kind : SkSkbKind)
  | skReuseport (migrate : Bool)
  deriving DecidableEq, Repr

/-- aya-ebpf-macros/src/cgroup_skb.rs:19. -/
def CgroupSkbAttachType.ident : CgroupSkbAttachType → String
  | .ingress => "ingress" | .egress => "egress"

/-- aya-ebpf-macros/src/cgroup_sock.rs:19-22. -/
def CgroupSockAttachType.ident : CgroupSockAttachType → String
  | .postBind4 => "post_bind4" | .postBind6 => "post_bind6" | .sockCreate => "sock_create"
  | .sockRelease => "sock_release"

/-- aya-ebpf-macros/src/cgroup_sock_addr.rs:19-30. -/
def CgroupSockAddrAttachType.ident : CgroupSockAddrAttachType → String
  | .connect4 => "connect4" | .connect6 => "connect6" | .bind4 => "bind4" | .bind6 => "bind6"
  | .getPeerName4 => "getpeername4" | .getPeerName6 => "getpeername6"
  | .getSockName4 => "getsockname4" | .getSockName6 => "getsockname6"
  | .udpSendMsg4 => "sendmsg4" | .udpSendMsg6 => "sendmsg6"
  | .udpRecvMsg4 => "recvmsg4" | .udpRecvMsg6 => "recvmsg6"

/-- aya-ebpf-macros/src/cgroup_sockopt.rs:19. -/
def CgroupSockoptAttachType.ident : CgroupSockoptAttachType → String
  | .get => "getsockopt" | .set => "setsockopt"

/-- aya-ebpf-macros/src/sk_skb.rs:16-17. -/
def SkSkbKind.ident : SkSkbKind → String
  | .streamVerdict => "stream_verdict" | .streamParser => "stream_parser"

/-- `{prefix}/{name}`, or the prefix alone. -/
def withName (pre : List Char) : Option (List Char) → List Char
  | none => pre
  | some f => pre ++ '/' :: f

/-- `+{offset}`. -/
def plusOffset : Option Nat → List Char
  | none => []
  | some o => '+' :: render 10 o

/-- `path.strip_prefix("/").unwrap_or(path)`. -/
def stripSlash : List Char → List Char
  | '/' :: p => p
  | p => p

/-- The prefix of a uprobe section, aya-ebpf-macros/src/uprobe.rs:84-93. -/
def uprobePrefix (ret sleepable multi : Bool) : List Char :=
  (if ret then "uretprobe" else "uprobe").toList ++ (if multi then ".multi".toList else []) ++
  (if sleepable then ".s".toList else [])

/-- The section name written by the macro (the `expand` functions of
aya-ebpf-macros/src: fentry.rs:42-47, fexit.rs:42-47, lsm.rs:42-47, lsm_cgroup.rs:33-38, btf_tracepoint.rs:33-37,
raw_tracepoint.rs:32-36, tracepoint.rs:43-46, cgroup_skb.rs:36-39, cgroup_sock.rs:38, cgroup_sock_addr.rs:46,
cgroup_sockopt.rs:34, sk_skb.rs:49, sk_reuseport.rs:11-16 and the literal `link_section` at line 30 of
cgroup_sysctl.rs, cgroup_device.rs, flow_dissector.rs, perf_event.rs, sk_lookup.rs, sk_msg.rs, sock_ops.rs,
socket_filter.rs, tc.rs). -/
def Attr.sectionName : Attr → List Char
  | .kprobe ret function offset =>   -- kprobe.rs:73-79
    withName (if ret then "kretprobe" else "kprobe").toList (function.map (· ++ plusOffset offset))
  | .uprobe ret sleepable multi target offset =>   -- uprobe.rs:84-107; a path without a function is rejected by the macro
    withName (uprobePrefix ret sleepable multi)
      (target.map (fun (path, function) => stripSlash path ++ ':' :: (function ++ plusOffset offset)))
  | .xdp frags map =>   -- xdp.rs:51-57
    withName (if frags then "xdp.frags" else "xdp").toList
      (match map with
        | some .cpuMap => some "cpumap".toList
        | some .devMap => some "devmap".toList
        | _ => none)
  | .fentry sleepable function => withName (if sleepable then "fentry.s" else "fentry").toList function
  | .fexit sleepable function => withName (if sleepable then "fexit.s" else "fexit").toList function
  | .lsm sleepable hook => withName (if sleepable then "lsm.s" else "lsm").toList hook
  | .lsmCgroup hook => withName "lsm_cgroup".toList hook
  | .btfTracepoint function => withName "tp_btf".toList function
  | .rawTracepoint tp => withName "raw_tp".toList tp
  | .tracepoint nc => withName "tracepoint".toList (nc.map (fun (name, category) => category ++ '/' :: name))
  | .cgroupSkb none => "cgroup/skb".toList
  | .cgroupSkb (some a) => withName "cgroup_skb".toList (some a.ident.toList)
  | .cgroupSock a => withName "cgroup".toList (some a.ident.toList)
  | .cgroupSockAddr a => withName "cgroup".toList (some a.ident.toList)
  | .cgroupSockopt a => withName "cgroup".toList (some a.ident.toList)
  | .cgroupSysctl => "cgroup/sysctl".toList
  | .cgroupDevice => "cgroup/dev".toList
  | .flowDissector => "flow_dissector".toList
  | .perfEvent => "perf_event".toList
  | .skLookup => "sk_lookup".toList
  | .skMsg => "sk_msg".toList
  | .sockOps => "sockops".toList
  | .socketFilter => "socket".toList
  | .classifier => "classifier".toList
  | .skSkb k => withName "sk_skb".toList (some k.ident.toList)
  | .skReuseport migrate => if migrate then "sk_reuseport/migrate".toList else "sk_reuseport".toList

end Verif.Section
