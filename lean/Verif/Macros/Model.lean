import Verif.Section.Model
import Verif.Common.Except

/-!
# The arguments of the attribute macros: the code

`/repo/aya-ebpf-macros/src/args.rs` and the `parse` functions of the macros, from the tokens between the parentheses of an
attribute to what is put into the object (`Verif.Section.Attr`, whose section names are modelled in `Verif.Section`).
Simplifications: what follows the attribute is a function (for `map` and `btf_map` a static variable) that parses; errors
are kinds, without place and text.
-/
namespace Verif.Macros
open Verif.Section Verif.Str

abbrev Text := List Char

/-- The tokens of an attribute, as far as they are told apart by the macros: identifiers (keywords are none, raw ones keep
    their `r#`), commas, equal signs, string literals (by their values) and everything else. -/
inductive Tok where
  | ident (s : Text)
  | comma
  | eq
  | lit (s : Text)
  | other
deriving DecidableEq, Repr

inductive Err where
  | syntax_
  | invalidArgument
  | invalidOffset
  | invalidMap
  | nameAndCategory
  | noFunction
  | missingAttachType
  | invalidAttachType
  | unexpected
deriving DecidableEq, Repr

/-- `NameValueOrBool`, `/repo/aya-ebpf-macros/src/args.rs:19-22`. -/
inductive Arg where
  | string (name value : Text)
  | bool (name : Text)
deriving DecidableEq, Repr

/-- One argument, `/repo/aya-ebpf-macros/src/args.rs:26-38`: the argument and the tokens after it. -/
def parseArg : List Tok → Except Err (Arg × List Tok)
  | .ident n :: rest =>
    match rest with
    | [] => .ok (.bool n, [])
    | .comma :: _ => .ok (.bool n, rest)
    | .eq :: .lit v :: rest => .ok (.string n v, rest)
    | _ => .error .syntax_
  | _ => .error .syntax_

/-- `Punctuated::parse_terminated_with` (of the crate `syn`), `/repo/aya-ebpf-macros/src/args.rs:24-43`. The first argument
    bounds the number of rounds. -/
def parseList : Nat → List Tok → Except Err (List Arg)
  | _, [] => .ok []
  | 0, _ => .error .syntax_
  | n + 1, toks =>
    match parseArg toks with
    | .error e => .error e
    | .ok (a, []) => .ok [a]
    | .ok (a, .comma :: rest) =>
      match parseList n rest with
      | .error e => .error e
      | .ok as => .ok (a :: as)
    | .ok (_, _) => .error .syntax_

/-- `Args`, `/repo/aya-ebpf-macros/src/args.rs:12-15`. -/
structure Args where
  strings : List (Text × Text)
  bools : List Text
deriving DecidableEq, Repr

/-- The loop that sorts the arguments, `/repo/aya-ebpf-macros/src/args.rs:45-52`. -/
def sort (as : List Arg) : Args :=
  as.foldl (fun A a =>
    match a with
    | .string n v => { A with strings := A.strings ++ [(n, v)] }
    | .bool n => { A with bools := A.bools ++ [n] }) ⟨[], []⟩

/-- `impl Parse for Args`, `/repo/aya-ebpf-macros/src/args.rs:17-56`. -/
def parseArgs (toks : List Tok) : Except Err Args :=
  match parseList toks.length toks with
  | .error e => .error e
  | .ok as => .ok (sort as)

/-- `Vec::swap_remove`: the last element takes the place of the removed one. -/
def swapRemove {α : Type} (l : List α) (i : Nat) : List α :=
  match l.getLast? with
  | none => l
  | some x => (l.set i x).dropLast

/-- `pop_string`, `/repo/aya-ebpf-macros/src/args.rs:59-65`, on the strings. -/
def popString (l : List (Text × Text)) (name : String) : Option Text × List (Text × Text) :=
  match l.findIdx? (fun p => p.1 = name.toList) with
  | none => (none, l)
  | some i => (l[i]?.map (·.2), swapRemove l i)

/-- `pop_bool`, `/repo/aya-ebpf-macros/src/args.rs:67-74`, on the flags. -/
def popBool (l : List Text) (name : String) : Bool × List Text :=
  match l.findIdx? (fun p => p = name.toList) with
  | none => (false, l)
  | some i => (true, swapRemove l i)

/-- `into_error`, `/repo/aya-ebpf-macros/src/args.rs:76-93`. -/
def intoError (strings : List (Text × Text)) (bools : List Text) : Except Err Unit :=
  match strings, bools with
  | [], [] => .ok ()
  | _, _ => .error .invalidArgument

/-- `offset` of probes, `/repo/aya-ebpf-macros/src/kprobe.rs:40-47`, `uprobe.rs:45-52`: `str::parse::<u64>`. -/
def parseOffset : Option Text → Except Err (Option Nat)
  | none => .ok none
  | some s =>
    match parseUInt 10 64 s with
    | some n => .ok (some n)
    | none => .error .invalidOffset

/-- `KProbe::parse`, `/repo/aya-ebpf-macros/src/kprobe.rs:32-56`. -/
def kprobe (ret : Bool) (toks : List Tok) : Except Err Attr :=
  match parseArgs toks with
  | .error e => .error e
  | .ok A =>
    let (function, ss) := popString A.strings "function"
    let (offset, ss) := popString ss "offset"
    match parseOffset offset with
    | .error e => .error e
    | .ok offset =>
      match intoError ss A.bools with
      | .error e => .error e
      | .ok () => .ok (.kprobe ret function offset)

/-- The path and function of a user space probe, `/repo/aya-ebpf-macros/src/uprobe.rs:94-107`: without a path the function
    is not looked at, with a path it has to be there. -/
def uprobeTarget (path function : Option Text) : Except Err (Option (Text × Text)) :=
  match path with
  | none => .ok none
  | some p =>
    match function with
    | none => .error .noFunction
    | some f => .ok (some (p, f))

/-- `UProbe::parse`, `/repo/aya-ebpf-macros/src/uprobe.rs:35-65`, and the errors of `expand` (94-107). -/
def uprobe (ret : Bool) (toks : List Tok) : Except Err Attr :=
  match parseArgs toks with
  | .error e => .error e
  | .ok A =>
    let (path, ss) := popString A.strings "path"
    let (function, ss) := popString ss "function"
    let (offset, ss) := popString ss "offset"
    match parseOffset offset with
    | .error e => .error e
    | .ok offset =>
      let (sleepable, bs) := popBool A.bools "sleepable"
      let (multi, bs) := popBool bs "multi"
      match intoError ss bs with
      | .error e => .error e
      | .ok () =>
        match uprobeTarget path function with
        | .error e => .error e
        | .ok target => .ok (.uprobe ret sleepable multi target offset)

/-- `map` of `xdp`, `/repo/aya-ebpf-macros/src/xdp.rs:26-36`. -/
def xdpMap : Option Text → Except Err (Option XdpAttachType)
  | none => .ok none
  | some s =>
    if s = "cpumap".toList then .ok (some .cpuMap)
    else if s = "devmap".toList then .ok (some .devMap)
    else .error .invalidMap

/-- `Xdp::parse`, `/repo/aya-ebpf-macros/src/xdp.rs:20-40`. -/
def xdp (toks : List Tok) : Except Err Attr :=
  match parseArgs toks with
  | .error e => .error e
  | .ok A =>
    let (frags, bs) := popBool A.bools "frags"
    let (map, ss) := popString A.strings "map"
    match xdpMap map with
    | .error e => .error e
    | .ok map =>
      match intoError ss bs with
      | .error e => .error e
      | .ok () => .ok (.xdp frags map)

/-- `parse` of macros with one string and perhaps the flag `sleepable`: `fentry.rs:16-27`, `fexit.rs:16-27`,
    `lsm.rs:16-27` (with the flag), `lsm_cgroup.rs:15-22`, `btf_tracepoint.rs:15-22`, `raw_tracepoint.rs:15-21` (without), all in
    `/repo/aya-ebpf-macros/src`. -/
def named (arg : String) (flag : Bool) (mk : Bool → Option Text → Attr) (toks : List Tok) : Except Err Attr :=
  match parseArgs toks with
  | .error e => .error e
  | .ok A =>
    let (name, ss) := popString A.strings arg
    let (sleepable, bs) := if flag then popBool A.bools "sleepable" else (false, A.bools)
    match intoError ss bs with
    | .error e => .error e
    | .ok () => .ok (mk sleepable name)

/-- `TracePoint::parse`, `/repo/aya-ebpf-macros/src/tracepoint.rs:15-36`. -/
def tracepoint (toks : List Tok) : Except Err Attr :=
  match parseArgs toks with
  | .error e => .error e
  | .ok A =>
    let (name, ss) := popString A.strings "name"
    let (category, ss) := popString ss "category"
    match intoError ss A.bools with
    | .error e => .error e
    | .ok () =>
      match name, category with
      | none, none => .ok (.tracepoint none)
      | some n, some c => .ok (.tracepoint (some (n, c)))
      | _, _ => .error .nameAndCategory

/-- `syn::parse2::<Ident>`: one identifier and nothing else. -/
def oneIdent : List Tok → Except Err Text
  | [.ident s] => .ok s
  | _ => .error .syntax_

/-- The attach types a macro accepts, with their names. -/
def pick {α : Type} (table : List (String × α)) (s : Text) : Except Err α :=
  match table.find? (fun p => p.1.toList = s) with
  | some p => .ok p.2
  | none => .error .invalidAttachType

/-- `/repo/aya-ebpf-macros/src/cgroup_skb.rs:15-23`. -/
def cgroupSkb : List Tok → Except Err Attr
  | [] => .ok (.cgroupSkb none)
  | toks =>
    match oneIdent toks with
    | .error e => .error e
    | .ok s =>
      match pick [("ingress", CgroupSkbAttachType.ingress), ("egress", .egress)] s with
      | .error e => .error e
      | .ok a => .ok (.cgroupSkb (some a))

/-- `parse` of the macros that have to be told the attach type: `cgroup_sock.rs:13-27`, `cgroup_sock_addr.rs:13-35`,
    `cgroup_sockopt.rs:13-23` in `/repo/aya-ebpf-macros/src`. -/
def attachType {α : Type} (table : List (String × α)) (mk : α → Attr) : List Tok → Except Err Attr
  | [] => .error .missingAttachType
  | toks =>
    match oneIdent toks with
    | .error e => .error e
    | .ok s =>
      match pick table s with
      | .error e => .error e
      | .ok a => .ok (mk a)

/-- `/repo/aya-ebpf-macros/src/cgroup_sock.rs:19-22`. -/
def sockTable : List (String × CgroupSockAttachType) :=
  [("post_bind4", .postBind4), ("post_bind6", .postBind6), ("sock_create", .sockCreate), ("sock_release", .sockRelease)]

/-- `/repo/aya-ebpf-macros/src/cgroup_sock_addr.rs:19-30`. -/
def sockAddrTable : List (String × CgroupSockAddrAttachType) :=
  [("connect4", .connect4), ("connect6", .connect6), ("bind4", .bind4), ("bind6", .bind6), ("getpeername4", .getPeerName4),
   ("getpeername6", .getPeerName6), ("getsockname4", .getSockName4), ("getsockname6", .getSockName6),
   ("sendmsg4", .udpSendMsg4), ("sendmsg6", .udpSendMsg6), ("recvmsg4", .udpRecvMsg4), ("recvmsg6", .udpRecvMsg6)]

/-- `/repo/aya-ebpf-macros/src/cgroup_sockopt.rs:19`. -/
def sockoptTable : List (String × CgroupSockoptAttachType) := [("getsockopt", .get), ("setsockopt", .set)]

/-- `/repo/aya-ebpf-macros/src/sk_reuseport.rs:26-38`. -/
def skReuseport : List Tok → Except Err Attr
  | [] => .ok (.skReuseport false)
  | toks =>
    match oneIdent toks with
    | .error e => .error e
    | .ok s => if s = "migrate".toList then .ok (.skReuseport true) else .error .unexpected

/-- `parse` of the macros without arguments (lines 10-16 of `cgroup_sysctl.rs`, `cgroup_device.rs`, `sk_msg.rs`, `sk_lookup.rs`,
    `sock_ops.rs`, `socket_filter.rs`, `tc.rs`, `flow_dissector.rs`, `perf_event.rs`, and `sk_skb.rs:28-38`, in
    `/repo/aya-ebpf-macros/src`). -/
def plain (a : Attr) : List Tok → Except Err Attr
  | [] => .ok a
  | _ => .error .unexpected

/-- The attribute macros for programs, `/repo/aya-ebpf-macros/src/lib.rs`. -/
inductive Mac where
  | kprobe | kretprobe | uprobe | uretprobe | xdp | fentry | fexit | lsm | lsmCgroup | btfTracepoint | rawTracepoint
  | tracepoint | cgroupSkb | cgroupSock | cgroupSockAddr | cgroupSockopt | cgroupSysctl | cgroupDevice | streamParser
  | streamVerdict | skReuseport | skMsg | skLookup | sockOps | socketFilter | classifier | flowDissector | perfEvent
deriving DecidableEq, Repr

/-- What an attribute with these tokens between its parentheses makes of a function. -/
def Mac.attr : Mac → List Tok → Except Err Attr
  | .kprobe => Macros.kprobe false
  | .kretprobe => Macros.kprobe true
  | .uprobe => Macros.uprobe false
  | .uretprobe => Macros.uprobe true
  | .xdp => Macros.xdp
  | .fentry => named "function" true .fentry
  | .fexit => named "function" true .fexit
  | .lsm => named "hook" true .lsm
  | .lsmCgroup => named "hook" false (fun _ => .lsmCgroup)
  | .btfTracepoint => named "function" false (fun _ => .btfTracepoint)
  | .rawTracepoint => named "tracepoint" false (fun _ => .rawTracepoint)
  | .tracepoint => Macros.tracepoint
  | .cgroupSkb => Macros.cgroupSkb
  | .cgroupSock => attachType sockTable .cgroupSock
  | .cgroupSockAddr => attachType sockAddrTable .cgroupSockAddr
  | .cgroupSockopt => attachType sockoptTable .cgroupSockopt
  | .cgroupSysctl => plain .cgroupSysctl
  | .cgroupDevice => plain .cgroupDevice
  | .streamParser => plain (.skSkb .streamParser)
  | .streamVerdict => plain (.skSkb .streamVerdict)
  | .skReuseport => Macros.skReuseport
  | .skMsg => plain .skMsg
  | .skLookup => plain .skLookup
  | .sockOps => plain .sockOps
  | .socketFilter => plain .socketFilter
  | .classifier => plain .classifier
  | .flowDissector => plain .flowDissector
  | .perfEvent => plain .perfEvent

/-- The wrapper that is generated: the type of the context made from the pointer, and whether the result of the function is
    the result of the program or is dropped (the result is then 0). -/
structure Wrapper where
  context : String
  passes : Bool
deriving DecidableEq, Repr

/-- The `quote!` of the `expand` functions, in `/repo/aya-ebpf-macros/src`: `kprobe.rs:80-96` and `uprobe.rs:109-125` (which look
    at the beginning of the section name), `xdp.rs:59-67`, `fentry.rs:49-58`, `fexit.rs:49-58`, `lsm.rs:52-60`,
    `lsm_cgroup.rs:43-51`, `btf_tracepoint.rs:39-48`, `tracepoint.rs:55-64`, `raw_tracepoint.rs:38-47`, `cgroup_skb.rs:41-50`,
    `cgroup_sock.rs:40-47`, `cgroup_sock_addr.rs:48-55`, `cgroup_sockopt.rs:36-43`, `sk_skb.rs:51-60`, `sk_reuseport.rs:52-59`
    and lines 28-37 of the others. -/
def wrapper (a : Attr) : Wrapper :=
  match a with
  | .kprobe _ _ _ => ⟨if "kprobe".toList.isPrefixOf a.sectionName then "ProbeContext" else "RetProbeContext", false⟩
  | .uprobe _ _ _ _ _ => ⟨if "uprobe".toList.isPrefixOf a.sectionName then "ProbeContext" else "RetProbeContext", false⟩
  | .xdp _ _ => ⟨"XdpContext", true⟩
  | .fentry _ _ => ⟨"FEntryContext", false⟩
  | .fexit _ _ => ⟨"FExitContext", false⟩
  | .lsm _ _ => ⟨"LsmContext", true⟩
  | .lsmCgroup _ => ⟨"LsmContext", true⟩
  | .btfTracepoint _ => ⟨"BtfTracePointContext", false⟩
  | .rawTracepoint _ => ⟨"RawTracePointContext", false⟩
  | .tracepoint _ => ⟨"TracePointContext", false⟩
  | .cgroupSkb _ => ⟨"SkBuffContext", true⟩
  | .cgroupSock _ => ⟨"SockContext", true⟩
  | .cgroupSockAddr _ => ⟨"SockAddrContext", true⟩
  | .cgroupSockopt _ => ⟨"SockoptContext", true⟩
  | .cgroupSysctl => ⟨"SysctlContext", true⟩
  | .cgroupDevice => ⟨"DeviceContext", true⟩
  | .flowDissector => ⟨"FlowDissectorContext", true⟩
  | .perfEvent => ⟨"PerfEventContext", false⟩
  | .skLookup => ⟨"SkLookupContext", true⟩
  | .skMsg => ⟨"SkMsgContext", true⟩
  | .sockOps => ⟨"SockOpsContext", true⟩
  | .socketFilter => ⟨"SkBuffContext", true⟩
  | .classifier => ⟨"TcContext", true⟩
  | .skSkb _ => ⟨"SkBuffContext", true⟩
  | .skReuseport _ => ⟨"SkReuseportContext", true⟩

/-- `map` and `btf_map`, `/repo/aya-ebpf-macros/src/map.rs:14-30`, `btf_map.rs:15-31`, for a static variable called `item`: section
    and name of the symbol. -/
def mapSymbol (btf : Bool) (item : Text) (toks : List Tok) : Except Err (Text × Text) :=
  match parseArgs toks with
  | .error e => .error e
  | .ok A =>
    let (name, ss) := popString A.strings "name"
    match intoError ss A.bools with
    | .error e => .error e
    | .ok () => .ok ((if btf then ".maps" else "maps").toList, name.getD item)

end Verif.Macros
