import Verif.Macros.Model

/-!
# Attributes, as they are documented

Arguments are a list, separated by commas, of flags and of names with values, in any order. Which arguments a macro takes, and
what they ask for.
-/
namespace Verif.Macros.Spec
open Verif.Section

/-- An argument as written: a flag, or a name with a value. -/
inductive Item where
  | flag (name : Text)
  | val (name value : Text)
deriving DecidableEq, Repr

/-- The tokens of an argument. -/
def Item.toks : Item → List Tok
  | .flag n => [.ident n]
  | .val n v => [.ident n, .eq, .lit v]

/-- The arguments, written one after the other with commas between them and perhaps one at the end. -/
inductive Written : List Item → List Tok → Prop
  | none : Written [] []
  | last (i : Item) : Written [i] i.toks
  | more (i : Item) {is : List Item} {ts : List Tok} : Written is ts → Written (i :: is) (i.toks ++ .comma :: ts)

def Item.name : Item → Text
  | .flag n => n
  | .val n _ => n

/-- The arguments of a macro: those with values, and the flags. -/
def takes : Mac → List String × List String
  | .kprobe | .kretprobe => (["function", "offset"], [])
  | .uprobe | .uretprobe => (["path", "function", "offset"], ["sleepable", "multi"])
  | .xdp => (["map"], ["frags"])
  | .fentry | .fexit => (["function"], ["sleepable"])
  | .lsm => (["hook"], ["sleepable"])
  | .lsmCgroup => (["hook"], [])
  | .btfTracepoint => (["function"], [])
  | .rawTracepoint => (["tracepoint"], [])
  | .tracepoint => (["name", "category"], [])
  | _ => ([], [])

/-- Every argument is one that is taken, and none is given twice. -/
def Fit (vals flags : List String) (is : List Item) : Prop :=
  (∀ n v, Item.val n v ∈ is → ∃ s ∈ vals, n = s.toList) ∧ (∀ n, Item.flag n ∈ is → ∃ s ∈ flags, n = s.toList) ∧
  (is.map Item.name).Nodup

/-- The value of an argument. -/
def Has (is : List Item) (name : String) : Option Text → Prop
  | some v => Item.val name.toList v ∈ is
  | none => ∀ v, Item.val name.toList v ∉ is

/-- The flag is given. -/
def Says (is : List Item) (name : String) (b : Bool) : Prop := b = true ↔ Item.flag name.toList ∈ is

/-- A number as Rust reads it: perhaps a `+`, then digits, of a value below 2^64. -/
def Decimal (v : Text) (n : Nat) : Prop :=
  ∃ ds : List (Fin 10), ds ≠ [] ∧
    (v = ds.map (fun d => Char.ofNat (48 + d.1)) ∨ v = '+' :: ds.map (fun d => Char.ofNat (48 + d.1))) ∧
    n = ds.foldl (fun a d => 10 * a + d.1) 0 ∧ n < 2 ^ 64

def OffsetIs (is : List Item) : Option Nat → Prop
  | none => Has is "offset" none
  | some n => ∃ v, Has is "offset" (some v) ∧ Decimal v n

/-- The words for the attach types of the macros that take one. -/
def words : List (Mac × String × Attr) :=
  [(.cgroupSkb, "ingress", .cgroupSkb (some .ingress)), (.cgroupSkb, "egress", .cgroupSkb (some .egress)),
   (.cgroupSock, "post_bind4", .cgroupSock .postBind4), (.cgroupSock, "post_bind6", .cgroupSock .postBind6),
   (.cgroupSock, "sock_create", .cgroupSock .sockCreate), (.cgroupSock, "sock_release", .cgroupSock .sockRelease),
   (.cgroupSockAddr, "connect4", .cgroupSockAddr .connect4), (.cgroupSockAddr, "connect6", .cgroupSockAddr .connect6),
   (.cgroupSockAddr, "bind4", .cgroupSockAddr .bind4), (.cgroupSockAddr, "bind6", .cgroupSockAddr .bind6),
   (.cgroupSockAddr, "getpeername4", .cgroupSockAddr .getPeerName4),
   (.cgroupSockAddr, "getpeername6", .cgroupSockAddr .getPeerName6),
   (.cgroupSockAddr, "getsockname4", .cgroupSockAddr .getSockName4),
   (.cgroupSockAddr, "getsockname6", .cgroupSockAddr .getSockName6),
   (.cgroupSockAddr, "sendmsg4", .cgroupSockAddr .udpSendMsg4), (.cgroupSockAddr, "sendmsg6", .cgroupSockAddr .udpSendMsg6),
   (.cgroupSockAddr, "recvmsg4", .cgroupSockAddr .udpRecvMsg4), (.cgroupSockAddr, "recvmsg6", .cgroupSockAddr .udpRecvMsg6),
   (.cgroupSockopt, "getsockopt", .cgroupSockopt .get), (.cgroupSockopt, "setsockopt", .cgroupSockopt .set),
   (.skReuseport, "migrate", .skReuseport true)]

/-- What the macros mean without arguments. -/
def bare : List (Mac × Attr) :=
  [(.cgroupSkb, .cgroupSkb none), (.cgroupSysctl, .cgroupSysctl), (.cgroupDevice, .cgroupDevice),
   (.streamParser, .skSkb .streamParser), (.streamVerdict, .skSkb .streamVerdict), (.skReuseport, .skReuseport false),
   (.skMsg, .skMsg), (.skLookup, .skLookup), (.sockOps, .sockOps), (.socketFilter, .socketFilter), (.classifier, .classifier),
   (.flowDissector, .flowDissector), (.perfEvent, .perfEvent)]

/-- What a macro that takes arguments is asked for by them. -/
def Asks : Mac → List Item → Attr → Prop
  | .kprobe, is, a => ∃ f o, Has is "function" f ∧ OffsetIs is o ∧ a = .kprobe false f o
  | .kretprobe, is, a => ∃ f o, Has is "function" f ∧ OffsetIs is o ∧ a = .kprobe true f o
  | .uprobe, is, a => UProbe is false a
  | .uretprobe, is, a => UProbe is true a
  | .xdp, is, a => ∃ f, Says is "frags" f ∧
      (Has is "map" none ∧ a = .xdp f none ∨ Has is "map" (some "cpumap".toList) ∧ a = .xdp f (some .cpuMap) ∨
       Has is "map" (some "devmap".toList) ∧ a = .xdp f (some .devMap))
  | .fentry, is, a => ∃ s f, Says is "sleepable" s ∧ Has is "function" f ∧ a = .fentry s f
  | .fexit, is, a => ∃ s f, Says is "sleepable" s ∧ Has is "function" f ∧ a = .fexit s f
  | .lsm, is, a => ∃ s f, Says is "sleepable" s ∧ Has is "hook" f ∧ a = .lsm s f
  | .lsmCgroup, is, a => ∃ f, Has is "hook" f ∧ a = .lsmCgroup f
  | .btfTracepoint, is, a => ∃ f, Has is "function" f ∧ a = .btfTracepoint f
  | .rawTracepoint, is, a => ∃ f, Has is "tracepoint" f ∧ a = .rawTracepoint f
  | .tracepoint, is, a => Has is "name" none ∧ Has is "category" none ∧ a = .tracepoint none ∨
      ∃ n c, Has is "name" (some n) ∧ Has is "category" (some c) ∧ a = .tracepoint (some (n, c))
  | _, _, _ => False
where
  UProbe (is : List Item) (ret : Bool) (a : Attr) : Prop :=
    ∃ s m o, Says is "sleepable" s ∧ Says is "multi" m ∧ OffsetIs is o ∧
      (Has is "path" none ∧ a = .uprobe ret s m none o ∨
       ∃ p f, Has is "path" (some p) ∧ Has is "function" (some f) ∧ a = .uprobe ret s m (some (p, f)) o)

/-- The attribute with these tokens is right and asks for `a`. -/
def Right (m : Mac) (toks : List Tok) (a : Attr) : Prop :=
  (∃ is, Written is toks ∧ Fit (takes m).1 (takes m).2 is ∧ Asks m is a) ∨
  (∃ w, (m, w, a) ∈ words ∧ toks = [.ident w.toList]) ∨ ((m, a) ∈ bare ∧ toks = [])

/-- The type of programs of a macro, as the kernel numbers it. -/
def progType : Mac → Nat
  | .socketFilter => 1
  | .kprobe | .kretprobe | .uprobe | .uretprobe => 2
  | .classifier => 3
  | .tracepoint => 5
  | .xdp => 6
  | .perfEvent => 7
  | .cgroupSkb => 8
  | .cgroupSock => 9
  | .sockOps => 13
  | .streamParser | .streamVerdict => 14
  | .cgroupDevice => 15
  | .skMsg => 16
  | .rawTracepoint => 17
  | .cgroupSockAddr => 18
  | .skReuseport => 21
  | .flowDissector => 22
  | .cgroupSysctl => 23
  | .cgroupSockopt => 25
  | .fentry | .fexit | .btfTracepoint => 26
  | .lsm | .lsmCgroup => 29
  | .skLookup => 30

/-- The context a function with the attribute is given, by its documentation. -/
def context : Mac → String
  | .kprobe | .uprobe => "ProbeContext"
  | .kretprobe | .uretprobe => "RetProbeContext"
  | .xdp => "XdpContext"
  | .fentry => "FEntryContext"
  | .fexit => "FExitContext"
  | .lsm | .lsmCgroup => "LsmContext"
  | .btfTracepoint => "BtfTracePointContext"
  | .rawTracepoint => "RawTracePointContext"
  | .tracepoint => "TracePointContext"
  | .cgroupSkb | .streamParser | .streamVerdict | .socketFilter => "SkBuffContext"
  | .cgroupSock => "SockContext"
  | .cgroupSockAddr => "SockAddrContext"
  | .cgroupSockopt => "SockoptContext"
  | .cgroupSysctl => "SysctlContext"
  | .cgroupDevice => "DeviceContext"
  | .flowDissector => "FlowDissectorContext"
  | .perfEvent => "PerfEventContext"
  | .skLookup => "SkLookupContext"
  | .skMsg => "SkMsgContext"
  | .sockOps => "SockOpsContext"
  | .classifier => "TcContext"
  | .skReuseport => "SkReuseportContext"

/-- Programs whose results the kernel acts upon: all but those that only watch. -/
def decides : Mac → Bool
  | .kprobe | .kretprobe | .uprobe | .uretprobe | .fentry | .fexit | .btfTracepoint | .rawTracepoint | .tracepoint | .perfEvent => false
  | _ => true

end Verif.Macros.Spec
