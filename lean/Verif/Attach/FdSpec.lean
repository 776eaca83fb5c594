import Verif.Attach.FdModel
/-!
# What the kernel does with programs attached to a control group or another object

From `kernel/bpf/cgroup.c` (`hierarchy_allows_attach`, `__cgroup_bpf_attach`, `__cgroup_bpf_detach`,
`cgroup_bpf_link_attach`), `kernel/bpf/net_namespace.c`, `net/core/sock_map.c` and `drivers/media/rc/bpf-lirc.c`. A
link is open through one descriptor. The kernel may refuse any call for further reasons.
-/
namespace Verif.Attach.Fd.Spec
open Verif.Attach.Fd
open Verif.Section (CgroupSkbAttachType CgroupSockAttachType CgroupSockAddrAttachType CgroupSockoptAttachType SkSkbKind)

/-- A program attached to an object: the link it came with, if any, and the program. -/
structure Entry where
  link : Option Nat
  prog : Nat
deriving DecidableEq, Repr

inductive TargetKind where
  | cgroup | netns | sockMap | lirc
deriving DecidableEq, Repr

/-- What a file descriptor of the process stands for. -/
inductive Obj where
  | prog (p : Nat)
  | target (t : Nat)
  | link (l : Nat)
deriving DecidableEq, Repr

abbrev Table := Nat → Option Obj

/-- The descriptors of the process, the programs attached, by object and attach type, the flags control groups remember
for each attach type, and whether the limit on locked memory has been raised. -/
structure World where
  fd : Table
  att : Nat → Nat → List Entry
  mode : Nat → Nat → Nat
  limit : Bool

/-- The kernel: whether it has links for control groups and network namespaces (5.7), what the objects are, the control
groups above a control group (nearest first), what it refuses for other reasons, and the numbers of new descriptors and
links. -/
structure Kernel where
  links : Bool
  kind : Nat → TargetKind
  above : Nat → List Nat
  refuse : World → Call → Option Nat
  newFd : Table → Nat
  newLink : (Nat → Nat → List Entry) → Nat

def put (t : Table) (f : Nat) (o : Option Obj) : Table := fun f' => if f' = f then o else t f'

/-- The next descriptors and the next link are not in use. -/
structure Kernel.Fresh (K : Kernel) (w : World) : Prop where
  fd : w.fd (K.newFd w.fd) = none
  fd2 : ∀ o, put w.fd (K.newFd w.fd) o (K.newFd (put w.fd (K.newFd w.fd) o)) = none
  link : ∀ t ty e, e ∈ w.att t ty → e.link ≠ some (K.newLink w.att)

def setAtt (w : World) (t ty : Nat) (es : List Entry) (m : Nat) : World :=
  { w with
    att := fun t' ty' => if t' = t ∧ ty' = ty then es else w.att t' ty'
    mode := fun t' ty' => if t' = t ∧ ty' = ty then m else w.mode t' ty' }

/-- May a program be attached below these control groups? The nearest one that allows several programs, or has a program,
decides. -/
def hierarchyAllows (w : World) (ty : Nat) : List Nat → Bool
  | [] => true
  | a :: as =>
    if w.mode a ty = 2 then true
    else if w.att a ty ≠ [] then w.mode a ty == 1
    else hierarchyAllows w ty as

/-- Attaching to a control group. Flags: 0 nothing, 1 may be overridden below, 2 several programs. Errors: 1 not
permitted, 7 too many, 22 invalid. -/
def cgroupAttach (K : Kernel) (w : World) (t ty flags : Nat) (e : Entry) : Except Nat World :=
  if flags > 2 then .error 22
  else if !hierarchyAllows w ty (K.above t) then .error 1
  else if w.att t ty ≠ [] ∧ w.mode t ty ≠ flags then .error 1
  else if (w.att t ty).length ≥ 64 then .error 7
  else if flags = 2 then
    if e.link = none ∧ e ∈ w.att t ty then .error 22
    else .ok (setAtt w t ty (w.att t ty ++ [e]) 2)
  else .ok (setAtt w t ty [e] flags)

/-- The flags a control group remembers are forgotten with the last program. -/
def keep (es : List Entry) (m : Nat) : Nat := if es = [] then 0 else m

/-- Detaching a program that was attached without a link. A control group with a single program, and a network
namespace, give up their program without comparing. -/
def detachProg (K : Kernel) (w : World) (t ty P : Nat) : Except Nat World :=
  if (K.kind t = .cgroup ∧ w.mode t ty ≠ 2) ∨ K.kind t = .netns then
    (if w.att t ty = [] then .error 2 else .ok (setAtt w t ty [] 0))
  else if (⟨none, P⟩ : Entry) ∈ w.att t ty then
    .ok (setAtt w t ty ((w.att t ty).erase ⟨none, P⟩) (keep ((w.att t ty).erase ⟨none, P⟩) (w.mode t ty)))
  else .error 2

/-- The link is gone from every object. -/
def unlink (w : World) (l : Nat) : World :=
  { w with
    att := fun t ty => (w.att t ty).filter (fun e => e.link != some l)
    mode := fun t ty => keep ((w.att t ty).filter (fun e => e.link != some l)) (w.mode t ty) }

/-- `BPF_PROG_ATTACH`. Network namespaces and socket maps have one program, which is replaced; infrared devices a list. -/
def progAttach (K : Kernel) (w : World) (t ty flags P : Nat) : Except Nat World :=
  match K.kind t with
  | .cgroup => cgroupAttach K w t ty flags ⟨none, P⟩
  | .netns => if flags ≠ 0 then .error 22 else .ok (setAtt w t ty [⟨none, P⟩] 0)
  | .sockMap => if flags ≠ 0 then .error 22 else .ok (setAtt w t ty [⟨none, P⟩] 0)
  | .lirc =>
    if flags ≠ 0 then .error 22
    else if (⟨none, P⟩ : Entry) ∈ w.att t ty then .error 17
    else .ok (setAtt w t ty (w.att t ty ++ [⟨none, P⟩]) 0)

/-- Room for links in a network namespace. -/
def room (ty : Nat) : Nat := if ty = 17 then 1 else 64

/-- `BPF_LINK_CREATE`. No flags are allowed. A control group takes the program as one of several; a network namespace has
room for one flow dissector and 64 others. Socket maps and infrared devices have no links. -/
def linkAttach (K : Kernel) (w : World) (t ty flags : Nat) (e : Entry) : Except Nat World :=
  if !K.links ∨ flags ≠ 0 then .error 22
  else
    match K.kind t with
    | .cgroup => cgroupAttach K w t ty 2 e
    | .netns =>
      if (w.att t ty).any (fun e => e.link == none) then .error 17
      else if (w.att t ty).length ≥ room ty then .error 7
      else .ok (setAtt w t ty (w.att t ty ++ [e]) 0)
    | .sockMap => .error 22
    | .lirc => .error 22

/-- The kernel. -/
def sys (K : Kernel) : Sys World := fun w c =>
  match c with
  | .raiseLimit => (.ok 0, { w with limit := true })
  | .close f =>
    match w.fd f with
    | none => (.error 9, w)
    | some (.link l) => (.ok 0, unlink { w with fd := put w.fd f none } l)
    | some _ => (.ok 0, { w with fd := put w.fd f none })
  | .dup f =>
    match K.refuse w c with
    | some e => (.error e, w)
    | none =>
      match w.fd f with
      | none => (.error 9, w)
      | some o => (.ok (K.newFd w.fd), { w with fd := put w.fd (K.newFd w.fd) (some o) })
  | .linkCreate f g ty flags =>
    match K.refuse w c with
    | some e => (.error e, w)
    | none =>
      match w.fd f, w.fd g with
      | some (.prog P), some (.target t) =>
        match linkAttach K w t ty flags ⟨some (K.newLink w.att), P⟩ with
        | .error e => (.error e, w)
        | .ok w' => (.ok (K.newFd w.fd), { w' with fd := put w.fd (K.newFd w.fd) (some (.link (K.newLink w.att))) })
      | _, _ => (.error 9, w)
  | .progAttach f g ty flags =>
    match K.refuse w c with
    | some e => (.error e, w)
    | none =>
      match w.fd f, w.fd g with
      | some (.prog P), some (.target t) =>
        match progAttach K w t ty flags P with
        | .error e => (.error e, w)
        | .ok w' => (.ok 0, w')
      | _, _ => (.error 9, w)
  | .progDetach f g ty =>
    match w.fd f, w.fd g with
    | some (.prog P), some (.target t) =>
      match detachProg K w t ty P with
      | .error e => (.error e, w)
      | .ok w' => (.ok 0, w')
    | _, _ => (.error 9, w)

/-- `enum bpf_attach_type` of `include/uapi/linux/bpf.h`, in order. -/
def attachTypes : List String :=
  ["CGROUP_INET_INGRESS", "CGROUP_INET_EGRESS", "CGROUP_INET_SOCK_CREATE", "CGROUP_SOCK_OPS", "SK_SKB_STREAM_PARSER",
   "SK_SKB_STREAM_VERDICT", "CGROUP_DEVICE", "SK_MSG_VERDICT", "CGROUP_INET4_BIND", "CGROUP_INET6_BIND",
   "CGROUP_INET4_CONNECT", "CGROUP_INET6_CONNECT", "CGROUP_INET4_POST_BIND", "CGROUP_INET6_POST_BIND",
   "CGROUP_UDP4_SENDMSG", "CGROUP_UDP6_SENDMSG", "LIRC_MODE2", "FLOW_DISSECTOR", "CGROUP_SYSCTL",
   "CGROUP_UDP4_RECVMSG", "CGROUP_UDP6_RECVMSG", "CGROUP_GETSOCKOPT", "CGROUP_SETSOCKOPT", "TRACE_RAW_TP",
   "TRACE_FENTRY", "TRACE_FEXIT", "MODIFY_RETURN", "LSM_MAC", "TRACE_ITER", "CGROUP_INET4_GETPEERNAME",
   "CGROUP_INET6_GETPEERNAME", "CGROUP_INET4_GETSOCKNAME", "CGROUP_INET6_GETSOCKNAME", "XDP_DEVMAP",
   "CGROUP_INET_SOCK_RELEASE", "XDP_CPUMAP", "SK_LOOKUP", "XDP", "SK_SKB_VERDICT", "SK_REUSEPORT_SELECT",
   "SK_REUSEPORT_SELECT_OR_MIGRATE", "PERF_EVENT", "TRACE_KPROBE_MULTI", "LSM_CGROUP"]

/-- The attach type each program asks for. -/
def hook (skb : CgroupSkbAttachType) : Kind → String
  | .cgroupDevice => "CGROUP_DEVICE"
  | .cgroupSkb => match skb with
    | .ingress => "CGROUP_INET_INGRESS"
    | .egress => "CGROUP_INET_EGRESS"
  | .cgroupSock .postBind4 => "CGROUP_INET4_POST_BIND"
  | .cgroupSock .postBind6 => "CGROUP_INET6_POST_BIND"
  | .cgroupSock .sockCreate => "CGROUP_INET_SOCK_CREATE"
  | .cgroupSock .sockRelease => "CGROUP_INET_SOCK_RELEASE"
  | .cgroupSockAddr .bind4 => "CGROUP_INET4_BIND"
  | .cgroupSockAddr .bind6 => "CGROUP_INET6_BIND"
  | .cgroupSockAddr .connect4 => "CGROUP_INET4_CONNECT"
  | .cgroupSockAddr .connect6 => "CGROUP_INET6_CONNECT"
  | .cgroupSockAddr .getPeerName4 => "CGROUP_INET4_GETPEERNAME"
  | .cgroupSockAddr .getPeerName6 => "CGROUP_INET6_GETPEERNAME"
  | .cgroupSockAddr .getSockName4 => "CGROUP_INET4_GETSOCKNAME"
  | .cgroupSockAddr .getSockName6 => "CGROUP_INET6_GETSOCKNAME"
  | .cgroupSockAddr .udpSendMsg4 => "CGROUP_UDP4_SENDMSG"
  | .cgroupSockAddr .udpSendMsg6 => "CGROUP_UDP6_SENDMSG"
  | .cgroupSockAddr .udpRecvMsg4 => "CGROUP_UDP4_RECVMSG"
  | .cgroupSockAddr .udpRecvMsg6 => "CGROUP_UDP6_RECVMSG"
  | .cgroupSockopt .get => "CGROUP_GETSOCKOPT"
  | .cgroupSockopt .set => "CGROUP_SETSOCKOPT"
  | .cgroupSysctl => "CGROUP_SYSCTL"
  | .sockOps => "CGROUP_SOCK_OPS"
  | .flowDissector => "FLOW_DISSECTOR"
  | .skLookup => "SK_LOOKUP"
  | .lsmCgroup => "LSM_CGROUP"
  | .skMsg => "SK_MSG_VERDICT"
  | .skSkb .streamParser => "SK_SKB_STREAM_PARSER"
  | .skSkb .streamVerdict => "SK_SKB_STREAM_VERDICT"
  | .lircMode2 => "LIRC_MODE2"

/-- Programs whose `attach` takes a mode. -/
def hasMode : Kind → Bool
  | .cgroupDevice | .cgroupSkb | .cgroupSock _ | .cgroupSockAddr _ | .cgroupSockopt _ | .cgroupSysctl | .sockOps => true
  | _ => false

/-- The kind of object a program is attached to. -/
def targetOf : Kind → TargetKind
  | .flowDissector | .skLookup => .netns
  | .skMsg | .skSkb _ => .sockMap
  | .lircMode2 => .lirc
  | _ => .cgroup

/-- The program is loaded as `P`; the link descriptors it holds are open. -/
structure Holds (w : World) (p : Prog) (f P : Nat) : Prop where
  fd : p.fd = some f
  prog : w.fd f = some (.prog P)
  links : ∀ g, Inner.fd g ∈ p.links → ∃ l, w.fd g = some (.link l)
  progs : ∀ a b ty, Inner.prog a b ty ∈ p.links → (∃ P, w.fd a = some (.prog P)) ∧ ∃ t, w.fd b = some (.target t)

/-- Whether attaching takes the place of the program that was there. -/
def replaces (K : Kernel) (k : Kind) (m : Mode) : Bool :=
  match targetOf k with
  | .sockMap => true
  | .lirc => false
  | .netns => !K.links
  | .cgroup => !K.links && m != .allowMultiple

/-- A control group without programs remembers no flags. -/
def Tidy (w : World) : Prop := ∀ t ty, w.att t ty = [] → w.mode t ty = 0

/-- The descriptors a link owns. -/
def owns : Inner → List Nat
  | .fd f => [f]
  | .prog a b _ => [a, b]

end Verif.Attach.Fd.Spec
