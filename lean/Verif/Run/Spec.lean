import Verif.Run.Model
/-!
# What the kernel does with `BPF_PROG_TEST_RUN`

From `kernel/bpf/syscall.c` (`bpf_prog_test_run`) and `net/bpf/test_run.c` (`bpf_prog_test_run_skb`, `_xdp`, `_raw_tp`,
`_tracing`, `bpf_test_finish`, `bpf_ctx_init`, `bpf_ctx_finish`) of Linux. It may refuse any call for further reasons,
among them bad addresses.
-/
namespace Verif.Run.Spec
open Verif.Run

/-- How a program is run. -/
inductive Kind where
  | packet | rawTp | tracing
deriving DecidableEq, Repr

/-- What running a program on a packet gives: the return value, the packet and the context afterwards, the time. -/
structure Outcome where
  retval : Nat
  data : List UInt8
  ctx : List UInt8
  duration : Nat
deriving DecidableEq, Repr

/-- The kernel: the programs behind descriptors, and what they do. A packet is given with its context, if any, the number of
runs, the flags and the size of batches; raw trace points are run with arguments, on a processor. -/
structure Kernel where
  prog : Nat → Option Nat
  kind : Nat → Kind
  refuse : Attr → Mem → Option Nat
  run : Nat → List UInt8 → Option (List UInt8) → Nat → Nat → Nat → Outcome
  rawTp : Nat → List UInt8 → Option Nat → Nat

/-- `bpf_ctx_finish`. -/
def ctxFinish (a : Attr) (out : Outcome) (m : Mem) : Except Nat Attr × Mem :=
  if a.ctxOut = 0 then (.ok a, m)
  else if out.ctx.length > a.ctxSizeOut then (.error 28, write m a.ctxOut (out.ctx.take a.ctxSizeOut))
  else (.ok { a with ctxSizeOut := out.ctx.length }, write m a.ctxOut out.ctx)

/-- `bpf_test_finish`, then `bpf_ctx_finish`. A buffer of size 0 has no size hint: everything is copied. -/
def finish (a : Attr) (out : Outcome) (m : Mem) : Except Nat Attr × Mem :=
  if a.dataSizeOut ≠ 0 ∧ out.data.length > a.dataSizeOut then
    (.error 28, if a.dataOut = 0 then m else write m a.dataOut (out.data.take a.dataSizeOut))
  else
    ctxFinish { a with retval := out.retval, duration := out.duration, dataSizeOut := out.data.length } out
      (if a.dataOut = 0 then m else write m a.dataOut out.data)

/-- `bpf_prog_test_run`. Errors: 9 bad descriptor, 22 invalid, 28 no space. -/
def sys (K : Kernel) : Sys := fun a m =>
  match K.refuse a m with
  | some e => (.error e, m)
  | none =>
    match K.prog a.progFd with
    | none => (.error 9, m)
    | some P =>
      if (a.ctxSizeIn = 0) ≠ (a.ctxIn = 0) ∨ (a.ctxSizeOut = 0) ≠ (a.ctxOut = 0) then (.error 22, m)
      else
        match K.kind P with
        | .packet =>
          finish a (K.run P (read m a.dataIn a.dataSizeIn)
            (if a.ctxIn = 0 then none else some (read m a.ctxIn a.ctxSizeIn)) a.repeats a.flags a.batchSize) m
        | .rawTp =>
          if a.dataIn ≠ 0 ∨ a.dataOut ≠ 0 ∨ a.ctxOut ≠ 0 ∨ a.duration ≠ 0 ∨ a.repeats ≠ 0 ∨ a.batchSize ≠ 0 ∨
              a.ctxSizeIn > 96 ∨ (a.flags &&& 1 = 0 ∧ a.cpu ≠ 0) then (.error 22, m)
          else
            (.ok { a with
              retval := K.rawTp P (read m a.ctxIn a.ctxSizeIn) (if a.flags &&& 1 = 0 then none else some a.cpu) }, m)
        | .tracing =>
          if a.flags ≠ 0 ∨ a.cpu ≠ 0 ∨ a.batchSize ≠ 0 then (.error 22, m) else (.ok { a with retval := 0 }, m)

/-- The bytes of an optional slice. -/
def bytes (m : Mem) : Option Slice → Option (List UInt8)
  | none => none
  | some s => some (read m s.addr s.len)

/-- An address lies in a slice. -/
def In (x : Nat) : Option Slice → Prop
  | none => False
  | some s => s.addr ≤ x ∧ x < s.addr + s.len

/-- Slices of a program: not at address 0, below 4 GiB, and the two buffers share no byte. -/
structure Fits (o : Options) : Prop where
  slices : ∀ s, o.dataIn = some s ∨ o.dataOut = some s ∨ o.ctxIn = some s ∨ o.ctxOut = some s →
    s.addr ≠ 0 ∧ s.len < 4294967296
  apart : ∀ x, ¬ (In x o.dataOut ∧ In x o.ctxOut)

/-- The run asked for. -/
def outcome (K : Kernel) (P : Nat) (o : Options) (m : Mem) : Outcome :=
  K.run P ((bytes m o.dataIn).getD []) (bytes m o.ctxIn) o.repeats o.attrs.flags o.attrs.batchSize

/-- A buffer begins with these bytes, and the rest of it is as before. -/
def Holds (m m' : Mem) (s : Option Slice) (bs : List UInt8) : Prop :=
  ∀ t, s = some t → bs.length ≤ t.len ∧ read m' t.addr bs.length = bs ∧
    ∀ x, t.addr + bs.length ≤ x → x < t.addr + t.len → m' x = m x

end Verif.Run.Spec
