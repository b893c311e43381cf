import Verif.Model.Dpf
/-!
# `DistributedComparisonFunction` (/repo/dcf/distributed_comparison_function.cc and .h)
-/
namespace Verif
open Res

/-- `DcfKey` (/repo/dcf/distributed_comparison_function.proto:27-29) wraps a `DpfKey`; an absent one
reads as the empty message. -/
abbrev DcfKey := DpfKey

mutual
/-- `SetToZero` (/repo/dcf/distributed_comparison_function.cc:32-42). There is no case for
`XorWrapper`. -/
def setToZero : Value → Value
  | .integer _ => .integer (.u64 0)
  | .intModN _ => .intModN (.u64 0)
  | .tuple vs => .tuple (setAllToZero vs)
  | .xorWrapper i => .xorWrapper i
  | .notSet => .notSet
/-- Loop over the tuple elements in `SetToZero`. -/
def setAllToZero : List Value → List Value
  | [] => []
  | v :: vs => setToZero v :: setAllToZero vs
end

/-- Members of `DistributedComparisonFunction` (/repo/dcf/distributed_comparison_function.h:119-120);
of `parameters_` only `log_domain_size` is used. -/
structure Dcf where
  logDomainSize : Int
  dpf : Dpf

namespace Dcf

/-- Parameters of the incremental DPF (/repo/dcf/distributed_comparison_function.cc:57-64). The
security parameter is not passed on. -/
def dpfParameters (p : DpfParameters) : List DpfParameters :=
  (List.range p.logDomainSize.toNat).map fun i : Nat => ⟨(i : Int), some p.vt, .val 0⟩

/-- `Create` (/repo/dcf/distributed_comparison_function.cc:49-78). -/
def create (fp : FpEnv) (p : DpfParameters) : Res Dcf := do
  failIf (p.logDomainSize < 1) .invalidArgument
  let params := dpfParameters p
  validateParameters params
  let dpf ← Dpf.createIncremental fp params
  ok ⟨p.logDomainSize, dpf⟩

/-- `dpf_values[i]` (/repo/dcf/distributed_comparison_function.cc:84-92). -/
def levelValue (log : Int) (alpha : U128) (beta : Value) (i : Nat) : Res Value := do
  let mask ← shl128 1 (log - i - 1)
  ok (if alpha &&& mask ≠ 0 then beta else setToZero beta)

/-- `GenerateKeys` for a `Value` (/repo/dcf/distributed_comparison_function.cc:80-102). -/
def generateKeys (c : Dcf) (env : Env) (alpha : U128) (beta : Value) (seed0 seed1 : U128) :
    Res (DcfKey × DcfKey) := do
  let values ← mapRes (levelValue c.logDomainSize alpha beta) (List.range c.logDomainSize.toNat)
  c.dpf.generateKeysIncremental env (alpha >>> 1) values seed0 seed1

/-- `ToValue<T>` of the DPF registers the type
(/repo/dpf/distributed_point_function.h:113-120). -/
def register {α : Type} (c : Dcf) (H : Helper α) : Dcf := { c with dpf := c.dpf.registerValueType H }

/-- `GenerateKeys<T>` (/repo/dcf/distributed_comparison_function.h:57-67): result and DCF afterwards. -/
def generateKeysFor {α : Type} (c : Dcf) (env : Env) (H : Helper α) (alpha : U128) (beta : α)
    (seed0 seed1 : U128) : Res (DcfKey × DcfKey) × Dcf :=
  let c' := c.register H
  (c'.generateKeys env alpha (H.toValue beta) seed0 seed1, c')

/-- Variables captured by `accumulator` (/repo/dcf/distributed_comparison_function.h:142-145).
Undefined behaviour inside the callback is kept in `status`. -/
structure Acc (α : Type) where
  status : Res Unit
  level : Nat
  output : List α

/-- `output[i]` after one level (/repo/dcf/distributed_comparison_function.h:154-160). -/
def accumulateAt {α : Type} (H : Helper α) (mask : U128) (points : List U128) (output values : List α)
    (i : Nat) : Res α := do
  let x ← rd points i
  let o ← rd output i
  let v ← rd values i
  ok (if x &&& mask ≠ 0 then o else H.add o v)

/-- `accumulator` (/repo/dcf/distributed_comparison_function.h:144-163). -/
def accumulate {α : Type} (H : Helper α) (log : Int) (numKeys : Nat) (points : List U128)
    (st : Acc α) (values : List α) : Bool × Acc α :=
  if values.length ≠ numKeys then (false, { st with status := err .internal })
  else
    match shl128 1 (log - st.level - 1) >>= fun mask =>
      mapRes (accumulateAt H mask points st.output values) (List.range numKeys) with
    | .ok output => (true, { st with level := st.level + 1, output := output })
    | _ => (false, { st with status := ub })

/-- Evaluation of the first `numKeys` keys (/repo/dcf/distributed_comparison_function.h:149-183). -/
def batchRun {α : Type} (c : Dcf) (env : Env) (H : Helper α) (keys : List DcfKey)
    (points : List U128) (output : List α) (numKeys : Nat) : Res Unit × List α :=
  let r := c.dpf.evaluateAndApply env H (keys.take numKeys) points
    (accumulate H c.logDomainSize numKeys points)
    ⟨ok (), 0, List.replicate output.length H.zero⟩ 1
  (r.1 >>= fun _ => r.2.status, r.2.output)

/-- `BatchEvaluate<T>` with an output span (/repo/dcf/distributed_comparison_function.h:125-183):
status and contents of `output` afterwards. The number of keys is converted to `int` (line 145); a negative size
makes the constructor of `dpf_keys` (line 170) throw, and `dpf_keys` has only `num_keys` elements. -/
def batchEvaluateInto {α : Type} (c : Dcf) (env : Env) (H : Helper α) (keys : List DcfKey)
    (points : List U128) (output : List α) : Res Unit × List α :=
  if keys.length ≠ points.length then (err .invalidArgument, output)
  else if output.length ≠ keys.length then (err .invalidArgument, output)
  else if wrapInt32 keys.length < 0 then (crash, output)
  else c.batchRun env H keys points output (wrapInt32 keys.length).toNat

/-- `BatchEvaluate<T>` returning a vector (/repo/dcf/distributed_comparison_function.h:92-103). -/
def batchEvaluate {α : Type} (c : Dcf) (env : Env) (H : Helper α) (keys : List DcfKey)
    (points : List U128) : Res (List α) :=
  let r := c.batchEvaluateInto env H keys points (List.replicate keys.length H.zero)
  r.1 >>= fun _ => ok r.2

/-- `Evaluate<T>` (/repo/dcf/distributed_comparison_function.h:73-83). -/
def evaluate {α : Type} (c : Dcf) (env : Env) (H : Helper α) (key : DcfKey) (x : U128) : Res α :=
  let r := c.batchEvaluateInto env H [key] [x] [H.zero]
  r.1 >>= fun _ => rd r.2 0

end Dcf
end Verif
