import Verif.Model.Mic
/-!
# Spans of keys or of pointers to keys (/repo/dpf/internal/maybe_deref_span.h), and memory shared by arguments

The other modules pass keys as lists. Here the functions that take a `MaybeDerefSpan` are modelled with it, access by
access. Nothing writes to the keys, so a pointer is modelled by the object it points to.
-/
namespace Verif
open Res

/-- `MaybeDerefSpan<const T>` (/repo/dpf/internal/maybe_deref_span.h:37-87): a span of objects or a span of pointers.
`none` is a pointer to no object. The constructors of lines 51-69 only select the alternative. -/
inductive KeySpan (κ : Type) where
  | direct (objects : List κ)
  | pointers (ps : List (Option κ))

namespace KeySpan
variable {κ : Type}

/-- Dereferencing a pointer (/repo/dpf/internal/maybe_deref_span.h:73). -/
def deref : Option κ → Res κ
  | some k => ok k
  | none => ub

/-- `operator[]` (/repo/dpf/internal/maybe_deref_span.h:71-76). -/
def get (s : KeySpan κ) (i : Nat) : Res κ :=
  match s with
  | pointers ps => rd ps i >>= deref
  | direct ks => rd ks i

/-- `size` (/repo/dpf/internal/maybe_deref_span.h:78-80). -/
def size : KeySpan κ → Nat
  | direct ks => ks.length
  | pointers ps => ps.length

end KeySpan

namespace Dpf
variable (d : Dpf)

/-- The loop that validates the keys (/repo/dpf/distributed_point_function.h:1090-1093): the keys it has seen, which all
later accesses `keys[i]` yield again. -/
def validateSpan (keys : KeySpan DpfKey) : Res (List DpfKey) :=
  mapRes (fun i => do
    let k ← keys.get i
    d.pv.validateDpfKey k
    ok k) (List.range keys.size)

/-- Loop over hierarchy levels of `EvaluateAndApply` (/repo/dpf/distributed_point_function.h:1117-1206) if the
evaluation points lie in memory that the callback may write to: each level reads them anew (lines 1155, 1189). -/
def applyLoopReading {α σ : Type} (env : Env) (H : Helper α) (keys : List DpfKey) (points : σ → List U128)
    (rightshift : Int) (op : σ → List α → Bool × σ) :
    List Nat → ApplyState → σ → Res Unit × σ
  | [], _, s => (ok (), s)
  | h :: hs, st, s =>
    keep (d.applyLevel env H keys (points s) rightshift st h) s fun (st', values) =>
    let (continue_, s') := op s values
    if continue_ then applyLoopReading env H keys points rightshift op hs st' s'
    else (ok (), s')

/-- `EvaluateAndApply<T>` (/repo/dpf/distributed_point_function.h:1081-1207) for a span of keys, and points in memory
that the callback may write to. -/
def evaluateAndApplySpan {α σ : Type} (env : Env) (H : Helper α) (keys : KeySpan DpfKey)
    (points : σ → List U128) (op : σ → List α → Bool × σ) (s : σ) (rightshift : Int) :
    Res Unit × σ :=
  keep (failIf ((points s).length ≠ keys.size) .invalidArgument) s fun _ =>
  keep (d.validateSpan keys) s fun ks =>
  keep (rd d.pv.hierarchyToTree 0) s fun stop =>
  d.applyLoopReading env H ks points rightshift op (List.range d.pv.parameters.length)
    ⟨⟨ks.map (·.seedBlock), ks.map fun k => decide (k.party ≠ 0)⟩, stop⟩ s

end Dpf

namespace Dcf

/-- `BatchEvaluate<T>` with an output span (/repo/dcf/distributed_comparison_function.h:130-183) for a span of keys:
`dpf_keys` (lines 168-172) points to the keys inside. -/
def batchEvaluateSpanInto {α : Type} (c : Dcf) (env : Env) (H : Helper α) (keys : KeySpan DcfKey)
    (points : List U128) (output : List α) : Res Unit × List α :=
  if keys.size ≠ points.length then (err .invalidArgument, output)
  else if output.length ≠ keys.size then (err .invalidArgument, output)
  else if wrapInt32 keys.size < 0 then (crash, output)
  else
    let numKeys := (wrapInt32 keys.size).toNat
    Dpf.keep (mapRes keys.get (List.range numKeys)) output fun dpfKeys =>
    let r := c.dpf.evaluateAndApplySpan env H (.pointers (dpfKeys.map some)) (fun _ => points)
      (accumulate H c.logDomainSize numKeys points)
      ⟨ok (), 0, List.replicate output.length H.zero⟩ 1
    (r.1 >>= fun _ => r.2.status, r.2.output)

/-- `BatchEvaluate<T>` returning a vector (/repo/dcf/distributed_comparison_function.h:92-103) for a span of keys. -/
def batchEvaluateSpan {α : Type} (c : Dcf) (env : Env) (H : Helper α) (keys : KeySpan DcfKey)
    (points : List U128) : Res (List α) :=
  let r := c.batchEvaluateSpanInto env H keys points (List.replicate keys.size H.zero)
  r.1 >>= fun _ => ok r.2

/-- `accumulator` (/repo/dcf/distributed_comparison_function.h:144-163) if `output` is the memory of the evaluation
points. `output[i]` is only read and written in round `i`, so the points are those before the call. -/
def accumulateInPlace (H : Helper U128) (log : Int) (numKeys : Nat) (st : Acc U128) (values : List U128) :
    Bool × Acc U128 :=
  accumulate H log numKeys st.output st values

/-- `BatchEvaluate<absl::uint128>` (/repo/dcf/distributed_comparison_function.h:130-183) with `output` the memory of
`evaluation_points`: `std::fill` (line 177) and the callback write to the points. Status and contents of the memory
afterwards. -/
def batchEvaluateInPlace (c : Dcf) (env : Env) (H : Helper U128) (keys : KeySpan DcfKey) (memory : List U128) :
    Res Unit × List U128 :=
  if keys.size ≠ memory.length then (err .invalidArgument, memory)
  else if wrapInt32 keys.size < 0 then (crash, memory)
  else
    let numKeys := (wrapInt32 keys.size).toNat
    Dpf.keep (mapRes keys.get (List.range numKeys)) memory fun dpfKeys =>
    let r := c.dpf.evaluateAndApplySpan env H (.pointers (dpfKeys.map some)) (fun st => st.output)
      (accumulateInPlace H c.logDomainSize numKeys)
      ⟨ok (), 0, List.replicate memory.length H.zero⟩ 1
    (r.1 >>= fun _ => r.2.status, r.2.output)

end Dcf

namespace Mic

/-- The keys accessed in the loop of /repo/dcf/fss_gates/multiple_interval_containment.cc:260-271, with their points:
`keys[i]` is only accessed if there is an interval. -/
def cellsSpan (keys : KeySpan MicKey) (points : List U128) (m : Nat) : Res (List Cell) := do
  let rows ← mapRes (fun i => do
    let x ← rd points i
    mapRes (fun j => do
      let k ← keys.get i
      ok (Cell.mk k x j)) (List.range m)) (List.range keys.size)
  ok rows.flatten

/-- `BatchEval` (/repo/dcf/fss_gates/multiple_interval_containment.cc:211-308) for a span of keys. The last loop binds a
reference to every key (line 288), also without intervals. -/
def batchEvalSpan (g : Mic) (env : Env) (keys : KeySpan MicKey) (points : List U128) : Res (List U128) := do
  failIf (keys.size ≠ points.length) .invalidArgument
  let N ← shl128 1 g.params.logGroupSize
  let _ ← mapRes (fun x : U128 => failIf (x ≥ N) .invalidArgument) (points.take (2 ^ 31))
  if 2 ^ 31 ≤ points.length ∨ 2 ^ 31 < keys.size * g.params.intervals.length then ub else do
  let cs ← cellsSpan keys points g.params.intervals.length
  let dcfKeys := KeySpan.pointers (cs.map fun c => some c.key.dcfKey)
  let xp ← mapRes (g.xP N) cs
  let xq ← mapRes (g.xQ N) cs
  let sP ← g.dcf.batchEvaluateSpan env (uintHelper 128) dcfKeys xp
  let sQ ← g.dcf.batchEvaluateSpan env (uintHelper 128) dcfKeys xq
  let _ ← mapRes keys.get (List.range keys.size)
  mapRes (fun (c : Cell × U128 × U128) => g.output N c.1 c.2.1 c.2.2) (cs.zip (sP.zip sQ))

end Mic
end Verif
