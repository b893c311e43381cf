import Verif.Model.Simd
/-!
# Seed evaluation: /repo/dpf/internal/evaluate_prg_hwy.cc:636-658 and the callers `EvaluateSeeds` and
`ExpandSeeds` of /repo/dpf/distributed_point_function.cc
-/
namespace Verif
open Res

/-- `dpf_internal::EvaluateSeeds` (/repo/dpf/internal/evaluate_prg_hwy.cc:638-658), dispatching to
the vector unit of the call. `num_correction_words` is an `int`; the product is taken in 64 bits. -/
def evaluateSeedsInternal (env : Env) (keyL keyR : U128) (numSeeds numLevels : Nat) (numCwInt : Int)
    (seedsIn : List U128) (controlIn : List Bool) (paths : List U128) (rightshift : Int)
    (corr : CorrArrays) (alias : Bool) (seedsOut : List U128) (controlOut : List Bool) :
    Res (List U128 × List Bool) := do
  failIf (numCwInt ≠ numLevels ∧ numCwInt ≠ ((numLevels * numSeeds : Nat) : Int)) .invalidArgument
  let numCw := numCwInt.toNat
  match env.target numSeeds numLevels numCw seedsIn paths with
  | none =>
    evaluateSeedsNoHwy env keyL keyR numSeeds numLevels numCw seedsIn controlIn paths rightshift
      corr alias seedsOut controlOut
  | some target =>
    evaluateSeedsHwy target.toHwyEnv env keyL keyR numSeeds numLevels numCw seedsIn controlIn paths
      rightshift corr alias seedsOut controlOut

/-- `DpfExpansion` (/repo/dpf/distributed_point_function.h:426-430). -/
structure DpfExpansion where
  seeds : List U128
  controlBits : List Bool
  deriving DecidableEq, Repr

/-- `DistributedPointFunction::EvaluateSeeds` (/repo/dpf/distributed_point_function.cc:243-289),
called with the outputs being the inputs (as in all callers: lines 454-457 and
distributed_point_function.h:1029-1032). -/
def evaluateSeeds (env : Env) (ev : DpfExpansion) (paths : List U128)
    (cws : List CorrectionWord) : Res DpfExpansion := do
  failIf (ev.seeds.length ≠ ev.controlBits.length ∨ ev.seeds.length ≠ paths.length)
    .invalidArgument
  if ev.seeds.length = 0 ∨ cws.length = 0 then ok ev
  else do
    let corr : CorrArrays :=
      ⟨cws.map (·.seed), cws.map (·.controlLeft), cws.map (·.controlRight)⟩
    let (s, c) ← evaluateSeedsInternal env kPrgKeyLeft kPrgKeyRight ev.seeds.length cws.length
      cws.length ev.seeds ev.controlBits paths 0 corr true ev.seeds ev.controlBits
    ok ⟨s, c⟩

/-- Merge of one batch into the next level (/repo/dpf/distributed_point_function.cc:349-369): each
parent gives two adjacent children. -/
def mergeBatch (cw : CorrectionWord) (left right : List U128) (control : List Bool)
    (start batch : Nat) : Res (List (U128 × Bool)) := do
  let pairs ← mapRes (fun j => do
    let c ← rd control (start + j)
    let l ← rd left j
    let r ← rd right j
    let l := if c then l ^^^ cw.seed else l
    let r := if c then r ^^^ cw.seed else r
    let cl := lowestBit l
    let cr := lowestBit r
    let cl := if c then cl ^^ cw.controlLeft else cl
    let cr := if c then cr ^^ cw.controlRight else cr
    ok [(clearLowestBit l, cl), (clearLowestBit r, cr)]) (List.range batch)
  ok pairs.flatten

/-- One expansion of all seeds (/repo/dpf/distributed_point_function.cc:331-372). Simplified: the
positions `index_expanded`, `index_expanded + 1` are consecutive, so writing them is appending. -/
def expandLevel (env : Env) (ev : DpfExpansion) (cw : CorrectionWord) : Res DpfExpansion :=
  foldRes (fun (next : DpfExpansion) start => do
    let batch := min (ev.seeds.length - start) Aes128FixedKeyHash.kBatchSize
    let seeds ← slice ev.seeds start batch
    let left ← Aes128FixedKeyHash.evaluate env kPrgKeyLeft false seeds (List.replicate batch 0)
    let right ← Aes128FixedKeyHash.evaluate env kPrgKeyRight false seeds (List.replicate batch 0)
    let m ← mergeBatch cw left right ev.controlBits start batch
    ok ⟨next.seeds ++ m.map (·.1), next.controlBits ++ m.map (·.2)⟩)
    ⟨[], []⟩ (blockStarts ev.seeds.length Aes128FixedKeyHash.kBatchSize)

/-- `ExpandSeeds` (/repo/dpf/distributed_point_function.cc:291-375). The size of the buffers is the number of seeds
shifted by the number of levels and then truncated to 64 bits (lines 303-306; the checks before and after are compiled
out, and a shift by 128 or more is undefined): if the true number does not fit, the buffers are too small for what is
written to them. -/
def expandSeeds (env : Env) (ev : DpfExpansion) (cws : List CorrectionWord) : Res DpfExpansion :=
  if ev.controlBits.length * 2 ^ cws.length < 2 ^ 64 then foldRes (expandLevel env) ev cws else ub

end Verif
