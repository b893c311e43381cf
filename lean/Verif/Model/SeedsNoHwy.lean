import Verif.Model.Hash
import Verif.Model.Proto
/-!
# Seed evaluation without vectors: /repo/dpf/internal/evaluate_prg_hwy.cc:541-634
-/
namespace Verif
open Res

/-- `kPrgKeyLeft`, `kPrgKeyRight`, `kPrgKeyValue`
(/repo/dpf/distributed_point_function.cc:57-62). -/
def kPrgKeyLeft : U128 := 0x5be037ccf6a03de5935f08d0a5b6a2fd#128
@[inherit_doc kPrgKeyLeft] def kPrgKeyRight : U128 := 0xef94b6aedebb026ce2ea1fe0f66f4d0b#128
@[inherit_doc kPrgKeyLeft] def kPrgKeyValue : U128 := 0x05a5d1588c5423e346a31101b21d1c98#128

/-- The bit returned by `ExtractAndClearLowestBit` (/repo/dpf/internal/evaluate_prg_hwy.h:32-36). -/
def lowestBit (x : U128) : Bool := x &&& 1#128 != 0#128
/-- The value left by `ExtractAndClearLowestBit` (/repo/dpf/internal/evaluate_prg_hwy.h:32-36). -/
def clearLowestBit (x : U128) : U128 := x &&& ~~~(1#128)

/-- Correction words in the three parallel arrays `correction_seeds`, `correction_controls_left`,
`correction_controls_right`. -/
structure CorrArrays where
  seeds : List U128
  left : List Bool
  right : List Bool

/-- The path bit of one seed (/repo/dpf/internal/evaluate_prg_hwy.cc:591-595). -/
def pathBit (path : U128) (bitIndex : Int) : Res Bool :=
  if bitIndex < 128 then do
    let m ← shl128 1#128 bitIndex
    ok (path &&& m != 0#128)
  else ok false

/-- First inner loop (/repo/dpf/internal/evaluate_prg_hwy.cc:589-601): path bits and selected PRG
outputs of one batch. -/
def selectBatch (paths : List U128) (bitIndex : Int) (left right : List U128)
    (start batch : Nat) : Res (List (Bool × U128)) :=
  mapRes (fun i => do
    let bit ← pathBit (← rd paths (start + i)) bitIndex
    let s ← if bit = false then rd left i else rd right i
    ok (bit, s)) (List.range batch)

/-- Second inner loop (/repo/dpf/internal/evaluate_prg_hwy.cc:609-628): correction of one batch.
`control_bits` is the copy made in lines 606-608. `correction_index` is an `int` to which the 64-bit sum of line
614 is converted. -/
def correctBatch (numSeeds numLevels numCw level : Nat) (corr : CorrArrays)
    (sel : List (Bool × U128)) (control : List Bool) (start batch : Nat) :
    Res (List (U128 × Bool)) :=
  mapRes (fun i => do
    let idx : Int :=
      if numCw > numLevels then wrapInt32 ((level * numSeeds + start + i : Nat) : Int) else level
    let (bit, s) ← rd sel i
    let c ← rd control i
    let s ← if c then do ok (s ^^^ (← rdInt corr.seeds idx)) else ok s
    let cur := lowestBit s
    let s := clearLowestBit s
    let cur ← if c then
        (if bit = false then do ok (cur ^^ (← rdInt corr.left idx))
         else do ok (cur ^^ (← rdInt corr.right idx)))
      else ok cur
    ok (s, cur)) (List.range batch)

/-- Body of the loop over levels for one batch (/repo/dpf/internal/evaluate_prg_hwy.cc:576-629).
State: the buffers `seeds_out`, `control_bits_out`. With `alias`, `seeds_in`/`control_bits_in` are
the same memory as the outputs. -/
def noHwyLevel (env : Env) (keyL keyR : U128) (numSeeds numLevels numCw : Nat)
    (seedsIn : List U128) (controlIn : List Bool) (paths : List U128) (rightshift : Int)
    (corr : CorrArrays) (alias : Bool) (start batch : Nat)
    (st : List U128 × List Bool) (level : Nat) : Res (List U128 × List Bool) := do
  let (seedsOut, controlOut) := st
  let fromIn := level == 0 && !alias
  let seeds ← slice (if fromIn then seedsIn else seedsOut) start batch
  let left ← Aes128FixedKeyHash.evaluate env keyL false seeds (List.replicate batch 0)
  let right ← Aes128FixedKeyHash.evaluate env keyR false seeds (List.replicate batch 0)
  let bitIndex ← intRange ((numLevels : Int) - level - 1 + rightshift)
  let sel ← selectBatch paths bitIndex left right start batch
  let seedsOut ← writeAt seedsOut start (sel.map (·.2))
  let control ← slice (if fromIn then controlIn else controlOut) start batch
  let res ← correctBatch numSeeds numLevels numCw level corr sel control start batch
  let seedsOut ← writeAt seedsOut start (res.map (·.1))
  let controlOut ← writeAt controlOut start (res.map (·.2))
  ok (seedsOut, controlOut)

/-- `EvaluateSeedsNoHwy` (/repo/dpf/internal/evaluate_prg_hwy.cc:552-634). -/
def evaluateSeedsNoHwy (env : Env) (keyL keyR : U128) (numSeeds numLevels numCw : Nat)
    (seedsIn : List U128) (controlIn : List Bool) (paths : List U128) (rightshift : Int)
    (corr : CorrArrays) (alias : Bool) (seedsOut : List U128) (controlOut : List Bool) :
    Res (List U128 × List Bool) :=
  foldRes (fun st start =>
    let batch := min (numSeeds - start) Aes128FixedKeyHash.kBatchSize
    foldRes (noHwyLevel env keyL keyR numSeeds numLevels numCw seedsIn controlIn paths rightshift
      corr alias start batch) st (List.range numLevels))
    (seedsOut, controlOut) (blockStarts numSeeds Aes128FixedKeyHash.kBatchSize)

end Verif
