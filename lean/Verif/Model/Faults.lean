import Verif.Model.Mic
/-!
# Failing calls of the environment

The other files model the library on a machine on which ciphers are set up and applied and memory is allocated without
failure. Here the calls of the library that may fail are part of the model:

* `EVP_Cipher` (/repo/dpf/aes_128_fixed_key_hash.cc:85-94) and `AES_set_encrypt_key`
  (/repo/dpf/internal/evaluate_prg_hwy.cc:188-197), reported as INTERNAL,
* `hwy::AllocateAligned` (/repo/dpf/distributed_point_function.cc:263-266, 314-317, 323-326, 412-416, 436-440, 491-494,
  531-535, /repo/dpf/distributed_point_function.h:973-977, 999-1003, 1099-1102, 1134-1138,
  /repo/dpf/internal/evaluate_prg_hwy.cc:468-471, /repo/dcf/fss_gates/multiple_interval_containment.cc:235-240),
  reported as RESOURCE_EXHAUSTED.

Each function is that of the same name without `F` with these calls at their places. Not modelled: failing allocations
by the standard library or protobuf, which do not return; `RAND_bytes` is in `Random`.
-/
namespace Verif
open Res

/-- How the calls of the environment go, in the order in which they are made: `true` if the call fails. Calls after the
end of the list succeed. -/
abbrev Faults := List Bool

/-- Code that calls the environment: its outcome, and the list without the calls made. -/
def Faulty (α : Type) : Type := Faults → Res α × Faults

namespace Faulty

/-- Continue on success, as in /repo/dpf/status_macros.h:24-64. -/
def bind {α β : Type} (m : Faulty α) (f : α → Faulty β) : Faulty β := fun fs =>
  match m fs with
  | (.ok a, fs) => f a fs
  | (.err c, fs) => (.err c, fs)
  | (.ub, fs) => (.ub, fs)
  | (.crash, fs) => (.crash, fs)

/-- Code that makes no calls. -/
def lift {α : Type} (x : Res α) : Faulty α := fun fs => (x, fs)

instance : Monad Faulty where
  pure a := lift (ok a)
  bind := bind

/-- A call of the environment; the caller returns the code if it fails. -/
def call (c : Code) : Faulty Unit
  | [] => (ok (), [])
  | false :: fs => (ok (), fs)
  | true :: fs => (err c, fs)

/-- Two calls of the environment; the caller returns the code if one of them fails. -/
def callTwice (c : Code) : Faulty Unit := fun fs =>
  match call c fs with
  | (.ok _, fs) => call c fs
  | (r, fs) => (r, (call c fs).2)

/-- `for (x : l) state = f(state, x)`, stopping at the first failure. -/
def fold {α σ : Type} (f : σ → α → Faulty σ) : σ → List α → Faulty σ
  | s, [] => lift (ok s)
  | s, a :: l => do
    let s ← f s a
    fold f s l

end Faulty

/-- Code that calls the environment and modifies an object in place: outcome, object afterwards, and the list without
the calls made. -/
def FaultyOn (κ α : Type) : Type := Faults → (Res α × κ) × Faults

/-- Continue with an object that has already been modified (as `Dpf.keep`). -/
def keepF {α β κ : Type} (m : Faulty α) (c : κ) (f : α → FaultyOn κ β) : FaultyOn κ β := fun fs =>
  match m fs with
  | (.ok a, fs) => f a fs
  | (.err e, fs) => ((.err e, c), fs)
  | (.ub, fs) => ((.ub, c), fs)
  | (.crash, fs) => ((.crash, c), fs)

/-- Continue after a function that may have modified the object. -/
def thenF {α β κ : Type} (m : FaultyOn κ α) (f : α → κ → FaultyOn κ β) : FaultyOn κ β := fun fs =>
  match m fs with
  | ((.ok a, c), fs) => f a c fs
  | ((.err e, c), fs) => ((.err e, c), fs)
  | ((.ub, c), fs) => ((.ub, c), fs)
  | ((.crash, c), fs) => ((.crash, c), fs)

/-- The end of such code. -/
def endF {β κ : Type} (r : Res β) (c : κ) : FaultyOn κ β := fun fs => ((r, c), fs)

open Faulty

namespace Aes128FixedKeyHash

/-- One batch of `Evaluate` (/repo/dpf/aes_128_fixed_key_hash.cc:73-97). What a failing `EVP_Cipher` writes to `out` is
not modelled: no caller reads it. -/
def evaluateBatchF (env : Env) (key : U128) (input : List U128) (inSize : Nat)
    (out : List U128) (start : Nat) : Faulty (List U128) := do
  let batchSize := min (inSize - start) kBatchSize
  let sigmaIn ← lift (slice input start batchSize)
  call .internal
  let out ← lift (writeAt out start ((sigmaIn.map sigma).map (env.aes key)))
  let cur ← lift (slice out start batchSize)
  lift (writeAt out start (List.zipWith (· ^^^ ·) cur (sigmaIn.map sigma)))

/-- `Aes128FixedKeyHash::Evaluate` (/repo/dpf/aes_128_fixed_key_hash.cc:59-100). -/
def evaluateF (env : Env) (key : U128) (alias : Bool) (input out : List U128) : Faulty (List U128) := do
  lift (failIf (input.length ≠ out.length) .invalidArgument)
  fold (fun out start => evaluateBatchF env key (if alias then out else input) input.length out start)
    out (blockStarts input.length kBatchSize)

end Aes128FixedKeyHash

/-- Body of the loop over levels of `EvaluateSeedsNoHwy` (/repo/dpf/internal/evaluate_prg_hwy.cc:576-629). -/
def noHwyLevelF (env : Env) (keyL keyR : U128) (numSeeds numLevels numCw : Nat)
    (seedsIn : List U128) (controlIn : List Bool) (paths : List U128) (rightshift : Int)
    (corr : CorrArrays) (alias : Bool) (start batch : Nat)
    (st : List U128 × List Bool) (level : Nat) : Faulty (List U128 × List Bool) := do
  let (seedsOut, controlOut) := st
  let fromIn := level == 0 && !alias
  let seeds ← lift (slice (if fromIn then seedsIn else seedsOut) start batch)
  let left ← Aes128FixedKeyHash.evaluateF env keyL false seeds (List.replicate batch 0)
  let right ← Aes128FixedKeyHash.evaluateF env keyR false seeds (List.replicate batch 0)
  let bitIndex ← lift (intRange ((numLevels : Int) - level - 1 + rightshift))
  let sel ← lift (selectBatch paths bitIndex left right start batch)
  let seedsOut ← lift (writeAt seedsOut start (sel.map (·.2)))
  let control ← lift (slice (if fromIn then controlIn else controlOut) start batch)
  let res ← lift (correctBatch numSeeds numLevels numCw level corr sel control start batch)
  let seedsOut ← lift (writeAt seedsOut start (res.map (·.1)))
  let controlOut ← lift (writeAt controlOut start (res.map (·.2)))
  lift (ok (seedsOut, controlOut))

/-- `EvaluateSeedsNoHwy` (/repo/dpf/internal/evaluate_prg_hwy.cc:552-634). -/
def evaluateSeedsNoHwyF (env : Env) (keyL keyR : U128) (numSeeds numLevels numCw : Nat)
    (seedsIn : List U128) (controlIn : List Bool) (paths : List U128) (rightshift : Int)
    (corr : CorrArrays) (alias : Bool) (seedsOut : List U128) (controlOut : List Bool) :
    Faulty (List U128 × List Bool) :=
  fold (fun st start =>
    let batch := min (numSeeds - start) Aes128FixedKeyHash.kBatchSize
    fold (noHwyLevelF env keyL keyR numSeeds numLevels numCw seedsIn controlIn paths rightshift
      corr alias start batch) st (List.range numLevels))
    (seedsOut, controlOut) (blockStarts numSeeds Aes128FixedKeyHash.kBatchSize)

/-- `EvaluateSeedsHwy` (/repo/dpf/internal/evaluate_prg_hwy.cc:150-539): the keys of both generators are expanded
(lines 188-197), and a buffer is allocated for the last, incomplete vector (lines 468-471). -/
def evaluateSeedsHwyF (h : HwyEnv) (env : Env) (keyL keyR : U128) (numSeeds numLevels numCw : Nat)
    (seedsIn : List U128) (controlIn : List Bool) (paths : List U128) (rightshift : Int)
    (corr : CorrArrays) (alias : Bool) (seedsOut : List U128) (controlOut : List Bool) :
    Faulty (List U128 × List Bool) :=
  if numSeeds = 0 ∨ numLevels = 0 then lift (ok (seedsOut, controlOut))
  else if h.aligned = false ∨ h.lanes < 16 ∨ h.lanes % 16 ≠ 0 then
    evaluateSeedsNoHwyF env keyL keyR numSeeds numLevels numCw seedsIn controlIn paths rightshift corr
      alias seedsOut controlOut
  else do
    call .internal
    call .internal
    let numBytes := numSeeds * 16
    let blocks := h.lanes / 16
    let perLevel := numCw / numLevels
    let fours := numBytes / (4 * h.lanes)
    let st ← lift (foldRes (fun st k => hwyFour h keyL keyR blocks numLevels perLevel seedsIn controlIn paths
      rightshift corr alias (k * (4 * h.lanes) / 16) st) (seedsOut, controlOut) (List.range fours))
    let i := fours * (4 * h.lanes)
    let ones := (numBytes - i) / h.lanes
    let st ← lift (foldRes (fun st k => hwyOne h keyL keyR blocks numLevels perLevel seedsIn controlIn paths
      rightshift corr alias ((i + k * h.lanes) / 16) st) st (List.range ones))
    let i := i + ones * h.lanes
    let rest := numSeeds - i / 16
    if rest > 0 then do
      call .resourceExhausted
      lift (hwyRest h keyL keyR blocks numLevels perLevel seedsIn controlIn paths rightshift corr alias
        (i / 16) rest st)
    else lift (ok st)

/-- `dpf_internal::EvaluateSeeds` (/repo/dpf/internal/evaluate_prg_hwy.cc:638-658). -/
def evaluateSeedsInternalF (env : Env) (keyL keyR : U128) (numSeeds numLevels : Nat) (numCwInt : Int)
    (seedsIn : List U128) (controlIn : List Bool) (paths : List U128) (rightshift : Int)
    (corr : CorrArrays) (alias : Bool) (seedsOut : List U128) (controlOut : List Bool) :
    Faulty (List U128 × List Bool) := do
  lift (failIf (numCwInt ≠ numLevels ∧ numCwInt ≠ ((numLevels * numSeeds : Nat) : Int)) .invalidArgument)
  let numCw := numCwInt.toNat
  match env.target numSeeds numLevels numCw seedsIn paths with
  | none =>
    evaluateSeedsNoHwyF env keyL keyR numSeeds numLevels numCw seedsIn controlIn paths rightshift
      corr alias seedsOut controlOut
  | some target =>
    evaluateSeedsHwyF target.toHwyEnv env keyL keyR numSeeds numLevels numCw seedsIn controlIn paths
      rightshift corr alias seedsOut controlOut

/-- `DistributedPointFunction::EvaluateSeeds` (/repo/dpf/distributed_point_function.cc:243-289); the array of correction
seeds is allocated in lines 263-266. -/
def evaluateSeedsF (env : Env) (ev : DpfExpansion) (paths : List U128)
    (cws : List CorrectionWord) : Faulty DpfExpansion := do
  lift (failIf (ev.seeds.length ≠ ev.controlBits.length ∨ ev.seeds.length ≠ paths.length) .invalidArgument)
  if ev.seeds.length = 0 ∨ cws.length = 0 then lift (ok ev)
  else do
    call .resourceExhausted
    let corr : CorrArrays :=
      ⟨cws.map (·.seed), cws.map (·.controlLeft), cws.map (·.controlRight)⟩
    let (s, c) ← evaluateSeedsInternalF env kPrgKeyLeft kPrgKeyRight ev.seeds.length cws.length
      cws.length ev.seeds ev.controlBits paths 0 corr true ev.seeds ev.controlBits
    lift (ok ⟨s, c⟩)

/-- One expansion of all seeds (/repo/dpf/distributed_point_function.cc:331-372). -/
def expandLevelF (env : Env) (ev : DpfExpansion) (cw : CorrectionWord) : Faulty DpfExpansion :=
  fold (fun (next : DpfExpansion) start => do
    let batch := min (ev.seeds.length - start) Aes128FixedKeyHash.kBatchSize
    let seeds ← lift (slice ev.seeds start batch)
    let left ← Aes128FixedKeyHash.evaluateF env kPrgKeyLeft false seeds (List.replicate batch 0)
    let right ← Aes128FixedKeyHash.evaluateF env kPrgKeyRight false seeds (List.replicate batch 0)
    let m ← lift (mergeBatch cw left right ev.controlBits start batch)
    lift (ok ⟨next.seeds ++ m.map (·.1), next.controlBits ++ m.map (·.2)⟩))
    ⟨[], []⟩ (blockStarts ev.seeds.length Aes128FixedKeyHash.kBatchSize)

/-- `ExpandSeeds` (/repo/dpf/distributed_point_function.cc:291-375); two buffers are allocated in lines 314-317 and
323-326. -/
def expandSeedsF (env : Env) (ev : DpfExpansion) (cws : List CorrectionWord) : Faulty DpfExpansion := do
  call .resourceExhausted
  call .resourceExhausted
  if ev.controlBits.length * 2 ^ cws.length < 2 ^ 64 then fold (expandLevelF env) ev cws else lift ub

namespace Dpf
variable (d : Dpf)

/-- `ComputeValueCorrection` (/repo/dpf/distributed_point_function.cc:83-119). -/
def computeValueCorrectionF (env : Env) (h : Nat) (seeds : U128 × U128) (alpha : U128)
    (beta : Value) (invert : Bool) : Faulty (List Value) := do
  let k ← lift (rd d.blocksNeeded h)
  let expanded := iota seeds.1 k ++ iota seeds.2 k
  let expanded ← Aes128FixedKeyHash.evaluateF env kPrgKeyValue true expanded expanded
  let indexInBlock ← lift (d.domainToBlockIndex alpha h)
  let p ← lift (d.param h)
  let func ← lift (d.getValueCorrectionFunction p)
  lift (func (blocksBytes (expanded.take k)) (blocksBytes (expanded.drop k)) indexInBlock beta invert)

/-- Value correction part of `GenerateNext` (/repo/dpf/distributed_point_function.cc:136-151). -/
def valueCorrectionAtF (env : Env) (treeLevel : Nat) (alpha : U128) (beta : List Value)
    (st : GenState) : Faulty (List Value) :=
  match d.pv.treeToHierarchy.lookup (treeLevel - 1) with
  | some h => do
    let p ← lift (d.param h)
    let last ← lift d.lastLog
    let shift := last - p.logDomainSize
    let alphaPrefix ← lift (if shift < 128 then shr128 alpha shift else ok 0)
    let b ← lift (rd beta h)
    d.computeValueCorrectionF env h st.seeds alphaPrefix b st.control.2
  | none => lift (ok [])

/-- The rest of `GenerateNext` (/repo/dpf/distributed_point_function.cc:163-222), which calls nothing that fails: `l` and
`r` are the expanded seeds, `vc` the value correction. -/
def finishNext (alpha : U128) (st : GenState) (treeLevel : Nat) (vc : List Value) (l r : List U128) :
    Res GenState := do
  let l0 ← rd l 0
  let l1 ← rd l 1
  let r0 ← rd r 0
  let r1 ← rd r 1
  let tl0 := lowestBit l0
  let tl1 := lowestBit l1
  let tr0 := lowestBit r0
  let tr1 := lowestBit r1
  let l0 := clearLowestBit l0
  let l1 := clearLowestBit l1
  let r0 := clearLowestBit r0
  let r1 := clearLowestBit r1
  let bitPos := (← d.lastLog) - treeLevel
  let currentBit ← pathBit alpha bitPos
  let seedCorrection := if currentBit then l0 ^^^ l1 else r0 ^^^ r1
  let ccLeft := tl0 ^^ tl1 ^^ currentBit ^^ true
  let ccRight := tr0 ^^ tr1 ^^ currentBit
  let ccKeep := if currentBit then ccRight else ccLeft
  let s0 := if currentBit then r0 else l0
  let s1 := if currentBit then r1 else l1
  let s0 := if st.control.1 then s0 ^^^ seedCorrection else s0
  let s1 := if st.control.2 then s1 ^^^ seedCorrection else s1
  let t0 := (if currentBit then tr0 else tl0) ^^ (st.control.1 && ccKeep)
  let t1 := (if currentBit then tr1 else tl1) ^^ (st.control.2 && ccKeep)
  let cw : CorrectionWord := ⟨seedCorrection, ccLeft, ccRight, vc⟩
  ok ⟨(s0, s1), (t0, t1), st.cws0 ++ [cw], st.cws1 ++ [cw]⟩

/-- `GenerateNext` (/repo/dpf/distributed_point_function.cc:123-224). -/
def generateNextF (env : Env) (alpha : U128) (beta : List Value) (st : GenState)
    (treeLevel : Nat) : Faulty GenState := do
  let vc ← d.valueCorrectionAtF env treeLevel alpha beta st
  let l ← Aes128FixedKeyHash.evaluateF env kPrgKeyLeft false [st.seeds.1, st.seeds.2] [0, 0]
  let r ← Aes128FixedKeyHash.evaluateF env kPrgKeyRight false [st.seeds.1, st.seeds.2] [0, 0]
  lift (d.finishNext alpha st treeLevel vc l r)

/-- `GenerateKeysIncremental` for `Value`s (/repo/dpf/distributed_point_function.cc:645-713). -/
def generateKeysIncrementalF (env : Env) (alpha : U128) (beta : List Value) (seed0 seed1 : U128) :
    Faulty (DpfKey × DpfKey) := do
  lift (d.checkKeyGenArgs alpha beta)
  let st ← fold (d.generateNextF env alpha beta) ⟨(seed0, seed1), (false, true), [], []⟩
    ((List.range (d.pv.treeLevelsNeeded - 1)).map (· + 1))
  let n := d.pv.parameters.length
  let betaLast ← lift (rd beta (beta.length - 1))
  let last ← d.computeValueCorrectionF env (n - 1) st.seeds alpha betaLast st.control.2
  lift (ok (⟨some seed0, st.cws0, 0, last⟩, ⟨some seed1, st.cws1, 1, last⟩))

/-- The starting points of `ComputePartialEvaluations` (/repo/dpf/distributed_point_function.cc:383-448); the seeds are
allocated in lines 412-416 and 436-440. -/
def startPartialsF (prefixes : List U128) (startLevel stopLevel : Nat) (ctx : EvaluationContext) :
    Faulty (DpfExpansion × Nat) :=
  if ctx.partialEvaluations ≠ [] ∧ startLevel ≤ stopLevel then do
    let m ← lift (partialsMap ctx.partialEvaluations)
    call .resourceExhausted
    let sel ← lift (mapRes (selectPartial m ((stopLevel : Int) - startLevel)) prefixes)
    lift (ok (⟨sel.map (·.1), sel.map (·.2)⟩, startLevel))
  else do
    call .resourceExhausted
    lift (ok (⟨List.replicate prefixes.length ctx.keyD.seedBlock,
         List.replicate prefixes.length (decide (ctx.keyD.party ≠ 0))⟩, 0))

/-- `ComputePartialEvaluations` (/repo/dpf/distributed_point_function.cc:377-479). The context is modified only on
success. -/
def computePartialEvaluationsF (env : Env) (prefixes : List U128) (h : Int) (updateCtx : Bool)
    (ctx : EvaluationContext) : Faulty (DpfExpansion × EvaluationContext) := do
  let startLevel ← lift (rdInt d.pv.hierarchyToTree ctx.partialEvaluationsLevel)
  let stopLevel ← lift (rdInt d.pv.hierarchyToTree h)
  let (start, startLevel) ← startPartialsF prefixes startLevel stopLevel ctx
  let cws ← lift (subspan ctx.keyD.correctionWords startLevel ((stopLevel : Int) - startLevel))
  let ev ← evaluateSeedsF env start prefixes cws
  let newPartials := if updateCtx then
      List.zipWith (fun x (sc : U128 × Bool) => PartialEvaluation.mk x sc.1 sc.2) prefixes
        (ev.seeds.zip ev.controlBits)
    else []
  lift (ok (ev, { ctx with partialEvaluations := newPartials, partialEvaluationsLevel := h }))

/-- The last part of `ExpandAndUpdateContext` (/repo/dpf/distributed_point_function.cc:511-523), on a context that may
have been changed. -/
def expandFromF (env : Env) (h : Nat) (sel : DpfExpansion) (startLevel : Nat) (ctx : EvaluationContext) :
    FaultyOn EvaluationContext DpfExpansion :=
  keepF (lift (rd d.pv.hierarchyToTree h)) ctx fun stopLevel =>
  keepF (lift (subspan ctx.keyD.correctionWords startLevel ((stopLevel : Int) - startLevel))) ctx fun cws =>
  keepF (expandSeedsF env sel cws) ctx fun ev =>
  endF (ok ev) { ctx with previousHierarchyLevel := h }

/-- `ExpandAndUpdateContext` (/repo/dpf/distributed_point_function.cc:481-524); a seed is allocated in lines 491-494. -/
def expandAndUpdateContextF (env : Env) (h : Nat) (prefixes : List U128) (ctx : EvaluationContext) :
    FaultyOn EvaluationContext DpfExpansion :=
  if prefixes = [] then
    keepF (call .resourceExhausted) ctx fun _ =>
    d.expandFromF env h ⟨[ctx.keyD.seedBlock], [decide (ctx.keyD.party ≠ 0)]⟩ 0 ctx
  else
    let updateCtx := decide ((h : Int) < (d.pv.parameters.length : Int) - 1)
    keepF (d.computePartialEvaluationsF env prefixes ctx.previousHierarchyLevel updateCtx ctx) ctx fun (sel, ctx) =>
    keepF (lift (rdInt d.pv.hierarchyToTree ctx.previousHierarchyLevel)) ctx fun startLevel =>
    d.expandFromF env h sel startLevel ctx

/-- `HashExpandedSeeds` (/repo/dpf/distributed_point_function.cc:526-550); the result is allocated in lines 531-535. -/
def hashExpandedSeedsF (env : Env) (h : Nat) (expansion : List U128) : Faulty (List U128) := do
  let k ← lift (rd d.blocksNeeded h)
  call .resourceExhausted
  let buf := expansion.flatMap fun s => iota s k
  Aes128FixedKeyHash.evaluateF env kPrgKeyValue true buf buf

/-- Final part of `EvaluateUntil<T>` after the seeds are hashed (/repo/dpf/distributed_point_function.h:826-899), which
calls nothing that fails. -/
def correctUntil {α : Type} (H : Helper α) (h gap : Nat) (prefixes : List U128)
    (treeIndices : List U128) (prefixMap : List (Nat × Nat)) (key : DpfKey) (ev : DpfExpansion) (hashed : List U128) :
    Res (List α) := do
  let corr ← d.getValueCorrectionAsArray H key h
  let bits ← d.blockIndexBits h
  if bits < 0 ∨ bits ≥ 31 then ub else do
  let cepb := 2 ^ bits.toNat
  let k ← rd d.blocksNeeded h
  let blocks ← mapRes (fun i => do
    correctBlock H hashed k corr key.party cepb i (← rd ev.controlBits i))
    (List.range ev.controlBits.length)
  let corrected := blocks.flatten
  if prefixes = [] then ok corrected
  else do
    let bptp : Int := ((ev.controlBits.length / treeIndices.length : Nat) : Int).bmod (2 ^ 32)
    let parts ← mapRes (fun (pm : Nat × Nat) => do
      let start : Int := pm.1 * bptp * cepb + pm.2 * 2 ^ gap
      if start < 0 then ub else slice corrected start.toNat (2 ^ gap)) prefixMap
    ok parts.flatten

/-- `EvaluateUntil<T>` (/repo/dpf/distributed_point_function.h:698-900). -/
def evaluateUntilF {α : Type} (env : Env) (H : Helper α) (h : Int) (prefixes : List U128)
    (ctx : EvaluationContext) : FaultyOn EvaluationContext (List α) :=
  keepF (lift (d.checkEvaluateUntil H h prefixes ctx)) ctx fun (hN, prevH, gap) =>
  keepF (lift (d.dedupPrefixes prevH prefixes)) ctx fun (treeIndices, prefixMap) =>
  thenF (d.expandAndUpdateContextF env hN treeIndices ctx) fun ev ctx' =>
  keepF (d.hashExpandedSeedsF env hN ev.seeds) ctx' fun hashed =>
  endF (d.correctUntil H hN gap prefixes treeIndices prefixMap ctx'.keyD ev hashed) ctx'

/-- `EvaluateNext<T>` (/repo/dpf/distributed_point_function.h:327-336). -/
def evaluateNextF {α : Type} (env : Env) (H : Helper α) (prefixes : List U128)
    (ctx : EvaluationContext) : FaultyOn EvaluationContext (List α) :=
  if prefixes = [] then d.evaluateUntilF env H 0 prefixes ctx
  else d.evaluateUntilF env H (ctx.previousHierarchyLevel + 1) prefixes ctx

/-- Tree indices of the points (/repo/dpf/distributed_point_function.h:969-988), allocated in lines 973-977. -/
def treeIndicesForF {α : Type} (H : Helper α) (h : Nat) (points : List U128) : Faulty (List U128) :=
  if H.elementsPerBlock > 1 then do
    call .resourceExhausted
    lift (mapRes (fun x => d.domainToTreeIndex x h) points)
  else lift (ok points)

/-- Final part of `EvaluateAtImpl<T>` after the seeds are hashed (/repo/dpf/distributed_point_function.h:1045-1072), which
calls nothing that fails. -/
def correctAt {α : Type} (H : Helper α) (key : DpfKey) (h : Nat) (points : List U128)
    (ev : DpfExpansion) (hashed : List U128) : Res (List α) := do
  let corr ← d.getValueCorrectionAsArray H key h
  let k ← rd d.blocksNeeded h
  mapRes (fun i => do
    let elems ← H.convertBytesToArrayOf (blocksBytes (← slice hashed (i * k) k))
    let b ← if H.elementsPerBlock > 1 then do d.domainToBlockIndex (← rd points i) h else ok 0
    let e ← rd elems b
    let c ← rd ev.controlBits i
    let e ← if c then do ok (H.add e (← rd corr b)) else ok e
    ok (if key.party = 1 then H.neg e else e)) (List.range points.length)

/-- Final part of `EvaluateAtImpl<T>` (/repo/dpf/distributed_point_function.h:1022-1072). -/
def finishAtF {α : Type} (env : Env) (H : Helper α) (key : DpfKey) (h : Nat) (points : List U128)
    (treeIndices : List U128) (sel : DpfExpansion) (startLevel : Nat) : Faulty (List α) := do
  let stopLevel ← lift (rd d.pv.hierarchyToTree h)
  let cws ← lift (subspan key.correctionWords startLevel ((stopLevel : Int) - startLevel))
  let ev ← evaluateSeedsF env sel treeIndices cws
  let hashed ← d.hashExpandedSeedsF env h ev.seeds
  lift (d.correctAt H key h points ev hashed)

/-- `EvaluateAt<T>(key, hierarchy_level, points)` (/repo/dpf/distributed_point_function.h:352-357, 922-1079); the seeds
are allocated in lines 999-1003. -/
def evaluateAtF {α : Type} (env : Env) (H : Helper α) (key : DpfKey) (h : Int)
    (points : List U128) : Faulty (List α) := do
  let hN ← lift (d.checkEvaluateAt key h points)
  if points = [] then lift (ok [])
  else do
    let treeIndices ← d.treeIndicesForF H hN points
    call .resourceExhausted
    let sel : DpfExpansion := ⟨List.replicate points.length key.seedBlock,
      List.replicate points.length (decide (key.party ≠ 0))⟩
    d.finishAtF env H key hN points treeIndices sel 0

/-- `EvaluateAt<T>(hierarchy_level, points, ctx)` (/repo/dpf/distributed_point_function.h:375-381, 922-1079). -/
def evaluateAtCtxF {α : Type} (env : Env) (H : Helper α) (h : Int) (points : List U128)
    (ctx : EvaluationContext) : FaultyOn EvaluationContext (List α) :=
  keepF (lift (d.checkEvaluateAt ctx.keyD h points)) ctx fun hN =>
  if points = [] then endF (ok []) ctx
  else
    keepF (d.treeIndicesForF H hN points) ctx fun treeIndices =>
    keepF (d.computePartialEvaluationsF env treeIndices h true ctx) ctx fun (sel, ctx') =>
    keepF (lift (rd d.pv.hierarchyToTree hN)) ctx' fun startLevel =>
    keepF (d.finishAtF env H ctx'.keyD hN points treeIndices sel startLevel) ctx' fun result =>
    endF (ok result) { ctx' with previousHierarchyLevel := h }

/-- The part of `EvaluateAndApply` that moves all seeds down (/repo/dpf/distributed_point_function.h:1134-1167); the
correction seeds are allocated in lines 1134-1138. -/
def applySeedsF (env : Env) (keys : List DpfKey) (points : List U128) (treeShift : Int)
    (startLevel stopLevel : Nat) (ev : DpfExpansion) : Faulty DpfExpansion :=
  let numLevels := stopLevel - startLevel
  if stopLevel > startLevel then do
    call .resourceExhausted
    let cws ← lift (mapRes (fun i => mapRes (fun (key : DpfKey) =>
      rd key.correctionWords (startLevel + i)) keys) (List.range numLevels))
    let cws := cws.flatten
    let corr : CorrArrays :=
      ⟨cws.map (·.seed), cws.map (·.controlLeft), cws.map (·.controlRight)⟩
    let (s, c) ← evaluateSeedsInternalF env kPrgKeyLeft kPrgKeyRight keys.length numLevels
      (wrapInt32 ((numLevels * keys.length : Nat) : Int)) ev.seeds ev.controlBits points treeShift corr true
      ev.seeds ev.controlBits
    lift (ok (DpfExpansion.mk s c))
  else lift (ok ev)

/-- Body of the loop over hierarchy levels of `EvaluateAndApply` (/repo/dpf/distributed_point_function.h:1117-1200). -/
def applyLevelF {α : Type} (env : Env) (H : Helper α) (keys : List DpfKey) (points : List U128)
    (rightshift : Int) (st : ApplyState) (h : Nat) : Faulty (ApplyState × List α) := do
  let startLevel := if h > 0 then st.stopLevel else 0
  let stop ← lift (rd d.pv.hierarchyToTree h)
  let stopLevel := if h > 0 then stop else st.stopLevel
  let p ← lift (d.param h)
  let last ← lift d.lastLog
  let sum ← lift (intRange (rightshift + last))
  let domainShift := sum - p.logDomainSize
  let treeShift := sum - stop
  let ev ← applySeedsF env keys points treeShift startLevel stopLevel st.ev
  let hashed ← d.hashExpandedSeedsF env h ev.seeds
  let k ← lift (rd d.blocksNeeded h)
  let values ← lift (mapRes (d.applyValue H keys points domainShift hashed k ev.controlBits h)
    (List.range keys.length))
  lift (ok (⟨ev, stopLevel⟩, values))

/-- Loop over hierarchy levels of `EvaluateAndApply` (/repo/dpf/distributed_point_function.h:1117-1206). -/
def applyLoopF {α σ : Type} (env : Env) (H : Helper α) (keys : List DpfKey) (points : List U128)
    (rightshift : Int) (op : σ → List α → Bool × σ) :
    List Nat → ApplyState → σ → FaultyOn σ Unit
  | [], _, s => endF (ok ()) s
  | h :: hs, st, s =>
    keepF (d.applyLevelF env H keys points rightshift st h) s fun (st', values) =>
    let (continue_, s') := op s values
    if continue_ then applyLoopF env H keys points rightshift op hs st' s'
    else endF (ok ()) s'

/-- `EvaluateAndApply<T>` (/repo/dpf/distributed_point_function.h:1081-1207); the seeds are allocated in lines
1099-1102. -/
def evaluateAndApplyF {α σ : Type} (env : Env) (H : Helper α) (keys : List DpfKey)
    (points : List U128) (op : σ → List α → Bool × σ) (s : σ) (rightshift : Int) : FaultyOn σ Unit :=
  keepF (lift (failIf (points.length ≠ keys.length) .invalidArgument)) s fun _ =>
  keepF (lift (mapRes d.pv.validateDpfKey keys)) s fun _ =>
  keepF (call .resourceExhausted) s fun _ =>
  keepF (lift (rd d.pv.hierarchyToTree 0)) s fun stop =>
  d.applyLoopF env H keys points rightshift op (List.range d.pv.parameters.length)
    ⟨⟨keys.map (·.seedBlock), keys.map fun k => decide (k.party ≠ 0)⟩, stop⟩ s

end Dpf

namespace Dcf

/-- `GenerateKeys` for a `Value` (/repo/dcf/distributed_comparison_function.cc:80-102). -/
def generateKeysF (c : Dcf) (env : Env) (alpha : U128) (beta : Value) (seed0 seed1 : U128) :
    Faulty (DcfKey × DcfKey) := do
  let values ← lift (mapRes (levelValue c.logDomainSize alpha beta) (List.range c.logDomainSize.toNat))
  c.dpf.generateKeysIncrementalF env (alpha >>> 1) values seed0 seed1

/-- Evaluation of the first `numKeys` keys (/repo/dcf/distributed_comparison_function.h:149-183). -/
def batchRunF {α : Type} (c : Dcf) (env : Env) (H : Helper α) (keys : List DcfKey)
    (points : List U128) (output : List α) (numKeys : Nat) : FaultyOn (List α) Unit := fun fs =>
  let r := c.dpf.evaluateAndApplyF env H (keys.take numKeys) points
    (accumulate H c.logDomainSize numKeys points)
    ⟨ok (), 0, List.replicate output.length H.zero⟩ 1 fs
  ((r.1.1 >>= fun _ => r.1.2.status, r.1.2.output), r.2)

/-- `BatchEvaluate<T>` with an output span (/repo/dcf/distributed_comparison_function.h:125-183). -/
def batchEvaluateIntoF {α : Type} (c : Dcf) (env : Env) (H : Helper α) (keys : List DcfKey)
    (points : List U128) (output : List α) : FaultyOn (List α) Unit :=
  if keys.length ≠ points.length then endF (err .invalidArgument) output
  else if output.length ≠ keys.length then endF (err .invalidArgument) output
  else if wrapInt32 keys.length < 0 then endF crash output
  else c.batchRunF env H keys points output (wrapInt32 keys.length).toNat

/-- `BatchEvaluate<T>` returning a vector (/repo/dcf/distributed_comparison_function.h:92-103). -/
def batchEvaluateF {α : Type} (c : Dcf) (env : Env) (H : Helper α) (keys : List DcfKey)
    (points : List U128) : Faulty (List α) := fun fs =>
  let r := c.batchEvaluateIntoF env H keys points (List.replicate keys.length H.zero) fs
  (r.1.1 >>= fun _ => ok r.1.2, r.2)

/-- `Evaluate<T>` (/repo/dcf/distributed_comparison_function.h:73-83). -/
def evaluateF {α : Type} (c : Dcf) (env : Env) (H : Helper α) (key : DcfKey) (x : U128) : Faulty α := fun fs =>
  let r := c.batchEvaluateIntoF env H [key] [x] [H.zero] fs
  (r.1.1 >>= fun _ => rd r.1.2 0, r.2)

end Dcf

namespace Mic

/-- `BatchEval` (/repo/dcf/fss_gates/multiple_interval_containment.cc:211-308); the two arrays of points are allocated in
lines 235-240. -/
def batchEvalF (g : Mic) (env : Env) (keys : List MicKey) (points : List U128) : Faulty (List U128) := do
  lift (failIf (keys.length ≠ points.length) .invalidArgument)
  let N ← lift (shl128 1 g.params.logGroupSize)
  let _ ← lift (mapRes (fun x : U128 => failIf (x ≥ N) .invalidArgument) (points.take (2 ^ 31)))
  if 2 ^ 31 ≤ points.length ∨ 2 ^ 31 < keys.length * g.params.intervals.length then lift ub else do
  callTwice .resourceExhausted
  let cs := cells keys points g.params.intervals.length
  let dcfKeys := cs.map (·.key.dcfKey)
  let xp ← lift (mapRes (g.xP N) cs)
  let xq ← lift (mapRes (g.xQ N) cs)
  let sP ← g.dcf.batchEvaluateF env (uintHelper 128) dcfKeys xp
  let sQ ← g.dcf.batchEvaluateF env (uintHelper 128) dcfKeys xq
  lift (mapRes (fun (c : Cell × U128 × U128) => g.output N c.1 c.2.1 c.2.2) (cs.zip (sP.zip sQ)))

end Mic
end Verif
