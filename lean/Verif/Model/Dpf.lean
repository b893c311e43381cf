import Verif.Model.Validator
import Verif.Model.EvalSeeds
/-!
# `DistributedPointFunction` (/repo/dpf/distributed_point_function.cc and .h)
-/
namespace Verif
open Res

/-- `ValueCorrectionFunction` (/repo/dpf/distributed_point_function.h:434-436). -/
abbrev ValueCorrectionFunction := Bytes → Bytes → Nat → Value → Bool → Res (List Value)

/-- Members of `DistributedPointFunction` (/repo/dpf/distributed_point_function.h:596-641). The map
of value correction functions is keyed by the deterministic serialization of a `ValueType`, modelled
as the message itself; a later registration shadows an earlier one. -/
structure Dpf where
  pv : ProtoValidator
  blocksNeeded : List Nat
  registry : List (ValueType × ValueCorrectionFunction)

/-- `RegisterValueTypeImpl<T>` (/repo/dpf/distributed_point_function.h:648-661). -/
def registerType {α : Type} (H : Helper α)
    (reg : List (ValueType × ValueCorrectionFunction)) :
    List (ValueType × ValueCorrectionFunction) :=
  (H.toValueType, H.computeValueCorrectionFor) :: reg

/-- `RegisterValueType<T>` (/repo/dpf/distributed_point_function.h:131-134). -/
def Dpf.registerValueType {α : Type} (d : Dpf) (H : Helper α) : Dpf :=
  { d with registry := registerType H d.registry }

/-- `CreateIncremental` (/repo/dpf/distributed_point_function.cc:592-643). `blocks_needed` uses the
parameters as given (without default security parameter), as in the code. -/
def Dpf.createIncremental (fp : FpEnv) (params : List DpfParameters) : Res Dpf := do
  let pv ← ProtoValidator.create fp params
  let blocks ← mapRes (fun (p : DpfParameters) => do
    let bits ← bitsNeeded fp p.vt p.securityParameter
    let sum ← intRange (bits + 127)
    ok (sum.tdiv 128).toNat) params
  let reg := registerType (uintHelper 8) []
  let reg := registerType (uintHelper 16) reg
  let reg := registerType (uintHelper 32) reg
  let reg := registerType (uintHelper 64) reg
  let reg := registerType (uintHelper 128) reg
  ok ⟨pv, blocks, reg⟩

/-- `Create` (/repo/dpf/distributed_point_function.cc:587-590). -/
def Dpf.create (fp : FpEnv) (params : DpfParameters) : Res Dpf :=
  Dpf.createIncremental fp [params]

namespace Dpf
variable (d : Dpf)

/-- `parameters_[hierarchy_level]`. -/
def param (h : Nat) : Res DpfParameters := rd d.pv.parameters h
/-- `parameters_.back().log_domain_size()`. -/
def lastLog : Res Int := do
  match d.pv.parameters.getLast? with
  | some p => ok p.logDomainSize
  | none => ub

/-- `block_index_bits` (/repo/dpf/distributed_point_function.cc:228-229, 236-237). -/
def blockIndexBits (h : Nat) : Res Int := do
  let p ← d.param h
  let t ← rd d.pv.hierarchyToTree h
  ok (p.logDomainSize - t)

/-- `DomainToTreeIndex` (/repo/dpf/distributed_point_function.cc:226-232). -/
def domainToTreeIndex (x : U128) (h : Nat) : Res U128 := do
  shr128 x (← d.blockIndexBits h)

/-- `DomainToBlockIndex` (/repo/dpf/distributed_point_function.cc:234-241). Simplified: the cast to
`int` does not truncate (block_index_bits is at most 7 for every created DPF). -/
def domainToBlockIndex (x : U128) (h : Nat) : Res Nat := do
  let one ← shl128 1 (← d.blockIndexBits h)
  ok (x &&& (one - 1)).toNat

/-- `GetValueCorrectionFunction` (/repo/dpf/distributed_point_function.cc:570-585). -/
def getValueCorrectionFunction (p : DpfParameters) : Res ValueCorrectionFunction :=
  match d.registry.lookup p.vt with
  | some f => ok f
  | none => err .failedPrecondition

/-- `std::iota` of `k` blocks (/repo/dpf/distributed_point_function.cc:98-99, 536-540). -/
def iota (x : U128) (k : Nat) : List U128 := (List.range k).map fun j => x + BitVec.ofNat 128 j

/-- `ComputeValueCorrection` (/repo/dpf/distributed_point_function.cc:83-119). -/
def computeValueCorrection (env : Env) (h : Nat) (seeds : U128 × U128) (alpha : U128)
    (beta : Value) (invert : Bool) : Res (List Value) := do
  let k ← rd d.blocksNeeded h
  let expanded := iota seeds.1 k ++ iota seeds.2 k
  let expanded ← Aes128FixedKeyHash.evaluate env kPrgKeyValue true expanded expanded
  let indexInBlock ← d.domainToBlockIndex alpha h
  let func ← d.getValueCorrectionFunction (← d.param h)
  func (blocksBytes (expanded.take k)) (blocksBytes (expanded.drop k)) indexInBlock beta invert

/-- State of key generation: the arrays `seeds`, `control_bits` and the correction words of
`keys[0]` and `keys[1]`. -/
structure GenState where
  seeds : U128 × U128
  control : Bool × Bool
  cws0 : List CorrectionWord
  cws1 : List CorrectionWord

/-- Value correction part of `GenerateNext` (/repo/dpf/distributed_point_function.cc:136-151). -/
def valueCorrectionAt (env : Env) (treeLevel : Nat) (alpha : U128) (beta : List Value)
    (st : GenState) : Res (List Value) :=
  match d.pv.treeToHierarchy.lookup (treeLevel - 1) with
  | some h => do
    let p ← d.param h
    let shift := (← d.lastLog) - p.logDomainSize
    let alphaPrefix ← if shift < 128 then shr128 alpha shift else ok 0
    d.computeValueCorrection env h st.seeds alphaPrefix (← rd beta h) st.control.2
  | none => ok []

/-- `GenerateNext` (/repo/dpf/distributed_point_function.cc:123-224). -/
def generateNext (env : Env) (alpha : U128) (beta : List Value) (st : GenState)
    (treeLevel : Nat) : Res GenState := do
  let vc ← d.valueCorrectionAt env treeLevel alpha beta st
  let inSeeds := [st.seeds.1, st.seeds.2]
  let l ← Aes128FixedKeyHash.evaluate env kPrgKeyLeft false inSeeds [0, 0]
  let r ← Aes128FixedKeyHash.evaluate env kPrgKeyRight false inSeeds [0, 0]
  let l0 ← rd l 0
  let l1 ← rd l 1
  let r0 ← rd r 0
  let r1 ← rd r 1
  let tl0 := lowestBit l0
  let tl1 := lowestBit l1
  let tr0 := lowestBit r0
  let tr1 := lowestBit r1
  let l0 := clearLowestBit l0
  let l1 := clearLowestBit l1
  let r0 := clearLowestBit r0
  let r1 := clearLowestBit r1
  let bitPos := (← d.lastLog) - treeLevel
  let currentBit ← pathBit alpha bitPos
  let seedCorrection := if currentBit then l0 ^^^ l1 else r0 ^^^ r1
  let ccLeft := tl0 ^^ tl1 ^^ currentBit ^^ true
  let ccRight := tr0 ^^ tr1 ^^ currentBit
  let ccKeep := if currentBit then ccRight else ccLeft
  let s0 := if currentBit then r0 else l0
  let s1 := if currentBit then r1 else l1
  let s0 := if st.control.1 then s0 ^^^ seedCorrection else s0
  let s1 := if st.control.2 then s1 ^^^ seedCorrection else s1
  let t0 := (if currentBit then tr0 else tl0) ^^ (st.control.1 && ccKeep)
  let t1 := (if currentBit then tr1 else tl1) ^^ (st.control.2 && ccKeep)
  let cw : CorrectionWord := ⟨seedCorrection, ccLeft, ccRight, vc⟩
  ok ⟨(s0, s1), (t0, t1), st.cws0 ++ [cw], st.cws1 ++ [cw]⟩

/-- `ValidateValue(value, i)` (/repo/dpf/internal/proto_validator.h:75-78). -/
def validateBeta (h : Nat) (v : Value) : Res Unit := do
  let p ← d.param h
  validateValue p.vt v

/-- Argument checks of `GenerateKeysIncremental`
(/repo/dpf/distributed_point_function.cc:648-667). -/
def checkKeyGenArgs (alpha : U128) (beta : List Value) : Res Unit := do
  failIf (beta.length ≠ d.pv.parameters.length) .invalidArgument
  let _ ← mapRes (fun i => do d.validateBeta i (← rd beta i)) (List.range d.pv.parameters.length)
  let last ← d.lastLog
  if last < 128 then do
    let bound ← shl128 1 last
    failIf (alpha ≥ bound) .invalidArgument
  else ok ()

/-- `GenerateKeysIncremental` for `Value`s (/repo/dpf/distributed_point_function.cc:645-713).
`seed0`, `seed1` are the outputs of `RAND_bytes`. -/
def generateKeysIncremental (env : Env) (alpha : U128) (beta : List Value) (seed0 seed1 : U128) :
    Res (DpfKey × DpfKey) := do
  d.checkKeyGenArgs alpha beta
  let st ← foldRes (d.generateNext env alpha beta) ⟨(seed0, seed1), (false, true), [], []⟩
    ((List.range (d.pv.treeLevelsNeeded - 1)).map (· + 1))
  let n := d.pv.parameters.length
  let betaLast ← rd beta (beta.length - 1)
  let last ← d.computeValueCorrection env (n - 1) st.seeds alpha betaLast st.control.2
  ok (⟨some seed0, st.cws0, 0, last⟩, ⟨some seed1, st.cws1, 1, last⟩)

/-- `CreateEvaluationContext` (/repo/dpf/distributed_point_function.cc:715-730). An unset
`partial_evaluations_level` reads as 0. -/
def createEvaluationContext (key : DpfKey) : Res EvaluationContext := do
  d.pv.validateDpfKey key
  ok ⟨d.pv.parameters, some key, -1, [], 0⟩

/-- `absl::Span::subspan(pos, len)` where `len` was an `int` converted to `size_t`: aborts if
`pos > size()`, a negative `len` selects the whole rest. -/
def subspan {α : Type} (l : List α) (pos : Nat) (len : Int) : Res (List α) :=
  if pos > l.length then crash
  else if len < 0 then ok (l.drop pos) else ok ((l.drop pos).take len.toNat)

/-- Building `previous_partial_evaluations` (/repo/dpf/distributed_point_function.cc:391-409); the
`btree_map` is an association list. -/
def partialsMap (pes : List PartialEvaluation) : Res (List (U128 × (U128 × Bool))) :=
  foldRes (fun m pe =>
    match m.lookup pe.prefix with
    | some v => if v = (pe.seed, pe.controlBit) then ok m else err .invalidArgument
    | none => ok (m ++ [(pe.prefix, (pe.seed, pe.controlBit))])) [] pes

/-- Selecting the stored evaluation of one prefix
(/repo/dpf/distributed_point_function.cc:418-433). -/
def selectPartial (m : List (U128 × (U128 × Bool))) (gap : Int) (x : U128) :
    Res (U128 × Bool) := do
  let prev ← if gap < 128 then shr128 x gap else ok 0
  match m.lookup prev with
  | some v => ok v
  | none => err .invalidArgument

/-- The starting points of `ComputePartialEvaluations`
(/repo/dpf/distributed_point_function.cc:383-448), with the start level. -/
def startPartials (prefixes : List U128) (startLevel stopLevel : Nat) (ctx : EvaluationContext) :
    Res (DpfExpansion × Nat) :=
  if ctx.partialEvaluations ≠ [] ∧ startLevel ≤ stopLevel then do
    let m ← partialsMap ctx.partialEvaluations
    let sel ← mapRes (selectPartial m ((stopLevel : Int) - startLevel)) prefixes
    ok (⟨sel.map (·.1), sel.map (·.2)⟩, startLevel)
  else
    ok (⟨List.replicate prefixes.length ctx.keyD.seedBlock,
         List.replicate prefixes.length (decide (ctx.keyD.party ≠ 0))⟩, 0)

/-- `ComputePartialEvaluations` (/repo/dpf/distributed_point_function.cc:377-479). The context is
modified only on success. -/
def computePartialEvaluations (env : Env) (prefixes : List U128) (h : Int) (updateCtx : Bool)
    (ctx : EvaluationContext) : Res (DpfExpansion × EvaluationContext) := do
  let startLevel ← rdInt d.pv.hierarchyToTree ctx.partialEvaluationsLevel
  let stopLevel ← rdInt d.pv.hierarchyToTree h
  let (start, startLevel) ← startPartials prefixes startLevel stopLevel ctx
  let cws ← subspan ctx.keyD.correctionWords startLevel ((stopLevel : Int) - startLevel)
  let ev ← evaluateSeeds env start prefixes cws
  let newPartials := if updateCtx then
      List.zipWith (fun x (sc : U128 × Bool) => PartialEvaluation.mk x sc.1 sc.2) prefixes
        (ev.seeds.zip ev.controlBits)
    else []
  ok (ev, { ctx with partialEvaluations := newPartials, partialEvaluationsLevel := h })

/-- `ExpandAndUpdateContext` (/repo/dpf/distributed_point_function.cc:481-524). -/
def expandAndUpdateContext (env : Env) (h : Nat) (prefixes : List U128)
    (ctx : EvaluationContext) : Res (DpfExpansion × EvaluationContext) := do
  let (sel, ctx, startLevel) ←
    if prefixes = [] then
      ok ((⟨[ctx.keyD.seedBlock], [decide (ctx.keyD.party ≠ 0)]⟩ : DpfExpansion), ctx, 0)
    else do
      let updateCtx := decide ((h : Int) < (d.pv.parameters.length : Int) - 1)
      let (sel, ctx') ← d.computePartialEvaluations env prefixes ctx.previousHierarchyLevel
        updateCtx ctx
      let startLevel ← rdInt d.pv.hierarchyToTree ctx'.previousHierarchyLevel
      ok (sel, ctx', startLevel)
  let stopLevel ← rd d.pv.hierarchyToTree h
  let cws ← subspan ctx.keyD.correctionWords startLevel ((stopLevel : Int) - startLevel)
  let ev ← expandSeeds env sel cws
  ok (ev, { ctx with previousHierarchyLevel := h })

/-- `HashExpandedSeeds` (/repo/dpf/distributed_point_function.cc:526-550). -/
def hashExpandedSeeds (env : Env) (h : Nat) (expansion : List U128) : Res (List U128) := do
  let k ← rd d.blocksNeeded h
  let buf := expansion.flatMap fun s => iota s k
  Aes128FixedKeyHash.evaluate env kPrgKeyValue true buf buf

/-- `GetValueCorrectionAsArray<T>` (/repo/dpf/distributed_point_function.h:902-920), also
distributed_point_function.h:831-849. -/
def getValueCorrectionAsArray {α : Type} (H : Helper α) (key : DpfKey) (h : Nat) :
    Res (List α) := do
  let vc ← if (h : Int) < (d.pv.parameters.length : Int) - 1 then do
      let t ← rd d.pv.hierarchyToTree h
      let cw ← rd key.correctionWords t
      ok cw.valueCorrection
    else ok key.lastLevelValueCorrection
  H.valuesToArray vc

/-- Continue with a context that has already been modified: on failure the caller sees `c`. -/
def keep {α β κ : Type} (x : Res α) (c : κ) (f : α → Res β × κ) : Res β × κ :=
  match x with
  | .ok a => f a
  | .err e => (.err e, c)
  | .ub => (.ub, c)
  | .crash => (.crash, c)

/-- Argument checks of `EvaluateUntil<T>` (/repo/dpf/distributed_point_function.h:702-765). Returns
`hierarchy_level`, `previous_hierarchy_level` (0 if there is none) and
`log2(outputs_per_prefix)`. -/
def checkEvaluateUntil {α : Type} (H : Helper α) (h : Int) (prefixes : List U128)
    (ctx : EvaluationContext) : Res (Nat × Nat × Nat) := do
  d.pv.validateEvaluationContext ctx
  failIf (h < 0 ∨ h ≥ (d.pv.parameters.length : Int)) .invalidArgument
  let hN := h.toNat
  let p ← d.param hN
  let eq ← valueTypesAreEqual H.toValueType p.vt
  failIf (eq = false) .invalidArgument
  failIf (h ≤ ctx.previousHierarchyLevel) .invalidArgument
  failIf (decide (ctx.previousHierarchyLevel < 0) ≠ decide (prefixes = [])) .invalidArgument
  let prevLog ←
    if prefixes = [] then ok (0 : Int)
    else do
      let pp ← rdInt d.pv.parameters ctx.previousHierarchyLevel
      let _ ← mapRes (fun x =>
        if pp.logDomainSize < 128 then do
          let bound ← shl128 1 pp.logDomainSize
          failIf (x ≥ bound) .invalidArgument
        else ok ()) prefixes
      ok pp.logDomainSize
  failIf (p.logDomainSize - prevLog ≥ 63) .invalidArgument
  -- int64_t{1} << gap: undefined for a negative amount
  if p.logDomainSize - prevLog < 0 then ub else do
  let gap := (p.logDomainSize - prevLog).toNat
  failIf (prefixes.length * 2 ^ gap > 2 ^ 63 - 1) .invalidArgument
  ok (hN, ctx.previousHierarchyLevel.toNat, gap)

/-- De-duplication of tree indices (/repo/dpf/distributed_point_function.h:787-811): the unique
tree indices in order of first occurrence, and for each prefix the position of its tree index and
its block index. `tree_indices_inverse` is the inverse of `tree_indices`, so a lookup in it is a
search in `tree_indices`. -/
def dedupPrefixes (prevH : Nat) (prefixes : List U128) : Res (List U128 × List (Nat × Nat)) :=
  foldRes (fun (st : List U128 × List (Nat × Nat)) x => do
    let t ← d.domainToTreeIndex x prevH
    let b ← d.domainToBlockIndex x prevH
    match st.1.idxOf? t with
    | some i => ok (st.1, st.2 ++ [(i, b)])
    | none => ok (st.1 ++ [t], st.2 ++ [(st.1.length, b)])) ([], []) prefixes

/-- Value correction of one block (/repo/dpf/distributed_point_function.h:861-877): the first
`cepb` elements of the block. -/
def correctBlock {α : Type} (H : Helper α) (hashed : List U128) (k : Nat) (corr : List α)
    (party : Int) (cepb : Nat) (i : Nat) (control : Bool) : Res (List α) := do
  let elems ← H.convertBytesToArrayOf (blocksBytes (← slice hashed (i * k) k))
  mapRes (fun j => do
    let e ← rd elems j
    let e ← if control then do ok (H.add e (← rd corr j)) else ok e
    ok (if party = 1 then H.neg e else e)) (List.range cepb)

/-- Final part of `EvaluateUntil<T>` after the expansion
(/repo/dpf/distributed_point_function.h:819-899). -/
def finishUntil {α : Type} (env : Env) (H : Helper α) (h gap : Nat) (prefixes : List U128)
    (treeIndices : List U128) (prefixMap : List (Nat × Nat)) (key : DpfKey) (ev : DpfExpansion) :
    Res (List α) := do
  let hashed ← d.hashExpandedSeeds env h ev.seeds
  let corr ← d.getValueCorrectionAsArray H key h
  let bits ← d.blockIndexBits h
  -- `1 << bits` on a 32-bit int
  if bits < 0 ∨ bits ≥ 31 then ub else do
  let cepb := 2 ^ bits.toNat
  let k ← rd d.blocksNeeded h
  let blocks ← mapRes (fun i => do
    correctBlock H hashed k corr key.party cepb i (← rd ev.controlBits i))
    (List.range ev.controlBits.length)
  let corrected := blocks.flatten
  if prefixes = [] then ok corrected
  else do
    -- `int blocks_per_tree_prefix = size_t / size_t`: truncation to 32 bits
    let bptp : Int := ((ev.controlBits.length / treeIndices.length : Nat) : Int).bmod (2 ^ 32)
    let parts ← mapRes (fun (pm : Nat × Nat) => do
      let start : Int := pm.1 * bptp * cepb + pm.2 * 2 ^ gap
      if start < 0 then ub else slice corrected start.toNat (2 ^ gap)) prefixMap
    ok parts.flatten

/-- `EvaluateUntil<T>` (/repo/dpf/distributed_point_function.h:698-900): result and context
afterwards. -/
def evaluateUntil {α : Type} (env : Env) (H : Helper α) (h : Int) (prefixes : List U128)
    (ctx : EvaluationContext) : Res (List α) × EvaluationContext :=
  keep (d.checkEvaluateUntil H h prefixes ctx) ctx fun (hN, prevH, gap) =>
  keep (d.dedupPrefixes prevH prefixes) ctx fun (treeIndices, prefixMap) =>
  keep (d.expandAndUpdateContext env hN treeIndices ctx) ctx fun (ev, ctx') =>
  (d.finishUntil env H hN gap prefixes treeIndices prefixMap ctx'.keyD ev, ctx')

/-- `EvaluateNext<T>` (/repo/dpf/distributed_point_function.h:327-336). -/
def evaluateNext {α : Type} (env : Env) (H : Helper α) (prefixes : List U128)
    (ctx : EvaluationContext) : Res (List α) × EvaluationContext :=
  if prefixes = [] then d.evaluateUntil env H 0 prefixes ctx
  else d.evaluateUntil env H (ctx.previousHierarchyLevel + 1) prefixes ctx

/-- Argument checks of `EvaluateAtImpl<T>` (/repo/dpf/distributed_point_function.h:933-961). -/
def checkEvaluateAt (key : DpfKey) (h : Int) (points : List U128) : Res Nat := do
  failIf (h < 0) .invalidArgument
  failIf (h ≥ (d.pv.parameters.length : Int)) .invalidArgument
  let hN := h.toNat
  let p ← d.param hN
  let maxPoint ← if p.logDomainSize < 128 then do
      let one ← shl128 1 p.logDomainSize
      ok (one - 1)
    else ok (BitVec.allOnes 128)
  let _ ← mapRes (fun x => failIf (x > maxPoint) .invalidArgument) points
  d.pv.validateDpfKey key
  ok hN

/-- Tree indices of the points (/repo/dpf/distributed_point_function.h:969-988). -/
def treeIndicesFor {α : Type} (H : Helper α) (h : Nat) (points : List U128) : Res (List U128) :=
  if H.elementsPerBlock > 1 then mapRes (fun x => d.domainToTreeIndex x h) points else ok points

/-- Final part of `EvaluateAtImpl<T>` after the partial evaluations are known
(/repo/dpf/distributed_point_function.h:1022-1072). -/
def finishAt {α : Type} (env : Env) (H : Helper α) (key : DpfKey) (h : Nat) (points : List U128)
    (treeIndices : List U128) (sel : DpfExpansion) (startLevel : Nat) : Res (List α) := do
  let stopLevel ← rd d.pv.hierarchyToTree h
  let cws ← subspan key.correctionWords startLevel ((stopLevel : Int) - startLevel)
  let ev ← evaluateSeeds env sel treeIndices cws
  let hashed ← d.hashExpandedSeeds env h ev.seeds
  let corr ← d.getValueCorrectionAsArray H key h
  let k ← rd d.blocksNeeded h
  mapRes (fun i => do
    let elems ← H.convertBytesToArrayOf (blocksBytes (← slice hashed (i * k) k))
    let b ← if H.elementsPerBlock > 1 then do d.domainToBlockIndex (← rd points i) h else ok 0
    let e ← rd elems b
    let c ← rd ev.controlBits i
    let e ← if c then do ok (H.add e (← rd corr b)) else ok e
    ok (if key.party = 1 then H.neg e else e)) (List.range points.length)

/-- `EvaluateAtImpl<T>` without a context, i.e. `EvaluateAt<T>(key, hierarchy_level, points)`
(/repo/dpf/distributed_point_function.h:352-357, 922-1079). -/
def evaluateAt {α : Type} (env : Env) (H : Helper α) (key : DpfKey) (h : Int)
    (points : List U128) : Res (List α) := do
  let hN ← d.checkEvaluateAt key h points
  if points = [] then ok []
  else do
    let treeIndices ← d.treeIndicesFor H hN points
    let sel : DpfExpansion := ⟨List.replicate points.length key.seedBlock,
      List.replicate points.length (decide (key.party ≠ 0))⟩
    d.finishAt env H key hN points treeIndices sel 0

/-- `EvaluateAt<T>(hierarchy_level, points, ctx)`
(/repo/dpf/distributed_point_function.h:375-381, 922-1079): result and context afterwards. -/
def evaluateAtCtx {α : Type} (env : Env) (H : Helper α) (h : Int) (points : List U128)
    (ctx : EvaluationContext) : Res (List α) × EvaluationContext :=
  keep (d.checkEvaluateAt ctx.keyD h points) ctx fun hN =>
  if points = [] then (ok [], ctx)
  else
    keep (d.treeIndicesFor H hN points) ctx fun treeIndices =>
    keep (d.computePartialEvaluations env treeIndices h true ctx) ctx fun (sel, ctx') =>
    keep (rd d.pv.hierarchyToTree hN) ctx' fun startLevel =>
    keep (d.finishAt env H ctx'.keyD hN points treeIndices sel startLevel) ctx' fun result =>
    (ok result, { ctx' with previousHierarchyLevel := h })

/-- State of `EvaluateAndApply` between levels: seeds, control bits, `stop_level`. -/
structure ApplyState where
  ev : DpfExpansion
  stopLevel : Nat

/-- The part of `EvaluateAndApply` that moves all seeds down to the current tree level
(/repo/dpf/distributed_point_function.h:1134-1167). The number of correction words, a 64-bit product, is
converted to the `int` parameter of `dpf_internal::EvaluateSeeds`. -/
def applySeeds (env : Env) (keys : List DpfKey) (points : List U128) (treeShift : Int)
    (startLevel stopLevel : Nat) (ev : DpfExpansion) : Res DpfExpansion :=
  let numLevels := stopLevel - startLevel
  if stopLevel > startLevel then do
    let cws ← mapRes (fun i => mapRes (fun (key : DpfKey) =>
      rd key.correctionWords (startLevel + i)) keys) (List.range numLevels)
    let cws := cws.flatten
    let corr : CorrArrays :=
      ⟨cws.map (·.seed), cws.map (·.controlLeft), cws.map (·.controlRight)⟩
    let (s, c) ← evaluateSeedsInternal env kPrgKeyLeft kPrgKeyRight keys.length numLevels
      (wrapInt32 ((numLevels * keys.length : Nat) : Int)) ev.seeds ev.controlBits points treeShift corr true
      ev.seeds ev.controlBits
    ok (DpfExpansion.mk s c)
  else ok ev

/-- `block_index` of the `i`-th point in `EvaluateAndApply`
(/repo/dpf/distributed_point_function.h:1189-1193). -/
def applyBlockIndex {α : Type} (H : Helper α) (points : List U128) (domainShift : Int) (h i : Nat) :
    Res Nat :=
  if H.elementsPerBlock > 1 ∧ domainShift < 128 then do
    d.domainToBlockIndex (← shr128 (← rd points i) domainShift) h
  else ok 0

/-- Adding the correction in `EvaluateAndApply` (/repo/dpf/distributed_point_function.h:1195-1197). -/
def addCorrection {α : Type} (H : Helper α) (corr : List α) (b : Nat) (c : Bool) (e : α) : Res α :=
  if c then do ok (H.add e (← rd corr b)) else ok e

/-- `values[i]` in `EvaluateAndApply` (/repo/dpf/distributed_point_function.h:1177-1200). -/
def applyValue {α : Type} (H : Helper α) (keys : List DpfKey) (points : List U128) (domainShift : Int)
    (hashed : List U128) (k : Nat) (ctrl : List Bool) (h i : Nat) : Res α := do
  let elems ← H.convertBytesToArrayOf (blocksBytes (← slice hashed (i * k) k))
  let key ← rd keys i
  let corr ← d.getValueCorrectionAsArray H key h
  let b ← d.applyBlockIndex H points domainShift h i
  let e ← rd elems b
  let c ← rd ctrl i
  let e ← addCorrection H corr b c e
  ok (if key.party = 1 then H.neg e else e)

/-- Body of the loop over hierarchy levels of `EvaluateAndApply`
(/repo/dpf/distributed_point_function.h:1117-1200): the new state and `values`. `sum` is the common first part of
the index shifts (lines 1125-1131); the differences do not overflow, as the logarithms are between 0 and 128. -/
def applyLevel {α : Type} (env : Env) (H : Helper α) (keys : List DpfKey) (points : List U128)
    (rightshift : Int) (st : ApplyState) (h : Nat) : Res (ApplyState × List α) := do
  let startLevel := if h > 0 then st.stopLevel else 0
  let stop ← rd d.pv.hierarchyToTree h
  let stopLevel := if h > 0 then stop else st.stopLevel
  let p ← d.param h
  let last ← d.lastLog
  let sum ← intRange (rightshift + last)
  let domainShift := sum - p.logDomainSize
  let treeShift := sum - stop
  let ev ← applySeeds env keys points treeShift startLevel stopLevel st.ev
  let hashed ← d.hashExpandedSeeds env h ev.seeds
  let k ← rd d.blocksNeeded h
  let values ← mapRes (d.applyValue H keys points domainShift hashed k ev.controlBits h)
    (List.range keys.length)
  ok (⟨ev, stopLevel⟩, values)

/-- Loop over hierarchy levels of `EvaluateAndApply`
(/repo/dpf/distributed_point_function.h:1117-1206). `op` is the callback with its own state; it
returns whether to continue. -/
def applyLoop {α σ : Type} (env : Env) (H : Helper α) (keys : List DpfKey) (points : List U128)
    (rightshift : Int) (op : σ → List α → Bool × σ) :
    List Nat → ApplyState → σ → Res Unit × σ
  | [], _, s => (ok (), s)
  | h :: hs, st, s =>
    keep (d.applyLevel env H keys points rightshift st h) s fun (st', values) =>
    let (continue_, s') := op s values
    if continue_ then applyLoop env H keys points rightshift op hs st' s'
    else (ok (), s')

/-- `EvaluateAndApply<T>` (/repo/dpf/distributed_point_function.h:1081-1207): status and final state
of the callback. -/
def evaluateAndApply {α σ : Type} (env : Env) (H : Helper α) (keys : List DpfKey)
    (points : List U128) (op : σ → List α → Bool × σ) (s : σ) (rightshift : Int) :
    Res Unit × σ :=
  keep (failIf (points.length ≠ keys.length) .invalidArgument) s fun _ =>
  keep (mapRes d.pv.validateDpfKey keys) s fun _ =>
  keep (rd d.pv.hierarchyToTree 0) s fun stop =>
  d.applyLoop env H keys points rightshift op (List.range d.pv.parameters.length)
    ⟨⟨keys.map (·.seedBlock), keys.map fun k => decide (k.party ≠ 0)⟩, stop⟩ s

end Dpf
end Verif
