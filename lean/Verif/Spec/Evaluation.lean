import Verif.Spec.Setup
/-!
# Specification: keys, contexts and call histories
-/
namespace Verif.Spec

/-- A key that is structurally well-formed for the DPF: it has a seed and an output correction for
the last level, as many correction words as the last level is deep in the tree, and an output
correction at the tree depth of every other level. -/
structure WellFormedKey (d : Dpf) (key : DpfKey) : Prop where
  seed : key.seed ≠ none
  last : key.lastLevelValueCorrection ≠ []
  depth : d.pv.hierarchyToTree.getLast? = some key.correctionWords.length
  levels : ∀ (h t : Nat) (cw : CorrectionWord), h + 1 < d.pv.parameters.length →
    d.pv.hierarchyToTree[h]? = some t → key.correctionWords[t]? = some cw → cw.valueCorrection ≠ []

/-- Two value type messages describe the same type. -/
def SameType (a b : ValueType) : Prop := ∃ c, canon a = some c ∧ canon b = some c

/-- Contexts obtained from `CreateEvaluationContext(key)` by any sequence of calls, successful or not,
with arbitrary output types, levels and points. -/
inductive History (d : Dpf) (env : Env) (key : DpfKey) : EvaluationContext → Prop
  | create {ctx : EvaluationContext} : d.createEvaluationContext key = .ok ctx → History d env key ctx
  | evalUntil {ctx : EvaluationContext} (S : Ty) (h : Int) (prefixes : List U128) :
      History d env key ctx → History d env key (d.evaluateUntil env S.helper h prefixes ctx).2
  | evalNext {ctx : EvaluationContext} (S : Ty) (prefixes : List U128) :
      History d env key ctx → History d env key (d.evaluateNext env S.helper prefixes ctx).2
  | evalAt {ctx : EvaluationContext} (S : Ty) (h : Int) (points : List U128) :
      History d env key ctx → History d env key (d.evaluateAtCtx env S.helper h points ctx).2

/-- All points of level `h`, in order. -/
def allPoints (params : List DpfParameters) (h : Nat) : List U128 :=
  (List.range (2 ^ logSize params h)).map fun x => BitVec.ofNat 128 x

/-- The points of level `h` that extend `x`, a point of level `prev`, in increasing order. -/
def extensions (params : List DpfParameters) (prev h : Nat) (x : U128) : List U128 :=
  (List.range (2 ^ (logSize params h - logSize params prev))).map fun k =>
    BitVec.ofNat 128 (x.toNat * 2 ^ (logSize params h - logSize params prev) + k)

/-- The points of level `h` an `EvaluateUntil` call returns values for, if `prev` is the level evaluated
before (negative: none): all points of the level in a first call, otherwise the extensions of the
prefixes, prefix by prefix. -/
def outputPoints (params : List DpfParameters) (prev : Int) (h : Int) (prefixes : List U128) :
    List U128 :=
  if prev < 0 then allPoints params h.toNat
  else prefixes.flatMap (extensions params prev.toNat h.toNat)

/-- Depth in the tree of level `h` (0 if there is no such level). -/
def treeDepth (d : Dpf) (h : Nat) : Nat := d.pv.hierarchyToTree.getD h 0

/-- Are two points of level `h` stored in the same block, i.e. below the same node of the tree? -/
def SameBlock (params : List DpfParameters) (d : Dpf) (h : Nat) (x y : U128) : Prop :=
  x.toNat / 2 ^ (logSize params h - treeDepth d h) = y.toNat / 2 ^ (logSize params h - treeDepth d h)

/-- The number of blocks below the block of a prefix fits a 32-bit `int` and the number of all of them 64 bits, or
all prefixes are in one block and the number of blocks below it fits 64 bits. -/
def SmallExpansion (params : List DpfParameters) (d : Dpf) (prev h : Nat) (prefixes : List U128) :
    Prop :=
  (treeDepth d h - treeDepth d prev < 31 ∧
    prefixes.length * 2 ^ (treeDepth d h - treeDepth d prev) < 2 ^ 64) ∨
  (treeDepth d h - treeDepth d prev < 64 ∧ ∀ x ∈ prefixes, ∀ y ∈ prefixes, SameBlock params d prev x y)

end Verif.Spec

namespace Verif.Spec

/-- The point of level `prev` that `x`, a point of level `h`, extends. -/
def prefixOf (params : List DpfParameters) (prev h : Nat) (x : U128) : U128 :=
  x >>> (logSize params h - logSize params prev)

/-- Log domain size of the level evaluated before; 0 if there is none. -/
def previousLogSize (params : List DpfParameters) (ctx : EvaluationContext) : Nat :=
  if ctx.previousHierarchyLevel < 0 then 0 else logSize params ctx.previousHierarchyLevel.toNat

/-- The security parameter `q` of a context fits the security parameter of the object, which is `p` or, if `p` is
zero, 40 plus the domain size in bits: they differ by at most 1/10000, or `q` is zero and the object uses about the
default. (All numbers are rounded to doubles.) -/
def SameSecurity (logDomainSize : Int) (p q : Sec) : Prop :=
  ∃ a b : Rat, p = .val a ∧ q = .val b ∧
    ((roundDouble ((if a = 0 then 40 + (logDomainSize : Rat) else a) - b)).abs ≤ roundDouble (1 / 10000) ∨
     b = 0 ∧ (roundDouble ((if a = 0 then 40 + (logDomainSize : Rat) else a) - (40 + (logDomainSize : Rat)))).abs ≤
       roundDouble (1 / 10000))

/-- The parameters `qs` of a context are those of an object created with `ps`, up to the encoding of types and rounding
of the security parameter. -/
structure SameParameters (ps qs : List DpfParameters) : Prop where
  count : qs.length = ps.length
  domain : ∀ (i : Nat) (p q : DpfParameters), ps[i]? = some p → qs[i]? = some q → p.logDomainSize = q.logDomainSize
  type : ∀ (i : Nat) (p q : DpfParameters), ps[i]? = some p → qs[i]? = some q → SameType p.vt q.vt
  security : ∀ (i : Nat) (p q : DpfParameters), ps[i]? = some p → qs[i]? = some q →
    SameSecurity p.logDomainSize p.securityParameter q.securityParameter

/-- What is wrong with a call of `EvaluateUntil` with output type `vt` on a DPF with parameters
`params`. -/
inductive BadCall (params : List DpfParameters) (d : Dpf) (vt : ValueType) (h : Int)
    (prefixes : List U128) (ctx : EvaluationContext) : Prop
  /-- The context was made for a different number of levels. -/
  | otherCount : ctx.parameters.length ≠ params.length → BadCall params d vt h prefixes ctx
  /-- The context was made for other domain sizes or value types. -/
  | otherParameters (i : Nat) (p q : DpfParameters) : params[i]? = some p →
      ctx.parameters[i]? = some q →
      p.logDomainSize ≠ q.logDomainSize ∨ ¬ SameType p.vt q.vt → BadCall params d vt h prefixes ctx
  /-- The context was made for another security parameter. -/
  | otherSecurity (i : Nat) (p q : DpfParameters) : params[i]? = some p → ctx.parameters[i]? = some q →
      ¬ SameSecurity p.logDomainSize p.securityParameter q.securityParameter → BadCall params d vt h prefixes ctx
  /-- There is no key in the context. -/
  | noKey : ctx.key = none → BadCall params d vt h prefixes ctx
  /-- The key in the context is malformed. -/
  | badKey (key : DpfKey) : ctx.key = some key → ¬ WellFormedKey d key →
      BadCall params d vt h prefixes ctx
  /-- The last level was evaluated already. -/
  | exhausted : (params.length : Int) - 1 ≤ ctx.previousHierarchyLevel →
      BadCall params d vt h prefixes ctx
  /-- Stored evaluations for a level after the one evaluated before. -/
  | badPartials : ctx.partialEvaluations ≠ [] →
      ctx.previousHierarchyLevel < ctx.partialEvaluationsLevel → BadCall params d vt h prefixes ctx
  /-- Level out of range. -/
  | level : h < 0 ∨ (params.length : Int) ≤ h → BadCall params d vt h prefixes ctx
  /-- Level not after the previous one. -/
  | notAfter : h ≤ ctx.previousHierarchyLevel → BadCall params d vt h prefixes ctx
  /-- Not the type of the level. -/
  | type (p : DpfParameters) : params[h.toNat]? = some p → ¬ SameType vt p.vt →
      BadCall params d vt h prefixes ctx
  /-- Prefixes in the first call, or none in a later one. -/
  | prefixes : ¬ (ctx.previousHierarchyLevel < 0 ↔ prefixes = []) → BadCall params d vt h prefixes ctx
  /-- A prefix outside the domain of the previous level. -/
  | outside (x : U128) : x ∈ prefixes → 0 ≤ ctx.previousHierarchyLevel →
      2 ^ previousLogSize params ctx ≤ x.toNat → BadCall params d vt h prefixes ctx
  /-- Gap of 63 bits or more. -/
  | gap : previousLogSize params ctx + 63 ≤ logSize params h.toNat → BadCall params d vt h prefixes ctx
  /-- More outputs than half the address space. -/
  | size : 2 ^ 63 ≤ prefixes.length * 2 ^ (logSize params h.toNat - previousLogSize params ctx) →
      BadCall params d vt h prefixes ctx

end Verif.Spec
