import Verif.Model.Values
/-!
# `ProtoValidator` (/repo/dpf/internal/proto_validator.cc)
-/
namespace Verif
open Res

/-- `parameters.value_type()` of a possibly absent field is the default instance. -/
def DpfParameters.vt (p : DpfParameters) : ValueType := p.valueType.getD .notSet

/-- `GetDefaultSecurityParameter` (/repo/dpf/internal/proto_validator.cc:43-46). -/
def getDefaultSecurityParameter (p : DpfParameters) : Sec := .val (40 + p.logDomainSize)

/-- `AlmostEqual` (/repo/dpf/internal/proto_validator.cc:48-50), with `kSecurityParameterEpsilon`
(/repo/dpf/internal/proto_validator.h:43): the closest double to 1/10000. -/
def almostEqual : Sec → Sec → Bool
  | .val a, .val b => decide (-roundDouble (1 / 10000) ≤ roundDouble (a - b) ∧ roundDouble (a - b) ≤ roundDouble (1 / 10000))
  | _, _ => false

/-- `security_parameter == 0`. -/
def Sec.isZero : Sec → Bool
  | .val a => decide (a = 0)
  | .nan => false

/-- `ParametersAreEqual` (/repo/dpf/internal/proto_validator.cc:52-72). -/
def parametersAreEqual (lhs rhs : DpfParameters) : Res Bool :=
  if lhs.logDomainSize ≠ rhs.logDomainSize then ok false
  else if !(almostEqual lhs.securityParameter rhs.securityParameter ||
      (lhs.securityParameter.isZero &&
        almostEqual rhs.securityParameter (getDefaultSecurityParameter rhs)) ||
      (rhs.securityParameter.isZero &&
        almostEqual lhs.securityParameter (getDefaultSecurityParameter lhs))) then ok false
  else valueTypesAreEqual lhs.vt rhs.vt

/-- `(bitsize & (bitsize - 1)) != 0` for `1 ≤ bitsize ≤ 128`. -/
def notPowerOfTwo (bitsize : Int) : Bool := bitsize.toNat &&& (bitsize.toNat - 1) != 0

/-- `ValidateIntegerType` (/repo/dpf/internal/proto_validator.cc:74-87). -/
def validateIntegerType (bitsize : Int) : Res Unit := do
  failIf (bitsize < 1) .invalidArgument
  failIf (bitsize > 128) .invalidArgument
  failIf (notPowerOfTwo bitsize = true) .invalidArgument

/-- `ValidateIntegerValue` (/repo/dpf/internal/proto_validator.cc:89-100). -/
def validateIntegerValue (value : IntegerP) (bitsize : Int) : Res Unit :=
  if bitsize < 128 then do
    let v ← valueIntegerToUint128 value
    let bound ← shl128 1 bitsize
    failIf (v ≥ bound) .invalidArgument
  else ok ()

mutual
/-- `ValidateValueType` (/repo/dpf/internal/proto_validator.cc:269-287). -/
def validateValueType : ValueType → Res Unit
  | .integer b => validateIntegerType b
  | .tuple els => validateValueTypes els
  | .intModN b m => validateIntegerType b >>= fun _ => validateIntegerValue m b
  | .xorWrapper b => validateIntegerType b
  | .notSet => err .invalidArgument
/-- Loop over the elements of a tuple type (/repo/dpf/internal/proto_validator.cc:273-275). -/
def validateValueTypes : List ValueType → Res Unit
  | [] => ok ()
  | el :: els => validateValueType el >>= fun _ => validateValueTypes els
end

/-- `value.int_mod_n()` of a value of another case is the default (unset) integer. -/
def Value.getIntModN : Value → IntegerP
  | .intModN i => i
  | _ => .notSet

mutual
/-- `ValidateValue(value, type)` (/repo/dpf/internal/proto_validator.cc:289-333). -/
def validateValue : ValueType → Value → Res Unit
  | .integer b, v =>
    match v with
    | .integer i => validateIntegerValue i b
    | _ => err .invalidArgument
  | .tuple ts, v =>
    match v with
    | .tuple vs =>
      if vs.length ≠ ts.length then err .invalidArgument else validateValues ts vs
    | _ => err .invalidArgument
  | .intModN b m, v =>
    validateIntegerValue v.getIntModN b >>= fun _ =>
    valueIntegerToUint128 v.getIntModN >>= fun v128 =>
    valueIntegerToUint128 m >>= fun m128 =>
    failIf (v128 ≥ m128) .invalidArgument
  | .xorWrapper b, v =>
    match v with
    | .xorWrapper i => validateIntegerValue i b
    | _ => err .invalidArgument
  | .notSet, _ => err .invalidArgument
/-- Loop over the elements of a tuple (/repo/dpf/internal/proto_validator.cc:307-310). -/
def validateValues : List ValueType → List Value → Res Unit
  | t :: ts, v :: vs => validateValue t v >>= fun _ => validateValues ts vs
  | _, _ => ok ()
end

/-- `i > 0 && log_domain_size <= previous_log_domain_size`
(/repo/dpf/internal/proto_validator.cc:178-182). -/
def notAscending : Option Int → Int → Bool
  | some prev, l => decide (l ≤ prev)
  | none, _ => false

/-- `security_parameter < 0 || security_parameter > 128`
(/repo/dpf/internal/proto_validator.cc:194-195). -/
def Sec.outOfRange : Sec → Bool
  | .val q => decide (q < 0 ∨ q > 128)
  | .nan => false

/-- Body of the loop of `ValidateParameters` (/repo/dpf/internal/proto_validator.cc:168-201).
`prev` is `previous_log_domain_size`, or `none` for `i = 0`. -/
def validateOneParameter (prev : Option Int) (p : DpfParameters) : Res (Option Int) := do
  failIf (p.logDomainSize < 0) .invalidArgument
  failIf (p.logDomainSize > 128) .invalidArgument
  failIf (notAscending prev p.logDomainSize = true) .invalidArgument
  match p.valueType with
  | some t => validateValueType t
  | none => err .invalidArgument
  failIf (p.securityParameter = .nan) .invalidArgument
  failIf (p.securityParameter.outOfRange = true) .invalidArgument
  ok (some p.logDomainSize)

/-- `ProtoValidator::ValidateParameters` (/repo/dpf/internal/proto_validator.cc:160-203). -/
def validateParameters (params : List DpfParameters) : Res Unit := do
  failIf (params = []) .invalidArgument
  let _ ← foldRes validateOneParameter none params
  ok ()

/-- Setting the default security parameter (/repo/dpf/internal/proto_validator.cc:118-125). -/
def withDefaultSecurity (p : DpfParameters) : DpfParameters :=
  if p.securityParameter.isZero then { p with securityParameter := getDefaultSecurityParameter p }
  else p

/-- `static_cast<int>(std::ceil(std::log2(bits)))` for `bits ≥ 1`; `log2(0)` is `-inf`, whose
conversion to `int` is undefined. -/
def ceilLog2 (bits : Int) : Res Nat :=
  if bits ≤ 0 then ub else ok (if bits = 1 then 0 else Nat.log2 (bits.toNat - 1) + 1)

/-- The members of `ProtoValidator` (/repo/dpf/internal/proto_validator.h:84-104). Tree levels are
`Nat`: they are a `std::max` with a non-negative number. The hash map is an association list. -/
structure ProtoValidator where
  parameters : List DpfParameters
  treeLevelsNeeded : Nat
  treeToHierarchy : List (Nat × Nat)
  hierarchyToTree : List Nat

/-- Body of the loop of `Create` (/repo/dpf/internal/proto_validator.cc:133-153). State:
`hierarchy_to_tree` so far (its length is `i`), `tree_to_hierarchy`, `tree_levels_needed`. -/
def createStep (fp : FpEnv) (st : List Nat × List (Nat × Nat) × Nat) (p : DpfParameters) :
    Res (List Nat × List (Nat × Nat) × Nat) := do
  let (h2t, t2h, needed) := st
  let bits ← bitsNeeded fp p.vt p.securityParameter
  let logBits ← ceilLog2 bits
  let treeLevel := (max (needed : Int) (p.logDomainSize - 7 + min (logBits : Int) 7)).toNat
  ok (h2t ++ [treeLevel], (treeLevel, h2t.length) :: t2h, max needed (treeLevel + 1))

/-- `ProtoValidator::Create` (/repo/dpf/internal/proto_validator.cc:113-158). -/
def ProtoValidator.create (fp : FpEnv) (paramsIn : List DpfParameters) : Res ProtoValidator := do
  validateParameters paramsIn
  let params := paramsIn.map withDefaultSecurity
  let (h2t, t2h, needed) ← foldRes (createStep fp) ([], [], 0) params
  ok ⟨params, needed, t2h, h2t⟩

namespace ProtoValidator
variable (pv : ProtoValidator)

/-- Body of the loop of `ValidateDpfKey` (/repo/dpf/internal/proto_validator.cc:221-235). -/
def validateKeyLevel (key : DpfKey) (treeLevel : Nat) : Res Unit :=
  if treeLevel + 1 = pv.treeLevelsNeeded then ok ()
  else do
    let cw ← rd key.correctionWords treeLevel
    failIf (cw.valueCorrection = []) .invalidArgument

/-- `ValidateDpfKey` (/repo/dpf/internal/proto_validator.cc:205-236). -/
def validateDpfKey (key : DpfKey) : Res Unit := do
  failIf (key.seed = none) .invalidArgument
  failIf (key.lastLevelValueCorrection = []) .invalidArgument
  failIf ((key.correctionWords.length : Int) ≠ (pv.treeLevelsNeeded : Int) - 1) .invalidArgument
  let _ ← mapRes (pv.validateKeyLevel key) pv.hierarchyToTree
  ok ()

/-- The default instance of `DpfKey`, returned by `ctx.key()` for an absent field. -/
def _root_.Verif.DpfKey.default : DpfKey := ⟨none, [], 0, []⟩

/-- `ctx.key()`. -/
def _root_.Verif.EvaluationContext.keyD (ctx : EvaluationContext) : DpfKey :=
  ctx.key.getD DpfKey.default

/-- `ValidateEvaluationContext` (/repo/dpf/internal/proto_validator.cc:238-267). -/
def validateEvaluationContext (ctx : EvaluationContext) : Res Unit := do
  failIf (ctx.parameters.length ≠ pv.parameters.length) .invalidArgument
  let _ ← mapRes (fun (pq : DpfParameters × DpfParameters) => do
    let eq ← parametersAreEqual pq.1 pq.2
    failIf (eq = false) .invalidArgument) (pv.parameters.zip ctx.parameters)
  failIf (ctx.key = none) .invalidArgument
  pv.validateDpfKey ctx.keyD
  failIf (ctx.previousHierarchyLevel ≥ (ctx.parameters.length : Int) - 1) .invalidArgument
  failIf (ctx.partialEvaluations ≠ [] ∧
    ctx.partialEvaluationsLevel > ctx.previousHierarchyLevel) .invalidArgument

end ProtoValidator
end Verif
