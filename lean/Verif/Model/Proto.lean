import Verif.Model.Base
/-!
# Protobuf messages of /repo/dpf/distributed_point_function.proto
-/
namespace Verif

/-- `Value.Integer` (/repo/dpf/distributed_point_function.proto:65-72): a `oneof` of a 64-bit
integer and a `Block`. -/
inductive IntegerP where
  | notSet
  | u64 (v : BitVec 64)
  | u128 (hi lo : BitVec 64)
  deriving DecidableEq, Repr

/-- `ValueType` (/repo/dpf/distributed_point_function.proto:25-60). An absent `base_integer`
sub-message is `bitsize = 0`, as its accessor returns the default instance. -/
inductive ValueType where
  | notSet
  | integer (bitsize : Int)
  | tuple (elements : List ValueType)
  | intModN (baseBitsize : Int) (modulus : IntegerP)
  | xorWrapper (bitsize : Int)
  deriving Repr

/-- `Value` (/repo/dpf/distributed_point_function.proto:64-85). -/
inductive Value where
  | notSet
  | integer (v : IntegerP)
  | tuple (elements : List Value)
  | intModN (v : IntegerP)
  | xorWrapper (v : IntegerP)
  deriving Repr

mutual
/-- Equality of messages is decidable (used as map key,
/repo/dpf/distributed_point_function.cc:552-585). -/
def ValueType.beq : ValueType → ValueType → Bool
  | .notSet, .notSet => true
  | .integer a, .integer b => a == b
  | .tuple as, .tuple bs => ValueType.beqs as bs
  | .intModN a m, .intModN b n => a == b && m == n
  | .xorWrapper a, .xorWrapper b => a == b
  | _, _ => false
/-- Element-wise part of `ValueType.beq`. -/
def ValueType.beqs : List ValueType → List ValueType → Bool
  | [], [] => true
  | a :: as, b :: bs => ValueType.beq a b && ValueType.beqs as bs
  | _, _ => false
end

mutual
theorem ValueType.beq_iff : ∀ a b : ValueType, ValueType.beq a b = true ↔ a = b
  | .notSet, b => by cases b <;> simp [ValueType.beq]
  | .integer a, b => by cases b <;> simp [ValueType.beq]
  | .tuple as, b => by cases b <;> simp [ValueType.beq, ValueType.beqs_iff as]
  | .intModN a m, b => by cases b <;> simp [ValueType.beq]
  | .xorWrapper a, b => by cases b <;> simp [ValueType.beq]
theorem ValueType.beqs_iff : ∀ as bs : List ValueType, ValueType.beqs as bs = true ↔ as = bs
  | [], bs => by cases bs <;> simp [ValueType.beqs]
  | a :: as, bs => by
    cases bs <;> simp [ValueType.beqs, ValueType.beq_iff a, ValueType.beqs_iff as]
end

instance : DecidableEq ValueType := fun a b =>
  decidable_of_iff (ValueType.beq a b = true) (ValueType.beq_iff a b)

mutual
/-- Decidable equality of `Value` messages. -/
def Value.beq : Value → Value → Bool
  | .notSet, .notSet => true
  | .integer a, .integer b => a == b
  | .tuple as, .tuple bs => Value.beqs as bs
  | .intModN a, .intModN b => a == b
  | .xorWrapper a, .xorWrapper b => a == b
  | _, _ => false
/-- Element-wise part of `Value.beq`. -/
def Value.beqs : List Value → List Value → Bool
  | [], [] => true
  | a :: as, b :: bs => Value.beq a b && Value.beqs as bs
  | _, _ => false
end

mutual
theorem Value.beq_iff : ∀ a b : Value, Value.beq a b = true ↔ a = b
  | .notSet, b => by cases b <;> simp [Value.beq]
  | .integer a, b => by cases b <;> simp [Value.beq]
  | .tuple as, b => by cases b <;> simp [Value.beq, Value.beqs_iff as]
  | .intModN a, b => by cases b <;> simp [Value.beq]
  | .xorWrapper a, b => by cases b <;> simp [Value.beq]
theorem Value.beqs_iff : ∀ as bs : List Value, Value.beqs as bs = true ↔ as = bs
  | [], bs => by cases bs <;> simp [Value.beqs]
  | a :: as, bs => by
    cases bs <;> simp [Value.beqs, Value.beq_iff a, Value.beqs_iff as]
end

instance : DecidableEq Value := fun a b =>
  decidable_of_iff (Value.beq a b = true) (Value.beq_iff a b)

/-- `security_parameter`, a `double`: NaN or a number. Simplified: finite doubles are modelled as
rationals, infinities as numbers above 128. -/
inductive Sec where
  | nan
  | val (q : Rat)
  deriving DecidableEq, Repr

/-- `DpfParameters` (/repo/dpf/distributed_point_function.proto:92-105).
`valueType = none` is an absent sub-message. -/
structure DpfParameters where
  logDomainSize : Int
  valueType : Option ValueType
  securityParameter : Sec
  deriving DecidableEq, Repr

/-- `CorrectionWord` (/repo/dpf/distributed_point_function.proto:114-126); the `Block seed` is the
128-bit number with the given halves (an absent block reads as 0). -/
structure CorrectionWord where
  seed : U128
  controlLeft : Bool
  controlRight : Bool
  valueCorrection : List Value
  deriving DecidableEq, Repr

/-- `DpfKey` (/repo/dpf/distributed_point_function.proto:129-140). `seed = none`: field absent. -/
structure DpfKey where
  seed : Option U128
  correctionWords : List CorrectionWord
  party : Int
  lastLevelValueCorrection : List Value
  deriving DecidableEq, Repr

/-- `key.seed()` of a possibly absent field is the default (zero) block. -/
def DpfKey.seedBlock (k : DpfKey) : U128 := k.seed.getD 0

/-- `PartialEvaluation` (/repo/dpf/distributed_point_function.proto:144-152). -/
structure PartialEvaluation where
  «prefix» : U128
  seed : U128
  controlBit : Bool
  deriving DecidableEq, Repr

/-- `EvaluationContext` (/repo/dpf/distributed_point_function.proto:156-171). -/
structure EvaluationContext where
  parameters : List DpfParameters
  key : Option DpfKey
  previousHierarchyLevel : Int
  partialEvaluations : List PartialEvaluation
  partialEvaluationsLevel : Int
  deriving DecidableEq, Repr

end Verif
