import Verif.Model.Wire
/-!
# Which messages can be sent

Serialized messages survive parsing as long as all their numbers are numbers of the type of their field, they are not
nested too deeply, and not too long. How deep messages are nested and how long they are is defined here.
-/
namespace Verif.Spec
open Verif

/-- Numbers of a field of type `int32` or of an enum. -/
def IsInt32 (x : Int) : Prop := -2 ^ 31 ≤ x ∧ x < 2 ^ 31

/-- Numbers of a field of type `int64`. -/
def IsInt64 (x : Int) : Prop := -2 ^ 63 ≤ x ∧ x < 2 ^ 63

instance (x : Int) : Decidable (IsInt32 x) := inferInstanceAs (Decidable (_ ∧ _))
instance (x : Int) : Decidable (IsInt64 x) := inferInstanceAs (Decidable (_ ∧ _))

/-- Messages have to be shorter than this many bytes. -/
def maxMessage : Nat := 2 ^ 31 - 16

/-- The largest number of a list, 0 for the empty list. -/
def largest : List Nat → Nat
  | [] => 0
  | n :: ns => max n (largest ns)

/-- How many levels of messages there are inside a `Value.Integer`. -/
def nestingInteger : IntegerP → Nat
  | .u128 _ _ => 1
  | _ => 0

mutual
/-- The same for values. -/
def nestingValue : Value → Nat
  | .notSet => 0
  | .integer v => 1 + nestingInteger v
  | .tuple vs => 1 + nestingValues vs
  | .intModN v => 1 + nestingInteger v
  | .xorWrapper v => 1 + nestingInteger v
/-- The same for lists of values. -/
def nestingValues : List Value → Nat
  | [] => 0
  | v :: vs => max (1 + nestingValue v) (nestingValues vs)
end

mutual
/-- The same for types. -/
def nestingType : ValueType → Nat
  | .notSet => 0
  | .integer _ => 1
  | .tuple ts => 1 + nestingTypes ts
  | .intModN _ m => 2 + nestingInteger m
  | .xorWrapper _ => 1
/-- The same for lists of types. -/
def nestingTypes : List ValueType → Nat
  | [] => 0
  | t :: ts => max (1 + nestingType t) (nestingTypes ts)
end

mutual
/-- Bit sizes are numbers of type `int32`. -/
def TypeInRange : ValueType → Prop
  | .notSet => True
  | .integer b => IsInt32 b
  | .tuple ts => TypesInRange ts
  | .intModN b _ => IsInt32 b
  | .xorWrapper b => IsInt32 b
@[inherit_doc TypeInRange] def TypesInRange : List ValueType → Prop
  | [] => True
  | t :: ts => TypeInRange t ∧ TypesInRange ts
end

/-- The same for correction words: the seed and the values. -/
def nestingWord (w : CorrectionWord) : Nat := max 1 (nestingValues w.valueCorrection)

/-- The same for keys: the seed, the correction words and the values. -/
def nestingKey (k : DpfKey) : Nat :=
  max 1 (max (largest (k.correctionWords.map fun w => 1 + nestingWord w)) (nestingValues k.lastLevelValueCorrection))

/-- The same for parameters. -/
def nestingParameters (p : DpfParameters) : Nat :=
  match p.valueType with
  | none => 0
  | some t => 1 + nestingType t

/-- Numbers of parameters. -/
def ParametersInRange (p : DpfParameters) : Prop :=
  IsInt32 p.logDomainSize ∧ ∀ t, p.valueType = some t → TypeInRange t

/-- The same for contexts: parameters, key and partial evaluations. -/
def nestingContext (c : EvaluationContext) : Nat :=
  max 2 (max (largest (c.parameters.map fun p => 1 + nestingParameters p))
    (match c.key with
      | none => 0
      | some k => 1 + nestingKey k))

/-- Numbers of contexts. -/
def ContextInRange (c : EvaluationContext) : Prop :=
  (∀ p ∈ c.parameters, ParametersInRange p) ∧ (∀ k, c.key = some k → IsInt32 k.party) ∧
    IsInt32 c.previousHierarchyLevel ∧ IsInt32 c.partialEvaluationsLevel

/-- Numbers stored as `double` can be read, and only the number 0 is stored as zeros. -/
def DoubleOk (d : Wire.DoubleBits) (x : Sec) : Prop :=
  d.toBits x < 2 ^ 64 ∧ d.ofBits (d.toBits x) = x ∧ (d.toBits x = 0 → x = .val 0)

/-- Nesting of the keys of gates. -/
def nestingMicKey (k : MicKey) : Nat :=
  max (2 + nestingKey k.dcfKey) (largest (k.outputMaskShare.map fun v => 1 + nestingInteger v))

/-- Nesting of requests with keys. -/
def nestingPlain (r : PlainRequest) : Nat := largest (r.dpfKeys.map fun k => 1 + nestingKey k)

/-- Numbers of requests with keys. -/
def PlainInRange (r : PlainRequest) : Prop := ∀ k ∈ r.dpfKeys, IsInt32 k.party

/-- The keys of a request of the client. -/
def requestPlain : DpfPirRequest → Option PlainRequest
  | .plain r => some r
  | .leader p _ => p
  | _ => none

/-- Nesting of requests, outside of keys. -/
def nestingRequest (r : DpfPirRequest) : Nat :=
  match requestPlain r with
  | none => 3
  | some p => 3 + nestingPlain p

/-- Numbers of the configuration. -/
def ConfigInRange : PirConfig → Prop
  | .notSet => True
  | .dense n => IsInt64 n
  | .cuckoo f n => IsInt32 f ∧ IsInt64 n
  | .simple f n => IsInt32 f ∧ IsInt64 n

/-- Numbers of the public parameters. -/
def PublicInRange : PublicParams → Prop
  | .notSet => True
  | .cuckoo p => IsInt32 p.hashFamilyConfig.hashFamily ∧ IsInt32 p.numHashFunctions ∧ IsInt64 p.numBuckets
  | .simple p => IsInt32 p.hashFamilyConfig.hashFamily ∧ IsInt64 p.numBuckets

mutual
/-- How many levels of messages there are at most inside a `Value` that holds an element of a type. -/
def nestingTy : Ty → Nat
  | .tuple ts => 1 + nestingTys ts
  | _ => 2
@[inherit_doc nestingTy] def nestingTys : Tys → Nat
  | .one t => 1 + nestingTy t
  | .cons t ts => max (1 + nestingTy t) (nestingTys ts)
end

mutual
/-- No `Value` that holds an element of a type needs more bytes than this. -/
def messageBytes : Ty → Nat
  | .tuple ts => 6 + messageBytesAll ts
  | _ => 30
@[inherit_doc messageBytes] def messageBytesAll : Tys → Nat
  | .one t => 6 + messageBytes t
  | .cons t ts => 6 + messageBytes t + messageBytesAll ts
end

end Verif.Spec

namespace Verif.Wire
open Verif Spec

/-- Records with numbers of their size. -/
def Fits : Record → Prop
  | (i, .varint n) => 0 < i ∧ i < 2 ^ 29 ∧ n < 2 ^ 64
  | (i, .fixed64 n) => 0 < i ∧ i < 2 ^ 29 ∧ n < 2 ^ 64
  | (i, .bytes _) => 0 < i ∧ i < 2 ^ 29
  | (i, .fixed32 n) => 0 < i ∧ i < 2 ^ 29 ∧ n < 2 ^ 32

instance : DecidablePred Fits := fun r => by
  rcases r with ⟨i, n | n | b | n⟩ <;> unfold Fits <;> infer_instance

/-- Records that can be sent in one message. -/
structure Sendable (rs : List Record) : Prop where
  fits : ∀ r ∈ rs, Fits r
  short : (wire rs).length < maxMessage

/-- For every field in `known`, there are the same records, in the same order; fields may be mixed differently, and
there may be others. -/
def SameFields (known : List Nat) (rs rs' : List Record) : Prop :=
  ∀ i ∈ known, rs.filter (fun r => r.1 = i) = rs'.filter (fun r => r.1 = i)

/-- The records of all fields in `known` are the same and in the same order; there may be others. -/
def SameRecords (known : List Nat) (rs rs' : List Record) : Prop :=
  rs.filter (fun r => r.1 ∈ known) = rs'.filter (fun r => r.1 ∈ known)

instance (known : List Nat) (rs rs' : List Record) : Decidable (SameFields known rs rs') :=
  inferInstanceAs (Decidable (∀ i ∈ known, _))
instance (known : List Nat) (rs rs' : List Record) : Decidable (SameRecords known rs rs') :=
  inferInstanceAs (Decidable (_ = _))

end Verif.Wire
