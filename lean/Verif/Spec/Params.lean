import Verif.Model.Validator
/-!
# Specification: valid parameters
-/
namespace Verif.Spec

/-- Bit sizes accepted for integers. -/
def ValidBits (b : Int) : Prop := b ∈ [1, 2, 4, 8, 16, 32, 64, 128]

mutual
/-- Well-formed value types as accepted by the library. The modulus of a 128-bit `IntModN` is not
looked at by the type check (it may be unset). -/
def ValidType : ValueType → Prop
  | .notSet => False
  | .integer b => ValidBits b
  | .xorWrapper b => ValidBits b
  | .intModN b m => ValidBits b ∧
      (b = 128 ∨ ∃ v : U128, valueIntegerToUint128 m = .ok v ∧ v.toNat < 2 ^ b.toNat)
  | .tuple els => ValidTypes els
@[inherit_doc ValidType] def ValidTypes : List ValueType → Prop
  | [] => True
  | el :: els => ValidType el ∧ ValidTypes els
end

/-- A parameter list accepted by the library: not empty; log domain sizes in [0, 128], strictly
increasing; every value type present and well-formed; security parameters numbers in [0, 128]. -/
structure ValidParams (ps : List DpfParameters) : Prop where
  nonempty : ps ≠ []
  log_range : ∀ p ∈ ps, 0 ≤ p.logDomainSize ∧ p.logDomainSize ≤ 128
  log_ascending : ps.Pairwise fun p q => p.logDomainSize < q.logDomainSize
  types : ∀ p ∈ ps, ∃ t, p.valueType = some t ∧ ValidType t
  security : ∀ p ∈ ps, ∃ s : Rat, p.securityParameter = .val s ∧ 0 ≤ s ∧ s ≤ 128

end Verif.Spec
