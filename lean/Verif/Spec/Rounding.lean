/-!
# Specification of rounding to doubles (C94)
-/
namespace Verif.Spec

/-- Numbers with a significand of at most 53 bits (and exponents of any size, as in the model). -/
def IsDouble (q : Rat) : Prop := ∃ m e : Int, -2 ^ 53 < m ∧ m < 2 ^ 53 ∧ q = m * 2 ^ e

/-- The significand of 53 bits is even. -/
def EvenDouble (q : Rat) : Prop :=
  ∃ m e : Int, 2 ^ 52 ≤ m.natAbs ∧ m.natAbs < 2 ^ 53 ∧ m % 2 = 0 ∧ q = m * 2 ^ e

/-- `q` is `x` rounded as IEEE 754 does by default: the closest double, the one with an even significand if two are
equally close. -/
structure Nearest (x q : Rat) : Prop where
  double : IsDouble q
  closest : ∀ p : Rat, IsDouble p → (q - x).abs ≤ (p - x).abs
  even : ∀ p : Rat, IsDouble p → p ≠ q → (p - x).abs = (q - x).abs → EvenDouble q

end Verif.Spec
