import Mathlib.Analysis.SpecialFunctions.Log.Base
import Verif.Model.Doubles
/-!
# Specification of the security level of sampling (C94)
-/
namespace Verif.Spec

/-- The level that the bound of C57 gives: `2^-level = n (n + 1) N / 2^131` (/repo/dpf/int_mod_n.h:137-151). -/
noncomputable def exactLevel (n N : Nat) : ℝ := Real.logb 2 (2 ^ 131 / ((n : ℝ) * (n + 1) * N))

/-- What is assumed of the library: converting integers has a relative error of at most 2^-50, logarithms an absolute
error of at most 2^-44. (Doubles have 53 bits. Those between 128 and 256 are 2^-45 apart, smaller ones are closer.) -/
structure AccurateLibm (M : Libm) : Prop where
  conversion : ∀ N : U128, |M.ofU128 N - N.toNat| ≤ N.toNat / 2 ^ 50
  log2 : ∀ x : Rat, 1 / 2 ≤ x → x ≤ 2 ^ 129 → |((M.log2 x : Rat) : ℝ) - Real.logb 2 x| ≤ 1 / 2 ^ 44

end Verif.Spec
