import Mathlib.SetTheory.Cardinal.Finite
import Verif.Spec.Uniform
import Verif.Spec.Hiding
/-!
# Specification: probabilities, and how far sampled elements are from uniform
-/
namespace Verif.Spec

/-- The probability that `p` holds of a uniformly chosen element. -/
noncomputable def probability {R : Type} (p : R → Prop) : ℚ := (Nat.card { r // p r } : ℚ) / Nat.card R

/-- How far an element made of uniform bytes is from uniform: not at all without `IntModN`, otherwise at most
`(1 * N₁ + 2 * N₂ + ...) / 2^130`, where `N₁`, `N₂`, ... are the numbers of values of its integers. -/
def samplingGap (t : Ty) : ℚ :=
  if t.noMod then 0 else (((((leavesOf t).map Leaf.count).zipIdx 1).map fun (N, j) => N * j).sum : Nat) / 2 ^ 130

/-- The sum of the gaps of `n` hierarchy levels. -/
def totalGap (T : Nat → Ty) (n : Nat) : ℚ := ((List.range n).map fun h => samplingGap (T h)).sum

/-- No test tells `view`, over uniform `r`, from `view'`, over uniform `r'`: the probabilities with which it holds of
them differ by at most `ε`. -/
def CloseViews {R R' V : Type} (ε : ℚ) (view : R → V) (view' : R' → V) : Prop :=
  ∀ test : V → Prop, |probability (fun r => test (view r)) - probability (fun r' => test (view' r'))| ≤ ε

end Verif.Spec
