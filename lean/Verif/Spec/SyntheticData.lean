import Verif.Model.SyntheticData
import Verif.Spec.Evaluation
/-!
# Specification for C75: the benchmark program for hierarchical evaluation
-/
namespace Verif.Spec
open SyntheticData

/-- `p` lists the first `i` bits of each of the `L`-bit numbers `xs`, in increasing order and without repetition. -/
def IsPrefixes (xs : List U128) (L i : Nat) (p : List U128) : Prop :=
  p.Pairwise (· < ·) ∧ ∀ y, y ∈ p ↔ ∃ x ∈ xs, y = x >>> (L - i)

/-- Floating-point errors are harmless: the first level is positive and has at most `n * f` points, every next level is
above the level `l` before, unless that is the last one, and `m` prefixes expanded from `l` to it give at most `n * f`
points. -/
structure Harmless (D : Doubles) (L n f : Nat) : Prop where
  first : ∃ k : Nat, truncate (D.round (D.log2 n + D.log2 f)) = k ∧ 2 ≤ k ∧ 2 ^ k ≤ n * f
  next : ∀ l m : Nat, l < L → 1 ≤ m → m ≤ n → ∃ k : Nat,
    truncate (D.round (D.round (D.round (((l : Int) : Rat) + D.log2 n) + D.log2 f) - D.log2 m)) = (l + k : Nat) ∧
      1 ≤ k ∧ m * 2 ^ k ≤ n * f

/-- The levels ascend to `L`, which is at most 128. -/
structure LevelsUpTo (L : Nat) (levels : List Nat) : Prop where
  ascending : levels.Pairwise (· < ·)
  last : levels.getLast? = some L
  bits : L ≤ 128

/-- The levels ascend to `L`, which is at most 128, and from each to the next there are at most 28 bits (62 bits to the
first one). -/
structure GoodLevels (L : Nat) (levels : List Nat) : Prop extends LevelsUpTo L levels where
  first : ∀ l, levels[0]? = some l → l < 63
  step : ∀ i a b, levels[i]? = some a → levels[i + 1]? = some b → b - a ≤ 28

/-- The points of the hierarchy levels that the program evaluates: all of the first level, then those extending a prefix of
an element of `xs`, i.e. those with a suitable `x` that has the same first `a` bits, where `a` is the level before. -/
def Evaluated (L : Nat) (xs : List U128) (levels : List Nat) (i : Nat) (points : List U128) : Prop :=
  points.Pairwise (· < ·) ∧ ∀ y : U128, y ∈ points ↔
    ∃ b, levels[i]? = some b ∧ y.toNat < 2 ^ b ∧
      ∀ j a, i = j + 1 → levels[j]? = some a → ∃ x ∈ xs, x.toNat / 2 ^ (L - a) = y.toNat / 2 ^ (b - a)

end Verif.Spec
