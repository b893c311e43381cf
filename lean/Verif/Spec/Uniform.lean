import Mathlib.Data.Rat.Lemmas
import Mathlib.Algebra.Order.Field.Rat
import Mathlib.Algebra.BigOperators.Group.Finset.Basic
import Mathlib.Data.Fintype.Pi
import Verif.Spec.Sampling
/-!
# Specification: distance from the uniform distribution
-/
namespace Verif.Spec
open Finset

/-- Total variation distance between `f` at a uniformly chosen argument and a uniformly chosen element
of `S`: half the sum over all outcomes of the difference of the probabilities. -/
def distance {α β : Type} [Fintype α] [DecidableEq β] (f : α → β) (S : Finset β) : ℚ :=
  (∑ b ∈ S, |(#{a | f a = b} : ℚ) / Fintype.card α - 1 / #S|) / 2

/-- The byte string of `k` bytes. -/
def bytesOf {k : Nat} (b : Fin k → Fin 256) : Bytes := List.ofFn fun i => BitVec.ofNat 8 (b i)

/-- All lists of numbers below the given bounds. -/
def vectors : List Nat → Finset (List Nat)
  | [] => {[]}
  | n :: ns => (range n ×ˢ vectors ns).map ⟨fun p => p.1 :: p.2, fun p q h => by
      simp only [List.cons.injEq] at h; exact Prod.ext h.1 h.2⟩

/-- `n + 1` copies of a type. -/
def copies (t : Ty) : Nat → Tys
  | 0 => .one t
  | n + 1 => .cons t (copies t n)

end Verif.Spec
