import Verif.Model.Benchmarks
import Verif.Spec.Evaluation
import Verif.Spec.SyntheticData
import Verif.Spec.Mic
import Verif.Props.KeyGenOverloads
/-!
# Specification for C82: benchmarks
-/
namespace Verif.Spec
open Res Benchmarks

/-- Prefixes with which the levels, with domain sizes `sizes`, can be evaluated one after the other: there are none for the
first level, and at least one for each other level; these are points of the level before, and extend the prefixes for the
level before (unless that is the first one). -/
structure GoodPrefixes (sizes : List Nat) (prefixes : List (List U128)) : Prop where
  count : prefixes.length = sizes.length
  first : ∀ p, prefixes[0]? = some p → p = []
  rest : ∀ i a p, sizes[i]? = some a → prefixes[i + 1]? = some p → p ≠ [] ∧ p.length < 2 ^ 31 ∧ ∀ x ∈ p, x.toNat < 2 ^ a
  extend : ∀ i a b p q, sizes[i]? = some a → sizes[i + 1]? = some b → prefixes[i + 1]? = some p → prefixes[i + 2]? = some q →
    ∀ x ∈ q, ∃ y ∈ p, x.toNat / 2 ^ (b - a) = y.toNat

/-- The numbers drawn by `GenerateRandomPrefixes` are in the requested ranges: the index of one of the `n` prefixes for the
level before, and as many bits as the domain grows by. -/
structure RandomDraws (sizes nonzeros : List Nat) (index : Nat → Nat → Nat) (digits : Nat → Nat → BitVec 32) : Prop where
  index : ∀ i j n, nonzeros[i]? = some n → index (i + 2) j < n
  first : ∀ j a, sizes[0]? = some a → (digits 1 j).toNat < 2 ^ a
  next : ∀ i j a b, sizes[i]? = some a → sizes[i + 1]? = some b → (digits (i + 2) j).toNat < 2 ^ (b - a)

/-- There are `n` different numbers among the last `size` bits of the numbers drawn. -/
def EnoughDraws (size n : Nat) (draws : List U128) : Prop :=
  ∃ xs : List Nat, xs.Nodup ∧ xs.length = n ∧ ∀ x ∈ xs, ∃ y ∈ draws, y.toNat % 2 ^ size = x

/-- The result of a benchmark of a hierarchy: a key, one of two for the point `alpha` with value `beta h` on level `h`, and in
each iteration its values, level by level, at the points `points i` of level `i`. -/
def EvaluatesHierarchy (fp : FpEnv) (env : Env) (w : Width) (sizes : List Nat) (alpha : U128) (beta : Nat → Nat)
    (points : Nat → List U128) (iterations : Nat) (r : DpfKey × List (List (List (Ty.uint w).den))) : Prop :=
  ∃ d k1 out, r.2 = List.replicate iterations out ∧
    Setup fp (parametersOf w (sizes.map Int.ofNat)) (fun _ => .uint w) d ∧
    SharesPoint (parametersOf w (sizes.map Int.ofNat)) (fun _ => .uint w) d env alpha
      (fun h => BitVec.ofNat w.bits (beta h)) r.1 k1 ∧
    out.length = sizes.length ∧
    ∀ i, i < sizes.length → ∃ vals, out[i]? = some vals ∧
      d.evaluateAt env (Ty.uint w).helper r.1 i (points i) = ok vals

/-- The points of level `i` that are evaluated with `prefixes`: all points of the first level, and those that extend the
prefixes for any other level. -/
def pointsOf (w : Width) (sizes : List Nat) (prefixes : List (List U128)) (i : Nat) : List U128 :=
  outputPoints (parametersOf w (sizes.map Int.ofNat)) ((i : Int) - 1) i (prefixes.getD i [])

/-- The DCF `c` evaluates the keys `k0`, `k1` to shares of the comparison function with `beta` below `alpha`. -/
def SharesComparison (log : Nat) (t : Ty) (c : Dcf) (env : Env) (alpha : Nat) (beta : t.den) (k0 k1 : DcfKey) : Prop :=
  ∀ x : U128, x.toNat < 2 ^ log → ∃ v0 v1, c.evaluate env t.helper k0 x = ok v0 ∧ c.evaluate env t.helper k1 x = ok v1 ∧
    t.helper.add v0 v1 = if x.toNat < alpha then beta else t.helper.zero

end Verif.Spec
