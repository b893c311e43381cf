import Verif.Spec.Values
import Verif.Spec.Params
import Verif.Model.Round
/-!
# Specification: security parameters a value type can be used with
-/
namespace Verif.Spec

/-- An integer modulo N. -/
def Canon.isMod : Canon → Bool
  | .intModN _ _ => true
  | _ => false

/-- A value type can be used with security parameter σ. `level n N` is the security level of sampling `n`
integers modulo N from one string, `log2` the binary logarithm. In a tuple, all integers modulo N have to be of
one type; they are sampled together and so need the level for their number. Let `k` be the number of other
elements. The first `k` elements of the tuple have to be usable with σ + log2 k, rounded to a double. (The intention is to demand
this of the elements that are not integers modulo N. The two agree if these come first.) -/
inductive Tolerates (level : Nat → Nat → Rat) (log2 : Nat → Rat) : Rat → Canon → Prop
  | integer (σ : Rat) (b : Int) : Tolerates level log2 σ (.integer b)
  | xorWrapper (σ : Rat) (b : Int) : Tolerates level log2 σ (.xorWrapper b)
  | intModN (σ : Rat) (b : Int) (N : Nat) : σ ≤ level 1 N → Tolerates level log2 σ (.intModN b N)
  | tuple (σ : Rat) (els : List Canon) (k n : Nat) (b : Int) (N : Nat) :
      k = els.countP (fun e => !e.isMod) → n = els.countP (·.isMod) →
      (∀ e ∈ els, e.isMod = true → e = .intModN b N) → (0 < n → σ ≤ level n N) →
      (∀ e ∈ els.take k, Tolerates level log2 (roundDouble (σ + log2 k)) e) → Tolerates level log2 σ (.tuple els)

/-- Number of bits reserved for `n` integers of the given type modulo N. -/
def reservedMods (n : Nat) : Option Canon → Nat
  | some (.intModN b _) => 8 * (16 + (b.toNat + 7) / 8 * (n - 1))
  | _ => 0

mutual
/-- Number of bits reserved for an element: its size for integers; 16 bytes for the first of the integers
modulo N of a tuple and the size of the base integer in bytes for each further one; in addition, in a tuple
with `k` other elements, what is reserved for the first `k` elements. -/
def Canon.reserved : Canon → Nat
  | .integer b => b.toNat
  | .xorWrapper b => b.toNat
  | .intModN _ _ => 128
  | .tuple els =>
    reservedMods (els.countP (·.isMod)) (els.find? (·.isMod)) +
      ((Canon.reservedEach els).take (els.countP fun e => !e.isMod)).sum
/-- The bits reserved for each of several elements. -/
def Canon.reservedEach : List Canon → List Nat
  | [] => []
  | e :: els => e.reserved :: Canon.reservedEach els
end

end Verif.Spec
