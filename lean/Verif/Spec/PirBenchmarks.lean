import Verif.Model.PirBenchmarks
import Verif.Spec.SparsePir
import Verif.Spec.PirTesting
/-!
# Specification: benchmarks of PIR
-/
namespace Verif.Spec

/-- `n` strings drawn one after the other, string `i` with `size i` bytes. -/
def drawnStrings (random : Nat → Nat → BitVec 8) (n : Nat) (size : Nat → Nat) : List Bytes :=
  (List.range n).map fun i => (List.range (size i)).map (random i)

/-- Bit `i` of bits drawn in blocks of 128. -/
def drawnBit (bits : Nat → U128) (i : Nat) : Bool := (bits (i / 128)).getLsbD (i % 128)

/-- Random keys and values of the given sizes, side by side. -/
def drawnPairs (randomKeys randomValues : Nat → Nat → BitVec 8) (n keySize valueSize : Nat) : List (Bytes × Bytes) :=
  (drawnStrings randomKeys n fun _ => keySize).zip (drawnStrings randomValues n fun _ => valueSize)

/-- The 16 bytes of the seed of the hash functions. -/
def drawnSeed (seed : Nat → BitVec 8) : Bytes := (List.range 16).map seed

/-- The numbers drawn are below `n`. -/
def DrawnBelow (n : Nat) (draws : Nat → Int) : Prop := ∀ i, 0 ≤ draws i ∧ draws i < n

end Verif.Spec
