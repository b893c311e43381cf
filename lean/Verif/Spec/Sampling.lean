import Verif.Spec.Values
import Verif.Spec.Group
/-!
# Specification: elements of a type from pseudorandom bytes
-/
namespace Verif.Spec

/-- An integer inside a type: all numbers of `w` bits, or the numbers below `N` stored with `w` bits. -/
inductive Leaf where
  | int (w : Nat)
  | mod (w N : Nat)

/-- Bits of the integer. -/
def Leaf.width : Leaf → Nat
  | .int w => w
  | .mod w _ => w

/-- How many values it has. -/
def Leaf.count : Leaf → Nat
  | .int w => 2 ^ w
  | .mod _ N => N

mutual
/-- The integers of a type from left to right. -/
def leavesOf : Ty → List Leaf
  | .uint w => [.int w.bits]
  | .intModN w N _ _ => [.mod w.bits N.toNat]
  | .xorWrapper w => [.int w.bits]
  | .tuple ts => leavesOfAll ts
@[inherit_doc leavesOf] def leavesOfAll : Tys → List Leaf
  | .one t => leavesOf t
  | .cons t ts => leavesOf t ++ leavesOfAll ts
end

mutual
/-- The numbers in an element from left to right. -/
def numbersOf : (t : Ty) → t.den → List Nat
  | .uint _, x => [BitVec.toNat x]
  | .intModN _ _ _ _, x => [x.1.toNat]
  | .xorWrapper _, x => [BitVec.toNat x]
  | .tuple ts, x => numbersOfAll ts x
@[inherit_doc numbersOf] def numbersOfAll : (ts : Tys) → ts.den → List Nat
  | .one t, x => numbersOf t x
  | .cons t ts, x => numbersOf t x.1 ++ numbersOfAll ts x.2
end

/-- Integers stored one after the other, least significant byte first. -/
def stored : List Leaf → Bytes → List Nat
  | [], _ => []
  | l :: ls, b => leAt b 0 (l.width / 8) :: stored ls (b.drop (l.width / 8))

/-- The state after sampling an integer from it, with `fresh` bits filled in. A plain integer takes its
low bits from the state, and these are replaced. A residue is what remains when dividing the state by the
modulus; the quotient is moved up, within 128 bits. A state used up by a 128-bit integer is replaced. -/
def Leaf.refill : Leaf → Nat → Nat → Nat
  | .int w, state, fresh => if w < 128 then state / 2 ^ w * 2 ^ w + fresh else fresh
  | .mod w N, state, fresh => if w < 128 then state / N * 2 ^ w % 2 ^ 128 + fresh else fresh

/-- Integers sampled one after the other from a 128-bit state, refilled from the bytes. -/
def sampled : List Leaf → Nat → Bytes → List Nat
  | [], _, _ => []
  | l :: ls, state, b => state % l.count ::
      sampled ls (l.refill state (leAt b 0 (l.width / 8))) (b.drop (l.width / 8))

/-- The numbers in the elements made from a byte string: types without `IntModN` are read one element
after the other, as many as fit into 16 bytes but at least one; of other types, one element is sampled,
starting with the first 16 bytes as state. -/
def elementsFrom (t : Ty) (b : Bytes) : List (List Nat) :=
  if t.noMod then
    (List.range (if t.leafBytes ≤ 16 then 16 / t.leafBytes else 1)).map fun i =>
      stored (leavesOf t) (b.drop (i * t.leafBytes))
  else [sampled (leavesOf t) (leAt b 0 16) (b.drop 16)]

end Verif.Spec
