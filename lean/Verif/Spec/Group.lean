import Verif.Model.Values
/-!
# Specification: abelian groups, sizes of types
-/
namespace Verif

/-- `H.add` is an abelian group operation with neutral element `H.zero`, inverse `H.neg` and
difference `H.sub`. -/
structure Helper.IsGroup {α : Type} (H : Helper α) : Prop where
  add_assoc : ∀ a b c, H.add (H.add a b) c = H.add a (H.add b c)
  add_comm : ∀ a b, H.add a b = H.add b a
  add_zero : ∀ a, H.add a H.zero = a
  add_neg : ∀ a, H.add a (H.neg a) = H.zero
  sub_eq : ∀ a b, H.sub a b = H.add a (H.neg b)

mutual
/-- Sum of the sizes in bytes of all integers in an object of the type. -/
def Ty.leafBytes : Ty → Nat
  | .uint w => w.bits / 8
  | .intModN w _ _ _ => w.bits / 8
  | .xorWrapper w => w.bits / 8
  | .tuple ts => Tys.leafBytes ts
@[inherit_doc Ty.leafBytes] def Tys.leafBytes : Tys → Nat
  | .one t => Ty.leafBytes t
  | .cons t ts => Ty.leafBytes t + Tys.leafBytes ts
end

mutual
/-- Size in bytes of the last integer in an object of the type. -/
def Ty.lastLeafBytes : Ty → Nat
  | .uint w => w.bits / 8
  | .intModN w _ _ _ => w.bits / 8
  | .xorWrapper w => w.bits / 8
  | .tuple ts => Tys.lastLeafBytes ts
@[inherit_doc Ty.lastLeafBytes] def Tys.lastLeafBytes : Tys → Nat
  | .one t => Ty.lastLeafBytes t
  | .cons _ ts => Tys.lastLeafBytes ts
end

mutual
/-- Is there no `IntModN` inside? -/
def Ty.noMod : Ty → Bool
  | .uint _ => true
  | .intModN _ _ _ _ => false
  | .xorWrapper _ => true
  | .tuple ts => Tys.noMod ts
@[inherit_doc Ty.noMod] def Tys.noMod : Tys → Bool
  | .one t => Ty.noMod t
  | .cons t ts => Ty.noMod t && Tys.noMod ts
end

/-- Number of pseudorandom bytes read when a block is converted to an array of elements: types
without `IntModN` are copied, filling one block; others are sampled from one 16-byte state refilled
by every integer but the last. -/
def Ty.bytesRead (t : Ty) : Nat :=
  if t.noMod then (if t.leafBytes ≤ 16 then 16 / t.leafBytes * t.leafBytes else t.leafBytes)
  else 16 + (t.leafBytes - t.lastLeafBytes)

/-- Not a tuple. -/
def Ty.isLeaf : Ty → Bool
  | .tuple _ => false
  | _ => true
/-- Are all element types of the pack no tuples? -/
def Tys.leaves : Tys → Bool
  | .one t => t.isLeaf
  | .cons t ts => t.isLeaf && ts.leaves

/-- No tuple inside a tuple. -/
def Ty.flat : Ty → Bool
  | .tuple ts => ts.leaves
  | _ => true

end Verif
