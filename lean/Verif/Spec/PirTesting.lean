import Verif.Model.PirProto
/-!
# Specification of the helpers for tests
-/
namespace Verif.Spec

/-- The ASCII text `t` is the number `n` in decimal: digits only, most significant digit first, and no leading
zero unless there is only one digit. -/
def IsDecimal (t : Bytes) (n : Nat) : Prop :=
  (∀ c ∈ t, 48 ≤ c.toNat ∧ c.toNat ≤ 57) ∧
    t.foldl (fun (a : Nat) (c : BitVec 8) => 10 * a + (c.toNat - 48)) 0 = n ∧ (t.length = 1 ∨ t.head? ≠ some 48)

end Verif.Spec
