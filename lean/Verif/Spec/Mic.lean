import Verif.Model.Mic
import Verif.Spec.Dcf
/-!
# Specification: interval containment gates
-/
namespace Verif

/-- The bounds are given as 128-bit numbers `p` and `q`. -/
def Interval.Bounds (iv : Interval) (p q : Nat) : Prop :=
  ∃ ph pl qh ql : BitVec 64, iv.lower = some (.u128 ph pl) ∧ iv.upper = some (.u128 qh ql) ∧
    p = ph.toNat * 2 ^ 64 + pl.toNat ∧ q = qh.toNat * 2 ^ 64 + ql.toNat

namespace Spec

/-- A gate created from `params`, after any number of calls of `Gen`. -/
structure MicSetup (fp : FpEnv) (params : MicParameters) (g : Mic) : Prop where
  created : ∃ g0 Ts, Mic.create fp params = .ok g0 ∧ g = ⟨g0.params, g0.dcf.registerAll Ts⟩

end Spec
end Verif
