import Verif.Model.Dcf
import Verif.Spec.Setup
/-!
# Specification: a DCF in use
-/
namespace Verif

mutual
/-- Is there no `XorWrapper` inside? -/
def Ty.noXor : Ty → Bool
  | .uint _ => true
  | .intModN _ _ _ _ => true
  | .xorWrapper _ => false
  | .tuple ts => Tys.noXor ts
@[inherit_doc Ty.noXor] def Tys.noXor : Tys → Bool
  | .one t => Ty.noXor t
  | .cons t ts => Ty.noXor t && Tys.noXor ts
end

/-- Registering types with a DCF by calls of `GenerateKeys<T>`. -/
def Dcf.registerAll (c : Dcf) (Ts : List Ty) : Dcf := { c with dpf := c.dpf.registerAll Ts }

namespace Spec

/-- A DCF created from `p` with output type `T`, after any number of `GenerateKeys<…>` calls. `bytes`:
the pseudorandom bytes reserved for a level suffice for its type (see C26). -/
structure DcfSetup (fp : FpEnv) (p : DpfParameters) (T : Ty) (c : Dcf) : Prop where
  created : ∃ c0 Ts, Dcf.create fp p = .ok c0 ∧ c = c0.registerAll Ts ∧ (T ∈ Ts ∨ ∃ w, T = .uint w)
  type : p.valueType = some T.helper.toValueType
  log_le : p.logDomainSize ≤ 128
  bytes : ∀ k ∈ c.dpf.blocksNeeded, T.bytesRead ≤ 16 * k

end Spec
end Verif
