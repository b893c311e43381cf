import Verif.Model.Dpf
import Verif.Spec.Group
import Verif.Spec.Values
/-!
# Specification: a DPF object in use
-/
namespace Verif

/-- Calling `RegisterValueType` for a list of types. -/
def Dpf.registerAll (d : Dpf) (Ts : List Ty) : Dpf :=
  Ts.foldl (fun d T => d.registerValueType T.helper) d

namespace Spec

/-- Log domain size of hierarchy level `h`. -/
def logSize (params : List DpfParameters) (h : Nat) : Nat :=
  match params[h]? with
  | some p => p.logDomainSize.toNat
  | none => 0

/-- Log domain size of the last hierarchy level. -/
def lastLogSize (params : List DpfParameters) : Nat := logSize params (params.length - 1)

/-- The prefix of `alpha` in the domain of level `h`: its highest bits. -/
def alphaPrefix (params : List DpfParameters) (alpha : U128) (h : Nat) : Nat :=
  alpha.toNat / 2 ^ (lastLogSize params - logSize params h)

/-- `d` was created from `params` and some types were registered with it afterwards. -/
def Created (fp : FpEnv) (params : List DpfParameters) (d : Dpf) : Prop :=
  ∃ d0 Ts, Dpf.createIncremental fp params = .ok d0 ∧ d = d0.registerAll Ts

/-- A DPF created from `params`, whose level `h` has the C++ output type `T h`.
Every type is registered (built-in integers are registered by the library).
`bytes`: the pseudorandom bytes reserved for a level suffice for its type. This holds for every type
without tuples nested in tuples and for every type without `IntModN` (C26). -/
structure Setup (fp : FpEnv) (params : List DpfParameters) (T : Nat → Ty) (d : Dpf) : Prop where
  created : ∃ d0 Ts, Dpf.createIncremental fp params = .ok d0 ∧ d = d0.registerAll Ts ∧
    ∀ h, h < params.length → T h ∈ Ts ∨ ∃ w, T h = .uint w
  types : ∀ h p, params[h]? = some p → p.valueType = some (T h).helper.toValueType
  bytes : ∀ h k, d.blocksNeeded[h]? = some k → (T h).bytesRead ≤ 16 * k

/-- `Setup` without the condition on the reserved bytes. -/
structure SetupTypes (fp : FpEnv) (params : List DpfParameters) (T : Nat → Ty) (d : Dpf) : Prop where
  created : ∃ d0 Ts, Dpf.createIncremental fp params = .ok d0 ∧ d = d0.registerAll Ts ∧
    ∀ h, h < params.length → T h ∈ Ts ∨ ∃ w, T h = .uint w
  types : ∀ h p, params[h]? = some p → p.valueType = some (T h).helper.toValueType

/-- The list of messages `beta` holds the values `b`, one for each level. -/
def BetasRepresent (params : List DpfParameters) (T : Nat → Ty) (beta : List Value)
    (b : (h : Nat) → (T h).den) : Prop :=
  beta.length = params.length ∧ ∀ h v, beta[h]? = some v → Represents (T h) v (b h)

end Spec
end Verif
