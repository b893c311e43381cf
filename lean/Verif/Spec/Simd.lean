import Verif.Model.Simd
/-!
# Specification: vector units
-/
namespace Verif.Spec

/-- The instructions of the CPU compute the same AES as the library, and a vector is not larger than
`HWY_MAX_BYTES`. -/
structure HwyOk (env : Env) (h : HwyEnv) : Prop where
  aes : ∀ key x, env.aes key x = aesByRounds h key x
  size : h.lanes ≤ 8 * h.maskBytes

end Verif.Spec
