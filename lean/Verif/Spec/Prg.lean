import Verif.Model.EvalSeeds
/-!
# Specification: the hash and the two tree PRGs, on single blocks
-/
namespace Verif

/-- The fixed-key hash of one block: `AES(key, sigma(x)) ^ sigma(x)`. -/
def hash (env : Env) (key x : U128) : U128 := env.aes key (sigma x) ^^^ sigma x

/-- The pair of PRGs with the given AES keys. -/
def prgOf (env : Env) (keyL keyR : U128) (b : Bool) : U128 → U128 :=
  hash env (if b then keyR else keyL)

/-- The two PRGs of the DPF tree. -/
def dpfPrg (env : Env) : Bool → U128 → U128 := prgOf env kPrgKeyLeft kPrgKeyRight

end Verif
