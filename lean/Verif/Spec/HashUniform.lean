import Verif.Model.Base
/-!
# Specification: even distributions
-/
namespace Verif.Spec
open Verif

/-- What SHA-256 can answer: strings of 32 bytes. -/
abbrev Digest := { d : Bytes // d.length = 32 }

/-- `total` things are spread over `n` places as evenly as possible: the share of place `v`. -/
def evenShare (total n v : Nat) : Nat := total / n + if v < total % n then 1 else 0

end Verif.Spec
