import Verif.Spec.Hiding
import Verif.Model.Wire
/-!
# What the leader sees of the message to the helper

The leader gets the message to the helper encrypted. Encryption hides the content of a message, but not its length.
-/
namespace Verif.Spec
open Verif Wire

/-- The request to the helper: that to the leader with other root seeds, and for party 1. -/
def helperRequest (seeds : Nat → U128) (leader : PlainRequest) : PlainRequest :=
  ⟨leader.dpfKeys.mapIdx fun i k => { k with seed := some (seeds i), party := 1 }, leader.seedFingerprint⟩

/-- The length of the serialized message to the helper. -/
def helperLength (message : HelperRequest) : Nat := (wire (putHelper message)).length

end Verif.Spec
