import Verif.Model.PirProto
/-!
# What the clients send to the helper
-/
namespace Verif.Spec
open Verif

/-- The form of the keys in requests: at most 128 correction words, without values, and one value. -/
def PirKey (k : DpfKey) : Prop :=
  k.seed ≠ none ∧ (k.party = 0 ∨ k.party = 1) ∧ k.correctionWords.length ≤ 128 ∧
    (∀ w ∈ k.correctionWords, w.valueCorrection = []) ∧ ∃ i, k.lastLevelValueCorrection = [.xorWrapper i]

/-- A message to the helper with `n` keys of this form and a seed of 16 bytes. -/
def HelperMessage (n : Nat) (m : HelperRequest) : Prop :=
  m.oneTimePadSeed.length = 16 ∧
    ∃ r, m.plainRequest = some r ∧ r.dpfKeys.length = n ∧ ∀ k ∈ r.dpfKeys, PirKey k

end Verif.Spec
