import Verif.Spec.Work
import Verif.Model.PirFaults
/-! # Specification: calls of the cipher and of the allocator in PIR -/
namespace Verif.Spec

/-- Calls for the keys of a request to a database with up to `2^l` buckets: each is generated in a tree of depth `l`,
with one block for the value. -/
def requestCalls (keys l : Nat) : Nat := keys * (2 * l + 1)

/-- Calls for answering: each of the keys is evaluated on the whole domain, and on machines with vectors one buffer is
allocated for each key and each of the `columns` of strings in the database. -/
def answerCalls (vectors : Bool) (columns l keys : Nat) : Nat :=
  keys * domainCalls l 1 + if vectors then columns * keys else 0

/-- The calls of a server in its role, given those for answering a number of keys: plain servers and leaders answer the
keys in the request, helpers those that were encrypted, and then set up the generator of the masks. -/
def CallsInRole (codec : HelperCodec) (role : Role) (request : PirRequest) (answer : Nat → Nat) (n : Nat) : Prop :=
  match role with
  | .plain => ∃ r, request = some (.plain r) ∧ n = answer r.dpfKeys.length
  | .leader _ => ∃ r c, request = some (.leader (some r) (some c)) ∧ n = answer r.dpfKeys.length
  | .helper decrypter info => ∃ c b m r, request = some (.encrypted c) ∧ decrypter c info = .ok b ∧
      codec.parse b = some m ∧ m.plainRequest = some r ∧ n = answer r.dpfKeys.length + 1

end Verif.Spec
