import Verif.Spec.Safety
import Verif.Spec.SparsePir
/-!
# Specification: servers and clients facing arbitrary input
-/
namespace Verif.Spec

/-- Every number of records except, on machines without vectors, those from 2^24 + 1 to 2^30. -/
def CanServe (n : Nat) (simd : SimdEnv) : Prop := n ≤ 2 ^ 24 ∨ Vectorised simd ∨ 2 ^ 30 < n

/-- The functions the user gives to a leader (`sender`) or helper (`decrypter`) return, with a value or an
error, whatever they are called with. -/
def RoleReturns : Role → Prop
  | .plain => True
  | .leader sender => ∀ request, Safe (sender request).2
  | .helper decrypter _ => ∀ m info, Safe (decrypter m info)

/-- What a server may do with a request: it is rejected with INVALID_ARGUMENT, or it is a plain request
with at least one key, and the answer consists of strings of the given lengths for each key. -/
def AnswersOrRejects (request : PirRequest) (lengths : List Nat) (result : Res PirResponse) : Prop :=
  result = .err .invalidArgument ∨
    ∃ r out, request = some (.plain r) ∧ r.dpfKeys ≠ [] ∧ result = .ok (some out) ∧
      out.map List.length = r.dpfKeys.flatMap fun _ => lengths

/-- A server created in one of the three roles. -/
def DenseServerFor (fp : FpEnv) (ceilLog2 : CeilLog2) (config : PirConfig) (db : Option DenseDb)
    (server : DenseServer) : Prop :=
  DenseServer.createPlain fp ceilLog2 config db = .ok server ∨
  (∃ sender, DenseServer.createLeader fp ceilLog2 config db sender = .ok server) ∨
  ∃ decrypter, DenseServer.createHelper fp ceilLog2 config db decrypter = .ok server

@[inherit_doc DenseServerFor]
def CuckooServerFor (fp : FpEnv) (ceilLog2 : CeilLog2) (sha : Sha256) (params : CuckooParams)
    (db : Option CuckooDb) (server : CuckooServer) : Prop :=
  CuckooServer.createPlain fp ceilLog2 sha params db = .ok server ∨
  (∃ sender, CuckooServer.createLeader fp ceilLog2 sha params db sender = .ok server) ∨
  ∃ decrypter, CuckooServer.createHelper fp ceilLog2 sha params db decrypter = .ok server

@[inherit_doc DenseServerFor]
def SimpleServerFor (fp : FpEnv) (ceilLog2 : CeilLog2) (sha : Sha256) (params : SimpleParams)
    (db : Option SimpleDb) (server : SimpleServer) : Prop :=
  SimpleServer.createPlain fp ceilLog2 sha params db = .ok server ∨
  (∃ sender, SimpleServer.createLeader fp ceilLog2 sha params db sender = .ok server) ∨
  ∃ decrypter, SimpleServer.createHelper fp ceilLog2 sha params db decrypter = .ok server

end Verif.Spec
