import Verif.Model.Proto
/-!
# Protobuf messages of /repo/pir/private_information_retrieval.proto
-/
namespace Verif

/-- `PirConfig` (/repo/pir/private_information_retrieval.proto:31-37, 79-96). The enum
`HashFamilyConfig.HashFamily` is a number. -/
inductive PirConfig where
  | notSet
  | dense (numElements : Int)
  | cuckoo (hashFamily : Int) (numElements : Int)
  | simple (hashFamily : Int) (numBuckets : Int)
  deriving DecidableEq, Repr

/-- `DpfPirRequest.PlainRequest` (/repo/pir/private_information_retrieval.proto:128-134). -/
structure PlainRequest where
  dpfKeys : List DpfKey
  seedFingerprint : BitVec 32
  deriving DecidableEq, Repr

/-- The empty message. -/
def PlainRequest.default : PlainRequest := ⟨[], 0⟩

/-- `DpfPirRequest.HelperRequest` (/repo/pir/private_information_retrieval.proto:150-153). -/
structure HelperRequest where
  plainRequest : Option PlainRequest
  oneTimePadSeed : Bytes
  deriving DecidableEq, Repr

/-- `DpfPirRequest` (/repo/pir/private_information_retrieval.proto:126-160); the encrypted helper request
consists of its bytes. -/
inductive DpfPirRequest where
  | notSet
  | plain (r : PlainRequest)
  | leader (plain : Option PlainRequest) (encrypted : Option Bytes)
  | encrypted (b : Bytes)
  deriving DecidableEq, Repr

/-- `PirRequest` (/repo/pir/private_information_retrieval.proto:63-67). -/
abbrev PirRequest := Option DpfPirRequest

/-- `request.dpf_pir_request()`: an absent message reads as the empty one. -/
def PirRequest.dpf (r : PirRequest) : DpfPirRequest := r.getD .notSet

/-- `PirResponse` with its `DpfPirResponse` (/repo/pir/private_information_retrieval.proto:71-75,
183-185): the repeated field `masked_response`. -/
abbrev PirResponse := Option (List Bytes)

/-- `response.dpf_pir_response().masked_response()`. -/
def PirResponse.masked (r : PirResponse) : List Bytes := r.getD []

/-- `PirRequestClientState` (/repo/pir/private_information_retrieval.proto:45-53, 163-180). -/
inductive ClientState where
  | notSet
  | dense (oneTimePadSeed : Bytes)
  | cuckoo (oneTimePadSeed : Bytes) (queryStrings : List Bytes)
  | simple (oneTimePadSeed : Bytes) (queryStrings : List Bytes)
  deriving DecidableEq, Repr

/-- The bytes of a string constant. -/
def stringBytes (s : String) : Bytes := s.toList.map fun c => BitVec.ofNat 8 c.toNat

/-- Serialization of `HelperRequest` messages, from the protobuf library. -/
structure HelperCodec where
  serialize : HelperRequest → Bytes
  parse : Bytes → Option HelperRequest

end Verif
