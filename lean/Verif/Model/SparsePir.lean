import Verif.Model.HashedDb
import Verif.Model.Round
/-!
# Sparse PIR: servers and clients with cuckoo hashing and with simple hashing
-/
namespace Verif
open Res

/-- `PirServerPublicParams` (/repo/pir/private_information_retrieval.proto:55-60). -/
inductive PublicParams where
  | notSet
  | cuckoo (params : CuckooParams)
  | simple (params : SimpleParams)
  deriving DecidableEq, Repr

/-- `SHA256HashFunction("")(seed, std::numeric_limits<int>::max())`
(/repo/pir/cuckoo_hashing_sparse_dpf_pir_server.cc:129-130,
/repo/pir/cuckoo_hashing_sparse_dpf_pir_client.cc:107-111,
/repo/pir/simple_hashing_sparse_dpf_pir_server.cc:123-124,
/repo/pir/simple_hashing_sparse_dpf_pir_client.cc:104-108). -/
def seedFingerprint (sha : Sha256) (config : HashFamilyConfig) : Res Int :=
  sha.hashFunction [] config.seed 2147483647

/-- The check of the fingerprint, a `fixed32`, against an `int`
(/repo/pir/cuckoo_hashing_sparse_dpf_pir_server.cc:159-164,
/repo/pir/simple_hashing_sparse_dpf_pir_server.cc:153-158). -/
def checkFingerprint (request : PlainRequest) (fingerprint : Int) : Res Unit :=
  failIf (request.seedFingerprint ≠ 0 ∧ request.seedFingerprint ≠ BitVec.ofInt 32 fingerprint)
    .invalidArgument

/-- The seed for the hash functions (/repo/pir/cuckoo_hashing_sparse_dpf_pir_server.cc:65-66): 16 random
bytes. The result of `RAND_bytes` is not checked. -/
def hashSeed (random : Nat → BitVec 8) : Bytes := (List.range 16).map random

/-! ## Servers -/

/-- Members of `CuckooHashingSparseDpfPirServer` (/repo/pir/cuckoo_hashing_sparse_dpf_pir_server.h:119-122)
and its role. -/
structure CuckooServer where
  params : PublicParams
  dpf : Dpf
  db : CuckooDb
  fingerprint : Int
  role : Role

namespace CuckooServer

/-- `kEncryptionContextInfo` (/repo/pir/cuckoo_hashing_sparse_dpf_pir_server.h:56-57). -/
def contextInfo : Bytes := stringBytes "CuckooHashingSparseDpfPirServer"

/-- `kBucketsPerElement * num_elements`, converted to `int64_t` (/repo/pir/cuckoo_hashing_sparse_dpf_pir_server.cc:39,
71-73): the number is converted to `double`, which rounds it, the product is rounded, and its fractional part is
discarded. The conversion of doubles from 2^63 on is undefined. (The number is positive here.) -/
def scaledBuckets (n : Int) : Res Int :=
  let product := roundDouble (3 / 2 * roundDouble (n : Rat))
  if 2 ^ 63 ≤ product then ub else ok product.floor

/-- `GenerateParams` (/repo/pir/cuckoo_hashing_sparse_dpf_pir_server.cc:50-75). -/
def generateParams (random : Nat → BitVec 8) (config : PirConfig) : Res CuckooParams :=
  match config with
  | .cuckoo family n => do
    failIf (n ≤ 0) .invalidArgument
    failIf (family = 0) .invalidArgument
    let numBuckets ← scaledBuckets n
    ok ⟨⟨family, hashSeed random⟩, 3, numBuckets⟩
  | _ => err .invalidArgument

/-- `CreatePlain` (/repo/pir/cuckoo_hashing_sparse_dpf_pir_server.cc:96-139). -/
def createPlain (fp : FpEnv) (ceilLog2 : CeilLog2) (sha : Sha256) (params : CuckooParams)
    (db : Option CuckooDb) : Res CuckooServer := do
  failIf (params.numBuckets ≤ 0) .invalidArgument
  failIf (params.numHashFunctions ≤ 0) .invalidArgument
  failIf (params.hashFamilyConfig.hashFamily = 0) .invalidArgument
  match db with
  | none => err .invalidArgument
  | some db => do
    failIf ((db.numSelectionBits : Int) ≠ params.numBuckets) .invalidArgument
    let dpf ← Dpf.create fp (pirParameters ceilLog2 params.numBuckets)
    let fingerprint ← seedFingerprint sha params.hashFamilyConfig
    ok ⟨.cuckoo params, dpf, db, fingerprint, .plain⟩

/-- `CreateLeader` (/repo/pir/cuckoo_hashing_sparse_dpf_pir_server.cc:77-84). -/
def createLeader (fp : FpEnv) (ceilLog2 : CeilLog2) (sha : Sha256) (params : CuckooParams)
    (db : Option CuckooDb) (sender : Option Sender) : Res CuckooServer := do
  let s ← createPlain fp ceilLog2 sha params db
  let role ← PirServer.makeLeader sender
  ok { s with role := role }

/-- `CreateHelper` (/repo/pir/cuckoo_hashing_sparse_dpf_pir_server.cc:86-94). -/
def createHelper (fp : FpEnv) (ceilLog2 : CeilLog2) (sha : Sha256) (params : CuckooParams)
    (db : Option CuckooDb) (decrypter : Option CryptFn) : Res CuckooServer := do
  let s ← createPlain fp ceilLog2 sha params db
  let role ← PirServer.makeHelper decrypter contextInfo
  ok { s with role := role }

/-- `HandlePlainRequest` (/repo/pir/cuckoo_hashing_sparse_dpf_pir_server.cc:142-187); the loop over the
keys is the same as in the dense server. -/
def handlePlainRequest (env : Env) (simd : SimdEnv) (s : CuckooServer) (request : PirRequest) :
    Res PirResponse :=
  match request with
  | none => err .invalidArgument
  | some (.plain r) => do
    failIf (r.dpfKeys.length = 0) .invalidArgument
    checkFingerprint r s.fingerprint
    let selections ← mapRes (DenseServer.selection s.dpf env) r.dpfKeys
    let products ← s.db.innerProductWith simd selections
    ok (some (products.flatMap fun p => [p.1, p.2]))
  | some _ => err .invalidArgument

/-- `HandleRequest` (/repo/pir/dpf_pir_server.cc:55-65). -/
def handleRequest (codec : HelperCodec) (aes : AesBlock) (env : Env) (simd : SimdEnv) (s : CuckooServer)
    (request : PirRequest) : Res PirResponse :=
  PirServer.handleRequest codec aes (s.handlePlainRequest env simd) s.role request

end CuckooServer

/-- Members of `SimpleHashingSparseDpfPirServer` (/repo/pir/simple_hashing_sparse_dpf_pir_server.h:121-124)
and its role. -/
structure SimpleServer where
  params : PublicParams
  dpf : Dpf
  db : SimpleDb
  fingerprint : Int
  role : Role

namespace SimpleServer

/-- `kEncryptionContextInfo` (/repo/pir/simple_hashing_sparse_dpf_pir_server.h:58-59). -/
def contextInfo : Bytes := stringBytes "SimpleHashingSparseDpfPirServer"

/-- `GenerateParams` (/repo/pir/simple_hashing_sparse_dpf_pir_server.cc:48-72). -/
def generateParams (random : Nat → BitVec 8) (config : PirConfig) : Res SimpleParams :=
  match config with
  | .simple family n => do
    failIf (n ≤ 0) .invalidArgument
    failIf (family = 0) .invalidArgument
    ok ⟨⟨family, hashSeed random⟩, n⟩
  | _ => err .invalidArgument

/-- `CreatePlain` (/repo/pir/simple_hashing_sparse_dpf_pir_server.cc:93-133). -/
def createPlain (fp : FpEnv) (ceilLog2 : CeilLog2) (sha : Sha256) (params : SimpleParams)
    (db : Option SimpleDb) : Res SimpleServer := do
  failIf (params.numBuckets ≤ 0) .invalidArgument
  failIf (params.hashFamilyConfig.hashFamily = 0) .invalidArgument
  match db with
  | none => err .invalidArgument
  | some db => do
    failIf ((db.numSelectionBits : Int) ≠ params.numBuckets) .invalidArgument
    let dpf ← Dpf.create fp (pirParameters ceilLog2 params.numBuckets)
    let fingerprint ← seedFingerprint sha params.hashFamilyConfig
    ok ⟨.simple params, dpf, db, fingerprint, .plain⟩

/-- `CreateLeader` (/repo/pir/simple_hashing_sparse_dpf_pir_server.cc:74-81). -/
def createLeader (fp : FpEnv) (ceilLog2 : CeilLog2) (sha : Sha256) (params : SimpleParams)
    (db : Option SimpleDb) (sender : Option Sender) : Res SimpleServer := do
  let s ← createPlain fp ceilLog2 sha params db
  let role ← PirServer.makeLeader sender
  ok { s with role := role }

/-- `CreateHelper` (/repo/pir/simple_hashing_sparse_dpf_pir_server.cc:83-91). -/
def createHelper (fp : FpEnv) (ceilLog2 : CeilLog2) (sha : Sha256) (params : SimpleParams)
    (db : Option SimpleDb) (decrypter : Option CryptFn) : Res SimpleServer := do
  let s ← createPlain fp ceilLog2 sha params db
  let role ← PirServer.makeHelper decrypter contextInfo
  ok { s with role := role }

/-- `HandlePlainRequest` (/repo/pir/simple_hashing_sparse_dpf_pir_server.cc:136-179). Unlike in the
response of the dense server, the field is always set, by `mutable_dpf_pir_response`. -/
def handlePlainRequest (env : Env) (simd : SimdEnv) (s : SimpleServer) (request : PirRequest) :
    Res PirResponse :=
  match request with
  | none => err .invalidArgument
  | some (.plain r) => do
    failIf (r.dpfKeys.length = 0) .invalidArgument
    checkFingerprint r s.fingerprint
    let selections ← mapRes (DenseServer.selection s.dpf env) r.dpfKeys
    let products ← s.db.innerProductWith simd selections
    ok (some products)
  | some _ => err .invalidArgument

/-- `HandleRequest` (/repo/pir/dpf_pir_server.cc:55-65). -/
def handleRequest (codec : HelperCodec) (aes : AesBlock) (env : Env) (simd : SimdEnv) (s : SimpleServer)
    (request : PirRequest) : Res PirResponse :=
  PirServer.handleRequest codec aes (s.handlePlainRequest env simd) s.role request

end SimpleServer

/-! ## Clients -/

/-- `DummyEncrypter` (/repo/pir/cuckoo_hashing_sparse_dpf_pir_client.cc:59-64,
/repo/pir/simple_hashing_sparse_dpf_pir_client.cc:60-65). -/
def dummyEncrypter : CryptFn := fun _ _ => err .internal

/-- `IsPrefixPaddedWithZeros` (/repo/pir/cuckoo_hashing_sparse_dpf_pir_client.cc:45-55). -/
def isPrefixPaddedWithZeros : Bytes → Bytes → Bool
  | [], _ => true
  | a :: input, [] => if a ≠ 0 then false else isPrefixPaddedWithZeros input []
  | a :: input, p :: pre => if a ≠ p then false else isPrefixPaddedWithZeros input pre

/-- The seed in the state of the wrapped client
(`request_client_state.dense_dpf_pir_request_client_state().one_time_pad_seed()`). -/
def ClientState.denseSeed : ClientState → Bytes
  | .dense seed => seed
  | _ => []

/-- `set_seed_fingerprint` of both requests (/repo/pir/cuckoo_hashing_sparse_dpf_pir_client.cc:160-162,
/repo/pir/simple_hashing_sparse_dpf_pir_client.cc:153-155). -/
def setFingerprints (fingerprint : Int) (leader : PlainRequest) (helper : HelperRequest) :
    PlainRequest × HelperRequest :=
  ({ leader with seedFingerprint := BitVec.ofInt 32 fingerprint },
   { helper with plainRequest := some { helper.plainRequest.getD PlainRequest.default with
      seedFingerprint := BitVec.ofInt 32 fingerprint } })

/-- Members of `CuckooHashingSparseDpfPirClient` (/repo/pir/cuckoo_hashing_sparse_dpf_pir_client.h:79-82,
/repo/pir/dpf_pir_client.h:96-97). -/
structure CuckooClient where
  encrypter : CryptFn
  contextInfo : Bytes
  wrapped : DenseClient
  hashFunctions : List HashFunction
  numBuckets : Int
  fingerprint : Int

namespace CuckooClient

/-- `Create` (/repo/pir/cuckoo_hashing_sparse_dpf_pir_client.cc:79-131); `num_buckets` is converted to
`int`. -/
def create (fp : FpEnv) (ceilLog2 : CeilLog2) (sha : Sha256) (params : PublicParams)
    (encrypter : Option CryptFn) (contextInfo : Bytes) : Res CuckooClient :=
  match encrypter with
  | none => err .invalidArgument
  | some encrypter =>
    match params with
    | .cuckoo params => do
      failIf (params.numBuckets ≤ 0) .invalidArgument
      failIf (params.numHashFunctions ≤ 0) .invalidArgument
      let family ← createHashFamilyFromConfig sha params.hashFamilyConfig
      let fingerprint ← seedFingerprint sha params.hashFamilyConfig
      let hashFunctions ← createHashFunctions family params.numHashFunctions
      let wrapped ← DenseClient.create fp ceilLog2 (.dense params.numBuckets) (some dummyEncrypter) []
      ok ⟨encrypter, contextInfo, wrapped, hashFunctions, wrapInt32 params.numBuckets, fingerprint⟩
    | _ => err .invalidArgument

/-- The indices for one query (/repo/pir/cuckoo_hashing_sparse_dpf_pir_client.cc:138-140). -/
def hashes (c : CuckooClient) (query : Bytes) : Res (List Int) :=
  mapRes (fun f : HashFunction => f query c.numBuckets) c.hashFunctions

/-- `CreatePlainRequests` (/repo/pir/cuckoo_hashing_sparse_dpf_pir_client.cc:132-165). -/
def createPlainRequests (c : CuckooClient) (env : Env) (queries : List Bytes)
    (seeds : Nat → U128 × U128) (random : Nat → BitVec 8) :
    Res (PlainRequest × HelperRequest × ClientState) := do
  let indices ← mapRes c.hashes queries
  let r ← c.wrapped.createPlainRequests env indices.flatten seeds random
  let requests := setFingerprints c.fingerprint r.1 r.2.1
  ok (requests.1, requests.2, .cuckoo r.2.2.denseSeed queries)

/-- `CreateRequest` (/repo/pir/dpf_pir_client.h:64-84). -/
def createRequest (codec : HelperCodec) (c : CuckooClient) (env : Env) (queries : List Bytes)
    (seeds : Nat → U128 × U128) (random : Nat → BitVec 8) : Res (PirRequest × ClientState) :=
  PirClient.createRequest codec c.encrypter c.contextInfo (c.createPlainRequests env queries seeds random)

/-- One pass of the loop in `HandleResponse` over the hash functions
(/repo/pir/cuckoo_hashing_sparse_dpf_pir_client.cc:205-215); a found result ends the loop. -/
def lookUpAt (raw : List Bytes) (numFunctions i : Nat) (query : Bytes) (result : Option Bytes) (j : Nat) :
    Res (Option Bytes) :=
  match result with
  | some v => ok (some v)
  | none => do
    let key ← rd raw (2 * (numFunctions * i + j))
    if isPrefixPaddedWithZeros key query then do
      let value ← rd raw (2 * (numFunctions * i + j) + 1)
      ok (some value)
    else ok none

/-- The loop over the hash functions in `HandleResponse`
(/repo/pir/cuckoo_hashing_sparse_dpf_pir_client.cc:205-215). -/
def lookUp (raw : List Bytes) (numFunctions i : Nat) (query : Bytes) : Res (Option Bytes) :=
  foldRes (lookUpAt raw numFunctions i query) none (List.range numFunctions)

/-- `HandleResponse` (/repo/pir/cuckoo_hashing_sparse_dpf_pir_client.cc:167-218). Sizes above 2^31 are not
modelled. -/
def handleResponse (aes : AesBlock) (c : CuckooClient) (response : PirResponse) (state : ClientState) :
    Res (List (Option Bytes)) :=
  match response with
  | none => err .invalidArgument
  | some masked =>
    match state with
    | .cuckoo seed queries => do
      failIf (queries.length * c.hashFunctions.length * 2 ≠ masked.length) .invalidArgument
      let raw ← DenseClient.handleResponse aes response (.dense seed)
      if c.hashFunctions.length = 0 then ub
      else
        mapRes (fun i => do
          let query ← rd queries i
          lookUp raw c.hashFunctions.length i query)
          (List.range (raw.length / c.hashFunctions.length / 2))
    | _ => err .invalidArgument

end CuckooClient

/-- Members of `SimpleHashingSparseDpfPirClient` (/repo/pir/simple_hashing_sparse_dpf_pir_client.h:79-82,
/repo/pir/dpf_pir_client.h:96-97). -/
structure SimpleClient where
  encrypter : CryptFn
  contextInfo : Bytes
  wrapped : DenseClient
  hashFunction : HashFunction
  numBuckets : Int
  fingerprint : Int

namespace SimpleClient

/-- `Create` (/repo/pir/simple_hashing_sparse_dpf_pir_client.cc:80-126); `num_buckets` is converted to
`int`. -/
def create (fp : FpEnv) (ceilLog2 : CeilLog2) (sha : Sha256) (params : PublicParams)
    (encrypter : Option CryptFn) (contextInfo : Bytes) : Res SimpleClient :=
  match encrypter with
  | none => err .invalidArgument
  | some encrypter =>
    match params with
    | .simple params => do
      failIf (params.numBuckets ≤ 0) .invalidArgument
      let family ← createHashFamilyFromConfig sha params.hashFamilyConfig
      let fingerprint ← seedFingerprint sha params.hashFamilyConfig
      let hashFunctions ← createHashFunctions family 1
      let hashFunction ← rd hashFunctions (hashFunctions.length - 1)
      let wrapped ← DenseClient.create fp ceilLog2 (.dense params.numBuckets) (some dummyEncrypter) []
      ok ⟨encrypter, contextInfo, wrapped, hashFunction, wrapInt32 params.numBuckets, fingerprint⟩
    | _ => err .invalidArgument

/-- `CreatePlainRequests` (/repo/pir/simple_hashing_sparse_dpf_pir_client.cc:127-158). -/
def createPlainRequests (c : SimpleClient) (env : Env) (queries : List Bytes)
    (seeds : Nat → U128 × U128) (random : Nat → BitVec 8) :
    Res (PlainRequest × HelperRequest × ClientState) := do
  let indices ← mapRes (fun q : Bytes => c.hashFunction q c.numBuckets) queries
  let r ← c.wrapped.createPlainRequests env indices seeds random
  let requests := setFingerprints c.fingerprint r.1 r.2.1
  ok (requests.1, requests.2, .simple r.2.2.denseSeed queries)

/-- `CreateRequest` (/repo/pir/dpf_pir_client.h:64-84). -/
def createRequest (codec : HelperCodec) (c : SimpleClient) (env : Env) (queries : List Bytes)
    (seeds : Nat → U128 × U128) (random : Nat → BitVec 8) : Res (PirRequest × ClientState) :=
  PirClient.createRequest codec c.encrypter c.contextInfo (c.createPlainRequests env queries seeds random)

/-- The inner loop of `HandleResponse` (/repo/pir/simple_hashing_sparse_dpf_pir_client.cc:205-210):
reading `values(j)` is undefined if there are fewer values than keys. -/
def lookUp (query : Bytes) : List Bytes → List Bytes → Res (Option Bytes)
  | [], _ => ok none
  | key :: keys, values =>
    if key = query then do
      let value ← rd values 0
      ok (some value)
    else lookUp query keys values.tail

/-- `HandleResponse` (/repo/pir/simple_hashing_sparse_dpf_pir_client.cc:160-213). -/
def handleResponse (aes : AesBlock) (codec : BucketCodec) (response : PirResponse)
    (state : ClientState) : Res (List (Option Bytes)) :=
  match response with
  | none => err .invalidArgument
  | some masked =>
    match state with
    | .simple seed queries => do
      failIf (queries.length ≠ masked.length) .invalidArgument
      let raw ← DenseClient.handleResponse aes response (.dense seed)
      mapRes (fun i => do
        let bytes ← rd raw i
        let bucket := codec.parse bytes
        let query ← rd queries i
        lookUp query bucket.keys bucket.values) (List.range raw.length)
    | _ => err .invalidArgument

end SimpleClient
end Verif
