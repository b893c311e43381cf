import Verif.Model.Faults
import Verif.Model.SparsePir
/-!
# Failing calls of the environment: creation, gates' keys, and PIR

As in `Model/Faults`; the calls that may fail are

* `EVP_CIPHER_CTX_new` and `EVP_EncryptInit_ex` (/repo/dpf/aes_128_fixed_key_hash.cc:41-55), reported as INTERNAL,
* `AES_set_encrypt_key` (/repo/pir/prng/aes_128_ctr_seeded_prng.cc:78-85), reported as INTERNAL,
* `hwy::AllocateAligned` (/repo/pir/internal/inner_product_hwy.cc:176-182), reported as RESOURCE_EXHAUSTED.
-/
namespace Verif
open Res Faulty

/-- As `mapRes`: the outputs for all inputs, stopping at the first failure. -/
def Faulty.map {α β : Type} (f : α → Faulty β) : List α → Faulty (List β)
  | [] => lift (ok [])
  | a :: l => do
    let b ← f a
    let bs ← map f l
    lift (ok (b :: bs))

/-! ## Creation -/

/-- `Aes128FixedKeyHash::Create` (/repo/dpf/aes_128_fixed_key_hash.cc:39-57). The hash function itself is the key. -/
def Aes128FixedKeyHash.createF (key : U128) : Faulty U128 := do
  call .internal
  call .internal
  lift (ok key)

/-- `CreateIncremental` (/repo/dpf/distributed_point_function.cc:592-643); the hash functions are created in lines
619-624. -/
def Dpf.createIncrementalF (fp : FpEnv) (params : List DpfParameters) : Faulty Dpf := do
  let pv ← lift (ProtoValidator.create fp params)
  let blocks ← lift (mapRes (fun (p : DpfParameters) => do
    let bits ← bitsNeeded fp p.vt p.securityParameter
    let sum ← intRange (bits + 127)
    ok (sum.tdiv 128).toNat) params)
  let _ ← Aes128FixedKeyHash.createF kPrgKeyLeft
  let _ ← Aes128FixedKeyHash.createF kPrgKeyRight
  let _ ← Aes128FixedKeyHash.createF kPrgKeyValue
  let reg := registerType (uintHelper 8) []
  let reg := registerType (uintHelper 16) reg
  let reg := registerType (uintHelper 32) reg
  let reg := registerType (uintHelper 64) reg
  let reg := registerType (uintHelper 128) reg
  lift (ok ⟨pv, blocks, reg⟩)

/-- `Create` (/repo/dpf/distributed_point_function.cc:587-590). -/
def Dpf.createF (fp : FpEnv) (params : DpfParameters) : Faulty Dpf := Dpf.createIncrementalF fp [params]

/-- `Create` (/repo/dcf/distributed_comparison_function.cc:49-78). -/
def Dcf.createF (fp : FpEnv) (p : DpfParameters) : Faulty Dcf := do
  lift (failIf (p.logDomainSize < 1) .invalidArgument)
  let params := dpfParameters p
  lift (validateParameters params)
  let dpf ← Dpf.createIncrementalF fp params
  lift (ok ⟨p.logDomainSize, dpf⟩)

/-- `Create` (/repo/dcf/fss_gates/multiple_interval_containment.cc:37-103). -/
def Mic.createF (fp : FpEnv) (params : MicParameters) : Faulty Mic := do
  lift (failIf (params.logGroupSize < 0 ∨ params.logGroupSize > 127) .invalidArgument)
  let N ← lift (shl128 1 params.logGroupSize)
  let _ ← lift (mapRes (checkInterval N) params.intervals)
  let dcf ← Dcf.createF fp ⟨params.logGroupSize, some (uintHelper 128).toValueType, .val 0⟩
  lift (ok ⟨params, dcf⟩)

/-! ## Keys of gates -/

/-- `GenerateKeys<T>` (/repo/dcf/distributed_comparison_function.h:57-67); the type is registered first. -/
def Dcf.generateKeysForF {α : Type} (c : Dcf) (env : Env) (H : Helper α) (alpha : U128) (beta : α)
    (seed0 seed1 : U128) : FaultyOn Dcf (DcfKey × DcfKey) :=
  keepF ((c.register H).generateKeysF env alpha (H.toValue beta) seed0 seed1) (c.register H) fun keys =>
  endF (ok keys) (c.register H)

/-- `Gen` (/repo/dcf/fss_gates/multiple_interval_containment.cc:110-209). -/
def Mic.genF (g : Mic) (env : Env) (rIn : U128) (rOut : List U128) (seed0 seed1 : U128) (rand : Nat → U128) :
    FaultyOn Mic (MicKey × MicKey) :=
  keepF (lift (shl128 1 g.params.logGroupSize)) g fun N =>
  keepF (lift (g.checkGen N rIn rOut)) g fun _ => fun fs =>
    let gamma := (N - 1 + rIn) % N
    let r := g.dcf.generateKeysForF env (uintHelper 128) gamma 1 seed0 seed1 fs
    ((r.1.1 >>= fun (k0, k1) => do
      let zs ← mapRes (fun i => do
        let iv ← rd g.params.intervals i
        let ro ← rd rOut i
        let z := correctionTerm N rIn ro iv
        let z0 := rand i % N
        let z1 := (z - z0) % N
        ok (blockMessage z0, blockMessage z1)) (List.range g.params.intervals.length)
      ok (⟨k0, zs.map (·.1)⟩, ⟨k1, zs.map (·.2)⟩), { g with dcf := r.1.2 }), r.2)

/-! ## Inner products -/

/-- `InnerProductHwy` (/repo/pir/internal/inner_product_hwy.cc:102-107 and 159-253); the buffers for the results are
allocated in lines 176-182. -/
def innerProductHwyF (env : SimdEnv) (values : List Bytes) (selections : List (List U128))
    (maxValueSize : Nat) : Faulty (List Bytes) :=
  if env.scalar ∨ env.lanes < 16 ∨ env.lanes % 16 ≠ 0 then
    lift (innerProductNoHwy env values selections maxValueSize)
  else do
    let buffers ← Faulty.map (fun _ => do
      call .resourceExhausted
      lift (ok (List.replicate maxValueSize 0))) selections
    let first ← lift (rd selections 0)
    lift (foldRes (fun results i =>
      loopBits values.length (wrapInt32 ((i * 128 : Nat) : Int)) (hwyRecord env values selections i)
        (List.range 128) results)
      buffers (List.range first.length))

/-- `InnerProduct` (/repo/pir/internal/inner_product_hwy.cc:302-342). -/
def innerProductF (env : SimdEnv) (values : List Bytes) (selections : List (List U128))
    (maxValueSize : Int) : Faulty (List Bytes) :=
  match selections with
  | [] => lift (ok [])
  | first :: _ => do
    let _ ← lift (mapRes (checkSelection values.length (wrapInt32 first.length) maxValueSize) selections)
    lift (checkValues maxValueSize values)
    innerProductHwyF env values selections maxValueSize.toNat

/-- `InnerProductWith` (/repo/pir/dense_dpf_pir_database.cc:164-168). -/
def DenseDb.innerProductWithF (simd : SimdEnv) (db : DenseDb) (selections : List (List U128)) :
    Faulty (List Bytes) := do
  let values ← lift db.content
  innerProductF simd values selections db.maxValueSize

/-- `InnerProductWith` (/repo/pir/cuckoo_hashed_dpf_pir_database.cc:183-202). -/
def CuckooDb.innerProductWithF (simd : SimdEnv) (db : CuckooDb) (selections : List (List U128)) :
    Faulty (List (Bytes × Bytes)) := do
  let keys ← db.keys.innerProductWithF simd selections
  let values ← db.values.innerProductWithF simd selections
  lift (failIf (keys.length ≠ values.length ∨ keys.length ≠ selections.length) .internal)
  lift (ok (pairUp keys values))

/-- `InnerProductWith` (/repo/pir/simple_hashed_dpf_pir_database.cc:160-164). -/
def SimpleDb.innerProductWithF (simd : SimdEnv) (db : SimpleDb) (selections : List (List U128)) :
    Faulty (List Bytes) := db.dense.innerProductWithF simd selections

/-! ## Servers in their roles -/

/-- `Create` and `CreateWithNonce` (/repo/pir/prng/aes_128_ctr_seeded_prng.cc:59-91). -/
def Prng.createF (seed : Bytes) : Faulty Prng := do
  lift (failIf (seed.length ≠ seedSize) .invalidArgument)
  lift (failIf (seed.length ≠ (List.replicate seedSize (0 : BitVec 8)).length) .invalidArgument)
  call .internal
  lift (ok ⟨seed, BitVec.ofNat 128 (beNat (List.replicate seedSize 0)), List.replicate 16 0, 0⟩)

namespace PirServer

/-- `HandleLeaderRequest` (/repo/pir/dpf_pir_server.cc:67-145). Failures on the helper's machine are part of what the
sender returns. If the sender does not run the callback, none of the leader's calls is made; if it returns an error, that
is returned even if the callback failed. -/
def handleLeaderRequestF (handlePlain : PirRequest → Faulty PirResponse) (sender : Sender)
    (request : PirRequest) : Faulty PirResponse :=
  match request.dpf with
  | .leader plain encrypted =>
    match plain, encrypted with
    | none, _ => lift (err .invalidArgument)
    | some _, none => lift (err .invalidArgument)
    | some plain, some encrypted => fun fs =>
      let sent := sender (some (.encrypted encrypted))
      match sent.1 with
      | false => (sent.2 >>= fun _ => err .failedPrecondition, fs)
      | true =>
        let run := handlePlain (some (.plain plain)) fs
        (match run.1 with
        | .ub => ub
        | .crash => crash
        | leaderResponse => do
          let helperResponse ← sent.2
          let leaderResponse ← leaderResponse
          failIf (helperResponse.masked.length ≠ leaderResponse.masked.length) .internal
          let combined ← combine leaderResponse.masked helperResponse.masked
          ok (if combined = [] then leaderResponse else some combined), run.2)
  | _ => lift (err .invalidArgument)

/-- `HandleHelperRequest` (/repo/pir/dpf_pir_server.cc:147-193). -/
def handleHelperRequestF (codec : HelperCodec) (aes : AesBlock)
    (handlePlain : PirRequest → Faulty PirResponse) (decrypter : CryptFn) (contextInfo : Bytes)
    (request : PirRequest) : Faulty PirResponse :=
  match request.dpf with
  | .encrypted b => do
    let decrypted ← lift (decrypter b contextInfo)
    match codec.parse decrypted with
    | none => lift (err .invalidArgument)
    | some inner => do
      let response ← handlePlain (some (.plain (inner.plainRequest.getD PlainRequest.default)))
      let prng ← Prng.createF inner.oneTimePadSeed
      let masked ← lift (maskAll aes prng response.masked)
      lift (ok (if masked = [] then response else some masked))
  | _ => lift (err .invalidArgument)

/-- `HandleRequest` (/repo/pir/dpf_pir_server.cc:55-65). -/
def handleRequestF (codec : HelperCodec) (aes : AesBlock) (handlePlain : PirRequest → Faulty PirResponse)
    (role : Role) (request : PirRequest) : Faulty PirResponse :=
  match role with
  | .plain => handlePlain request
  | .leader sender => handleLeaderRequestF handlePlain sender request
  | .helper decrypter contextInfo =>
    handleHelperRequestF codec aes handlePlain decrypter contextInfo request

end PirServer

/-! ## Dense servers and clients -/

namespace DenseServer

/-- `CreatePlain` (/repo/pir/dense_dpf_pir_server.cc:59-90). -/
def createPlainF (fp : FpEnv) (ceilLog2 : CeilLog2) (config : PirConfig) (db : Option DenseDb) :
    Faulty DenseServer :=
  match config with
  | .dense n =>
    match db with
    | none => lift (err .invalidArgument)
    | some db => do
      lift (failIf (n ≤ 0) .invalidArgument)
      lift (failIf ((db.size : Int) ≠ n) .invalidArgument)
      let dpf ← Dpf.createF fp (pirParameters ceilLog2 n)
      lift (ok ⟨dpf, db, .plain⟩)
  | _ => lift (err .invalidArgument)

/-- `CreateLeader` (/repo/pir/dense_dpf_pir_server.cc:39-46). -/
def createLeaderF (fp : FpEnv) (ceilLog2 : CeilLog2) (config : PirConfig) (db : Option DenseDb)
    (sender : Option Sender) : Faulty DenseServer := do
  let s ← createPlainF fp ceilLog2 config db
  let role ← lift (PirServer.makeLeader sender)
  lift (ok { s with role := role })

/-- `CreateHelper` (/repo/pir/dense_dpf_pir_server.cc:48-57). -/
def createHelperF (fp : FpEnv) (ceilLog2 : CeilLog2) (config : PirConfig) (db : Option DenseDb)
    (decrypter : Option CryptFn) : Faulty DenseServer := do
  let s ← createPlainF fp ceilLog2 config db
  let role ← lift (PirServer.makeHelper decrypter contextInfo)
  lift (ok { s with role := role })

/-- Evaluation of one key (/repo/pir/dense_dpf_pir_server.cc:113-117); the context is dropped. -/
def selectionF (dpf : Dpf) (env : Env) (key : DpfKey) : Faulty (List U128) := do
  let ctx ← lift (dpf.createEvaluationContext key)
  fun fs =>
    let r := dpf.evaluateNextF env pirTy.helper [] ctx fs
    (r.1.1, r.2)

/-- `HandlePlainRequest` (/repo/pir/dense_dpf_pir_server.cc:96-129). -/
def handlePlainRequestF (env : Env) (simd : SimdEnv) (s : DenseServer) (request : PirRequest) :
    Faulty PirResponse :=
  match request with
  | none => lift (err .invalidArgument)
  | some (.plain r) => do
    lift (failIf (r.dpfKeys.length = 0) .invalidArgument)
    let selections ← Faulty.map (selectionF s.dpf env) r.dpfKeys
    let products ← s.db.innerProductWithF simd selections
    lift (ok (if products = [] then none else some products))
  | some _ => lift (err .invalidArgument)

/-- `HandleRequest` (/repo/pir/dpf_pir_server.cc:55-65). -/
def handleRequestF (codec : HelperCodec) (aes : AesBlock) (env : Env) (simd : SimdEnv) (s : DenseServer)
    (request : PirRequest) : Faulty PirResponse :=
  PirServer.handleRequestF codec aes (s.handlePlainRequestF env simd) s.role request

end DenseServer

/-- `CreateRequest` (/repo/pir/dpf_pir_client.h:64-84), given `CreatePlainRequests`. -/
def PirClient.createRequestF (codec : HelperCodec) (encrypter : CryptFn) (contextInfo : Bytes)
    (plainRequests : Faulty (PlainRequest × HelperRequest × ClientState)) :
    Faulty (PirRequest × ClientState) := do
  let (leader, helper, state) ← plainRequests
  let request ← lift (plainRequestsToLeaderRequest codec encrypter contextInfo leader helper)
  lift (ok (request, state))

namespace DenseClient

/-- `Create` (/repo/pir/dense_dpf_pir_client.cc:50-76). -/
def createF (fp : FpEnv) (ceilLog2 : CeilLog2) (config : PirConfig) (encrypter : Option CryptFn)
    (contextInfo : Bytes) : Faulty DenseClient :=
  match config with
  | .dense n => do
    lift (failIf (n ≤ 0) .invalidArgument)
    match encrypter with
    | none => lift (err .invalidArgument)
    | some encrypter => do
      let dpf ← Dpf.createF fp (pirParameters ceilLog2 n)
      lift (ok ⟨dpf, encrypter, contextInfo, wrapInt32 n⟩)
  | _ => lift (err .invalidArgument)

/-- Keys for one index (/repo/pir/dense_dpf_pir_client.cc:95-102). -/
def keysForF (dpf : Dpf) (env : Env) (query : Int) (seeds : U128 × U128) : Faulty (DpfKey × DpfKey) := do
  let alpha : U128 := BitVec.ofInt 128 (query.tdiv 128)
  let beta ← lift (shl128 1 (query.tmod 128))
  (dpf.registerValueType pirTy.helper).generateKeysIncrementalF env alpha
    [pirTy.helper.toValue beta] seeds.1 seeds.2

/-- `CreatePlainRequests` (/repo/pir/dense_dpf_pir_client.cc:78-118). -/
def createPlainRequestsF (c : DenseClient) (env : Env) (queries : List Int) (seeds : Nat → U128 × U128)
    (random : Nat → BitVec 8) : Faulty (PlainRequest × HelperRequest × ClientState) := do
  let _ ← lift (mapRes (fun q : Int => do
    failIf (q < 0) .invalidArgument
    failIf (q ≥ c.databaseSize) .invalidArgument) queries)
  let keys ← Faulty.map (fun (q, i) => keysForF c.dpf env q (seeds i)) queries.zipIdx
  let seed := Prng.generateSeed random
  lift (ok (⟨keys.map (·.1), 0⟩, ⟨if keys = [] then none else some ⟨keys.map (·.2), 0⟩, seed⟩, .dense seed))

/-- `CreateRequest` (/repo/pir/dpf_pir_client.h:64-84). -/
def createRequestF (codec : HelperCodec) (c : DenseClient) (env : Env) (queries : List Int)
    (seeds : Nat → U128 × U128) (random : Nat → BitVec 8) : Faulty (PirRequest × ClientState) :=
  PirClient.createRequestF codec c.encrypter c.contextInfo (c.createPlainRequestsF env queries seeds random)

/-- `HandleResponse` (/repo/pir/dense_dpf_pir_client.cc:120-154). -/
def handleResponseF (aes : AesBlock) (response : PirResponse) (state : ClientState) : Faulty (List Bytes) :=
  match response with
  | none => lift (err .invalidArgument)
  | some masked =>
    match state with
    | .dense seed => do
      lift (failIf (masked = []) .invalidArgument)
      lift (failIf (seed = []) .invalidArgument)
      let prng ← Prng.createF seed
      lift (PirServer.maskAll aes prng masked)
    | _ => lift (err .invalidArgument)

end DenseClient

/-! ## Sparse servers and clients -/

namespace CuckooServer

/-- `CreatePlain` (/repo/pir/cuckoo_hashing_sparse_dpf_pir_server.cc:96-139). -/
def createPlainF (fp : FpEnv) (ceilLog2 : CeilLog2) (sha : Sha256) (params : CuckooParams)
    (db : Option CuckooDb) : Faulty CuckooServer := do
  lift (failIf (params.numBuckets ≤ 0) .invalidArgument)
  lift (failIf (params.numHashFunctions ≤ 0) .invalidArgument)
  lift (failIf (params.hashFamilyConfig.hashFamily = 0) .invalidArgument)
  match db with
  | none => lift (err .invalidArgument)
  | some db => do
    lift (failIf ((db.numSelectionBits : Int) ≠ params.numBuckets) .invalidArgument)
    let dpf ← Dpf.createF fp (pirParameters ceilLog2 params.numBuckets)
    let fingerprint ← lift (seedFingerprint sha params.hashFamilyConfig)
    lift (ok ⟨.cuckoo params, dpf, db, fingerprint, .plain⟩)

/-- `CreateLeader` (/repo/pir/cuckoo_hashing_sparse_dpf_pir_server.cc:77-84). -/
def createLeaderF (fp : FpEnv) (ceilLog2 : CeilLog2) (sha : Sha256) (params : CuckooParams)
    (db : Option CuckooDb) (sender : Option Sender) : Faulty CuckooServer := do
  let s ← createPlainF fp ceilLog2 sha params db
  let role ← lift (PirServer.makeLeader sender)
  lift (ok { s with role := role })

/-- `CreateHelper` (/repo/pir/cuckoo_hashing_sparse_dpf_pir_server.cc:86-94). -/
def createHelperF (fp : FpEnv) (ceilLog2 : CeilLog2) (sha : Sha256) (params : CuckooParams)
    (db : Option CuckooDb) (decrypter : Option CryptFn) : Faulty CuckooServer := do
  let s ← createPlainF fp ceilLog2 sha params db
  let role ← lift (PirServer.makeHelper decrypter contextInfo)
  lift (ok { s with role := role })

/-- `HandlePlainRequest` (/repo/pir/cuckoo_hashing_sparse_dpf_pir_server.cc:142-187). -/
def handlePlainRequestF (env : Env) (simd : SimdEnv) (s : CuckooServer) (request : PirRequest) :
    Faulty PirResponse :=
  match request with
  | none => lift (err .invalidArgument)
  | some (.plain r) => do
    lift (failIf (r.dpfKeys.length = 0) .invalidArgument)
    lift (checkFingerprint r s.fingerprint)
    let selections ← Faulty.map (DenseServer.selectionF s.dpf env) r.dpfKeys
    let products ← s.db.innerProductWithF simd selections
    lift (ok (some (products.flatMap fun p => [p.1, p.2])))
  | some _ => lift (err .invalidArgument)

/-- `HandleRequest` (/repo/pir/dpf_pir_server.cc:55-65). -/
def handleRequestF (codec : HelperCodec) (aes : AesBlock) (env : Env) (simd : SimdEnv) (s : CuckooServer)
    (request : PirRequest) : Faulty PirResponse :=
  PirServer.handleRequestF codec aes (s.handlePlainRequestF env simd) s.role request

end CuckooServer

namespace SimpleServer

/-- `CreatePlain` (/repo/pir/simple_hashing_sparse_dpf_pir_server.cc:93-133). -/
def createPlainF (fp : FpEnv) (ceilLog2 : CeilLog2) (sha : Sha256) (params : SimpleParams)
    (db : Option SimpleDb) : Faulty SimpleServer := do
  lift (failIf (params.numBuckets ≤ 0) .invalidArgument)
  lift (failIf (params.hashFamilyConfig.hashFamily = 0) .invalidArgument)
  match db with
  | none => lift (err .invalidArgument)
  | some db => do
    lift (failIf ((db.numSelectionBits : Int) ≠ params.numBuckets) .invalidArgument)
    let dpf ← Dpf.createF fp (pirParameters ceilLog2 params.numBuckets)
    let fingerprint ← lift (seedFingerprint sha params.hashFamilyConfig)
    lift (ok ⟨.simple params, dpf, db, fingerprint, .plain⟩)

/-- `CreateLeader` (/repo/pir/simple_hashing_sparse_dpf_pir_server.cc:74-81). -/
def createLeaderF (fp : FpEnv) (ceilLog2 : CeilLog2) (sha : Sha256) (params : SimpleParams)
    (db : Option SimpleDb) (sender : Option Sender) : Faulty SimpleServer := do
  let s ← createPlainF fp ceilLog2 sha params db
  let role ← lift (PirServer.makeLeader sender)
  lift (ok { s with role := role })

/-- `CreateHelper` (/repo/pir/simple_hashing_sparse_dpf_pir_server.cc:83-91). -/
def createHelperF (fp : FpEnv) (ceilLog2 : CeilLog2) (sha : Sha256) (params : SimpleParams)
    (db : Option SimpleDb) (decrypter : Option CryptFn) : Faulty SimpleServer := do
  let s ← createPlainF fp ceilLog2 sha params db
  let role ← lift (PirServer.makeHelper decrypter contextInfo)
  lift (ok { s with role := role })

/-- `HandlePlainRequest` (/repo/pir/simple_hashing_sparse_dpf_pir_server.cc:136-179). -/
def handlePlainRequestF (env : Env) (simd : SimdEnv) (s : SimpleServer) (request : PirRequest) :
    Faulty PirResponse :=
  match request with
  | none => lift (err .invalidArgument)
  | some (.plain r) => do
    lift (failIf (r.dpfKeys.length = 0) .invalidArgument)
    lift (checkFingerprint r s.fingerprint)
    let selections ← Faulty.map (DenseServer.selectionF s.dpf env) r.dpfKeys
    let products ← s.db.innerProductWithF simd selections
    lift (ok (some products))
  | some _ => lift (err .invalidArgument)

/-- `HandleRequest` (/repo/pir/dpf_pir_server.cc:55-65). -/
def handleRequestF (codec : HelperCodec) (aes : AesBlock) (env : Env) (simd : SimdEnv) (s : SimpleServer)
    (request : PirRequest) : Faulty PirResponse :=
  PirServer.handleRequestF codec aes (s.handlePlainRequestF env simd) s.role request

end SimpleServer

namespace CuckooClient

/-- `Create` (/repo/pir/cuckoo_hashing_sparse_dpf_pir_client.cc:79-131). -/
def createF (fp : FpEnv) (ceilLog2 : CeilLog2) (sha : Sha256) (params : PublicParams)
    (encrypter : Option CryptFn) (contextInfo : Bytes) : Faulty CuckooClient :=
  match encrypter with
  | none => lift (err .invalidArgument)
  | some encrypter =>
    match params with
    | .cuckoo params => do
      lift (failIf (params.numBuckets ≤ 0) .invalidArgument)
      lift (failIf (params.numHashFunctions ≤ 0) .invalidArgument)
      let family ← lift (createHashFamilyFromConfig sha params.hashFamilyConfig)
      let fingerprint ← lift (seedFingerprint sha params.hashFamilyConfig)
      let hashFunctions ← lift (createHashFunctions family params.numHashFunctions)
      let wrapped ← DenseClient.createF fp ceilLog2 (.dense params.numBuckets) (some dummyEncrypter) []
      lift (ok ⟨encrypter, contextInfo, wrapped, hashFunctions, wrapInt32 params.numBuckets, fingerprint⟩)
    | _ => lift (err .invalidArgument)

/-- `CreatePlainRequests` (/repo/pir/cuckoo_hashing_sparse_dpf_pir_client.cc:132-165). -/
def createPlainRequestsF (c : CuckooClient) (env : Env) (queries : List Bytes)
    (seeds : Nat → U128 × U128) (random : Nat → BitVec 8) :
    Faulty (PlainRequest × HelperRequest × ClientState) := do
  let indices ← lift (mapRes c.hashes queries)
  let r ← c.wrapped.createPlainRequestsF env indices.flatten seeds random
  let requests := setFingerprints c.fingerprint r.1 r.2.1
  lift (ok (requests.1, requests.2, .cuckoo r.2.2.denseSeed queries))

/-- `CreateRequest` (/repo/pir/dpf_pir_client.h:64-84). -/
def createRequestF (codec : HelperCodec) (c : CuckooClient) (env : Env) (queries : List Bytes)
    (seeds : Nat → U128 × U128) (random : Nat → BitVec 8) : Faulty (PirRequest × ClientState) :=
  PirClient.createRequestF codec c.encrypter c.contextInfo (c.createPlainRequestsF env queries seeds random)

/-- `HandleResponse` (/repo/pir/cuckoo_hashing_sparse_dpf_pir_client.cc:167-218). -/
def handleResponseF (aes : AesBlock) (c : CuckooClient) (response : PirResponse) (state : ClientState) :
    Faulty (List (Option Bytes)) :=
  match response with
  | none => lift (err .invalidArgument)
  | some masked =>
    match state with
    | .cuckoo seed queries => do
      lift (failIf (queries.length * c.hashFunctions.length * 2 ≠ masked.length) .invalidArgument)
      let raw ← DenseClient.handleResponseF aes response (.dense seed)
      if c.hashFunctions.length = 0 then lift ub
      else
        lift (mapRes (fun i => do
          let query ← rd queries i
          lookUp raw c.hashFunctions.length i query)
          (List.range (raw.length / c.hashFunctions.length / 2)))
    | _ => lift (err .invalidArgument)

end CuckooClient

namespace SimpleClient

/-- `Create` (/repo/pir/simple_hashing_sparse_dpf_pir_client.cc:80-126). -/
def createF (fp : FpEnv) (ceilLog2 : CeilLog2) (sha : Sha256) (params : PublicParams)
    (encrypter : Option CryptFn) (contextInfo : Bytes) : Faulty SimpleClient :=
  match encrypter with
  | none => lift (err .invalidArgument)
  | some encrypter =>
    match params with
    | .simple params => do
      lift (failIf (params.numBuckets ≤ 0) .invalidArgument)
      let family ← lift (createHashFamilyFromConfig sha params.hashFamilyConfig)
      let fingerprint ← lift (seedFingerprint sha params.hashFamilyConfig)
      let hashFunctions ← lift (createHashFunctions family 1)
      let hashFunction ← lift (rd hashFunctions (hashFunctions.length - 1))
      let wrapped ← DenseClient.createF fp ceilLog2 (.dense params.numBuckets) (some dummyEncrypter) []
      lift (ok ⟨encrypter, contextInfo, wrapped, hashFunction, wrapInt32 params.numBuckets, fingerprint⟩)
    | _ => lift (err .invalidArgument)

/-- `CreatePlainRequests` (/repo/pir/simple_hashing_sparse_dpf_pir_client.cc:127-158). -/
def createPlainRequestsF (c : SimpleClient) (env : Env) (queries : List Bytes)
    (seeds : Nat → U128 × U128) (random : Nat → BitVec 8) :
    Faulty (PlainRequest × HelperRequest × ClientState) := do
  let indices ← lift (mapRes (fun q : Bytes => c.hashFunction q c.numBuckets) queries)
  let r ← c.wrapped.createPlainRequestsF env indices seeds random
  let requests := setFingerprints c.fingerprint r.1 r.2.1
  lift (ok (requests.1, requests.2, .simple r.2.2.denseSeed queries))

/-- `CreateRequest` (/repo/pir/dpf_pir_client.h:64-84). -/
def createRequestF (codec : HelperCodec) (c : SimpleClient) (env : Env) (queries : List Bytes)
    (seeds : Nat → U128 × U128) (random : Nat → BitVec 8) : Faulty (PirRequest × ClientState) :=
  PirClient.createRequestF codec c.encrypter c.contextInfo (c.createPlainRequestsF env queries seeds random)

/-- `HandleResponse` (/repo/pir/simple_hashing_sparse_dpf_pir_client.cc:160-213). -/
def handleResponseF (aes : AesBlock) (codec : BucketCodec) (response : PirResponse)
    (state : ClientState) : Faulty (List (Option Bytes)) :=
  match response with
  | none => lift (err .invalidArgument)
  | some masked =>
    match state with
    | .simple seed queries => do
      lift (failIf (queries.length ≠ masked.length) .invalidArgument)
      let raw ← DenseClient.handleResponseF aes response (.dense seed)
      lift (mapRes (fun i => do
        let bytes ← rd raw i
        let bucket := codec.parse bytes
        let query ← rd queries i
        lookUp query bucket.keys bucket.values) (List.range raw.length))
    | _ => lift (err .invalidArgument)

end SimpleClient
end Verif
