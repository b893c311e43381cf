import Verif.Model.PirTesting
import Verif.Model.SparsePir
/-!
# The benchmarks of PIR and of sampling integers modulo N
(/repo/pir/dense_dpf_pir_database_benchmark.cc, /repo/pir/dense_dpf_pir_server_benchmark.cc,
/repo/pir/cuckoo_hashing_sparse_dpf_pir_server_benchmark.cc,
/repo/pir/simple_hashing_sparse_dpf_pir_server_benchmark.cc, /repo/dpf/int_mod_n_benchmark.cc)

Not modelled: measuring time, and `main` with its flags. Random numbers are inputs. An assertion that fails ends the
benchmark with the error. Memory is unlimited.
-/
namespace Verif
open Res

namespace PirBenchmarks
open PirTesting

/-! ## Databases -/

/-- `kMaxSizeDiff` (/repo/pir/dense_dpf_pir_database_benchmark.cc:35). -/
def maxSizeDiff : Int := 8

/-- A database of these values (/repo/pir/dense_dpf_pir_database_benchmark.cc:45-49, 103-107, 136-140,
/repo/pir/dense_dpf_pir_server_benchmark.cc:59-63). -/
def databaseOf (values : List Bytes) : Res DenseDb :=
  (values.foldl DenseBuilder.insert DenseBuilder.new).build.1

/-- `BM_InnerProductOnEqualSizeValues` (/repo/pir/dense_dpf_pir_database_benchmark.cc:37-60): the result of every
round, which is not checked. -/
def innerProductEqualSize (simd : SimdEnv) (random : Nat → Nat → BitVec 8) (bits : Nat → U128)
    (numValues size : Int) : Res (Res (List Bytes)) := do
  let values ← generateRandomStringsEqualSize random numValues size
  let db ← databaseOf values
  let selections ← generateRandomPackedSelectionBits bits numValues
  ok (db.innerProductWith simd [selections])

/-- `BM_InnerProductOnVariableSizeValues` (/repo/pir/dense_dpf_pir_database_benchmark.cc:94-118). -/
def innerProductVariableSize (simd : SimdEnv) (random : Nat → Nat → BitVec 8) (draws : Nat → Int) (bits : Nat → U128)
    (numValues avgSize : Int) : Res (Res (List Bytes)) := do
  let values ← generateRandomStringsVariableSize random draws numValues avgSize maxSizeDiff
  let db ← databaseOf values
  let selections ← generateRandomPackedSelectionBits bits numValues
  ok (db.innerProductWith simd [selections])

/-- `BM_BatchedInnerProductOnVariableSizeValues` (/repo/pir/dense_dpf_pir_database_benchmark.cc:126-152): the same
selection bits `batch_size` times. A negative size of a vector throws. -/
def batchedInnerProduct (simd : SimdEnv) (random : Nat → Nat → BitVec 8) (draws : Nat → Int) (bits : Nat → U128)
    (numValues avgSize batchSize : Int) : Res (Res (List Bytes)) := do
  let values ← generateRandomStringsVariableSize random draws numValues avgSize maxSizeDiff
  let db ← databaseOf values
  let selections ← generateRandomPackedSelectionBits bits numValues
  if batchSize < 0 then crash
  else ok (db.innerProductWith simd (List.replicate batchSize.toNat selections))

/-! ## Server for dense databases -/

/-- `BM_HandlePlainRequestWithEqualSizeRecords` before the rounds
(/repo/pir/dense_dpf_pir_server_benchmark.cc:46-73): server and request generator. `otp` are the random bytes of the
one-time-pad seed. -/
def denseSetup (fp : FpEnv) (ceilLog2 : CeilLog2) (random : Nat → Nat → BitVec 8) (otp : Nat → BitVec 8)
    (numRecords size : Int) : Res (DenseServer × RequestGenerator) := do
  let values ← generateRandomStringsEqualSize random numRecords size
  let db ← databaseOf values
  let server ← DenseServer.createPlain fp ceilLog2 (.dense numRecords) (some db)
  let g ← RequestGenerator.create fp ceilLog2 otp numRecords DenseServer.contextInfo
  ok (server, g)

/-- One of its rounds (/repo/pir/dense_dpf_pir_server_benchmark.cc:76-96): the request for the other server, which is
not sent, and the response, which is not checked. `draws` are the indices drawn. `reserve` of a negative number
throws. -/
def denseRound (codec : HelperCodec) (aes : AesBlock) (env : Env) (simd : SimdEnv)
    (s : DenseServer × RequestGenerator) (numIndices : Int) (draws : Nat → Int) (seeds : Nat → U128 × U128) :
    Res (PlainRequest × Res PirResponse) :=
  if numIndices < 0 then crash
  else do
    let requests ← s.2.createPlainRequests env ((List.range numIndices.toNat).map draws) seeds
    ok (requests.2, s.1.handleRequest codec aes env simd (some (.plain requests.1)))

/-! ## Servers for databases with keys -/

/-- Random keys and values side by side (/repo/pir/cuckoo_hashing_sparse_dpf_pir_server_benchmark.cc:71-80,
/repo/pir/simple_hashing_sparse_dpf_pir_server_benchmark.cc:73-83). -/
def pairs (keys values : List Bytes) (numRecords : Int) : Res (List (Bytes × Bytes)) :=
  mapRes (fun i => do
    let key ← rd keys i
    let value ← rd values i
    ok (key, value)) (List.range numRecords.toNat)

/-- What the rounds with cuckoo hashing use. -/
structure CuckooSetup where
  params : CuckooParams
  keys : List Bytes
  server : CuckooServer
  hashFunctions : List HashFunction
  generator : RequestGenerator

/-- `BM_HandlePlainRequest` before the rounds (/repo/pir/cuckoo_hashing_sparse_dpf_pir_server_benchmark.cc:54-107).
`num_buckets` is converted to `int`. -/
def cuckooSetup (fp : FpEnv) (ceilLog2 : CeilLog2) (sha : Sha256) (seed : Nat → BitVec 8)
    (hops : Nat → Nat) (randomKeys randomValues : Nat → Nat → BitVec 8) (otp : Nat → BitVec 8)
    (numRecords keySize valueSize : Int) : Res CuckooSetup := do
  let params ← CuckooServer.generateParams seed (.cuckoo 1 numRecords)
  let keys ← generateRandomStringsEqualSize randomKeys numRecords keySize
  let values ← generateRandomStringsEqualSize randomValues numRecords valueSize
  let records ← pairs keys values numRecords
  let db ← ((records.foldl CuckooBuilder.insert (CuckooBuilder.new.setParams params)).build sha hops).1
  let server ← CuckooServer.createPlain fp ceilLog2 sha params (some db)
  let family ← createHashFamilyFromConfig sha params.hashFamilyConfig
  let functions ← createHashFunctions family params.numHashFunctions
  let g ← RequestGenerator.create fp ceilLog2 otp (wrapInt32 params.numBuckets) CuckooServer.contextInfo
  ok ⟨params, keys, server, functions, g⟩

/-- The indices for one key (/repo/pir/cuckoo_hashing_sparse_dpf_pir_server_benchmark.cc:119-123). -/
def cuckooIndices (s : CuckooSetup) (draw : Int) : Res (List Int) := do
  let key ← rdInt s.keys draw
  mapRes (fun f : HashFunction => f key (wrapInt32 s.params.numBuckets)) s.hashFunctions

/-- One of its rounds (/repo/pir/cuckoo_hashing_sparse_dpf_pir_server_benchmark.cc:110-136): the request for the other
server, which is not sent, and the response. `draws` are the numbers of the keys drawn. -/
def cuckooRound (codec : HelperCodec) (aes : AesBlock) (env : Env) (simd : SimdEnv) (s : CuckooSetup) (numKeys : Int)
    (draws : Nat → Int) (seeds : Nat → U128 × U128) : Res (PlainRequest × PirResponse) :=
  if numKeys < 0 then crash
  else do
    let indices ← mapRes (fun i => cuckooIndices s (draws i)) (List.range numKeys.toNat)
    let requests ← s.generator.createPlainRequests env indices.flatten seeds
    let response ← s.server.handleRequest codec aes env simd (some (.plain requests.1))
    ok (requests.2, response)

/-- What the rounds with simple hashing use. -/
structure SimpleSetup where
  params : SimpleParams
  keys : List Bytes
  server : SimpleServer
  hashFunctions : List HashFunction

/-- `BM_HandlePlainRequest` before the rounds (/repo/pir/simple_hashing_sparse_dpf_pir_server_benchmark.cc:52-102). -/
def simpleSetup (fp : FpEnv) (ceilLog2 : CeilLog2) (sha : Sha256) (codec : BucketCodec) (seed : Nat → BitVec 8)
    (randomKeys randomValues : Nat → Nat → BitVec 8) (numRecords numBuckets keySize valueSize : Int) :
    Res SimpleSetup := do
  let params ← SimpleServer.generateParams seed (.simple 1 numBuckets)
  let keys ← generateRandomStringsEqualSize randomKeys numRecords keySize
  let values ← generateRandomStringsEqualSize randomValues numRecords valueSize
  let records ← pairs keys values numRecords
  let db ← ((records.foldl SimpleBuilder.insert (SimpleBuilder.new.setParams params)).build sha codec).1
  let server ← SimpleServer.createPlain fp ceilLog2 sha params (some db)
  let family ← createHashFamilyFromConfig sha params.hashFamilyConfig
  let functions ← createHashFunctions family 1
  ok ⟨params, keys, server, functions⟩

/-- The index for one key (/repo/pir/simple_hashing_sparse_dpf_pir_server_benchmark.cc:111-112). -/
def simpleIndex (s : SimpleSetup) (draw : Int) : Res Int := do
  let key ← rdInt s.keys draw
  let f ← rd s.hashFunctions 0
  f key (wrapInt32 s.params.numBuckets)

/-- One of its rounds (/repo/pir/simple_hashing_sparse_dpf_pir_server_benchmark.cc:105-133), with a request generator of
its own. -/
def simpleRound (fp : FpEnv) (ceilLog2 : CeilLog2) (codec : HelperCodec) (aes : AesBlock) (env : Env) (simd : SimdEnv)
    (otp : Nat → BitVec 8) (s : SimpleSetup) (numKeys : Int) (draws : Nat → Int) (seeds : Nat → U128 × U128) :
    Res (PlainRequest × PirResponse) :=
  if numKeys < 0 then crash
  else do
    let indices ← mapRes (fun i => simpleIndex s (draws i)) (List.range numKeys.toNat)
    let g ← RequestGenerator.create fp ceilLog2 otp (wrapInt32 s.params.numBuckets) SimpleServer.contextInfo
    let requests ← g.createPlainRequests env indices seeds
    let response ← s.server.handleRequest codec aes env simd (some (.plain requests.1))
    ok (requests.2, response)

/-! ## Sampling -/

/-- The modulus (/repo/dpf/int_mod_n_benchmark.cc:30). -/
def sampleModulus : U128 := 4294967291

/-- `BM_Sample` (/repo/dpf/int_mod_n_benchmark.cc:33-50): the output of every round. `value()` of an error aborts, as
does a vector of negative size. -/
def sample (fp : FpEnv) (random : Nat → BitVec 8) (numIterations : Nat) : Res (List (BitVec 32)) := do
  let numBytes ← match IntModN.getNumBytesRequired fp 5 32 sampleModulus (.val (roundDouble (40 + fp.log2 numIterations))) with
    | err _ => crash
    | r => r
  if numBytes < 0 then crash
  else do
    let bytes := (List.range numBytes.toNat).map random
    let _ ← intRange (numIterations * 5)
    let samples ← mapRes (fun _ => IntModN.unsafeSampleFromBytes sampleModulus 32 bytes 5) (List.range numIterations)
    ok samples.flatten

end PirBenchmarks
end Verif
