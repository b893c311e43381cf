import Verif.Model.SparsePir
import Verif.Spec.DensePir
import Verif.Spec.PirMessages
import Verif.Spec.Hashing
/-!
# Specification: hashed databases and sparse PIR
-/
namespace Verif.Spec
open Res

/-- The value that was inserted first for this key. -/
def firstValue (records : List (Bytes × Bytes)) (key : Bytes) : Option Bytes :=
  (records.find? fun r => r.1 = key).map (·.2)

/-- The bucket that hash function `j` gives for a key: the SHA-256 digest of seed, number of the hash
function (in decimal) and key, read as a number in little-endian order, modulo the number of buckets. -/
def bucketNumber (sha : Sha256) (seed : Bytes) (numBuckets j : Nat) (key : Bytes) : Nat :=
  leNat (sha.digest (seed ++ stringBytes (toString j) ++ key)) % numBuckets

/-- Both strings are the same up to zero bytes at the end. -/
def SameUpToZeros (a b : Bytes) : Prop := a ++ List.replicate b.length 0 = b ++ List.replicate a.length 0

/-- The fingerprint of a seed: its SHA-256 digest, read as a number in little-endian order, modulo
2^31 - 1. -/
def fingerprintOf (sha : Sha256) (seed : Bytes) : Nat := leNat (sha.digest seed) % (2 ^ 31 - 1)

/-! ### Cuckoo hashing -/

/-- Parameters for `k` hash functions and `n` buckets that are accepted everywhere. -/
def cuckooParams (seed : Bytes) (k n : Nat) : CuckooParams := ⟨⟨1, seed⟩, k, n⟩

/-- `db` is built by a builder with the given parameters into which the records are inserted in this
order. -/
def CuckooBuiltFrom (sha : Sha256) (random : Nat → Nat) (params : CuckooParams)
    (records : List (Bytes × Bytes)) (db : CuckooDb) : Prop :=
  ((records.foldl CuckooBuilder.insert (CuckooBuilder.new.setParams params)).build sha random).1 = ok db

/-- The database has keys `K` and values `V` in its buckets. -/
def CuckooHolds (db : CuckooDb) (K V : List Bytes) : Prop :=
  db.keys.content = ok K ∧ db.values.content = ok V

/-- What the client finds in the buckets `hs` for a query: the value of the first bucket whose key looks
like the query. All keys are padded to the length of the longest one, as are all values; the comparison
ignores what the query has beyond this length. -/
def cuckooAnswer (K V : List Bytes) (hs : List Nat) (query : Bytes) : Option Bytes :=
  hs.findSome? fun h =>
    if padded (maxLength K) (K.getD h []) = (query ++ List.replicate (maxLength K) 0).take (maxLength K)
    then some (padded (maxLength V) (V.getD h []))
    else none

/-! ### Simple hashing -/

/-- Parameters for `n` buckets that are accepted everywhere. -/
def simpleParams (seed : Bytes) (n : Nat) : SimpleParams := ⟨⟨1, seed⟩, n⟩

/-- `db` is built by a builder with the given parameters into which the records are inserted in this
order. -/
def SimpleBuiltFrom (sha : Sha256) (codec : BucketCodec) (params : SimpleParams)
    (records : List (Bytes × Bytes)) (db : SimpleDb) : Prop :=
  ((records.foldl SimpleBuilder.insert (SimpleBuilder.new.setParams params)).build sha codec).1 = ok db

/-- The bucket with number `i`: all records whose keys are mapped there, in order. -/
def simpleBucket (sha : Sha256) (seed : Bytes) (n : Nat) (records : List (Bytes × Bytes)) (i : Nat) :
    PirBucket :=
  let inBucket := records.filter fun r => bucketNumber sha seed n 0 r.1 = i
  ⟨inBucket.map (·.1), inBucket.map (·.2)⟩

/-- The serialization can be undone, even if zero bytes follow. -/
def CodecOk (codec : BucketCodec) : Prop :=
  ∀ b s, codec.serialize b = some s → ∀ n, codec.parse (s ++ List.replicate n 0) = b

/-! ### Outcome of building -/

/-- A hash family that the library has, with a seed. -/
def HashFamilyConfig.Usable (config : HashFamilyConfig) : Prop := config.hashFamily = 1 ∧ config.seed ≠ []

instance (config : HashFamilyConfig) : Decidable (HashFamilyConfig.Usable config) :=
  inferInstanceAs (Decidable (_ ∧ _))

/-- What `Build` of a new builder with these parameters and records returns. -/
def cuckooBuild (sha : Sha256) (random : Nat → Nat) (params : CuckooParams)
    (records : List (Bytes × Bytes)) : Res CuckooDb :=
  ((records.foldl CuckooBuilder.insert (CuckooBuilder.new.setParams params)).build sha random).1

/-- The same with simple hashing. -/
def simpleBuild (sha : Sha256) (codec : BucketCodec) (params : SimpleParams)
    (records : List (Bytes × Bytes)) : Res SimpleDb :=
  ((records.foldl SimpleBuilder.insert (SimpleBuilder.new.setParams params)).build sha codec).1

/-! ### Running the protocol -/

/-- What leader, helper and client use besides the code: functions of libraries, machines of the leader
(`simd0`) and the helper (`simd1`), and the encryption between client and helper. -/
structure PirSetting where
  fp : FpEnv
  env : Env
  aes : AesBlock
  codec : HelperCodec
  ceilLog2 : CeilLog2
  sha : Sha256
  simd0 : SimdEnv
  simd1 : SimdEnv
  encrypter : CryptFn
  decrypter : CryptFn

/-- The setting works for `n` buckets and requests with `keys` keys: messages to the helper can be parsed after
serialization, vectors can be halved, the helper can decrypt, the logarithm is exact, and the servers can handle the
buckets. -/
structure PirSetting.Works (S : PirSetting) (info : Bytes) (n keys : Nat) : Prop where
  parses : ∀ m, HelperMessage keys m → S.codec.parse (S.codec.serialize m) = some m
  simd0Ok : SimdOk S.simd0
  simd1Ok : SimdOk S.simd1
  decrypts : Decrypts S.encrypter S.decrypter info
  exact : ExactAt S.ceilLog2 n
  manageable : Manageable n S.simd0 S.simd1

/-- Helper, leader and client can be created; the leader asks this helper while it computes its own
answer. The client makes a request for the queries, whatever random numbers it uses, the leader answers
it, and from the response the client gets `answers`. -/
def CuckooRun (S : PirSetting) (params : CuckooParams) (db : CuckooDb) (queries : List Bytes)
    (answers : List (Option Bytes)) : Prop :=
  ∃ helper leader client,
    CuckooServer.createHelper S.fp S.ceilLog2 S.sha params (some db) (some S.decrypter) = ok helper ∧
    CuckooServer.createLeader S.fp S.ceilLog2 S.sha params (some db)
      (some fun request => (true, helper.handleRequest S.codec S.aes S.env S.simd1 request)) = ok leader ∧
    CuckooClient.create S.fp S.ceilLog2 S.sha (.cuckoo params) (some S.encrypter)
      CuckooServer.contextInfo = ok client ∧
    ∀ (seeds : Nat → U128 × U128) (random : Nat → BitVec 8), ∃ request state response,
      client.createRequest S.codec S.env queries seeds random = ok (request, state) ∧
      leader.handleRequest S.codec S.aes S.env S.simd0 request = ok response ∧
      client.handleResponse S.aes response state = ok answers

/-- The same with simple hashing. -/
def SimpleRun (S : PirSetting) (codec : BucketCodec) (params : SimpleParams) (db : SimpleDb)
    (queries : List Bytes) (answers : List (Option Bytes)) : Prop :=
  ∃ helper leader client,
    SimpleServer.createHelper S.fp S.ceilLog2 S.sha params (some db) (some S.decrypter) = ok helper ∧
    SimpleServer.createLeader S.fp S.ceilLog2 S.sha params (some db)
      (some fun request => (true, helper.handleRequest S.codec S.aes S.env S.simd1 request)) = ok leader ∧
    SimpleClient.create S.fp S.ceilLog2 S.sha (.simple params) (some S.encrypter)
      SimpleServer.contextInfo = ok client ∧
    ∀ (seeds : Nat → U128 × U128) (random : Nat → BitVec 8), ∃ request state response,
      client.createRequest S.codec S.env queries seeds random = ok (request, state) ∧
      leader.handleRequest S.codec S.aes S.env S.simd0 request = ok response ∧
      SimpleClient.handleResponse S.aes codec response state = ok answers

/-- The first of the keys of the bucket that equals the query, if there is one, has a value at its place. -/
def HasValue (query : Bytes) (bucket : PirBucket) : Prop :=
  query ∈ bucket.keys → bucket.keys.idxOf query < bucket.values.length

/-- The value at the place of the first key that equals the query; none if there is no such key. -/
def valueIn (query : Bytes) (bucket : PirBucket) : Option Bytes :=
  if query ∈ bucket.keys then bucket.values[bucket.keys.idxOf query]? else none

/-- All keys of the database are in buckets, none is left in the stash: as many buckets are filled as
the database has records. -/
def NoneInStash (db : CuckooDb) (K : List Bytes) : Prop := (K.filter (· ≠ [])).length = db.size

instance (db : CuckooDb) (K V : List Bytes) : Decidable (CuckooHolds db K V) :=
  inferInstanceAs (Decidable (_ ∧ _))

instance (db : CuckooDb) (K : List Bytes) : Decidable (NoneInStash db K) :=
  inferInstanceAs (Decidable (_ = _))

instance (a b : Bytes) : Decidable (SameUpToZeros a b) := inferInstanceAs (Decidable (_ = _))

end Verif.Spec
