import Verif.Model.PirProto
import Verif.Model.InnerProduct
/-!
# Hash functions and hash tables (/repo/pir/hashing)
-/
namespace Verif
open Res

/-- `HashFunction` (/repo/pir/hashing/hash_family.h:34-36): a string and an upper bound. -/
abbrev HashFunction := Bytes → Int → Res Int

/-- `HashFamily` (/repo/pir/hashing/hash_family.h:38-39): a hash function for each seed. -/
abbrev HashFamily := Bytes → HashFunction

/-- SHA-256 from OpenSSL: `SHA256_Final` writes 32 bytes that depend on all bytes given to
`SHA256_Update` since `SHA256_Init`. A `SHA256_CTX` is the list of these bytes. -/
structure Sha256 where
  digest : Bytes → Bytes
  size : ∀ m, (digest m).length = 32

namespace Sha256

/-- `SHA256UpdateWithData` (/repo/pir/hashing/sha256_hash_family.cc:32-43); `chunk` is 2^30. -/
def updateWithData (chunk : Nat) (data ctx : Bytes) : Bytes :=
  if _h : data.length > chunk ∧ 0 < chunk then
    updateWithData chunk (data.drop chunk) (ctx ++ data.take chunk)
  else ctx ++ data
termination_by data.length
decreasing_by simp only [List.length_drop]; omega

/-- `chunk_size` (/repo/pir/hashing/sha256_hash_family.cc:34). -/
def chunkSize : Nat := 1 <<< 30

/-- `absl::uint128 % int`: the `int` is sign-extended; division by zero is undefined. -/
def modInt (x : U128) (upperBound : Int) : Res U128 :=
  if upperBound = 0 then ub else ok (x % BitVec.ofInt 128 upperBound)

/-- `absl::MakeUint128` (abseil): high and low 64 bits. -/
def makeUint128 (high low : BitVec 64) : U128 := high ++ low

/-- `SHA256HashFunction` (/repo/pir/hashing/sha256_hash_family.cc:47-52) and `operator()`
(/repo/pir/hashing/sha256_hash_family.cc:59-87). -/
def hashFunction (sha : Sha256) (seed : Bytes) : HashFunction := fun input upperBound => do
  let ctx := updateWithData chunkSize seed []
  let hash := sha.digest (updateWithData chunkSize input ctx)
  let hi ← slice hash 16 16
  let lo ← slice hash 0 16
  let hi : U128 := BitVec.ofNat 128 (leNat hi)
  let lo : U128 := BitVec.ofNat 128 (leNat lo)
  let remainder1 ← modInt hi upperBound
  let dividend2 := makeUint128 (remainder1.setWidth 64) ((lo >>> 64).setWidth 64)
  let remainder2 ← modInt dividend2 upperBound
  let dividend3 := makeUint128 (remainder2.setWidth 64) (lo.setWidth 64)
  let result ← modInt dividend3 upperBound
  ok (wrapInt32 result.toNat)

/-- `SHA256HashFamily` (/repo/pir/hashing/sha256_hash_family.h:42-46). -/
def hashFamily (sha : Sha256) : HashFamily := sha.hashFunction

end Sha256

/-- `FarmHashFunction::operator()` (/repo/pir/hashing/farm_hash_family.cc:24-29). `hash` is
`Hash128WithSeed` with the hash of the seed, as one number. -/
def farmHashFunction (hash : Bytes → U128) : HashFunction := fun input upperBound => do
  let result ← Sha256.modInt (hash input) upperBound
  ok (wrapInt32 result.toNat)

/-- `WrapWithSeed` (/repo/pir/hashing/hash_family.h:45-53). -/
def wrapWithSeed (family : HashFamily) (familySeed : Bytes) : HashFamily := fun seed =>
  family (familySeed ++ seed)

/-- `CreateHashFunctions` (/repo/pir/hashing/hash_family.cc:27-39). -/
def createHashFunctions (family : HashFamily) (n : Int) : Res (List HashFunction) := do
  failIf (n < 0) .invalidArgument
  ok ((List.range n.toNat).map fun i => family (stringBytes (toString i)))

/-- `HashFamilyConfig` (/repo/pir/hashing/hash_family_config.proto:25-35). -/
structure HashFamilyConfig where
  hashFamily : Int
  seed : Bytes
  deriving DecidableEq, Repr

/-- `CreateHashFamilyFromConfig` (/repo/pir/hashing/hash_family_config.cc:27-45). -/
def createHashFamilyFromConfig (sha : Sha256) (config : HashFamilyConfig) : Res HashFamily := do
  failIf (config.seed = []) .invalidArgument
  if config.hashFamily = 1 then ok (wrapWithSeed sha.hashFamily config.seed)
  else err .invalidArgument

/-- `v[i] = a`; out of bounds is undefined. -/
def wrInt {α : Type} (v : List α) (i : Int) (a : α) : Res (List α) :=
  if i < 0 ∨ v.length ≤ i.toNat then ub else ok (v.set i.toNat a)

/-! ## `CuckooHashTable` -/

/-- Members (/repo/pir/hashing/cuckoo_hash_table.h:98-108). `draws` counts the numbers taken from the
random number generator. -/
structure CuckooTable where
  numBuckets : Int
  maxRelocations : Int
  maxStashSize : Option Int
  hashFunctions : List HashFunction
  table : List (Option Bytes)
  stash : List Bytes
  draws : Nat

namespace CuckooTable

/-- `Create` and constructor (/repo/pir/hashing/cuckoo_hash_table.cc:33-65). -/
def create (hashFunctions : List HashFunction) (numBuckets maxRelocations : Int)
    (maxStashSize : Option Int) : Res CuckooTable := do
  failIf (numBuckets ≤ 0) .invalidArgument
  failIf (hashFunctions.length < 2) .invalidArgument
  failIf (maxRelocations < 0) .invalidArgument
  failIf (maxStashSize.any fun s => s < 0) .invalidArgument
  ok ⟨numBuckets, maxRelocations, maxStashSize, hashFunctions,
    List.replicate numBuckets.toNat none, [], 0⟩

/-- `Create` with a hash family (/repo/pir/hashing/cuckoo_hash_table.h:55-64). -/
def createFromFamily (family : HashFamily) (numBuckets numHashFunctions maxRelocations : Int)
    (maxStashSize : Option Int) : Res CuckooTable := do
  let hashFunctions ← createHashFunctions family numHashFunctions
  create hashFunctions numBuckets maxRelocations maxStashSize

/-- The loop of `Insert` (/repo/pir/hashing/cuckoo_hash_table.cc:69-81): the table afterwards, and the
current element if it has not been placed. `random i` is the `i`-th number `random_hash_function_(rng_)`. -/
def relocate (random : Nat → Nat) : Nat → CuckooTable → Bytes → Res (CuckooTable × Option Bytes)
  | 0, t, current => ok (t, some current)
  | n + 1, t, current => do
    let f ← rd t.hashFunctions (random t.draws)
    let hash ← f current t.numBuckets
    let bucket ← rdInt t.table hash
    let table ← wrInt t.table hash (some current)
    let t := { t with table := table, draws := t.draws + 1 }
    match bucket with
    | some evicted => relocate random n t evicted
    | none => ok (t, none)

/-- `Insert` (/repo/pir/hashing/cuckoo_hash_table.cc:67-90): status and table afterwards. -/
def insert (random : Nat → Nat) (t : CuckooTable) (input : Bytes) : Res Unit × CuckooTable :=
  match relocate random t.maxRelocations.toNat t input with
  | ok (t, none) => (ok (), t)
  | ok (t, some current) =>
    if t.maxStashSize.any fun s => s.toNat ≤ t.stash.length then (err .internal, t)
    else (ok (), { t with stash := t.stash ++ [current] })
  | err c => (err c, t)
  | ub => (ub, t)
  | crash => (crash, t)

end CuckooTable

/-! ## `SimpleHashTable` and `MultipleChoiceHashTable` -/

/-- Members of both tables (/repo/pir/hashing/simple_hash_table.h:85-89,
/repo/pir/hashing/multiple_choice_hash_table.h:78-82). -/
structure BucketTable where
  numBuckets : Int
  maxBucketSize : Option Int
  hashFunctions : List HashFunction
  table : List (List Bytes)

namespace BucketTable

/-- `max_bucket_size_ && bucket.size() >= *max_bucket_size_`. -/
def full (t : BucketTable) (bucket : List Bytes) : Bool :=
  t.maxBucketSize.any fun s => s.toNat ≤ bucket.length

/-- Checks of both `Create`s and the constructors (/repo/pir/hashing/simple_hash_table.cc:31-53,
/repo/pir/hashing/multiple_choice_hash_table.cc:31-55); `minimum` is the smallest number of hash
functions. -/
def create (minimum : Nat) (hashFunctions : List HashFunction) (numBuckets : Int)
    (maxBucketSize : Option Int) : Res BucketTable := do
  failIf (numBuckets ≤ 0) .invalidArgument
  failIf (hashFunctions.length < minimum) .invalidArgument
  failIf (maxBucketSize.any fun s => s ≤ 0) .invalidArgument
  ok ⟨numBuckets, maxBucketSize, hashFunctions, List.replicate numBuckets.toNat []⟩

/-- `SimpleHashTable::Create` (/repo/pir/hashing/simple_hash_table.cc:31-45). -/
def createSimple := create 1

/-- `MultipleChoiceHashTable::Create` (/repo/pir/hashing/multiple_choice_hash_table.cc:31-47). -/
def createMultipleChoice := create 2

/-- `table_[hash].push_back(input)`. -/
def pushBack (input : Bytes) (table : List (List Bytes)) (hash : Int) : Res (List (List Bytes)) := do
  let bucket ← rdInt table hash
  wrInt table hash (bucket ++ [input])

/-- Status and table afterwards: the table is only assigned if nothing has failed before. -/
def assign (t : BucketTable) : Res (List (List Bytes)) → Res Unit × BucketTable
  | ok table => (ok (), { t with table := table })
  | err c => (err c, t)
  | ub => (ub, t)
  | crash => (crash, t)

/-- First loop of `SimpleHashTable::Insert` (/repo/pir/hashing/simple_hash_table.cc:56-63). -/
def checkedHashes (t : BucketTable) (input : Bytes) : Res (List Int) :=
  mapRes (fun f : HashFunction => do
    let hash ← f input t.numBuckets
    let bucket ← rdInt t.table hash
    failIf (t.full bucket) .internal
    ok hash) t.hashFunctions

/-- `SimpleHashTable::Insert` (/repo/pir/hashing/simple_hash_table.cc:55-70). -/
def insertSimple (t : BucketTable) (input : Bytes) : Res Unit × BucketTable :=
  t.assign do
    let hashes ← t.checkedHashes input
    foldRes (pushBack input) t.table hashes

/-- One round of the loop that finds the smallest bucket
(/repo/pir/hashing/multiple_choice_hash_table.cc:61-64): `none` before the first hash function. -/
def smallerBucket (t : BucketTable) (input : Bytes) (best : Option Int) (f : HashFunction) :
    Res (Option Int) := do
  let hash ← f input t.numBuckets
  match best with
  | none => ok (some hash)
  | some best => do
    let bucket ← rdInt t.table hash
    let smallest ← rdInt t.table best
    ok (some (if bucket.length < smallest.length then hash else best))

/-- The loop (/repo/pir/hashing/multiple_choice_hash_table.cc:59-65). -/
def smallestBucket (t : BucketTable) (input : Bytes) : Res Int := do
  let best ← foldRes (t.smallerBucket input) none t.hashFunctions
  ok (best.getD 0)

/-- `MultipleChoiceHashTable::Insert` (/repo/pir/hashing/multiple_choice_hash_table.cc:57-72). -/
def insertMultipleChoice (t : BucketTable) (input : Bytes) : Res Unit × BucketTable :=
  t.assign do
    let smallest ← t.smallestBucket input
    let bucket ← rdInt t.table smallest
    failIf (t.full bucket) .internal
    pushBack input t.table smallest

end BucketTable
end Verif
