import Verif.Model.DensePir
import Verif.Model.Hashing
/-!
# Hashed databases

`CuckooHashedDpfPirDatabase` (/repo/pir/cuckoo_hashed_dpf_pir_database.cc) and `SimpleHashedDpfPirDatabase`
(/repo/pir/simple_hashed_dpf_pir_database.cc). The databases inside are dense ones; other
implementations of the interface are not modelled.
-/
namespace Verif
open Res

/-- `CuckooHashingParams` (/repo/pir/private_information_retrieval.proto:102-109). -/
structure CuckooParams where
  hashFamilyConfig : HashFamilyConfig
  numHashFunctions : Int
  numBuckets : Int
  deriving DecidableEq, Repr

/-- `SimpleHashingParams` (/repo/pir/private_information_retrieval.proto:112-117). -/
structure SimpleParams where
  hashFamilyConfig : HashFamilyConfig
  numBuckets : Int
  deriving DecidableEq, Repr

/-! ## `absl::btree_map<std::string, std::string>` -/

/-- `operator<` of strings: bytes are compared as unsigned numbers. -/
def bytesLt : Bytes → Bytes → Bool
  | [], [] => false
  | [], _ :: _ => true
  | _ :: _, [] => false
  | a :: as, b :: bs => if a = b then bytesLt as bs else decide (a.toNat < b.toNat)

/-- `insert`: the entries are sorted by key; nothing happens if the key is present. -/
def mapInsert (key value : Bytes) : List (Bytes × Bytes) → List (Bytes × Bytes)
  | [] => [(key, value)]
  | (k, v) :: m =>
    if bytesLt key k then (key, value) :: (k, v) :: m
    else if key = k then (k, v) :: m
    else (k, v) :: mapInsert key value m

/-- `extract(key).mapped()`, and the map afterwards. `mapped` of an empty handle is undefined. -/
def mapExtract (key : Bytes) : List (Bytes × Bytes) → Res (Bytes × List (Bytes × Bytes))
  | [] => ub
  | (k, v) :: m =>
    if key = k then ok (v, m)
    else do
      let (value, m) ← mapExtract key m
      ok (value, (k, v) :: m)

/-! ## Cuckoo hashing -/

/-- Members of `CuckooHashedDpfPirDatabase` (/repo/pir/cuckoo_hashed_dpf_pir_database.h:103-109). -/
structure CuckooDb where
  keys : DenseDb
  values : DenseDb
  size : Nat
  numSelectionBits : Nat
  deriving DecidableEq, Repr

/-- The pairs of the loop in `InnerProductWith` (/repo/pir/cuckoo_hashed_dpf_pir_database.cc:196-200). -/
def pairUp : List Bytes → List Bytes → List (Bytes × Bytes)
  | k :: keys, v :: values => (k, v) :: pairUp keys values
  | _, _ => []

/-- `InnerProductWith` (/repo/pir/cuckoo_hashed_dpf_pir_database.cc:183-202). -/
def CuckooDb.innerProductWith (simd : SimdEnv) (db : CuckooDb) (selections : List (List U128)) :
    Res (List (Bytes × Bytes)) := do
  let keys ← db.keys.innerProductWith simd selections
  let values ← db.values.innerProductWith simd selections
  failIf (keys.length ≠ values.length ∨ keys.length ≠ selections.length) .internal
  ok (pairUp keys values)

/-- Members of the builder (/repo/pir/cuckoo_hashed_dpf_pir_database.h:80-84). -/
structure CuckooBuilder where
  params : CuckooParams
  keyBuilder : Option DenseBuilder
  valueBuilder : Option DenseBuilder
  records : List (Bytes × Bytes)
  built : Bool
  deriving DecidableEq, Repr

namespace CuckooBuilder

/-- Constructor (/repo/pir/cuckoo_hashed_dpf_pir_database.cc:49-54). -/
def new : CuckooBuilder := ⟨⟨⟨0, []⟩, 0, 0⟩, none, none, [], false⟩

/-- `Clone` (/repo/pir/cuckoo_hashed_dpf_pir_database.cc:56-69). -/
def clone (b : CuckooBuilder) : CuckooBuilder :=
  { params := b.params, keyBuilder := b.keyBuilder.map DenseBuilder.clone,
    valueBuilder := b.valueBuilder.map DenseBuilder.clone, records := b.records, built := b.built }

/-- `Insert` (/repo/pir/cuckoo_hashed_dpf_pir_database.cc:71-75). -/
def insert (b : CuckooBuilder) (record : Bytes × Bytes) : CuckooBuilder :=
  { b with records := mapInsert record.1 record.2 b.records }

/-- `Clear` (/repo/pir/cuckoo_hashed_dpf_pir_database.cc:77-88). -/
def clear (b : CuckooBuilder) : CuckooBuilder :=
  { b with keyBuilder := b.keyBuilder.map DenseBuilder.clear,
           valueBuilder := b.valueBuilder.map DenseBuilder.clear, records := [], built := false }

/-- `SetParams` (/repo/pir/cuckoo_hashed_dpf_pir_database.cc:90-94). -/
def setParams (b : CuckooBuilder) (params : CuckooParams) : CuckooBuilder := { b with params := params }

/-- `SetKeyDatabaseBuilder` (/repo/pir/cuckoo_hashed_dpf_pir_database.cc:96-104). -/
def setKeyBuilder (b : CuckooBuilder) (builder : Option DenseBuilder) : CuckooBuilder :=
  { b with keyBuilder := builder.map DenseBuilder.clear }

/-- `SetValueDatabaseBuilder` (/repo/pir/cuckoo_hashed_dpf_pir_database.cc:106-114). -/
def setValueBuilder (b : CuckooBuilder) (builder : Option DenseBuilder) : CuckooBuilder :=
  { b with valueBuilder := builder.map DenseBuilder.clear }

/-- One key is inserted into the hash table (/repo/pir/cuckoo_hashed_dpf_pir_database.cc:145-149). -/
def insertKey (random : Nat → Nat) (t : CuckooTable) (record : Bytes × Bytes) : Res CuckooTable := do
  failIf (record.1 = []) .invalidArgument
  let r := t.insert random record.1
  r.1
  ok r.2

/-- One bucket is inserted into the dense databases (/repo/pir/cuckoo_hashed_dpf_pir_database.cc:156-164):
builder for the keys, builder for the values, and `records_`. -/
def fillBucket (s : DenseBuilder × DenseBuilder × List (Bytes × Bytes)) (bucket : Option Bytes) :
    Res (DenseBuilder × DenseBuilder × List (Bytes × Bytes)) :=
  match bucket with
  | some key => do
    let (value, records) ← mapExtract key s.2.2
    ok (s.1.insert key, s.2.1.insert value, records)
  | none => ok (s.1.insert [], s.2.1.insert [], s.2.2)

/-- The work of `Build` after the first check (/repo/pir/cuckoo_hashed_dpf_pir_database.cc:121-180).
`num_buckets` and `num_records` are converted to `int` for the hash table. -/
def buildDb (sha : Sha256) (random : Nat → Nat) (b : CuckooBuilder) : Res CuckooDb := do
  failIf (b.params.numBuckets ≤ 0) .invalidArgument
  failIf (b.params.numHashFunctions ≤ 0) .invalidArgument
  let family ← createHashFamilyFromConfig sha b.params.hashFamilyConfig
  let keyBuilder := b.keyBuilder.getD DenseBuilder.new
  let valueBuilder := b.valueBuilder.getD DenseBuilder.new
  let numRecords := b.records.length
  let t ← CuckooTable.createFromFamily family (wrapInt32 b.params.numBuckets) b.params.numHashFunctions
    (wrapInt32 numRecords) none
  let t ← foldRes (insertKey random) t b.records
  let s ← foldRes fillBucket (keyBuilder, valueBuilder, b.records) t.table
  let keys ← s.1.build.1
  let values ← s.2.1.build.1
  failIf (keys.size ≠ values.size ∨ (keys.size : Int) ≠ b.params.numBuckets) .internal
  ok ⟨keys, values, numRecords, keys.size⟩

/-- `Build` (/repo/pir/cuckoo_hashed_dpf_pir_database.cc:116-181): result and builder afterwards.
Simplified: the code also moves the records away and leaves the builders of the dense databases used. As
only `Clear` makes this builder usable again, which clears all of these, this cannot be observed. -/
def build (sha : Sha256) (random : Nat → Nat) (b : CuckooBuilder) : Res CuckooDb × CuckooBuilder :=
  if b.built then (err .failedPrecondition, b)
  else (buildDb sha random b, { b with built := true })

end CuckooBuilder

/-! ## Simple hashing -/

/-- `HashedPirDatabaseBucket` (/repo/pir/private_information_retrieval.proto:120-123). -/
structure PirBucket where
  keys : List Bytes
  values : List Bytes
  deriving DecidableEq, Repr

/-- Serialization of `HashedPirDatabaseBucket`, from the protobuf library. `serialize` is `none` if
`SerializeToCodedStream` fails; `parse` is what `ParseFromCodedStream` has put into the message, whether
it succeeds or not. -/
structure BucketCodec where
  serialize : PirBucket → Option Bytes
  parse : Bytes → PirBucket

/-- Members of `SimpleHashedDpfPirDatabase` (/repo/pir/simple_hashed_dpf_pir_database.h:91-97). -/
structure SimpleDb where
  dense : DenseDb
  size : Int
  numSelectionBits : Nat
  deriving DecidableEq, Repr

/-- `InnerProductWith` (/repo/pir/simple_hashed_dpf_pir_database.cc:160-164). -/
def SimpleDb.innerProductWith (simd : SimdEnv) (db : SimpleDb) (selections : List (List U128)) :
    Res (List Bytes) := db.dense.innerProductWith simd selections

/-- Members of the builder (/repo/pir/simple_hashed_dpf_pir_database.h:70-73). -/
structure SimpleBuilder where
  params : SimpleParams
  denseBuilder : Option DenseBuilder
  records : List (Bytes × Bytes)
  built : Bool
  deriving DecidableEq, Repr

namespace SimpleBuilder

/-- Constructor (/repo/pir/simple_hashed_dpf_pir_database.cc:46-47). -/
def new : SimpleBuilder := ⟨⟨⟨0, []⟩, 0⟩, none, [], false⟩

/-- `Clone` (/repo/pir/simple_hashed_dpf_pir_database.cc:49-59). -/
def clone (b : SimpleBuilder) : SimpleBuilder :=
  { params := b.params, denseBuilder := b.denseBuilder.map DenseBuilder.clone, records := b.records,
    built := b.built }

/-- `Clear` (/repo/pir/simple_hashed_dpf_pir_database.cc:61-69). -/
def clear (b : SimpleBuilder) : SimpleBuilder :=
  { b with denseBuilder := b.denseBuilder.map DenseBuilder.clear, records := [], built := false }

/-- `SetParams` (/repo/pir/simple_hashed_dpf_pir_database.cc:71-75). -/
def setParams (b : SimpleBuilder) (params : SimpleParams) : SimpleBuilder := { b with params := params }

/-- `SetDenseDatabaseBuilder` (/repo/pir/simple_hashed_dpf_pir_database.cc:77-85). -/
def setDenseBuilder (b : SimpleBuilder) (builder : Option DenseBuilder) : SimpleBuilder :=
  { b with denseBuilder := builder.map DenseBuilder.clear }

/-- `Insert` (/repo/pir/simple_hashed_dpf_pir_database.cc:87-91). -/
def insert (b : SimpleBuilder) (record : Bytes × Bytes) : SimpleBuilder :=
  { b with records := b.records ++ [record] }

/-- One record is added to its bucket (/repo/pir/simple_hashed_dpf_pir_database.cc:120-126). -/
def addRecord (hash : HashFunction) (numBuckets : Int) (buckets : List PirBucket)
    (record : Bytes × Bytes) : Res (List PirBucket) := do
  failIf (record.1 = []) .invalidArgument
  let i ← hash record.1 numBuckets
  let bucket ← rdInt buckets i
  wrInt buckets i ⟨bucket.keys ++ [record.1], bucket.values ++ [record.2]⟩

/-- One bucket is inserted into the dense database (/repo/pir/simple_hashed_dpf_pir_database.cc:132-143). -/
def addBucket (codec : BucketCodec) (dense : DenseBuilder) (bucket : PirBucket) : Res DenseBuilder :=
  match codec.serialize bucket with
  | none => err .internal
  | some s => ok (dense.insert s)

/-- The work of `Build` after the first check (/repo/pir/simple_hashed_dpf_pir_database.cc:97-150).
`num_buckets` and `num_records` are converted to `int`. -/
def buildDb (sha : Sha256) (codec : BucketCodec) (b : SimpleBuilder) : Res SimpleDb := do
  let numBuckets := wrapInt32 b.params.numBuckets
  let numRecords := wrapInt32 b.records.length
  failIf (numBuckets ≤ 0) .invalidArgument
  let family ← createHashFamilyFromConfig sha b.params.hashFamilyConfig
  let functions ← createHashFunctions family 1
  let hash ← rd functions 0
  let dense := b.denseBuilder.getD DenseBuilder.new
  let buckets ← foldRes (addRecord hash numBuckets) (List.replicate numBuckets.toNat ⟨[], []⟩) b.records
  let dense ← foldRes (addBucket codec) dense buckets
  let db ← dense.build.1
  ok ⟨db, numRecords, numBuckets.toNat⟩

/-- `Build` (/repo/pir/simple_hashed_dpf_pir_database.cc:93-151): result and builder afterwards, simplified
as for `CuckooBuilder.build`. -/
def build (sha : Sha256) (codec : BucketCodec) (b : SimpleBuilder) : Res SimpleDb × SimpleBuilder :=
  if b.built then (err .failedPrecondition, b)
  else (buildDb sha codec b, { b with built := true })

end SimpleBuilder
end Verif
