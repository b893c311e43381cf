import Verif.Model.PirServer
import Verif.Model.InnerProduct
import Verif.Model.Dpf
/-!
# Dense PIR: database, server and client
-/
namespace Verif
open Res

/-! ## `DenseDpfPirDatabase` (/repo/pir/dense_dpf_pir_database.cc) -/

/-- `AlignBytes` (/repo/pir/dense_dpf_pir_database.cc:40-52): the low four bits are masked off. Sizes near
2^64 are not modelled. -/
def alignBytes (size : Nat) : Nat := (size + 15) - (size + 15) % 16

/-- `NumBytesToNumBlocks` (/repo/pir/dense_dpf_pir_database.cc:61-64). -/
def numBytesToNumBlocks (numBytes : Nat) : Nat := (numBytes + 15) / 16

/-- Members of `DenseDpfPirDatabase` (/repo/pir/dense_dpf_pir_database.h:101-116). `buffer` are the bytes
of `buffer_`, `capacity` counts blocks (the vector may reserve more than requested, which makes no
difference). `views` are both `value_offsets_` and the views into the buffer: first block and size. -/
structure DenseDb where
  maxValueSize : Nat
  buffer : Bytes
  capacity : Nat
  views : List (Nat × Nat)
  deriving DecidableEq, Repr

namespace DenseDb

/-- Constructor (/repo/pir/dense_dpf_pir_database.cc:107-116). -/
def new (totalBytes : Nat) : DenseDb := ⟨0, [], numBytesToNumBlocks totalBytes, []⟩

/-- `Append` (/repo/pir/dense_dpf_pir_database.cc:119-160). The buffer is never reallocated, as its size
stays below its capacity. -/
def append (db : DenseDb) (value : Bytes) : Res DenseDb :=
  let offset := db.buffer.length / 16
  if value.length = 0 then ok { db with views := db.views ++ [(offset, 0)] }
  else
    let additional := alignBytes value.length / 16
    if offset + additional > db.capacity then err .internal
    else do
      let buffer ← writeAt (db.buffer ++ List.replicate (16 * additional) 0) (16 * offset) value
      ok { db with
        maxValueSize := if value.length > db.maxValueSize then value.length else db.maxValueSize
        buffer := buffer
        views := db.views ++ [(offset, value.length)] }

/-- `size()` (/repo/pir/dense_dpf_pir_database.h:75). -/
def size (db : DenseDb) : Nat := db.views.length

/-- `content()` (/repo/pir/dense_dpf_pir_database.h:87): the strings the views point to. -/
def content (db : DenseDb) : Res (List Bytes) :=
  mapRes (fun v : Nat × Nat => slice db.buffer (16 * v.1) v.2) db.views

/-- `InnerProductWith` (/repo/pir/dense_dpf_pir_database.cc:164-168). -/
def innerProductWith (simd : SimdEnv) (db : DenseDb) (selections : List (List U128)) :
    Res (List Bytes) := do
  let values ← db.content
  innerProduct simd values selections db.maxValueSize

end DenseDb

/-- Members of the builder (/repo/pir/dense_dpf_pir_database.h:70-72). -/
structure DenseBuilder where
  values : List Bytes
  totalBytes : Nat
  built : Bool
  deriving DecidableEq, Repr

namespace DenseBuilder

/-- Constructor (/repo/pir/dense_dpf_pir_database.cc:68-69). -/
def new : DenseBuilder := ⟨[], 0, false⟩

/-- `Clone` (/repo/pir/dense_dpf_pir_database.cc:71-78). -/
def clone (b : DenseBuilder) : DenseBuilder :=
  { totalBytes := b.totalBytes, values := b.values, built := b.built }

/-- `Insert` (/repo/pir/dense_dpf_pir_database.cc:80-85). -/
def insert (b : DenseBuilder) (value : Bytes) : DenseBuilder :=
  { b with totalBytes := b.totalBytes + alignBytes value.length, values := b.values ++ [value] }

/-- `Clear` (/repo/pir/dense_dpf_pir_database.cc:87-92). -/
def clear (_ : DenseBuilder) : DenseBuilder := { values := [], totalBytes := 0, built := false }

/-- `Build` (/repo/pir/dense_dpf_pir_database.cc:94-105): result and builder afterwards, whose values are
moved away. -/
def build (b : DenseBuilder) : Res DenseDb × DenseBuilder :=
  if b.built then (err .failedPrecondition, b)
  else (foldRes DenseDb.append (DenseDb.new b.totalBytes) b.values, { b with values := [], built := true })

end DenseBuilder

/-! ## Server and client -/

/-- The output type of the DPF, `XorWrapper<absl::uint128>`. -/
def pirTy : Ty := .xorWrapper .w128

/-- `static_cast<int>(std::ceil(std::log2(n)))` for an `int64_t n`, computed with `double`. -/
abbrev CeilLog2 := Int → Int

/-- The DPF parameters (/repo/pir/dense_dpf_pir_server.cc:79-83, /repo/pir/dense_dpf_pir_client.cc:65-69). -/
def pirParameters (ceilLog2 : CeilLog2) (n : Int) : DpfParameters :=
  ⟨ceilLog2 n, some (.xorWrapper 128), .val 0⟩

/-- Members of `DenseDpfPirServer` (/repo/pir/dense_dpf_pir_server.h:106-108) and its role. -/
structure DenseServer where
  dpf : Dpf
  db : DenseDb
  role : Role

namespace DenseServer

/-- `kEncryptionContextInfo` (/repo/pir/dense_dpf_pir_server.h:54-55). -/
def contextInfo : Bytes := stringBytes "DenseDpfPirServer"

/-- `CreatePlain` (/repo/pir/dense_dpf_pir_server.cc:59-90). -/
def createPlain (fp : FpEnv) (ceilLog2 : CeilLog2) (config : PirConfig) (db : Option DenseDb) :
    Res DenseServer :=
  match config with
  | .dense n =>
    match db with
    | none => err .invalidArgument
    | some db => do
      failIf (n ≤ 0) .invalidArgument
      failIf ((db.size : Int) ≠ n) .invalidArgument
      let dpf ← Dpf.create fp (pirParameters ceilLog2 n)
      ok ⟨dpf, db, .plain⟩
  | _ => err .invalidArgument

/-- `CreateLeader` (/repo/pir/dense_dpf_pir_server.cc:39-46). -/
def createLeader (fp : FpEnv) (ceilLog2 : CeilLog2) (config : PirConfig) (db : Option DenseDb)
    (sender : Option Sender) : Res DenseServer := do
  let s ← createPlain fp ceilLog2 config db
  let role ← PirServer.makeLeader sender
  ok { s with role := role }

/-- `CreateHelper` (/repo/pir/dense_dpf_pir_server.cc:48-57). -/
def createHelper (fp : FpEnv) (ceilLog2 : CeilLog2) (config : PirConfig) (db : Option DenseDb)
    (decrypter : Option CryptFn) : Res DenseServer := do
  let s ← createPlain fp ceilLog2 config db
  let role ← PirServer.makeHelper decrypter contextInfo
  ok { s with role := role }

/-- Evaluation of one key (/repo/pir/dense_dpf_pir_server.cc:113-117). -/
def selection (dpf : Dpf) (env : Env) (key : DpfKey) : Res (List U128) := do
  let ctx ← dpf.createEvaluationContext key
  (dpf.evaluateNext env pirTy.helper [] ctx).1

/-- `HandlePlainRequest` (/repo/pir/dense_dpf_pir_server.cc:96-129). -/
def handlePlainRequest (env : Env) (simd : SimdEnv) (s : DenseServer) (request : PirRequest) :
    Res PirResponse :=
  match request with
  | none => err .invalidArgument
  | some (.plain r) => do
    failIf (r.dpfKeys.length = 0) .invalidArgument
    let selections ← mapRes (selection s.dpf env) r.dpfKeys
    let products ← s.db.innerProductWith simd selections
    ok (if products = [] then none else some products)
  | some _ => err .invalidArgument

/-- `HandleRequest` (/repo/pir/dpf_pir_server.cc:55-65). -/
def handleRequest (codec : HelperCodec) (aes : AesBlock) (env : Env) (simd : SimdEnv) (s : DenseServer)
    (request : PirRequest) : Res PirResponse :=
  PirServer.handleRequest codec aes (s.handlePlainRequest env simd) s.role request

end DenseServer

/-- Members of `DenseDpfPirClient` (/repo/pir/dense_dpf_pir_client.h:79-83, /repo/pir/dpf_pir_client.h:96-97).
`databaseSize` is an `int`. -/
structure DenseClient where
  dpf : Dpf
  encrypter : CryptFn
  contextInfo : Bytes
  databaseSize : Int

namespace DenseClient

/-- `Create` (/repo/pir/dense_dpf_pir_client.cc:50-76). `num_elements` is converted to `int`. -/
def create (fp : FpEnv) (ceilLog2 : CeilLog2) (config : PirConfig) (encrypter : Option CryptFn)
    (contextInfo : Bytes) : Res DenseClient :=
  match config with
  | .dense n => do
    failIf (n ≤ 0) .invalidArgument
    match encrypter with
    | none => err .invalidArgument
    | some encrypter => do
      let dpf ← Dpf.create fp (pirParameters ceilLog2 n)
      ok ⟨dpf, encrypter, contextInfo, wrapInt32 n⟩
  | _ => err .invalidArgument

/-- Keys for one index (/repo/pir/dense_dpf_pir_client.cc:95-102). `GenerateKeys<T>` registers the type
with the DPF (/repo/dpf/distributed_point_function.h:191-199); registering it again for every key makes
no difference. -/
def keysFor (dpf : Dpf) (env : Env) (query : Int) (seeds : U128 × U128) : Res (DpfKey × DpfKey) := do
  let alpha : U128 := BitVec.ofInt 128 (query.tdiv 128)
  let beta ← shl128 1 (query.tmod 128)
  (dpf.registerValueType pirTy.helper).generateKeysIncremental env alpha
    [pirTy.helper.toValue beta] seeds.1 seeds.2

/-- `CreatePlainRequests` (/repo/pir/dense_dpf_pir_client.cc:78-118). `seeds i` are the random seeds of
the keys for query `i`, `random` the bytes of the one-time-pad seed. -/
def createPlainRequests (c : DenseClient) (env : Env) (queries : List Int) (seeds : Nat → U128 × U128)
    (random : Nat → BitVec 8) : Res (PlainRequest × HelperRequest × ClientState) := do
  let _ ← mapRes (fun q : Int => do
    failIf (q < 0) .invalidArgument
    failIf (q ≥ c.databaseSize) .invalidArgument) queries
  let keys ← mapRes (fun (q, i) => keysFor c.dpf env q (seeds i)) queries.zipIdx
  let seed := Prng.generateSeed random
  ok (⟨keys.map (·.1), 0⟩, ⟨if keys = [] then none else some ⟨keys.map (·.2), 0⟩, seed⟩, .dense seed)

/-- `CreateRequest` (/repo/pir/dpf_pir_client.h:64-84). -/
def createRequest (codec : HelperCodec) (c : DenseClient) (env : Env) (queries : List Int)
    (seeds : Nat → U128 × U128) (random : Nat → BitVec 8) : Res (PirRequest × ClientState) :=
  PirClient.createRequest codec c.encrypter c.contextInfo (c.createPlainRequests env queries seeds random)

/-- `HandleResponse` (/repo/pir/dense_dpf_pir_client.cc:120-154). -/
def handleResponse (aes : AesBlock) (response : PirResponse) (state : ClientState) : Res (List Bytes) :=
  match response with
  | none => err .invalidArgument
  | some masked =>
    match state with
    | .dense seed => do
      failIf (masked = []) .invalidArgument
      failIf (seed = []) .invalidArgument
      let prng ← Prng.create seed
      PirServer.maskAll aes prng masked
    | _ => err .invalidArgument

end DenseClient
end Verif
