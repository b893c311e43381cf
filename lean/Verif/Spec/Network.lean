import Verif.Spec.SparsePir
import Verif.Spec.Calls
import Verif.Model.Wire
/-!
# Specification: participants that exchange bytes
-/
namespace Verif.Spec
open Res Wire

/-! ### Private information retrieval -/

/-- A request to another participant: it is sent as bytes, the other one parses it and handles it, the response comes
back as bytes and is parsed. What cannot be parsed is an error. -/
def remote (limit : Nat) (handle : PirRequest → Res PirResponse) (request : PirRequest) : Res PirResponse :=
  match parseRequest limit (wire (putRequest request)) with
  | none => err .invalidArgument
  | some received =>
    match handle received with
    | .ok response =>
      match parseResponse limit (wire (putResponse response)) with
      | none => err .invalidArgument
      | some r => ok r
    | e => e

/-- A setting in which leader and helper have machines `env0` and `env1` of their own, and messages may be nested
`limit` times. -/
structure Network where
  S : PirSetting
  env0 : Env
  env1 : Env
  limit : Nat

/-- The network works for `n` buckets: all machines compute the same AES, vectors can be halved, the helper can decrypt,
ciphertexts are at most a million bytes longer than what is encrypted, the logarithm is exact, and the servers can
handle the buckets. -/
structure Network.Works (W : Network) (info : Bytes) (n : Nat) : Prop where
  codec : W.S.codec = helperCodec W.limit
  limit : 8 ≤ W.limit
  aes0 : W.S.env.aes = W.env0.aes
  aes1 : W.S.env.aes = W.env1.aes
  simd0Ok : SimdOk W.S.simd0
  simd1Ok : SimdOk W.S.simd1
  decrypts : Decrypts W.S.encrypter W.S.decrypter info
  short : ∀ m c, W.S.encrypter m info = ok c → c.length ≤ m.length + 1000000
  exact : ExactAt W.S.ceilLog2 n
  manageable : Manageable n W.S.simd0 W.S.simd1

/-- The bytes of a list of strings in a message, with at most 6 bytes for the header of each. -/
def totalBytes (strings : List Bytes) : Nat := (strings.map fun s => s.length + 6).sum

/-- Helper, leader and client can be created, the client from the bytes of the configuration; the leader asks the helper
over the network. The client makes a request for the queries, whatever random numbers it uses, and stores its state
as bytes; the leader answers over the network; and from the response and the stored state the client gets
`answers`. -/
def DenseNetworkRun (W : Network) (n : Nat) (db : DenseDb) (queries : List Nat) (answers : List Bytes) : Prop :=
  ∃ helper leader config client,
    DenseServer.createHelper W.S.fp W.S.ceilLog2 (.dense n) (some db) (some W.S.decrypter) = ok helper ∧
    DenseServer.createLeader W.S.fp W.S.ceilLog2 (.dense n) (some db) (some fun request =>
      (true, remote W.limit (helper.handleRequest W.S.codec W.S.aes W.env1 W.S.simd1) request)) = ok leader ∧
    parseConfig W.limit (wire (putConfig (.dense n))) = some config ∧
    DenseClient.create W.S.fp W.S.ceilLog2 config (some W.S.encrypter) DenseServer.contextInfo = ok client ∧
    ∀ (seeds : Nat → U128 × U128) (random : Nat → BitVec 8), ∃ request state response stored,
      client.createRequest W.S.codec W.S.env (queries.map fun q : Nat => (q : Int)) seeds random =
        ok (request, state) ∧
      remote W.limit (leader.handleRequest W.S.codec W.S.aes W.env0 W.S.simd0) request = ok response ∧
      parseState W.limit (wire (putState state)) = some stored ∧
      DenseClient.handleResponse W.S.aes response stored = ok answers

/-- The same with cuckoo hashing, where the client is created from the bytes of the leader's public parameters. -/
def CuckooNetworkRun (W : Network) (params : CuckooParams) (db : CuckooDb) (queries : List Bytes)
    (answers : List (Option Bytes)) : Prop :=
  ∃ helper leader received client,
    CuckooServer.createHelper W.S.fp W.S.ceilLog2 W.S.sha params (some db) (some W.S.decrypter) = ok helper ∧
    CuckooServer.createLeader W.S.fp W.S.ceilLog2 W.S.sha params (some db) (some fun request =>
      (true, remote W.limit (helper.handleRequest W.S.codec W.S.aes W.env1 W.S.simd1) request)) = ok leader ∧
    parsePublic W.limit (wire (putPublic leader.params)) = some received ∧
    CuckooClient.create W.S.fp W.S.ceilLog2 W.S.sha received (some W.S.encrypter) CuckooServer.contextInfo = ok client ∧
    ∀ (seeds : Nat → U128 × U128) (random : Nat → BitVec 8), ∃ request state response stored,
      client.createRequest W.S.codec W.S.env queries seeds random = ok (request, state) ∧
      remote W.limit (leader.handleRequest W.S.codec W.S.aes W.env0 W.S.simd0) request = ok response ∧
      parseState W.limit (wire (putState state)) = some stored ∧
      client.handleResponse W.S.aes response stored = ok answers

/-- The same with simple hashing. -/
def SimpleNetworkRun (W : Network) (codec : BucketCodec) (params : SimpleParams) (db : SimpleDb)
    (queries : List Bytes) (answers : List (Option Bytes)) : Prop :=
  ∃ helper leader received client,
    SimpleServer.createHelper W.S.fp W.S.ceilLog2 W.S.sha params (some db) (some W.S.decrypter) = ok helper ∧
    SimpleServer.createLeader W.S.fp W.S.ceilLog2 W.S.sha params (some db) (some fun request =>
      (true, remote W.limit (helper.handleRequest W.S.codec W.S.aes W.env1 W.S.simd1) request)) = ok leader ∧
    parsePublic W.limit (wire (putPublic leader.params)) = some received ∧
    SimpleClient.create W.S.fp W.S.ceilLog2 W.S.sha received (some W.S.encrypter) SimpleServer.contextInfo = ok client ∧
    ∀ (seeds : Nat → U128 × U128) (random : Nat → BitVec 8), ∃ request state response stored,
      client.createRequest W.S.codec W.S.env queries seeds random = ok (request, state) ∧
      remote W.limit (leader.handleRequest W.S.codec W.S.aes W.env0 W.S.simd0) request = ok response ∧
      parseState W.limit (wire (putState state)) = some stored ∧
      SimpleClient.handleResponse W.S.aes codec response stored = ok answers

/-! ### Contexts that are passed on -/

/-- Each call is made by another worker, with an object and a machine of its own. A worker gets the context as bytes and
passes on the bytes of the context after its call. `none` if bytes cannot be parsed. -/
def relayed (bits : DoubleBits) (limit : Nat) : List (Dpf × Env × ContextCall) → Bytes → Option (List CallResult)
  | [], _ => some []
  | (d, env, call) :: rest, bytes =>
    match parseContext bits limit bytes with
    | none => none
    | some ctx =>
      (relayed bits limit rest (wire (putContext bits (call.run d env ctx).2))).map ((call.run d env ctx).1 :: ·)

/-- The contexts before and after each call of a sequence. -/
def contextsOf (d : Dpf) (env : Env) : List ContextCall → EvaluationContext → List EvaluationContext
  | [], ctx => [ctx]
  | c :: cs, ctx => ctx :: contextsOf d env cs (c.run d env ctx).2

end Verif.Spec
