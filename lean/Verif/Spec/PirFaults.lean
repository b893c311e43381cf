import Verif.Spec.Faults
import Verif.Spec.SparsePir
/-! # Specification: runs of the PIR protocols on machines on which calls of the environment may fail -/
namespace Verif.Spec
open Verif Res

/-- Which calls fail in each step of a run. -/
structure PirFailures where
  helperCreation : Faults
  leaderCreation : Faults
  clientCreation : Faults
  request : Faults
  helper : Faults
  leader : Faults
  response : Faults

/-- Some call fails. -/
def PirFailures.Some (f : PirFailures) : Prop :=
  true ∈ f.helperCreation ∨ true ∈ f.leaderCreation ∨ true ∈ f.clientCreation ∨ true ∈ f.request ∨
    true ∈ f.helper ∨ true ∈ f.leader ∨ true ∈ f.response

/-- The result of a run is the one without failures; or some call fails, and the result is INTERNAL or
RESOURCE_EXHAUSTED. -/
def RightOrReported {α : Type} (f : PirFailures) (expected : α) (result : Res α) : Prop :=
  result = ok expected ∨ (f.Some ∧ (result = err .internal ∨ result = err .resourceExhausted))

/-- On machines without failures, the client of a dense database of `n` records gets `answers` for the queries, whatever
random numbers it uses. -/
def DenseRun (S : PirSetting) (db : DenseDb) (n : Nat) (queries : List Int) (answers : List Bytes) : Prop :=
  ∃ helper leader client,
    DenseServer.createHelper S.fp S.ceilLog2 (.dense n) (some db) (some S.decrypter) = ok helper ∧
    DenseServer.createLeader S.fp S.ceilLog2 (.dense n) (some db)
      (some fun request => (true, helper.handleRequest S.codec S.aes S.env S.simd1 request)) = ok leader ∧
    DenseClient.create S.fp S.ceilLog2 (.dense n) (some S.encrypter) DenseServer.contextInfo = ok client ∧
    ∀ (seeds : Nat → U128 × U128) (random : Nat → BitVec 8), ∃ request state response,
      client.createRequest S.codec S.env queries seeds random = ok (request, state) ∧
      leader.handleRequest S.codec S.aes S.env S.simd0 request = ok response ∧
      DenseClient.handleResponse S.aes response state = ok answers

/-- Helper, leader and client of a dense database are created, the leader asking the helper while it computes its own
answer. The client makes a request, the leader answers it, and the client handles the response. -/
def denseRunF (S : PirSetting) (db : DenseDb) (n : Nat) (queries : List Int) (seeds : Nat → U128 × U128)
    (random : Nat → BitVec 8) (f : PirFailures) : Res (List Bytes) := do
  let helper ← (DenseServer.createHelperF S.fp S.ceilLog2 (.dense n) (some db) (some S.decrypter) f.helperCreation).1
  let leader ← (DenseServer.createLeaderF S.fp S.ceilLog2 (.dense n) (some db)
    (some fun request => (true, (helper.handleRequestF S.codec S.aes S.env S.simd1 request f.helper).1))
    f.leaderCreation).1
  let client ← (DenseClient.createF S.fp S.ceilLog2 (.dense n) (some S.encrypter) DenseServer.contextInfo
    f.clientCreation).1
  let request ← (client.createRequestF S.codec S.env queries seeds random f.request).1
  let response ← (leader.handleRequestF S.codec S.aes S.env S.simd0 request.1 f.leader).1
  (DenseClient.handleResponseF S.aes response request.2 f.response).1

/-- The same with cuckoo hashing. -/
def cuckooRunF (S : PirSetting) (params : CuckooParams) (db : CuckooDb) (queries : List Bytes)
    (seeds : Nat → U128 × U128) (random : Nat → BitVec 8) (f : PirFailures) : Res (List (Option Bytes)) := do
  let helper ← (CuckooServer.createHelperF S.fp S.ceilLog2 S.sha params (some db) (some S.decrypter)
    f.helperCreation).1
  let leader ← (CuckooServer.createLeaderF S.fp S.ceilLog2 S.sha params (some db)
    (some fun request => (true, (helper.handleRequestF S.codec S.aes S.env S.simd1 request f.helper).1))
    f.leaderCreation).1
  let client ← (CuckooClient.createF S.fp S.ceilLog2 S.sha (.cuckoo params) (some S.encrypter)
    CuckooServer.contextInfo f.clientCreation).1
  let request ← (client.createRequestF S.codec S.env queries seeds random f.request).1
  let response ← (leader.handleRequestF S.codec S.aes S.env S.simd0 request.1 f.leader).1
  (client.handleResponseF S.aes response request.2 f.response).1

/-- The same with simple hashing. -/
def simpleRunF (S : PirSetting) (codec : BucketCodec) (params : SimpleParams) (db : SimpleDb) (queries : List Bytes)
    (seeds : Nat → U128 × U128) (random : Nat → BitVec 8) (f : PirFailures) : Res (List (Option Bytes)) := do
  let helper ← (SimpleServer.createHelperF S.fp S.ceilLog2 S.sha params (some db) (some S.decrypter)
    f.helperCreation).1
  let leader ← (SimpleServer.createLeaderF S.fp S.ceilLog2 S.sha params (some db)
    (some fun request => (true, (helper.handleRequestF S.codec S.aes S.env S.simd1 request f.helper).1))
    f.leaderCreation).1
  let client ← (SimpleClient.createF S.fp S.ceilLog2 S.sha (.simple params) (some S.encrypter)
    SimpleServer.contextInfo f.clientCreation).1
  let request ← (client.createRequestF S.codec S.env queries seeds random f.request).1
  let response ← (leader.handleRequestF S.codec S.aes S.env S.simd0 request.1 f.leader).1
  (SimpleClient.handleResponseF S.aes codec response request.2 f.response).1

end Verif.Spec
