import Verif.Model.PirProto
import Verif.Model.Prng
/-!
# `DpfPirServer` (/repo/pir/dpf_pir_server.cc) and `DpfPirClient` (/repo/pir/dpf_pir_client.h)

The plain request handler of the derived class is a parameter.
-/
namespace Verif
open Res

/-- `ForwardHelperRequestFn` (/repo/pir/dpf_pir_server.h:91-99): given the request for the helper, does
the function run the callback `while_waiting`, and what does it return? -/
abbrev Sender := PirRequest → Bool × Res PirResponse

/-- `DecryptHelperRequestFn` / `EncryptHelperRequestFn` (/repo/pir/dpf_pir_server.h:101-114,
/repo/pir/dpf_pir_client.h:36-49): message and context information. -/
abbrev CryptFn := Bytes → Bytes → Res Bytes

/-- `role_` and `role_storage_` (/repo/pir/dpf_pir_server.h:147-171). -/
inductive Role where
  | plain
  | leader (sender : Sender)
  | helper (decrypter : CryptFn) (contextInfo : Bytes)

namespace PirServer

/-- `MakeLeader` (/repo/pir/dpf_pir_server.cc:35-42). -/
def makeLeader (sender : Option Sender) : Res Role :=
  match sender with
  | none => err .invalidArgument
  | some s => ok (.leader s)

/-- `MakeHelper` (/repo/pir/dpf_pir_server.cc:44-53). -/
def makeHelper (decrypter : Option CryptFn) (contextInfo : Bytes) : Res Role :=
  match decrypter with
  | none => err .invalidArgument
  | some f => ok (.helper f contextInfo)

/-- `a[j] ^= b[j]` for all bytes of `b`, or of `a`; both have the same length
(/repo/pir/dpf_pir_server.cc:140-142, 188-190; /repo/pir/dense_dpf_pir_client.cc:149-151). -/
def xorString (a b : Bytes) : Res Bytes :=
  mapRes (fun j => do
    let x ← rd a j
    let y ← rd b j
    ok (x ^^^ y)) (List.range a.length)

/-- The loop that combines the responses (/repo/pir/dpf_pir_server.cc:127-143). -/
def combine (leader helper : List Bytes) : Res (List Bytes) :=
  mapRes (fun i => do
    let l ← rd leader i
    let h ← rd helper i
    failIf (h.length ≠ l.length) .internal
    xorString l h) (List.range helper.length)

/-- `HandleLeaderRequest` (/repo/pir/dpf_pir_server.cc:67-145). The callback given to the sender runs
`HandlePlainRequest`; what is undefined there is undefined here. The role is checked again in the code;
here the sender is an argument. -/
def handleLeaderRequest (handlePlain : PirRequest → Res PirResponse) (sender : Sender)
    (request : PirRequest) : Res PirResponse :=
  match request.dpf with
  | .leader plain encrypted =>
    match plain, encrypted with
    | none, _ => err .invalidArgument
    | some _, none => err .invalidArgument
    | some plain, some encrypted =>
      let leaderResponse := handlePlain (some (.plain plain))
      let sent := sender (some (.encrypted encrypted))
      match sent.1, leaderResponse with
      | true, .ub => ub
      | true, .crash => crash
      | _, _ => do
        let helperResponse ← sent.2
        failIf (sent.1 = false) .failedPrecondition
        let leaderResponse ← leaderResponse
        failIf (helperResponse.masked.length ≠ leaderResponse.masked.length) .internal
        let combined ← combine leaderResponse.masked helperResponse.masked
        ok (if combined = [] then leaderResponse else some combined)
  | _ => err .invalidArgument

/-- XOR of successive strings with successive bytes of a PRNG
(/repo/pir/dpf_pir_server.cc:183-191, /repo/pir/dense_dpf_pir_client.cc:144-152). -/
def maskAll (aes : AesBlock) (prng : Prng) (responses : List Bytes) : Res (List Bytes) := do
  let (out, _) ← foldRes (fun (out, prng) (response : Bytes) => do
    let (mask, prng) ← prng.getRandomBytes aes response.length
    let masked ← xorString response mask
    ok (out ++ [masked], prng)) (([] : List Bytes), prng) responses
  ok out

/-- `HandleHelperRequest` (/repo/pir/dpf_pir_server.cc:147-193). -/
def handleHelperRequest (codec : HelperCodec) (aes : AesBlock)
    (handlePlain : PirRequest → Res PirResponse) (decrypter : CryptFn) (contextInfo : Bytes)
    (request : PirRequest) : Res PirResponse :=
  match request.dpf with
  | .encrypted b => do
    let decrypted ← decrypter b contextInfo
    match codec.parse decrypted with
    | none => err .invalidArgument
    | some inner => do
      let response ← handlePlain (some (.plain (inner.plainRequest.getD PlainRequest.default)))
      let prng ← Prng.create inner.oneTimePadSeed
      let masked ← maskAll aes prng response.masked
      ok (if masked = [] then response else some masked)
  | _ => err .invalidArgument

/-- `HandleRequest` (/repo/pir/dpf_pir_server.cc:55-65). -/
def handleRequest (codec : HelperCodec) (aes : AesBlock) (handlePlain : PirRequest → Res PirResponse)
    (role : Role) (request : PirRequest) : Res PirResponse :=
  match role with
  | .plain => handlePlain request
  | .leader sender => handleLeaderRequest handlePlain sender request
  | .helper decrypter contextInfo =>
    handleHelperRequest codec aes handlePlain decrypter contextInfo request

end PirServer

namespace PirClient

/-- `PlainRequestsToLeaderRequest` (/repo/pir/dpf_pir_client.h:100-127). -/
def plainRequestsToLeaderRequest (codec : HelperCodec) (encrypter : CryptFn) (contextInfo : Bytes)
    (leader : PlainRequest) (helper : HelperRequest) : Res PirRequest := do
  let encrypted ← encrypter (codec.serialize helper) contextInfo
  ok (some (.leader (some leader) (some encrypted)))

/-- `CreateRequest` (/repo/pir/dpf_pir_client.h:64-84), given the result of `CreatePlainRequests`. -/
def createRequest (codec : HelperCodec) (encrypter : CryptFn) (contextInfo : Bytes)
    (plainRequests : Res (PlainRequest × HelperRequest × ClientState)) :
    Res (PirRequest × ClientState) := do
  let (leader, helper, state) ← plainRequests
  let request ← plainRequestsToLeaderRequest codec encrypter contextInfo leader helper
  ok (request, state)

end PirClient
end Verif
