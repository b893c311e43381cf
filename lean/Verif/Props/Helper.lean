import Verif.Props.Hiding
/-!
# C77: which requests the helper answers
-/
namespace Verif
open Res Spec

theorem prng_create_err {seed : Bytes} (h : seed.length ≠ 16) : Prng.create seed = err .invalidArgument := by
  unfold Prng.create Prng.createWithNonce
  rw [failIf_true (by simpa [Prng.seedSize] using h)]
  rfl

/-- C77: requests that are not encrypted are rejected. An error of the decrypter or of the helper's own computation is
reported as it is. Decrypted bytes that cannot be parsed and one-time-pad seeds that do not have 16 bytes are rejected.
In all other cases there is a response: the strings of the computation, XORed with successive bytes of the AES-CTR
stream of the seed. -/
theorem C77_helper (codec : HelperCodec) (aes : AesBlock) (handlePlain : PirRequest → Res PirResponse)
    (decrypter : CryptFn) (info : Bytes) (request : PirRequest) :
    let result := PirServer.handleRequest codec aes handlePlain (.helper decrypter info) request
    ((∀ bytes, request ≠ some (.encrypted bytes)) → result = err .invalidArgument) ∧
    ∀ bytes, request = some (.encrypted bytes) →
      (∀ c, decrypter bytes info = err c → result = err c) ∧
      ∀ m, decrypter bytes info = ok m →
        (codec.parse m = none → result = err .invalidArgument) ∧
        ∀ inner, codec.parse m = some inner →
          let own := handlePlain (some (.plain (inner.plainRequest.getD PlainRequest.default)))
          (∀ c, own = err c → result = err c) ∧
          ∀ r, own = ok r →
            (inner.oneTimePadSeed.length ≠ 16 → result = err .invalidArgument) ∧
            (inner.oneTimePadSeed.length = 16 → ∃ response, result = ok response ∧
              response.masked = xorPad (ctrStream aes inner.oneTimePadSeed 0) 0 r.masked) := by
  intro result
  refine ⟨fun h => ?_, ?_⟩
  · show PirServer.handleHelperRequest codec aes handlePlain decrypter info request = _
    unfold PirServer.handleHelperRequest
    match request, h with
    | none, _ => rfl
    | some .notSet, _ => rfl
    | some (.plain _), _ => rfl
    | some (.leader _ _), _ => rfl
    | some (.encrypted b), h => exact absurd rfl (h b)
  · rintro bytes rfl
    have e : result = decrypter bytes info >>= fun decrypted =>
        match codec.parse decrypted with
        | none => err .invalidArgument
        | some inner =>
          handlePlain (some (.plain (inner.plainRequest.getD PlainRequest.default))) >>= fun response =>
          Prng.create inner.oneTimePadSeed >>= fun prng =>
          PirServer.maskAll aes prng response.masked >>= fun masked =>
          ok (if masked = [] then response else some masked) := rfl
    clear_value result
    subst e
    refine ⟨fun c h => by rw [h]; rfl, fun m hm => ?_⟩
    rw [hm, bind_ok]
    refine ⟨fun h => by rw [h], fun inner hi => ?_⟩
    rw [hi]
    dsimp only
    refine ⟨fun c h => by rw [h]; rfl, fun r hr => ?_⟩
    rw [hr, bind_ok]
    refine ⟨fun h => by rw [prng_create_err h]; rfl, fun h => ?_⟩
    obtain ⟨p, h1, h2⟩ := Prng.create_ok (aes := aes) (seed := inner.oneTimePadSeed) (nonce := List.replicate 16 0) h
      (by simp)
    rw [show Prng.create inner.oneTimePadSeed = ok p from h1, bind_ok, maskAll_ok h2, bind_ok, maskWith_eq_xorPad,
      show nonceOf (List.replicate 16 0) = 0 by decide +kernel]
    refine ⟨_, rfl, ?_⟩
    split
    · rename_i e0
      rw [e0]
      cases hm : r.masked with
      | nil => rfl
      | cons a l =>
        rw [hm] at e0
        cases e0
    · rfl

/-- A codec that only reads the number of bytes, for the example. -/
def exLengthCodec : HelperCodec := ⟨fun _ => [], fun
  | [_, _] => some ⟨some ⟨[], 0⟩, [5, 6]⟩
  | [_, _, _] => some ⟨none, List.replicate 16 3⟩
  | _ => none⟩

/-- C77 on an example: a seed of two bytes and a seed of 16 bytes. -/
example :
    let helper := PirServer.handleRequest exLengthCodec exAes (fun _ => ok (some [[7, 8], [9]]))
      (.helper (fun m _ => if m.isEmpty then err .internal else ok m) [])
    helper none = err .invalidArgument ∧
    helper (some (.plain ⟨[], 0⟩)) = err .invalidArgument ∧
    helper (some (.encrypted [])) = err .internal ∧
    helper (some (.encrypted [0])) = err .invalidArgument ∧
    helper (some (.encrypted [1, 1])) = err .invalidArgument ∧
    ∃ response, helper (some (.encrypted [2, 2, 2])) = ok response ∧
      response.masked = xorPad (ctrStream exAes (List.replicate 16 3) 0) 0 [[7, 8], [9]] := by
  intro helper
  have h := C77_helper exLengthCodec exAes (fun _ => ok (some [[7, 8], [9]]))
    (fun m _ => if m.isEmpty then err .internal else ok m) []
  refine ⟨(h none).1 (by simp), (h (some (.plain ⟨[], 0⟩))).1 (by simp),
    ((h (some (.encrypted []))).2 [] rfl).1 _ rfl, (((h (some (.encrypted [0]))).2 [0] rfl).2 [0] rfl).1 rfl,
    ((((h (some (.encrypted [1, 1]))).2 [1, 1] rfl).2 [1, 1] rfl).2 ⟨some ⟨[], 0⟩, [5, 6]⟩ rfl).2
      (some [[7, 8], [9]]) rfl |>.1 (by decide),
    ((((h (some (.encrypted [2, 2, 2]))).2 [2, 2, 2] rfl).2 [2, 2, 2] rfl).2 ⟨none, List.replicate 16 3⟩ rfl).2
      (some [[7, 8], [9]]) rfl |>.2 (by decide)⟩

end Verif
