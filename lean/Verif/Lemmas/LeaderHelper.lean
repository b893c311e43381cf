import Verif.Lemmas.DensePir
/-!
# The leader's and the helper's part in a protocol run
-/
namespace Verif
open Res Spec

/-- The stream with which the helper masks its responses. -/
abbrev maskStream (aes : AesBlock) (seed : Bytes) : Nat → BitVec 8 :=
  ctrStream aes seed (nonceOf (List.replicate Prng.seedSize 0))

theorem leaderHelper {codec : HelperCodec}
    (aes : AesBlock) {plain0 plain1 : PirRequest → Res PirResponse} {req0 req1 : PlainRequest}
    {seed : Bytes} (hcodec : codec.parse (codec.serialize ⟨some req1, seed⟩) = some ⟨some req1, seed⟩)
    {r0 r1 : List Bytes} (a2 : plain0 (some (.plain req0)) = ok (some r0))
    (a3 : plain1 (some (.plain req1)) = ok (some r1)) (hne : r0 ≠ [])
    (hshape : r1.map List.length = r0.map List.length) (hlen : seed.length = 16)
    {encrypter decrypter : CryptFn} {info : Bytes} (hcrypt : Decrypts encrypter decrypter info)
    {sender : Sender} (hsend : ∀ request, sender request =
      (true, PirServer.handleRequest codec aes plain1 (.helper decrypter info) request)) :
    ∃ c response, encrypter (codec.serialize ⟨some req1, seed⟩) info = ok c ∧
      PirServer.handleRequest codec aes plain0 (.leader sender) (some (.leader (some req0) (some c))) =
        ok (some response) ∧
      response.length = r0.length ∧
      DenseClient.handleResponse aes (some response) (.dense seed) = ok (xorResponses r0 r1) := by
  have hrl : r1.length = r0.length := by simpa using congrArg List.length hshape
  have h0 : 0 < r0.length := List.length_pos_iff.mpr hne
  obtain ⟨c, hc1, hc2⟩ := hcrypt (codec.serialize ⟨some req1, seed⟩)
  obtain ⟨prng, hp1, hp2⟩ := Prng.create_ok (aes := aes) (seed := seed)
    (nonce := List.replicate Prng.seedSize 0) hlen (by simp [Prng.seedSize])
  have hml : (maskWith (maskStream aes seed) 0 r1).map List.length = r0.map List.length := by
    rw [maskWith_lengths, hshape]
  have hml' : (maskWith (maskStream aes seed) 0 r1).length = r0.length := by
    simpa using congrArg List.length hml
  have hmne : maskWith (maskStream aes seed) 0 r1 ≠ [] := by
    intro h; rw [h] at hml'; simp at hml'; omega
  have hxl : (xorResponses r0 (maskWith (maskStream aes seed) 0 r1)).length = r0.length := by
    rw [xorResponses, List.length_zipWith, hml', Nat.min_self]
  have hxne : xorResponses r0 (maskWith (maskStream aes seed) 0 r1) ≠ [] := by
    intro h; rw [h] at hxl; simp at hxl; omega
  refine ⟨c, xorResponses r0 (maskWith (maskStream aes seed) 0 r1), hc1, ?_, hxl, ?_⟩
  · have hhelper : sender (some (.encrypted c)) =
        (true, ok (some (maskWith (maskStream aes seed) 0 r1))) := by
      rw [hsend]
      unfold PirServer.handleRequest
      dsimp only
      unfold PirServer.handleHelperRequest
      simp only [PirRequest.dpf, Option.getD_some]
      rw [hc2, bind_ok]
      simp only [hcodec]
      rw [Option.getD_some, a3, bind_ok]
      unfold Prng.create
      rw [hp1, bind_ok]
      simp only [PirResponse.masked, Option.getD_some]
      rw [maskAll_ok hp2, bind_ok, if_neg hmne]
    unfold PirServer.handleRequest
    dsimp only
    unfold PirServer.handleLeaderRequest
    simp only [PirRequest.dpf, Option.getD_some]
    rw [hhelper, a2]
    simp only [bind_ok]
    rw [failIf_false (by simp), bind_ok, failIf_false (fun h => h (by
      simpa [PirResponse.masked] using hml')), bind_ok]
    simp only [PirResponse.masked, Option.getD_some]
    rw [combine_ok hml, bind_ok, if_neg hxne]
  · unfold DenseClient.handleResponse
    dsimp only
    rw [failIf_false hxne, bind_ok, failIf_false (by rintro rfl; simp at hlen), bind_ok]
    unfold Prng.create
    rw [hp1, bind_ok, maskAll_ok hp2, unmask _ _ _ _ hshape]

end Verif
