import Verif.Lemmas.Prng
import Verif.Lemmas.KeyGenErrors
/-!
# Property C38: the seeded PRNG
-/
namespace Verif
open Res Spec

/-- C38: with a seed and a nonce of 16 bytes, successive reads of any lengths succeed, have the requested
lengths and are together the beginning of the AES-CTR stream of the seed and the nonce. -/
theorem C38_stream (aes : AesBlock) (seed nonce : Bytes) (hs : seed.length = 16) (hn : nonce.length = 16) :
    ∃ p, Prng.createWithNonce seed nonce = ok p ∧ ∀ lengths : List Nat,
      ∃ bs p', reads aes p lengths = ok (bs, p') ∧ bs.map List.length = lengths ∧
        bs.flatten = streamBytes (ctrStream aes seed (nonceOf nonce)) 0 lengths.sum := by
  obtain ⟨p, hp, ha⟩ := Prng.create_ok (aes := aes) hs hn
  exact ⟨p, hp, fun lengths => reads_ok lengths ha⟩

/-- C38: two ways to read a PRNG of the same seed and nonce agree, as far as the shorter one goes. -/
theorem C38_chunking (aes : AesBlock) (seed nonce : Bytes) (p : Prng)
    (hp : Prng.createWithNonce seed nonce = ok p) (l1 l2 : List Nat) (b1 b2 : List Bytes) (p1 p2 : Prng)
    (h1 : reads aes p l1 = ok (b1, p1)) (h2 : reads aes p l2 = ok (b2, p2)) (h : l1.sum ≤ l2.sum) :
    b1.flatten <+: b2.flatten := by
  have hs : seed.length = 16 ∧ nonce.length = 16 := by
    unfold Prng.createWithNonce at hp
    rw [bind_eq_ok] at hp
    obtain ⟨_, h1, hp⟩ := hp
    rw [bind_eq_ok] at hp
    obtain ⟨_, h2, hp⟩ := hp
    rw [failIf_eq_ok] at h1 h2
    simp only [Prng.seedSize, ne_eq, Decidable.not_not] at h1 h2
    omega
  obtain ⟨p', hp', H⟩ := C38_stream aes seed nonce hs.1 hs.2
  rw [hp] at hp'
  cases hp'
  obtain ⟨c1, _, hc1, _, hf1⟩ := H l1
  obtain ⟨c2, _, hc2, _, hf2⟩ := H l2
  rw [h1] at hc1
  rw [h2] at hc2
  cases hc1
  cases hc2
  rw [hf1, hf2]
  obtain ⟨d, hd⟩ := Nat.le.dest h
  rw [← hd, streamBytes_append]
  exact List.prefix_append _ _

/-- C38 with a simple block cipher: 40 bytes in two reads, and the first three of them. -/
example : ∃ p bs, Prng.createWithNonce (List.replicate 16 7) (List.replicate 16 0) = ok p ∧
    (∃ p', reads (fun key ctr i => key.getD i 0 ^^^ (BitVec.ofNat 8 (7 * ctr.toNat + 3 * i))) p [17, 23] = ok (bs, p')) ∧
    bs.map List.length = [17, 23] ∧
    ∃ cs p', reads (fun key ctr i => key.getD i 0 ^^^ (BitVec.ofNat 8 (7 * ctr.toNat + 3 * i))) p [3] = ok (cs, p') ∧
      cs.flatten <+: bs.flatten := by
  obtain ⟨p, hp, h⟩ := C38_stream (fun key ctr i => key.getD i 0 ^^^ (BitVec.ofNat 8 (7 * ctr.toNat + 3 * i)))
    (List.replicate 16 7) (List.replicate 16 0) rfl rfl
  obtain ⟨bs, p1, h1, h2, _⟩ := h [17, 23]
  obtain ⟨cs, p2, h3, _, _⟩ := h [3]
  exact ⟨p, bs, hp, ⟨p1, h1⟩, h2, cs, p2, h3, C38_chunking _ _ _ p hp _ _ _ _ _ _ h3 h1 (by decide)⟩

/-- `Create` is `CreateWithNonce` with the zero nonce; seeds and nonces of another length are rejected. -/
theorem C38_create (seed nonce : Bytes) :
    Prng.create seed = Prng.createWithNonce seed (List.replicate 16 0) ∧
    (Prng.createWithNonce seed nonce = err .invalidArgument ↔
      ¬ (seed.length = 16 ∧ nonce.length = 16)) := by
  refine ⟨rfl, ?_, ?_⟩
  · intro h hl
    obtain ⟨p, hp, _⟩ := Prng.create_ok (aes := fun _ _ _ => 0) hl.1 hl.2
    rw [hp] at h; cases h
  · intro h
    unfold Prng.createWithNonce
    by_cases h1 : seed.length = 16
    · rw [failIf_false (by simp [Prng.seedSize, h1]), bind_ok,
        failIf_true (by intro h2; exact h ⟨h1, by omega⟩), bind_err]
    · rw [failIf_true (by simpa [Prng.seedSize] using h1), bind_err]

/-- A toy cipher for the examples. -/
def exAes : AesBlock := fun key ctr i => key.getD i 0 ^^^ (BitVec.ofNat 8 (7 * ctr.toNat + 3 * i))
/-- A seed for the examples. -/
def exSeed : Bytes := (List.range 16).map fun i => BitVec.ofNat 8 (5 * i + 1)
/-- The PRNG of this seed. -/
def exPrng : Prng := ⟨exSeed, 0, List.replicate 16 0, 0⟩

/-- C38 on the example: reads of 3, 0, 30, 1 bytes and one of 34 bytes. -/
example : Prng.create exSeed = ok exPrng ∧ ∃ a b c q d q',
    reads exAes exPrng [3, 0, 30, 1] = ok ([a, [], b, c], q) ∧ reads exAes exPrng [34] = ok ([d], q') ∧
    a ++ b ++ c = d ∧ d.length = 34 ∧ a ≠ b.take 3 :=
  ⟨by decide, _, _, _, _, _, _, rfl, rfl, by decide +kernel, by decide +kernel, by decide +kernel⟩

/-- The documentation (/repo/pir/prng/aes_128_ctr_seeded_prng.h:46-50) says that different nonces give
independent outputs; but the stream of nonce + 1 is the stream of the nonce, 16 bytes later. -/
theorem C38_neighbouring_nonces (aes : AesBlock) (seed : Bytes) (nonce : U128) (start n : Nat) :
    streamBytes (ctrStream aes seed (nonce + 1)) start n =
      streamBytes (ctrStream aes seed nonce) (start + 16) n := by
  apply List.map_congr_left
  intro i _
  unfold ctrStream
  have h1 : (start + 16 + i) / 16 = 1 + (start + i) / 16 := by omega
  have h2 : (start + 16 + i) % 16 = (start + i) % 16 := by omega
  rw [h1, h2, BitVec.ofNat_add, ← BitVec.add_assoc]; rfl

end Verif
