import Verif.Lemmas.Aes
import Verif.Lemmas.Sha
import Verif.Props.Seeds
import Verif.Props.Simd
import Verif.Props.Hashing
/-!
# C71: hash functions and generators with the published AES and SHA-256
-/
namespace Verif
open Res Spec

section
attribute [local irreducible] Fips197.cipher Fips197.invCipher

/-- C71: for every key, the AES of FIPS 197 is a permutation of the blocks, with the inverse given there. -/
theorem C71_permutation (key x : Bytes) (hk : key.length = 16) (hx : x.length = 16) :
    Fips197.invCipher key (Fips197.cipher key x) = x ∧ Fips197.cipher key (Fips197.invCipher key x) = x :=
  ⟨invCipher_cipher hk hx, cipher_invCipher hk hx⟩

/-- C71: the fixed-key hash of blocks of any number is, block by block, the AES of FIPS 197 of the bytes in memory of
`sigma` of the block, XORed with them. It is the same on every machine. -/
theorem C71_hash (env : Env) (henv : env.aes = opensslAes) (key : U128) (input out : List U128)
    (hlen : out.length = input.length) :
    ∃ hash, Aes128FixedKeyHash.evaluate env key false input out = ok hash ∧
      hash.map blockBytes = input.map fun x =>
        List.zipWith (· ^^^ ·) (Fips197.cipher (blockBytes key) (blockBytes (sigma x))) (blockBytes (sigma x)) := by
  refine ⟨_, C15_hash_pointwise env key false input out hlen (fun h => absurd h (by decide)), ?_⟩
  rw [List.map_map]
  apply List.map_congr_left
  intro x _
  rw [Function.comp, blockBytes_xor, henv]
  unfold opensslAes Fips197.addRoundKey
  rw [blockBytes_bytesBlock (cipher_length (blockBytes_length' _) (blockBytes_length' _))]

/-- C71: the vectorised code, which calls the instructions for single rounds with the expanded key, computes
the same AES as the library. So it can be used on any machine whose vectors are not larger than the buffers. -/
theorem C71_instructions (target : (numSeeds numLevels numCorrectionWords : Nat) → (seeds paths : List U128) →
      Option (HwyTarget opensslAes)) (lanes maskBytes : Nat) (aligned : Bool) (h : lanes ≤ 8 * maskBytes) :
    HwyOk ⟨opensslAes, target⟩ (aesMachine lanes maskBytes aligned) :=
  ⟨fun key x => opensslAes_eq lanes maskBytes aligned key x, h⟩

/-- C71: the generator of pseudorandom bytes gives, for the seed as key, the AES of FIPS 197 of the nonce, of the
nonce plus one, and so on, as big-endian numbers modulo 2^128. No two of the first 2^128 blocks are equal. -/
theorem C71_stream (seed nonce : Bytes) (hs : seed.length = 16) (hn : nonce.length = 16) (n : Nat) :
    ∃ p p' out, Prng.createWithNonce seed nonce = ok p ∧ p.getRandomBytes opensslAesBlock n = ok (out, p') ∧
      out.length = n ∧
      (∀ i, 16 * i + 16 ≤ n → (out.drop (16 * i)).take 16 =
        Fips197.cipher seed (Fips180.bigEndian 16 ((nonceOf nonce).toNat + i))) ∧
      ∀ i j, i < j → 16 * j + 16 ≤ n → j - i < 2 ^ 128 →
        (out.drop (16 * i)).take 16 ≠ (out.drop (16 * j)).take 16 := by
  obtain ⟨p, hp, ha⟩ := Prng.create_ok (aes := opensslAesBlock) hs hn
  obtain ⟨p', hr, _⟩ := Prng.getRandomBytes_ok ha n
  have hb : ∀ i, 16 * i + 16 ≤ n →
      ((streamBytes (ctrStream opensslAesBlock seed (nonceOf nonce)) 0 n).drop (16 * i)).take 16 =
        Fips197.cipher seed (beBytes 16 (nonceOf nonce + BitVec.ofNat 128 i).toNat) := fun i hi => by
    rw [streamBytes_slice _ _ _ _ hi, streamBlock _ hs]
  refine ⟨p, p', _, hp, hr, streamBytes_length _ _ _, fun i hi => by rw [hb i hi, beBytes_ofNat], ?_⟩
  intro i j hij hj hd he
  rw [hb i (by omega), hb j hj] at he
  have he := congrArg (Fips197.invCipher seed) he
  rw [invCipher_cipher hs (beBytes_length _ _), invCipher_cipher hs (beBytes_length _ _)] at he
  have he := beBytes_inj (by rw [show 256 ^ 16 = 2 ^ 128 by decide]; exact BitVec.isLt _)
    (by rw [show 256 ^ 16 = 2 ^ 128 by decide]; exact BitVec.isLt _) he
  have he := BitVec.add_right_inj _ |>.mp (BitVec.eq_of_toNat_eq he)
  have he := congrArg BitVec.toNat he
  simp only [BitVec.toNat_ofNat] at he
  omega

end

/-- C71: the hash functions of `SHA256HashFamily` are the SHA-256 of FIPS 180-4 of the seed and the input, as
little-endian number modulo the upper bound. -/
theorem C71_sha (seed input : Bytes) (n : Nat) (hpos : 0 < n) (hint : n < 2 ^ 31) :
    opensslSha.hashFunction seed input n = ok ((leNat (Fips180.sha256 (seed ++ input)) % n : Nat) : Int) :=
  C44_sha256 opensslSha seed input n hpos hint

/-! ## The values in the tests of /repo and in the standards -/

/-- FIPS 197, appendix C.1. -/
example : Fips197.cipher ((List.range 16).map (BitVec.ofNat 8)) ((List.range 16).map fun i => BitVec.ofNat 8 (17 * i)) =
    [0x69, 0xc4, 0xe0, 0xd8, 0x6a, 0x7b, 0x04, 0x30, 0xd8, 0xcd, 0xb7, 0x80, 0x70, 0xb4, 0xc5, 0x5a] := by
  decide +kernel

/-- FIPS 180-4, example "abc". -/
example : Fips180.sha256 [0x61, 0x62, 0x63] =
    [0xba, 0x78, 0x16, 0xbf, 0x8f, 0x01, 0xcf, 0xea, 0x41, 0x41, 0x40, 0xde, 0x5d, 0xae, 0x22, 0x23,
     0xb0, 0x03, 0x61, 0xa3, 0x96, 0x17, 0x7a, 0x9c, 0xb4, 0x10, 0xff, 0x61, 0xf2, 0x00, 0x15, 0xad] := by
  decide +kernel

/-- /repo/dpf/aes_128_fixed_key_hash_test.cc:120-141, for both keys. -/
example : Aes128FixedKeyHash.evaluate { aes := opensslAes } 0 false
    [0x01230123012301230123012301230123, 0x45674567456745674567456745674567] [0, 0] =
      ok [0x73c2dc14812be4efeac64d09c8adf8ed, 0xb8f33653a53a8436aedf39b62de91d95] ∧
    Aes128FixedKeyHash.evaluate { aes := opensslAes } 0x11111111111111111111111111111111 false
    [0x01230123012301230123012301230123, 0x45674567456745674567456745674567] [0, 0] =
      ok [0x934704aff58fa233d3c20d1b9cc18d8f, 0x530098817046d28443e61d3273a04f7c] := by
  decide +kernel

/-- /repo/pir/prng/aes_128_ctr_seeded_prng_test.cc:129-148. -/
example : (Prng.create ((List.range 16).map (BitVec.ofNat 8)) >>= fun p =>
    p.getRandomBytes opensslAesBlock 32 >>= fun r => ok r.1) =
    ok [0xc6, 0xa1, 0x3b, 0x37, 0x87, 0x8f, 0x5b, 0x82, 0x6f, 0x4f, 0x81, 0x62, 0xa1, 0xc8, 0xd8, 0x79,
      0x73, 0x46, 0x13, 0x95, 0x95, 0xc0, 0xb4, 0x1e, 0x49, 0x7b, 0xbd, 0xe3, 0x65, 0xf4, 0x2d, 0x0a] := by
  decide +kernel

/-- /repo/pir/hashing/sha256_hash_family_test.cc:43-75, for the upper bounds 999 and 2^31 - 1. -/
example :
    let hash := opensslSha.hashFunction
      [0x5a, 0x86, 0xb7, 0x37, 0xea, 0xea, 0x8e, 0xe9, 0x76, 0xa0, 0xa2, 0x4d, 0xa6, 0x3e, 0x7e, 0xd7]
    let input : Bytes :=
      [0xee, 0xfa, 0xd1, 0x8a, 0x10, 0x1c, 0x12, 0x11, 0xe2, 0xb3, 0x65, 0x0c, 0x51, 0x87, 0xc2, 0xa8,
      0xa6, 0x50, 0x54, 0x72, 0x08, 0x25, 0x1f, 0x6d, 0x42, 0x37, 0xe6, 0x61, 0xc7, 0xbf, 0x4c, 0x77,
      0xf3, 0x35, 0x39, 0x03, 0x94, 0xc3, 0x7f, 0xa1, 0xa9, 0xf9, 0xbe, 0x83, 0x6a, 0xc2, 0x85, 0x09]
    Fips180.sha256 ([0x5a, 0x86, 0xb7, 0x37, 0xea, 0xea, 0x8e, 0xe9, 0x76, 0xa0, 0xa2, 0x4d, 0xa6, 0x3e, 0x7e, 0xd7] ++ input) =
      [0x42, 0xe6, 0x1e, 0x17, 0x4f, 0xbb, 0x38, 0x97, 0xd6, 0xdd, 0x6c, 0xef, 0x3d, 0xd2, 0x80, 0x2f,
      0xe6, 0x7b, 0x33, 0x19, 0x53, 0xb0, 0x61, 0x14, 0xa6, 0x5c, 0x77, 0x28, 0x59, 0xdf, 0xc1, 0xaa] ∧
    hash input 999 = ok 692 ∧ hash input 2147483647 = ok 494863796 := by
  decide +kernel

/-- C71 on examples: a block and back; a machine with four-block vectors; 40 bytes of a stream; a hash below 1000. -/
example : Fips197.invCipher (List.replicate 16 7) (Fips197.cipher (List.replicate 16 7) (List.replicate 16 9)) =
    List.replicate 16 9 := (C71_permutation _ _ (by simp) (by simp)).1
example : ∃ hash, Aes128FixedKeyHash.evaluate { aes := opensslAes } 5 false [1, 2] [0, 0] = ok hash ∧
    hash.map blockBytes = ([1, 2] : List U128).map fun x =>
      List.zipWith (· ^^^ ·) (Fips197.cipher (blockBytes 5) (blockBytes (sigma x))) (blockBytes (sigma x)) :=
  C71_hash { aes := opensslAes } rfl 5 [1, 2] [0, 0] rfl
example : HwyOk { aes := opensslAes } (aesMachine 64 8 true) := C71_instructions _ 64 8 true (by decide)
example : ∃ p p' out, Prng.createWithNonce (List.replicate 16 7) (List.replicate 16 0) = ok p ∧
    p.getRandomBytes opensslAesBlock 40 = ok (out, p') ∧ out.length = 40 ∧
    out.take 16 ≠ (out.drop 16).take 16 := by
  obtain ⟨p, p', out, h1, h2, h3, _, h5⟩ := C71_stream (List.replicate 16 7) (List.replicate 16 0) (by simp) (by simp) 40
  exact ⟨p, p', out, h1, h2, h3, h5 0 1 (by decide) (by decide) (by decide)⟩
example (input : Bytes) : opensslSha.hashFunction [1] input ((1000 : Nat) : Int) =
    ok ((leNat (Fips180.sha256 ([1] ++ input)) % 1000 : Nat) : Int) := C71_sha [1] input 1000 (by decide) (by decide)

end Verif
