import Verif.Model.Prng
import Verif.Spec.Fips197
/-!
# AES as used in /repo

The theorems on DPFs and PIR hold for any function in the place of AES. Here it is the one of FIPS 197, with the
order of bytes that the calls of OpenSSL and Highway lead to.
-/
namespace Verif
open Spec

/-- The `absl::uint128` with the given bytes in memory. -/
def bytesBlock (b : Bytes) : U128 := BitVec.ofNat 128 (leNat b)

/-- AES-128 of OpenSSL on blocks in memory: the pointers to key, input and output are casts of pointers to
`absl::uint128` (/repo/dpf/aes_128_fixed_key_hash.cc:51-53, 84-87). -/
def opensslAes (key x : U128) : U128 := bytesBlock (Fips197.cipher (blockBytes key) (blockBytes x))

/-- `AES_set_encrypt_key`, read as bytes (/repo/dpf/internal/evaluate_prg_hwy.cc:186-197,
/repo/dpf/internal/aes_128_fixed_key_hash_hwy.h:61-63): the key of a round. Assumes that the library stores the
round keys in the order of FIPS 197. -/
def expandedKey (key : U128) (round : Nat) : U128 := bytesBlock (Fips197.roundKey (blockBytes key) round)

/-- `hn::AESRound` on one block, as documented by Highway: `MixColumns(SubBytes(ShiftRows(state))) ^ round_key`. -/
def hwyAesRound (state key : U128) : U128 :=
  bytesBlock (Fips197.mixColumns (Fips197.subBytes (Fips197.shiftRows (blockBytes state)))) ^^^ key

/-- `hn::AESLastRound` on one block, as documented by Highway: `SubBytes(ShiftRows(state)) ^ round_key`. -/
def hwyAesLastRound (state key : U128) : U128 :=
  bytesBlock (Fips197.subBytes (Fips197.shiftRows (blockBytes state))) ^^^ key

/-- A machine with these instructions; the vector size and alignment are free. -/
def aesMachine (lanes maskBytes : Nat) (aligned : Bool) : HwyEnv :=
  ⟨lanes, maskBytes, aligned, expandedKey, hwyAesRound, hwyAesLastRound⟩

/-- The bytes of a number, most significant first. -/
def beBytes : Nat → Nat → Bytes
  | 0, _ => []
  | k + 1, n => beBytes k (n / 256) ++ [BitVec.ofNat 8 n]

/-- AES-128 as used by the generator of pseudorandom bytes (/repo/pir/prng/aes_128_ctr_seeded_prng.cc:78-80, 97-98):
the counter is big-endian. -/
def opensslAesBlock : AesBlock := fun key ctr i => (Fips197.cipher key (beBytes 16 ctr.toNat)).getD i 0

end Verif
