import Verif.Model.Hash
/-!
# `Aes128CtrSeededPrng` (/repo/pir/prng/aes_128_ctr_seeded_prng.cc)

AES itself is a parameter: `aesBlock key ctr` are the 16 bytes that AES-128 with the 16 key bytes `key`
gives for the block whose bytes are the big-endian representation of `ctr`.
-/
namespace Verif
open Res

/-- AES-128 as used by OpenSSL: key bytes, block (as a big-endian number), and position in the output
block. -/
abbrev AesBlock := Bytes → U128 → Nat → BitVec 8

/-- Members of `Aes128CtrSeededPrng` (/repo/pir/prng/aes_128_ctr_seeded_prng.h:97-103): `ivec_` is kept as
a big-endian number. -/
structure Prng where
  key : Bytes
  ivec : U128
  ecount : Bytes
  num : Nat
  deriving DecidableEq, Repr

namespace Prng

/-- The number with the given big-endian bytes. -/
def beNat (bs : Bytes) : Nat := bs.foldl (fun n b => 256 * n + b.toNat) 0

/-- `SeedSize()` (/repo/pir/prng/aes_128_ctr_seeded_prng.h:64). -/
def seedSize : Nat := 16

/-- `GenerateSeed` (/repo/pir/prng/aes_128_ctr_seeded_prng.cc:46-50): `random` is the output of
`RAND_bytes`; its return value is ignored. -/
def generateSeed (random : Nat → BitVec 8) : Bytes := (List.range seedSize).map random

/-- `CreateWithNonce` (/repo/pir/prng/aes_128_ctr_seeded_prng.cc:65-91). `AES_set_encrypt_key` does not
fail for 128 bits and a non-null key. -/
def createWithNonce (seed nonce : Bytes) : Res Prng := do
  failIf (seed.length ≠ seedSize) .invalidArgument
  failIf (seed.length ≠ nonce.length) .invalidArgument
  ok ⟨seed, BitVec.ofNat 128 (beNat nonce), List.replicate 16 0, 0⟩

/-- `Create` (/repo/pir/prng/aes_128_ctr_seeded_prng.cc:59-63). -/
def create (seed : Bytes) : Res Prng := createWithNonce seed (List.replicate seedSize 0)

/-- One byte of `AES_ctr128_encrypt` on zero input (OpenSSL's byte-wise form of `CRYPTO_ctr128_encrypt`):
when the buffer is used up, encrypt the counter block and increment it as a big-endian number. -/
def nextByte (aes : AesBlock) (p : Prng) : Res (BitVec 8 × Prng) := do
  let p := if p.num = 0 then
    { p with ecount := (List.range 16).map (aes p.key p.ivec), ivec := p.ivec + 1 } else p
  let b ← rd p.ecount p.num
  ok (b, { p with num := (p.num + 1) % 16 })

/-- `GetRandomBytes` (/repo/pir/prng/aes_128_ctr_seeded_prng.cc:93-101). -/
def getRandomBytes (aes : AesBlock) (p : Prng) (length : Nat) : Res (Bytes × Prng) :=
  foldRes (fun (out, p) (_ : Nat) => do
    let (b, p) ← nextByte aes p
    ok (out ++ [b], p)) (([] : Bytes), p) (List.range length)

end Prng
end Verif
