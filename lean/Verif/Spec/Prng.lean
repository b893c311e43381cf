import Verif.Model.Prng
/-!
# Specification: AES in counter mode
-/
namespace Verif.Spec

/-- Byte `i` of the AES-CTR stream of a seed and a nonce: byte `i % 16` of the encryption of the nonce
plus `i / 16`. -/
def ctrStream (aes : AesBlock) (seed : Bytes) (nonce : U128) (i : Nat) : BitVec 8 :=
  aes seed (nonce + BitVec.ofNat 128 (i / 16)) (i % 16)

/-- Bytes `start, …, start + n - 1` of a stream. -/
def streamBytes (stream : Nat → BitVec 8) (start n : Nat) : Bytes :=
  (List.range n).map fun i => stream (start + i)

/-- The big-endian number of a nonce. -/
def nonceOf (bs : Bytes) : U128 := BitVec.ofNat 128 (bs.foldl (fun n b => 256 * n + b.toNat) 0)

/-- Successive reads of the given lengths from a PRNG. -/
def reads (aes : AesBlock) (p : Prng) : List Nat → Res (List Bytes × Prng)
  | [] => .ok ([], p)
  | n :: ns => p.getRandomBytes aes n >>= fun (b, p) =>
    reads aes p ns >>= fun (bs, p) => .ok (b :: bs, p)

end Verif.Spec
