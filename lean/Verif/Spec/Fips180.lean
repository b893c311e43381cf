import Verif.Model.Base
/-!
# SHA-256, as defined in FIPS 180-4
-/
namespace Verif.Spec.Fips180
open Verif

/-- 32-bit words (section 2). -/
abbrev Word := BitVec 32

/-- The constants `K` (section 4.2.2). -/
def constants : List Word :=
  [
    0x428a2f98, 0x71374491, 0xb5c0fbcf, 0xe9b5dba5, 0x3956c25b, 0x59f111f1, 0x923f82a4, 0xab1c5ed5,
    0xd807aa98, 0x12835b01, 0x243185be, 0x550c7dc3, 0x72be5d74, 0x80deb1fe, 0x9bdc06a7, 0xc19bf174,
    0xe49b69c1, 0xefbe4786, 0x0fc19dc6, 0x240ca1cc, 0x2de92c6f, 0x4a7484aa, 0x5cb0a9dc, 0x76f988da,
    0x983e5152, 0xa831c66d, 0xb00327c8, 0xbf597fc7, 0xc6e00bf3, 0xd5a79147, 0x06ca6351, 0x14292967,
    0x27b70a85, 0x2e1b2138, 0x4d2c6dfc, 0x53380d13, 0x650a7354, 0x766a0abb, 0x81c2c92e, 0x92722c85,
    0xa2bfe8a1, 0xa81a664b, 0xc24b8b70, 0xc76c51a3, 0xd192e819, 0xd6990624, 0xf40e3585, 0x106aa070,
    0x19a4c116, 0x1e376c08, 0x2748774c, 0x34b0bcb5, 0x391c0cb3, 0x4ed8aa4a, 0x5b9cca4f, 0x682e6ff3,
    0x748f82ee, 0x78a5636f, 0x84c87814, 0x8cc70208, 0x90befffa, 0xa4506ceb, 0xbef9a3f7, 0xc67178f2]

/-- The eight working variables, and the hash values (section 6.2). -/
structure Vars where
  (a b c d e f g h : Word)
  deriving DecidableEq, Repr

/-- The initial hash value (section 5.3.3). -/
def initial : Vars :=
  ⟨0x6a09e667, 0xbb67ae85, 0x3c6ef372, 0xa54ff53a, 0x510e527f, 0x9b05688c, 0x1f83d9ab, 0x5be0cd19⟩

/-- `Ch` (section 4.1.2). -/
def ch (x y z : Word) : Word := (x &&& y) ^^^ (~~~x &&& z)
/-- `Maj` (section 4.1.2). -/
def maj (x y z : Word) : Word := (x &&& y) ^^^ (x &&& z) ^^^ (y &&& z)
/-- `Σ0` (section 4.1.2). -/
def bigSigma0 (x : Word) : Word := x.rotateRight 2 ^^^ x.rotateRight 13 ^^^ x.rotateRight 22
/-- `Σ1` (section 4.1.2). -/
def bigSigma1 (x : Word) : Word := x.rotateRight 6 ^^^ x.rotateRight 11 ^^^ x.rotateRight 25
/-- `σ0` (section 4.1.2). -/
def smallSigma0 (x : Word) : Word := x.rotateRight 7 ^^^ x.rotateRight 18 ^^^ (x >>> 3)
/-- `σ1` (section 4.1.2). -/
def smallSigma1 (x : Word) : Word := x.rotateRight 17 ^^^ x.rotateRight 19 ^^^ (x >>> 10)

/-- A number as `n` bytes, most significant first. -/
def bigEndian : Nat → Nat → Bytes
  | 0, _ => []
  | n + 1, x => bigEndian n (x / 256) ++ [BitVec.ofNat 8 x]

/-- The padded message (section 5.1.1): a one bit, zeros, and the length in bits as 64-bit number. -/
def pad (m : Bytes) : Bytes :=
  m ++ [0x80] ++ List.replicate ((119 - m.length % 64) % 64) 0 ++ bigEndian 8 (8 * m.length)

/-- The 32-bit words of some bytes (section 5.2.1). -/
def toWords : Bytes → List Word
  | a :: b :: c :: d :: rest => (a ++ b ++ c ++ d : BitVec 32) :: toWords rest
  | _ => []

/-- The message schedule (section 6.2.2, step 1), as the list of the last 16 words and the number of words to add. -/
def schedule : Nat → List Word → List Word
  | 0, w => w
  | n + 1, w => w.headD 0 :: schedule n (w.drop 1 ++
      [smallSigma1 (w.getD 14 0) + w.getD 9 0 + smallSigma0 (w.getD 1 0) + w.headD 0])

/-- One iteration (section 6.2.2, step 3). -/
def round (v : Vars) (k w : Word) : Vars :=
  let t1 := v.h + bigSigma1 v.e + ch v.e v.f v.g + k + w
  let t2 := bigSigma0 v.a + maj v.a v.b v.c
  ⟨t1 + t2, v.a, v.b, v.c, v.d + t1, v.e, v.f, v.g⟩

/-- One block (section 6.2.2). -/
def compress (hash : Vars) (block : List Word) : Vars :=
  let v := (constants.zip (schedule 48 block)).foldl (fun v kw => round v kw.1 kw.2) hash
  ⟨v.a + hash.a, v.b + hash.b, v.c + hash.c, v.d + hash.d, v.e + hash.e, v.f + hash.f, v.g + hash.g, v.h + hash.h⟩

/-- `n` blocks of 16 words. -/
def blocks : Nat → List Word → List (List Word)
  | 0, _ => []
  | n + 1, w => w.take 16 :: blocks n (w.drop 16)

/-- The four bytes of a word. -/
def wordBytes (w : Word) : Bytes := bigEndian 4 w.toNat

/-- The message digest (section 6.2). -/
def sha256 (m : Bytes) : Bytes :=
  let p := pad m
  let v := (blocks (p.length / 64) (toWords p)).foldl compress initial
  wordBytes v.a ++ wordBytes v.b ++ wordBytes v.c ++ wordBytes v.d ++ wordBytes v.e ++ wordBytes v.f ++
    wordBytes v.g ++ wordBytes v.h

end Verif.Spec.Fips180
