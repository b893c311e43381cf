import Verif.Model.Base
/-!
# AES-128, as defined in FIPS 197

States are lists of 16 bytes, column by column: byte `r + 4 c` is in row `r` and column `c`.
-/
namespace Verif.Spec.Fips197
open Verif

/-- Multiplication by `x` in GF(2^8) (section 4.2.1). -/
def xtime (b : BitVec 8) : BitVec 8 := if b.getLsbD 7 then (b <<< 1) ^^^ 0x1b#8 else b <<< 1

/-- Multiplication in GF(2^8) (section 4.2), by the `n` lowest bits of `b`. -/
def mulBits : Nat → BitVec 8 → BitVec 8 → BitVec 8
  | 0, _, _ => 0
  | n + 1, a, b => (if b.getLsbD 0 then a else 0) ^^^ mulBits n (xtime a) (b >>> 1)

@[inherit_doc mulBits] def mul (a b : BitVec 8) : BitVec 8 := mulBits 8 a b

/-- The values of `SBOX` (section 5.1.1, table 4). -/
def sboxTable : List (BitVec 8) :=
  [
    0x63, 0x7c, 0x77, 0x7b, 0xf2, 0x6b, 0x6f, 0xc5, 0x30, 0x01, 0x67, 0x2b, 0xfe, 0xd7, 0xab, 0x76,
    0xca, 0x82, 0xc9, 0x7d, 0xfa, 0x59, 0x47, 0xf0, 0xad, 0xd4, 0xa2, 0xaf, 0x9c, 0xa4, 0x72, 0xc0,
    0xb7, 0xfd, 0x93, 0x26, 0x36, 0x3f, 0xf7, 0xcc, 0x34, 0xa5, 0xe5, 0xf1, 0x71, 0xd8, 0x31, 0x15,
    0x04, 0xc7, 0x23, 0xc3, 0x18, 0x96, 0x05, 0x9a, 0x07, 0x12, 0x80, 0xe2, 0xeb, 0x27, 0xb2, 0x75,
    0x09, 0x83, 0x2c, 0x1a, 0x1b, 0x6e, 0x5a, 0xa0, 0x52, 0x3b, 0xd6, 0xb3, 0x29, 0xe3, 0x2f, 0x84,
    0x53, 0xd1, 0x00, 0xed, 0x20, 0xfc, 0xb1, 0x5b, 0x6a, 0xcb, 0xbe, 0x39, 0x4a, 0x4c, 0x58, 0xcf,
    0xd0, 0xef, 0xaa, 0xfb, 0x43, 0x4d, 0x33, 0x85, 0x45, 0xf9, 0x02, 0x7f, 0x50, 0x3c, 0x9f, 0xa8,
    0x51, 0xa3, 0x40, 0x8f, 0x92, 0x9d, 0x38, 0xf5, 0xbc, 0xb6, 0xda, 0x21, 0x10, 0xff, 0xf3, 0xd2,
    0xcd, 0x0c, 0x13, 0xec, 0x5f, 0x97, 0x44, 0x17, 0xc4, 0xa7, 0x7e, 0x3d, 0x64, 0x5d, 0x19, 0x73,
    0x60, 0x81, 0x4f, 0xdc, 0x22, 0x2a, 0x90, 0x88, 0x46, 0xee, 0xb8, 0x14, 0xde, 0x5e, 0x0b, 0xdb,
    0xe0, 0x32, 0x3a, 0x0a, 0x49, 0x06, 0x24, 0x5c, 0xc2, 0xd3, 0xac, 0x62, 0x91, 0x95, 0xe4, 0x79,
    0xe7, 0xc8, 0x37, 0x6d, 0x8d, 0xd5, 0x4e, 0xa9, 0x6c, 0x56, 0xf4, 0xea, 0x65, 0x7a, 0xae, 0x08,
    0xba, 0x78, 0x25, 0x2e, 0x1c, 0xa6, 0xb4, 0xc6, 0xe8, 0xdd, 0x74, 0x1f, 0x4b, 0xbd, 0x8b, 0x8a,
    0x70, 0x3e, 0xb5, 0x66, 0x48, 0x03, 0xf6, 0x0e, 0x61, 0x35, 0x57, 0xb9, 0x86, 0xc1, 0x1d, 0x9e,
    0xe1, 0xf8, 0x98, 0x11, 0x69, 0xd9, 0x8e, 0x94, 0x9b, 0x1e, 0x87, 0xe9, 0xce, 0x55, 0x28, 0xdf,
    0x8c, 0xa1, 0x89, 0x0d, 0xbf, 0xe6, 0x42, 0x68, 0x41, 0x99, 0x2d, 0x0f, 0xb0, 0x54, 0xbb, 0x16]

/-- `SBOX` (section 5.1.1). -/
def sbox (b : BitVec 8) : BitVec 8 := sboxTable.getD b.toNat 0

/-- `SubBytes` (section 5.1.1). -/
def subBytes (s : Bytes) : Bytes := s.map sbox

/-- `ShiftRows` (section 5.1.2): row `r` is rotated by `r`. -/
def shiftRows (s : Bytes) : Bytes := (List.range 16).map fun i => s.getD (i % 4 + 4 * ((i / 4 + i % 4) % 4)) 0

/-- One column of `MixColumns` (section 5.1.3). -/
def mixColumn (a b c d : BitVec 8) : Bytes :=
  [mul 2 a ^^^ mul 3 b ^^^ c ^^^ d, a ^^^ mul 2 b ^^^ mul 3 c ^^^ d, a ^^^ b ^^^ mul 2 c ^^^ mul 3 d,
    mul 3 a ^^^ b ^^^ c ^^^ mul 2 d]

/-- `MixColumns` (section 5.1.3). -/
def mixColumns : Bytes → Bytes
  | a :: b :: c :: d :: rest => mixColumn a b c d ++ mixColumns rest
  | _ => []

/-- `AddRoundKey` (section 5.1.4). -/
def addRoundKey (s k : Bytes) : Bytes := List.zipWith (· ^^^ ·) s k

/-- Powers of `x` in GF(2^8). -/
def xpower : Nat → BitVec 8
  | 0 => 1
  | n + 1 => xtime (xpower n)

/-- `Rcon` (section 5.2). -/
def rcon (i : Nat) : Bytes := [xpower (i - 1), 0, 0, 0]

/-- The next word of the key schedule (section 5.2) for the last four words. -/
def nextWord (i : Nat) (w4 w1 : Bytes) : Bytes :=
  List.zipWith (· ^^^ ·) w4
    (if i % 4 = 0 then List.zipWith (· ^^^ ·) ((w1.drop 1 ++ w1.take 1).map sbox) (rcon (i / 4)) else w1)

/-- `KEYEXPANSION` (section 5.2): the words of the key schedule. -/
def words (key : Bytes) : Nat → List Bytes
  | 0 => [key.take 4, (key.drop 4).take 4, (key.drop 8).take 4, (key.drop 12).take 4]
  | n + 1 =>
    let w := words key n
    w ++ [nextWord (n + 4) (w.getD n []) (w.getD (n + 3) [])]

/-- The key of a round. -/
def roundKey (key : Bytes) (round : Nat) : Bytes := (((words key 40).drop (4 * round)).take 4).flatten

/-- `CIPHER` (section 5.1) with ten rounds. -/
def cipher (key input : Bytes) : Bytes :=
  let s := addRoundKey input (roundKey key 0)
  let s := (List.range 9).foldl (fun s r => addRoundKey (mixColumns (shiftRows (subBytes s))) (roundKey key (r + 1))) s
  addRoundKey (shiftRows (subBytes s)) (roundKey key 10)

/-! ## The inverse (section 5.3) -/

/-- The values of `INVSBOX` (section 5.3.2, table 6). -/
def invSboxTable : List (BitVec 8) :=
  [
    0x52, 0x09, 0x6a, 0xd5, 0x30, 0x36, 0xa5, 0x38, 0xbf, 0x40, 0xa3, 0x9e, 0x81, 0xf3, 0xd7, 0xfb,
    0x7c, 0xe3, 0x39, 0x82, 0x9b, 0x2f, 0xff, 0x87, 0x34, 0x8e, 0x43, 0x44, 0xc4, 0xde, 0xe9, 0xcb,
    0x54, 0x7b, 0x94, 0x32, 0xa6, 0xc2, 0x23, 0x3d, 0xee, 0x4c, 0x95, 0x0b, 0x42, 0xfa, 0xc3, 0x4e,
    0x08, 0x2e, 0xa1, 0x66, 0x28, 0xd9, 0x24, 0xb2, 0x76, 0x5b, 0xa2, 0x49, 0x6d, 0x8b, 0xd1, 0x25,
    0x72, 0xf8, 0xf6, 0x64, 0x86, 0x68, 0x98, 0x16, 0xd4, 0xa4, 0x5c, 0xcc, 0x5d, 0x65, 0xb6, 0x92,
    0x6c, 0x70, 0x48, 0x50, 0xfd, 0xed, 0xb9, 0xda, 0x5e, 0x15, 0x46, 0x57, 0xa7, 0x8d, 0x9d, 0x84,
    0x90, 0xd8, 0xab, 0x00, 0x8c, 0xbc, 0xd3, 0x0a, 0xf7, 0xe4, 0x58, 0x05, 0xb8, 0xb3, 0x45, 0x06,
    0xd0, 0x2c, 0x1e, 0x8f, 0xca, 0x3f, 0x0f, 0x02, 0xc1, 0xaf, 0xbd, 0x03, 0x01, 0x13, 0x8a, 0x6b,
    0x3a, 0x91, 0x11, 0x41, 0x4f, 0x67, 0xdc, 0xea, 0x97, 0xf2, 0xcf, 0xce, 0xf0, 0xb4, 0xe6, 0x73,
    0x96, 0xac, 0x74, 0x22, 0xe7, 0xad, 0x35, 0x85, 0xe2, 0xf9, 0x37, 0xe8, 0x1c, 0x75, 0xdf, 0x6e,
    0x47, 0xf1, 0x1a, 0x71, 0x1d, 0x29, 0xc5, 0x89, 0x6f, 0xb7, 0x62, 0x0e, 0xaa, 0x18, 0xbe, 0x1b,
    0xfc, 0x56, 0x3e, 0x4b, 0xc6, 0xd2, 0x79, 0x20, 0x9a, 0xdb, 0xc0, 0xfe, 0x78, 0xcd, 0x5a, 0xf4,
    0x1f, 0xdd, 0xa8, 0x33, 0x88, 0x07, 0xc7, 0x31, 0xb1, 0x12, 0x10, 0x59, 0x27, 0x80, 0xec, 0x5f,
    0x60, 0x51, 0x7f, 0xa9, 0x19, 0xb5, 0x4a, 0x0d, 0x2d, 0xe5, 0x7a, 0x9f, 0x93, 0xc9, 0x9c, 0xef,
    0xa0, 0xe0, 0x3b, 0x4d, 0xae, 0x2a, 0xf5, 0xb0, 0xc8, 0xeb, 0xbb, 0x3c, 0x83, 0x53, 0x99, 0x61,
    0x17, 0x2b, 0x04, 0x7e, 0xba, 0x77, 0xd6, 0x26, 0xe1, 0x69, 0x14, 0x63, 0x55, 0x21, 0x0c, 0x7d]

/-- `INVSBOX` (section 5.3.2). -/
def invSbox (b : BitVec 8) : BitVec 8 := invSboxTable.getD b.toNat 0

/-- `INVSUBBYTES` (section 5.3.2). -/
def invSubBytes (s : Bytes) : Bytes := s.map invSbox

/-- `INVSHIFTROWS` (section 5.3.1). -/
def invShiftRows (s : Bytes) : Bytes := (List.range 16).map fun i => s.getD (i % 4 + 4 * ((i / 4 + 4 - i % 4) % 4)) 0

/-- One column of `INVMIXCOLUMNS` (section 5.3.3). -/
def invMixColumn (a b c d : BitVec 8) : Bytes :=
  [mul 14 a ^^^ mul 11 b ^^^ mul 13 c ^^^ mul 9 d, mul 9 a ^^^ mul 14 b ^^^ mul 11 c ^^^ mul 13 d,
    mul 13 a ^^^ mul 9 b ^^^ mul 14 c ^^^ mul 11 d, mul 11 a ^^^ mul 13 b ^^^ mul 9 c ^^^ mul 14 d]

/-- `INVMIXCOLUMNS` (section 5.3.3). -/
def invMixColumns : Bytes → Bytes
  | a :: b :: c :: d :: rest => invMixColumn a b c d ++ invMixColumns rest
  | _ => []

/-- `INVCIPHER` (section 5.3) with ten rounds. -/
def invCipher (key input : Bytes) : Bytes :=
  let s := addRoundKey input (roundKey key 10)
  let s := (List.range 9).foldl (fun s r =>
    invMixColumns (addRoundKey (invSubBytes (invShiftRows s)) (roundKey key (9 - r)))) s
  addRoundKey (invSubBytes (invShiftRows s)) (roundKey key 0)

end Verif.Spec.Fips197
