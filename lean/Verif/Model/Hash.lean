import Verif.Model.Base
/-!
# Fixed-key hash (/repo/dpf/aes_128_fixed_key_hash.cc) and buffer accesses
-/
namespace Verif
open Res

/-- What the vectorised evaluation depends on besides its arguments. -/
structure HwyEnv where
  /-- `hn::Lanes(hn::ScalableTag<uint8_t>())`: the number of bytes in a vector. -/
  lanes : Nat
  /-- `std::max(HWY_MAX_BYTES / 8, 64)`, the size of the buffers for mask bits. -/
  maskBytes : Nat
  /-- `is_aligned` (/repo/dpf/internal/evaluate_prg_hwy.cc:164-169). -/
  aligned : Bool
  /-- `AES_set_encrypt_key`: the round keys for a key. -/
  roundKey : U128 → Nat → U128
  /-- `hn::AESRound` on one block. -/
  aesRound : U128 → U128 → U128
  /-- `hn::AESLastRound` on one block. -/
  aesLastRound : U128 → U128 → U128

/-- AES-128 as defined in FIPS-197: the block is XORed with the first round key, then there are nine rounds
and a last round, each with its own round key. -/
def aesByRounds (h : HwyEnv) (key x : U128) : U128 :=
  h.aesLastRound ((List.range 9).foldl (fun y r => h.aesRound y (h.roundKey key (r + 1)))
    (x ^^^ h.roundKey key 0)) (h.roundKey key 10)

/-- A vector unit on which `EvaluateSeedsHwy` can run: its instructions compute the same AES as the library
(`aes`), and a vector is not larger than `HWY_MAX_BYTES`. -/
structure HwyTarget (aes : U128 → U128 → U128) extends HwyEnv where
  sameAes : ∀ key x, aes key x = aesByRounds toHwyEnv key x
  size : lanes ≤ 8 * maskBytes

/-- External functions and the machine. `aes key block` is AES-128 in ECB mode on one block (OpenSSL's
`EVP_Cipher`); the model allows any function. `target` is the vector unit (with the alignment of the arrays)
used by a call of `dpf_internal::EvaluateSeeds` (/repo/dpf/internal/evaluate_prg_hwy.cc:653-657), which may
differ from call to call; `none` if the call falls back to `EvaluateSeedsNoHwy` (lines 176-183). -/
structure Env where
  aes : U128 → U128 → U128
  target : (numSeeds numLevels numCorrectionWords : Nat) → (seeds paths : List U128) →
    Option (HwyTarget aes) := fun _ _ _ _ _ => none

/-- Reading `n` elements from position `start` of a buffer; outside is undefined. -/
def slice {α : Type} (l : List α) (start n : Nat) : Res (List α) :=
  if start + n ≤ l.length then ok ((l.drop start).take n) else ub

/-- Writing elements from position `start` of a buffer; outside is undefined. -/
def writeAt {α : Type} (l : List α) (start : Nat) (vals : List α) : Res (List α) :=
  if start + vals.length ≤ l.length then
    ok (l.take start ++ vals ++ l.drop (start + vals.length))
  else ub

/-- The values of `start_block` in `for (start = 0; start < n; start += step)`. -/
def blockStarts (n step : Nat) : List Nat :=
  (List.range ((n + step - 1) / step)).map (· * step)

/-- The orthomorphism sigma: high half = high ^ low, low half = high
(/repo/dpf/aes_128_fixed_key_hash.cc:77-80). -/
def sigma (x : U128) : U128 :=
  let hi := x.extractLsb' 64 64
  let lo := x.extractLsb' 0 64
  (hi ^^^ lo) ++ hi

namespace Aes128FixedKeyHash

/-- `kBatchSize` (/repo/dpf/aes_128_fixed_key_hash.h:70). -/
def kBatchSize : Nat := 64

/-- One batch of `Evaluate` (/repo/dpf/aes_128_fixed_key_hash.cc:73-97). `input` is what a read of
`in` sees at this moment. -/
def evaluateBatch (env : Env) (key : U128) (input : List U128) (inSize : Nat)
    (out : List U128) (start : Nat) : Res (List U128) := do
  let batchSize := min (inSize - start) kBatchSize
  let sigmaIn := (← slice input start batchSize).map sigma
  let out ← writeAt out start (sigmaIn.map (env.aes key))
  let cur ← slice out start batchSize
  writeAt out start (List.zipWith (· ^^^ ·) cur sigmaIn)

/-- `Aes128FixedKeyHash::Evaluate` (/repo/dpf/aes_128_fixed_key_hash.cc:59-100). With `alias` the
spans `in` and `out` are the same memory, so reads of `in` see what was written to `out`; then the
caller passes the same list for both. Returns the final contents of `out`. -/
def evaluate (env : Env) (key : U128) (alias : Bool) (input out : List U128) :
    Res (List U128) := do
  failIf (input.length ≠ out.length) .invalidArgument
  foldRes (fun out start =>
    evaluateBatch env key (if alias then out else input) input.length out start)
    out (blockStarts input.length kBatchSize)

end Aes128FixedKeyHash
end Verif
