import Verif.Model.Proto
/-!
# Integers modulo N (/repo/dpf/int_mod_n.h, /repo/dpf/int_mod_n.cc)

Machine-level functions on the representation `BaseInteger value_` (`BitVec w`), with the modulus a
`unsigned __int128` template argument (/repo/dpf/int_mod_n.h:272-275).  Mixed arithmetic is done in 128 bits
and truncated to `BaseInteger` on assignment, as in C++.
-/
namespace Verif
open Res

/-- Floating-point functions used in security checks; parameters of the model
(`std::log2` in double precision). -/
structure FpEnv where
  /-- `IntModNBase::GetSecurityLevel` (/repo/dpf/int_mod_n.cc:29-34). -/
  secLevel : Int → U128 → Rat
  /-- `std::log2(static_cast<double>(n))` (/repo/dpf/internal/value_type_helpers.cc:108). -/
  log2 : Nat → Rat

namespace IntModN

/-- `explicit IntModNImpl(BaseInteger value) : value_(value % kModulus)` (/repo/dpf/int_mod_n.h:107-108). -/
def mk (N : U128) {w : Nat} (value : BitVec w) : BitVec w :=
  (value.setWidth 128 % N).setWidth w

/-- `SubtractBaseInteger` (/repo/dpf/int_mod_n.h:213-219): new `value_` from the old one. -/
def subBase (N : U128) {w : Nat} (value_ a : BitVec w) : BitVec w :=
  if value_ ≥ a then value_ - a
  else ((N - a.setWidth 128) + value_.setWidth 128).setWidth w

/-- `AddBaseInteger` (/repo/dpf/int_mod_n.h:221-223). -/
def addBase (N : U128) {w : Nat} (value_ a : BitVec w) : BitVec w :=
  subBase N value_ ((N - a.setWidth 128).setWidth w)

/-- Unary minus (/repo/dpf/int_mod_n.h:244-250). -/
def neg (N : U128) {w : Nat} (a : BitVec w) : BitVec w :=
  subBase N (mk N (0 : BitVec w)) a

/-- `ConvertBytesTo<T>` (/repo/dpf/int_mod_n.h:71-84) and `DirectlyFromBytes` for integers
(/repo/dpf/internal/value_type_helpers.h:216-228), little-endian branch. -/
def convertBytesTo (w : Nat) (bytes : Bytes) : Res (BitVec w) :=
  if bytes.length = w / 8 then ok (BitVec.ofNat w (leNat bytes)) else crash

/-- Second loop of `UnsafeSampleFromBytes` (/repo/dpf/int_mod_n.h:172-181): `r` is the running 128-bit state,
the list the remaining entries of `randomness`. -/
def sampleLoop (N : U128) {w : Nat} (r : U128) : List (BitVec w) → List (BitVec w)
  | [] => [mk N ((r % N).setWidth w)]
  | x :: xs =>
    let r1 := r / N
    let r2 := if w < 128 then r1 <<< w else r1
    mk N ((r % N).setWidth w) :: sampleLoop N (r2 ||| x.setWidth 128) xs

/-- `UnsafeSampleFromBytes` (/repo/dpf/int_mod_n.h:159-182) for `numSamples = samples.size()`. With no
samples the vector size `samples.size() - 1` wraps around and the allocation fails (`crash`). -/
def unsafeSampleFromBytes (N : U128) (w : Nat) (bytes : Bytes) (numSamples : Nat) :
    Res (List (BitVec w)) := do
  if numSamples = 0 then crash else do
  let r ← convertBytesTo 128 (← substr bytes 0 16)
  let randomness ← mapRes (fun i => do
      convertBytesTo w (← substr bytes (16 + i * (w / 8)) (w / 8))) (List.range (numSamples - 1))
  ok (sampleLoop N r randomness)

/-- `security_parameter > sigma` on doubles (false for NaN). -/
def Sec.gt : Sec → Rat → Bool
  | .nan, _ => false
  | .val q, s => decide (q > s)

/-- `IntModNBase::CheckParameters` (/repo/dpf/int_mod_n.cc:36-69). The sum `num_samples + 1` is computed in
`GetSecurityLevel` (line 33). -/
def checkParameters (fp : FpEnv) (numSamples bitsize : Int) (modulus : U128) (sec : Sec) :
    Res Unit := do
  failIf (numSamples ≤ 0) .invalidArgument
  failIf (bitsize ≤ 0) .invalidArgument
  failIf (bitsize > 128) .invalidArgument
  if bitsize < 128 then
    let bound ← shl128 1 bitsize
    failIf (bound < modulus) .invalidArgument
  let _ ← intRange (numSamples + 1)
  failIf (Sec.gt sec (fp.secLevel numSamples modulus) = true) .invalidArgument

/-- `IntModNBase::GetNumBytesRequired` (/repo/dpf/int_mod_n.cc:71-84). -/
def getNumBytesRequired (fp : FpEnv) (numSamples bitsize : Int) (modulus : U128) (sec : Sec) :
    Res Int := do
  checkParameters fp numSamples bitsize modulus sec
  let baseIntegerBytes := (bitsize + 7) / 8
  intRange (16 + baseIntegerBytes * (numSamples - 1))

/-- `SampleFromBytes` (/repo/dpf/int_mod_n.h:190-210), for less than 2^32 samples; `samples.size()` is
converted to `int` (line 198). -/
def sampleFromBytes (fp : FpEnv) (N : U128) (w : Nat) (bytes : Bytes) (sec : Sec)
    (numSamples : Nat) : Res (List (BitVec w)) := do
  failIf (numSamples = 0) .invalidArgument
  let bound ← getNumBytesRequired fp (wrapInt32 numSamples) w N sec
  failIf (bound > bytes.length) .invalidArgument
  unsafeSampleFromBytes N w bytes numSamples

end IntModN
end Verif
