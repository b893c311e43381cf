import Verif.Model.EvalSeeds
/-!
# Inner products of a database with bit vectors (/repo/pir/internal/inner_product_hwy.cc)

Sizes of strings and vectors are natural numbers: 2^31 or more bytes in one record
(`int i < value.size()`) or 2^31 or more selections, and failing allocations are not modelled.
-/
namespace Verif
open Res

/-- What the inner product depends on besides its arguments: the vector registers of the CPU and the
addresses of the records and results. -/
structure SimdEnv where
  /-- `HWY_TARGET == HWY_SCALAR`. -/
  scalar : Bool
  /-- `hn::Lanes(hn::ScalableTag<uint8_t>())`, a power of two. -/
  lanes : Nat
  /-- `-HWY_MIN_POW2`: how often a vector can be halved. -/
  halvings : Nat
  /-- `kHwyAlignment` (/repo/pir/internal/inner_product_hwy.cc:111-118). -/
  alignment : Nat
  /-- `alignof(absl::uint128)`. -/
  blockAlignment : Nat
  /-- Sizes are multiples of alignments. -/
  sizeof : 16 % blockAlignment = 0
  /-- `values[i].data()`. -/
  recordAddress : Nat → Nat
  /-- `aligned_results[k].get()` (/repo/pir/internal/inner_product_hwy.cc:170-178). -/
  bufferAddress : Nat → Nat
  /-- `&result[k][0]` (/repo/pir/internal/inner_product_hwy.cc:275-276). -/
  stringAddress : Nat → Nat

/-- An access to memory that must be aligned. -/
def access (address alignment : Nat) : Res Unit := if address % alignment = 0 then ok () else ub

/-- `result[i] ^= value[i]` for chars (/repo/pir/internal/inner_product_hwy.cc:53, 74). -/
def xorByteAt (value : Bytes) (result : Bytes) (i : Nat) : Res Bytes := do
  let v ← rd value i
  let r ← rd result i
  writeAt result i [r ^^^ v]

/-- `dest[i] ^= source[i]` for `uint128` (/repo/pir/internal/inner_product_hwy.cc:67): 16 bytes are
read as a little-endian number. `src` and `dst` are the addresses of `source` and `dest`. -/
def xorBlockAt (alignment src dst : Nat) (value : Bytes) (result : Bytes) (i : Nat) : Res Bytes := do
  access (src + 16 * i) alignment
  access (dst + 16 * i) alignment
  let v ← slice value (16 * i) 16
  let r ← slice result (16 * i) 16
  writeAt result (16 * i)
    (blockBytes (BitVec.ofNat 128 (leNat r) ^^^ BitVec.ofNat 128 (leNat v)))

/-- `XorStringInPlaceNoHwy` (/repo/pir/internal/inner_product_hwy.cc:47-76), with `alignof(absl::uint128)` and the
addresses of `value` and `result`. -/
def xorStringInPlaceNoHwy (alignment src dst : Nat) (value : Bytes) (result : Bytes) : Res Bytes :=
  if dst % alignment ≠ 0 ∨ src % alignment ≠ 0 then foldRes (xorByteAt value) result (List.range value.length)
  else do
    let n := value.length / 16
    let result ← foldRes (xorBlockAt alignment src dst value) result (List.range n)
    foldRes (fun r j => xorByteAt value r (16 * n + j)) result (List.range (value.length - 16 * n))

/-- Applying `f k` to the results with numbers `k` in `ks`. -/
def updateResults (f : Nat → Bytes → Res Bytes) (results : List Bytes) (ks : List Nat) :
    Res (List Bytes) :=
  foldRes (fun rs k => do
    let r ← rd rs k
    let r ← f k r
    writeAt rs k [r]) results ks

/-- One vector of `n` bytes at `pos` (/repo/pir/internal/inner_product_hwy.cc:137-141 and
232-236): load the value once, then load, XOR and store each result. `hn::Load` and `hn::Store` need addresses that are
multiples of the size of the vector. -/
def xorVector (src : Nat) (dst : Nat → Nat) (value : Bytes) (pos n : Nat) (ks : List Nat) (results : List Bytes) :
    Res (List Bytes) := do
  access (src + pos) n
  let vec ← slice value pos n
  updateResults (fun k r => do
    access (dst k + pos) n
    let cur ← slice r pos n
    writeAt r pos (List.zipWith (· ^^^ ·) vec cur)) results ks

/-- `XorPartialString<kPow2>` (/repo/pir/internal/inner_product_hwy.cc:128-157). `fuel` is the number
of instantiations before the empty one for `HWY_MIN_POW2`, `w` the number of lanes for `kPow2`. -/
def xorPartialString (src : Nat) (dst : Nat → Nat) (value : Bytes) (remaining : Nat) (ks : List Nat) :
    (fuel w pos : Nat) → List Bytes → Res (List Bytes)
  | 0, _, _, results => ok results
  | fuel + 1, w, pos, results => do
    let half := w / 2
    let (pos, results) ←
      if remaining &&& half ≠ 0 then do
        let rs ← xorVector src dst value pos half ks results
        ok (pos + half, rs)
      else ok (pos, results)
    if half > 1 then xorPartialString src dst value remaining ks fuel half pos results else ok results

/-- XOR of a record at the address `src` into the results `ks` with vectors
(/repo/pir/internal/inner_product_hwy.cc:229-242). -/
def xorAligned (env : SimdEnv) (src : Nat) (value : Bytes) (ks : List Nat) (results : List Bytes) :
    Res (List Bytes) := do
  let full := value.length / env.lanes
  let results ← foldRes (fun rs m => xorVector src env.bufferAddress value (m * env.lanes) env.lanes ks rs) results
    (List.range full)
  let pos := full * env.lanes
  if pos < value.length then
    xorPartialString src env.bufferAddress value (value.length - pos) ks env.halvings env.lanes pos results
  else ok results

/-- The numbers `k` of the selection vectors with bit `j` of block `i` set
(/repo/pir/internal/inner_product_hwy.cc:204-214 and 287-293). -/
def selectedResults (selections : List (List U128)) (i j : Nat) : Res (List Nat) := do
  let bits ← mapRes (fun sel => do
    let block ← rd sel i
    ok (block &&& (1#128 <<< j) != 0#128)) selections
  ok ((List.range selections.length).filter fun k => bits.getD k false)

/-- The loop over the bits of a block: stops at the first index that is not below `size`
(/repo/pir/internal/inner_product_hwy.cc:185-190 and 281-284). Negative indices are converted to huge
unsigned numbers. -/
def loopBits (size : Nat) (base : Int) (f : List Bytes → Nat → Nat → Res (List Bytes)) :
    List Nat → List Bytes → Res (List Bytes)
  | [], results => ok results
  | j :: js, results =>
    if base + j < 0 ∨ base + j ≥ size then ok results
    else do
      let results ← f results j (base + j).toNat
      loopBits size base f js results

/-- Processing one record in `InnerProductHwy` (/repo/pir/internal/inner_product_hwy.cc:191-242). The
records are XORed after all selection bits are read; in the code unaligned ones while reading. -/
def hwyRecord (env : SimdEnv) (values : List Bytes) (selections : List (List U128)) (i : Nat)
    (results : List Bytes) (j index : Nat) : Res (List Bytes) := do
  let value ← rd values index
  let ks ← selectedResults selections i j
  let src := env.recordAddress index
  if src &&& (env.alignment - 1) = 0 then
    if ks = [] then ok results else xorAligned env src value ks results
  else
    foldRes (fun rs k => updateResults
      (fun k => xorStringInPlaceNoHwy env.blockAlignment src (env.bufferAddress k) value) rs [k]) results ks

/-- Processing one record in `InnerProductNoHwy` (/repo/pir/internal/inner_product_hwy.cc:285-295). -/
def noHwyRecord (env : SimdEnv) (values : List Bytes) (selections : List (List U128)) (i : Nat)
    (results : List Bytes) (j index : Nat) : Res (List Bytes) := do
  let value ← rd values index
  let ks ← selectedResults selections i j
  foldRes (fun rs k => updateResults
    (fun k => xorStringInPlaceNoHwy env.blockAlignment (env.recordAddress index) (env.stringAddress k) value) rs [k])
    results ks

/-- `InnerProductNoHwy` (/repo/pir/internal/inner_product_hwy.cc:272-298). `i * kBitsPerBlock` is a
signed multiplication; overflow is undefined. -/
def innerProductNoHwy (env : SimdEnv) (values : List Bytes) (selections : List (List U128))
    (maxValueSize : Nat) : Res (List Bytes) := do
  let first ← rd selections 0
  foldRes (fun results i =>
    if i * 128 ≥ 2 ^ 31 then ub
    else loopBits values.length ((i * 128 : Nat) : Int) (noHwyRecord env values selections i)
      (List.range 128) results)
    (List.replicate selections.length (List.replicate maxValueSize 0)) (List.range first.length)

/-- `InnerProductHwy` (/repo/pir/internal/inner_product_hwy.cc:102-107 and 159-253). The block number
is an `int64_t`, but the index of its first bit an `int`. -/
def innerProductHwy (env : SimdEnv) (values : List Bytes) (selections : List (List U128))
    (maxValueSize : Nat) : Res (List Bytes) :=
  if env.scalar ∨ env.lanes < 16 ∨ env.lanes % 16 ≠ 0 then
    innerProductNoHwy env values selections maxValueSize
  else do
    let first ← rd selections 0
    foldRes (fun results i =>
      loopBits values.length (wrapInt32 ((i * 128 : Nat) : Int)) (hwyRecord env values selections i)
        (List.range 128) results)
      (List.replicate selections.length (List.replicate maxValueSize 0)) (List.range first.length)

/-- Checks of `InnerProduct` on one selection vector
(/repo/pir/internal/inner_product_hwy.cc:311-331). -/
def checkSelection (numValues : Nat) (first : Int) (maxValueSize : Int) (sel : List U128) :
    Res Unit := do
  failIf (sel.length * 128 < numValues) .invalidArgument
  failIf ((sel.length : Int) ≠ first) .invalidArgument
  failIf (maxValueSize ≤ 0) .invalidArgument

/-- Checks of `InnerProduct` on the records (/repo/pir/internal/inner_product_hwy.cc:333-338). The
counter is an `int`: incrementing it after the record with number 2^31 - 1 is undefined. -/
def checkValues (maxValueSize : Int) (values : List Bytes) : Res Unit := do
  let _ ← mapRes (fun v : Bytes => failIf ((v.length : Int) > maxValueSize) .invalidArgument)
    (values.take (2 ^ 31))
  if 2 ^ 31 ≤ values.length then ub else ok ()

/-- `InnerProduct` (/repo/pir/internal/inner_product_hwy.cc:302-342). -/
def innerProduct (env : SimdEnv) (values : List Bytes) (selections : List (List U128))
    (maxValueSize : Int) : Res (List Bytes) :=
  match selections with
  | [] => ok []
  | first :: _ => do
    let _ ← mapRes (checkSelection values.length (wrapInt32 first.length) maxValueSize) selections
    checkValues maxValueSize values
    innerProductHwy env values selections maxValueSize.toNat

end Verif
