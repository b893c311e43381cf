import Verif.Model.DensePir
/-!
# Helpers for tests and benchmarks of PIR (/repo/pir/testing)

Fake keys for hybrid encryption (/repo/pir/testing/encrypt_decrypt.cc) come from the Tink library and are
parameters. The mock classes have no behaviour of their own.
-/
namespace Verif
open Res

namespace PirTesting

/-! ## Selection bits -/

/-- One bit of a block in `PackSelectionBits` (/repo/pir/testing/pir_selection_bits.h:44-51). Once the end of
`selections` is reached it is also reached for all later bits, so `break` skips nothing else. -/
def packBit (selections : List Bool) (base : Nat) (block : U128) (j : Nat) : Res U128 :=
  if selections.length ≤ base + j then ok block
  else do
    let bit ← rd selections (base + j)
    ok (if bit then block ||| (1#128 <<< j) else block)

/-- One block in `PackSelectionBits` (/repo/pir/testing/pir_selection_bits.h:41-53); `base` is an `int`. -/
def packBlock (selections : List Bool) (i : Nat) : Res U128 :=
  if 2 ^ 31 ≤ i * 128 then ub
  else foldRes (packBit selections (i * 128)) 0 (List.range 128)

/-- `PackSelectionBits<XorWrapper<absl::uint128>>` (/repo/pir/testing/pir_selection_bits.h:35-55). The
number of blocks is converted to `int`; `reserve` of a negative number throws. -/
def packSelectionBits (selections : List Bool) : Res (List U128) :=
  if wrapInt32 (((selections.length + 127) / 128 : Nat) : Int) < 0 then crash
  else mapRes (packBlock selections)
    (List.range (wrapInt32 (((selections.length + 127) / 128 : Nat) : Int)).toNat)

/-- `GenerateRandomPackedSelectionBits<XorWrapper<absl::uint128>>`
(/repo/pir/testing/pir_selection_bits.h:60-74). `random` are the numbers drawn; `reserve` of a negative number
throws. -/
def generateRandomPackedSelectionBits (random : Nat → U128) (numBits : Int) : Res (List U128) := do
  let sum ← intRange (numBits + 127)
  if sum.tdiv 128 < 0 then crash
  else ok ((List.range (sum.tdiv 128).toNat).map random)

/-- One value in `InnerProductWithUnpacked` (/repo/pir/testing/pir_selection_bits.cc:38-45). -/
def unpackedStep (selections : List Bool) (values : List Bytes) (result : Bytes) (i : Nat) : Res Bytes := do
  let value ← rd values i
  let result := result ++ List.replicate (value.length - result.length) 0
  let bit ← rd selections i
  if bit then foldRes (xorByteAt value) result (List.range value.length) else ok result

/-- `InnerProductWithUnpacked` (/repo/pir/testing/pir_selection_bits.cc:30-48); the counter is an `int`. -/
def innerProductWithUnpacked (selections : List Bool) (values : List Bytes) : Res Bytes := do
  failIf (values.length ≠ selections.length) .invalidArgument
  if 2 ^ 31 ≤ selections.length then ub
  else foldRes (unpackedStep selections values) [] (List.range selections.length)

/-! ## Databases -/

/-- `GenerateCountingStrings` (/repo/pir/testing/mock_pir_database.cc:35-46). -/
def generateCountingStrings (numElements : Int) (pre : Bytes) : Res (List Bytes) := do
  failIf (numElements < 0) .invalidArgument
  ok ((List.range numElements.toNat).map fun i => pre ++ stringBytes (toString i))

/-- `GenerateRandomStrings` (/repo/pir/testing/mock_pir_database.cc:50-64). `random i` are the bytes for
string `i`. -/
def generateRandomStrings (random : Nat → Nat → BitVec 8) (sizes : List Int) : Res (List Bytes) :=
  mapRes (fun (size, i) => do
    failIf (size < 0) .invalidArgument
    ok ((List.range size.toNat).map (random i))) sizes.zipIdx

/-- `GenerateRandomStringsEqualSize` (/repo/pir/testing/mock_pir_database.cc:68-78). -/
def generateRandomStringsEqualSize (random : Nat → Nat → BitVec 8) (numElements size : Int) :
    Res (List Bytes) := do
  failIf (numElements < 0) .invalidArgument
  failIf (size < 0) .invalidArgument
  generateRandomStrings random (List.replicate numElements.toNat size)

/-- `GenerateRandomStringsVariableSize` (/repo/pir/testing/mock_pir_database.cc:83-101). `draws i` is the
number drawn for string `i` from the half-open interval from `-maxSizeDiff` to `maxSizeDiff`
(`-maxSizeDiff` if it is empty). -/
def generateRandomStringsVariableSize (random : Nat → Nat → BitVec 8) (draws : Nat → Int)
    (numElements avgSize maxSizeDiff : Int) : Res (List Bytes) := do
  failIf (numElements < 0) .invalidArgument
  failIf (avgSize < 0) .invalidArgument
  failIf (maxSizeDiff < 0) .invalidArgument
  let sizes ← mapRes (fun i => intRange (avgSize + draws i)) (List.range numElements.toNat)
  generateRandomStrings random sizes

/-- `CreateFakeDatabase` for dense databases (/repo/pir/testing/mock_pir_database.h:79-91): the database, and
the builder afterwards if there was one. -/
def createFakeDatabase (elements : List Bytes) (builder : Option DenseBuilder) :
    Res DenseDb × Option DenseBuilder :=
  let r := (elements.foldl DenseBuilder.insert (builder.getD DenseBuilder.new)).build
  (r.1, builder.map fun _ => r.2)

/-! ## Requests -/

/-- Members of `RequestGenerator` (/repo/pir/testing/request_generator.h:58-61). -/
structure RequestGenerator where
  dpf : Dpf
  otpSeed : Bytes
  contextInfo : Bytes
  databaseSize : Int

namespace RequestGenerator

/-- `Create` (/repo/pir/testing/request_generator.cc:49-65). `random` are the bytes of the one-time-pad
seed. -/
def create (fp : FpEnv) (ceilLog2 : CeilLog2) (random : Nat → BitVec 8) (databaseSize : Int)
    (contextInfo : Bytes) : Res RequestGenerator := do
  failIf (databaseSize ≤ 0) .invalidArgument
  let dpf ← Dpf.create fp (pirParameters ceilLog2 databaseSize)
  ok ⟨dpf, Prng.generateSeed random, contextInfo, databaseSize⟩

/-- Keys for one index in `CreateDpfPirPlainRequests` (/repo/pir/testing/request_generator.cc:73-85); they are
generated as in `DenseDpfPirClient`. -/
def keysAt (g : RequestGenerator) (env : Env) (seeds : Nat → U128 × U128) (index : Int × Nat) :
    Res (DpfKey × DpfKey) := do
  failIf (index.1 < 0) .invalidArgument
  failIf (index.1 ≥ g.databaseSize) .invalidArgument
  DenseClient.keysFor g.dpf env index.1 (seeds index.2)

/-- `CreateDpfPirPlainRequests` (/repo/pir/testing/request_generator.cc:67-88). `seeds i` are the random seeds of
the keys for index `i`. -/
def createPlainRequests (g : RequestGenerator) (env : Env) (indices : List Int) (seeds : Nat → U128 × U128) :
    Res (PlainRequest × PlainRequest) := do
  let keys ← mapRes (g.keysAt env seeds) indices.zipIdx
  ok (⟨keys.map (·.1), 0⟩, ⟨keys.map (·.2), 0⟩)

/-- `CreateDpfPirLeaderRequest` (/repo/pir/testing/request_generator.cc:90-107). `encrypter` is the result of
`CreateFakeHybridEncrypt`. -/
def createLeaderRequest (codec : HelperCodec) (encrypter : Res CryptFn) (g : RequestGenerator) (env : Env)
    (indices : List Int) (seeds : Nat → U128 × U128) : Res DpfPirRequest := do
  let requests ← g.createPlainRequests env indices seeds
  let encrypt ← encrypter
  let encrypted ← encrypt (codec.serialize ⟨some requests.2, g.otpSeed⟩) g.contextInfo
  ok (.leader (some requests.1) (some encrypted))

end RequestGenerator
end PirTesting
end Verif
