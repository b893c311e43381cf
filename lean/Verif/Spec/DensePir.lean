import Verif.Model.DensePir
import Verif.Spec.InnerProduct
/-!
# Specification: dense databases and PIR
-/
namespace Verif.Spec
open Res

/-- The length of the longest record. -/
def maxLength (records : List Bytes) : Nat := (records.map List.length).foldl max 0

/-- `db` is built by a builder into which the records are inserted in this order. -/
def BuiltFrom (records : List Bytes) (db : DenseDb) : Prop :=
  ((records.foldl DenseBuilder.insert DenseBuilder.new).build).1 = ok db

/-! ### Builders -/

/-- Operations of a program using several builders, named by numbers; `clone` makes a new builder with
the next number. -/
inductive BuilderOp where
  | insert (i : Nat) (value : Bytes)
  | clear (i : Nat)
  | clone (i : Nat)
  | build (i : Nat)

/-- What a builder stands for: the records to be built, and whether they have been built. -/
structure AbstractBuilder where
  records : List Bytes
  built : Bool

/-- The effect of an operation on the abstract builders, and the result of `build`. Operations on builders
that do not exist have no effect. -/
def abstractStep (bs : List AbstractBuilder) : BuilderOp → List AbstractBuilder × List (Res (List Bytes))
  | .insert i v => (bs.modify i fun b => ⟨b.records ++ [v], b.built⟩, [])
  | .clear i => (bs.modify i fun _ => ⟨[], false⟩, [])
  | .clone i => (bs ++ bs[i]?.toList, [])
  | .build i => (bs.modify i fun b => ⟨b.records, true⟩,
      bs[i]?.toList.map fun b => if b.built then err .failedPrecondition else ok b.records)

/-- The same operations on the builders of the model. -/
def builderStep (bs : List DenseBuilder) : BuilderOp → List DenseBuilder × List (Res DenseDb)
  | .insert i v => (bs.modify i fun b => b.insert v, [])
  | .clear i => (bs.modify i fun b => b.clear, [])
  | .clone i => (bs ++ (bs[i]?.toList.map DenseBuilder.clone), [])
  | .build i => (bs.modify i fun b => b.build.2, bs[i]?.toList.map fun b => b.build.1)

/-- The results of all `build`s of a program. -/
def runAbstract (bs : List AbstractBuilder) : List BuilderOp → List (Res (List Bytes))
  | [] => []
  | op :: ops => (abstractStep bs op).2 ++ runAbstract (abstractStep bs op).1 ops

@[inherit_doc runAbstract] def runBuilders (bs : List DenseBuilder) : List BuilderOp → List (Res DenseDb)
  | [] => []
  | op :: ops => (builderStep bs op).2 ++ runBuilders (builderStep bs op).1 ops

end Verif.Spec

namespace Verif.Spec

/-- `std::ceil(std::log2(n))` is exact for this number: it is the logarithm rounded up. -/
def ExactAt (ceilLog2 : CeilLog2) (n : Nat) : Prop :=
  ∃ l : Nat, ceilLog2 n = l ∧ n ≤ 2 ^ l ∧ (l = 0 ∨ 2 ^ (l - 1) < n)

/-- `std::ceil(std::log2(n))` is from 0 to 64 for positive 64-bit numbers, for which it need not be exact. -/
def Plausible (ceilLog2 : CeilLog2) : Prop := ∀ n : Nat, 0 < n → n < 2 ^ 63 → 0 ≤ ceilLog2 n ∧ ceilLog2 n ≤ 64

/-- Vectors are used: the machine has vectors of a multiple of 16 bytes. -/
def Vectorised (simd : SimdEnv) : Prop := simd.scalar = false ∧ 16 ≤ simd.lanes ∧ simd.lanes % 16 = 0

/-- Both servers can handle `n` records: up to 2^24 on any machine, up to 2^30 with vectors. -/
def Manageable (n : Nat) (simd0 simd1 : SimdEnv) : Prop :=
  n ≤ 2 ^ 24 ∨ (Vectorised simd0 ∧ Vectorised simd1 ∧ n ≤ 2 ^ 30)

/-- Byte-wise XOR of two responses. -/
def xorResponses (a b : List Bytes) : List Bytes := List.zipWith (List.zipWith (· ^^^ ·)) a b

/-- The answer to a query for the records with the given numbers: the records, padded with zero bytes to
the length of the longest one. -/
def answer (records : List Bytes) (queries : List Nat) : List Bytes :=
  queries.map fun q => padded (maxLength records) (records.getD q [])

/-- An encryption scheme: whatever is encrypted with the context information `info` can be decrypted
with it. -/
def Decrypts (encrypter decrypter : CryptFn) (info : Bytes) : Prop :=
  ∀ m, ∃ c, encrypter m info = .ok c ∧ decrypter c info = .ok m

end Verif.Spec
