import Verif.Model.HashedDb
/-!
# Specification: builders of hashed databases
-/
namespace Verif.Spec

/-- Operations of a program using several builders of hashed databases, named by numbers; `clone` makes a
new builder with the next number. `setDense` gives a builder for the dense database it uses (of the keys or
of the values). `X` is what `build` needs from outside, `P` are the parameters. -/
inductive HashedOp (P X : Type) where
  | insert (i : Nat) (record : Bytes × Bytes)
  | clear (i : Nat)
  | setParams (i : Nat) (params : P)
  | setDense (i : Nat) (ofKeys : Bool) (builder : Option DenseBuilder)
  | clone (i : Nat)
  | build (i : Nat) (x : X)

/-- What a builder stands for: the parameters, the records to be built, and whether they have been
built. -/
structure AbstractHashed (P : Type) where
  params : P
  records : List (Bytes × Bytes)
  built : Bool

/-- The effect of an operation on the abstract builders, and the result of `build`; `fresh` is what a new
builder makes of parameters and records. Operations on builders that do not exist have no effect. -/
def abstractHashedStep {P X R : Type} (fresh : P → List (Bytes × Bytes) → X → Res R)
    (bs : List (AbstractHashed P)) : HashedOp P X → List (AbstractHashed P) × List (Res R)
  | .insert i r => (bs.modify i fun b => { b with records := b.records ++ [r] }, [])
  | .clear i => (bs.modify i fun b => ⟨b.params, [], false⟩, [])
  | .setParams i p => (bs.modify i fun b => { b with params := p }, [])
  | .setDense _ _ _ => (bs, [])
  | .clone i => (bs ++ bs[i]?.toList, [])
  | .build i x => (bs.modify i fun b => { b with built := true },
      bs[i]?.toList.map fun b => if b.built then .err .failedPrecondition else fresh b.params b.records x)

/-- The operations on builders of cuckoo-hashed databases; `build` needs a source of random numbers. -/
def cuckooStep (sha : Sha256) (bs : List CuckooBuilder) :
    HashedOp CuckooParams (Nat → Nat) → List CuckooBuilder × List (Res CuckooDb)
  | .insert i r => (bs.modify i fun b => b.insert r, [])
  | .clear i => (bs.modify i fun b => b.clear, [])
  | .setParams i p => (bs.modify i fun b => b.setParams p, [])
  | .setDense i ofKeys d => (bs.modify i fun b => if ofKeys then b.setKeyBuilder d else b.setValueBuilder d, [])
  | .clone i => (bs ++ bs[i]?.toList.map CuckooBuilder.clone, [])
  | .build i random => (bs.modify i fun b => (b.build sha random).2,
      bs[i]?.toList.map fun b => (b.build sha random).1)

/-- The operations on builders of databases with simple hashing. -/
def simpleStep (sha : Sha256) (codec : BucketCodec) (bs : List SimpleBuilder) :
    HashedOp SimpleParams Unit → List SimpleBuilder × List (Res SimpleDb)
  | .insert i r => (bs.modify i fun b => b.insert r, [])
  | .clear i => (bs.modify i fun b => b.clear, [])
  | .setParams i p => (bs.modify i fun b => b.setParams p, [])
  | .setDense i _ d => (bs.modify i fun b => b.setDenseBuilder d, [])
  | .clone i => (bs ++ bs[i]?.toList.map SimpleBuilder.clone, [])
  | .build i _ => (bs.modify i fun b => (b.build sha codec).2,
      bs[i]?.toList.map fun b => (b.build sha codec).1)

/-- The results of all `build`s of a program. -/
def runOps {B O R : Type} (step : List B → O → List B × List R) (bs : List B) : List O → List R
  | [] => []
  | op :: ops => (step bs op).2 ++ runOps step (step bs op).1 ops

end Verif.Spec
