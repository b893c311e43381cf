import Verif.Lemmas.HashedBuilders
/-!
# C39: builders of hashed databases
-/
namespace Verif
open Res Spec

/-- C39 for cuckoo-hashed databases: a program that starts with one new builder and inserts, clears, clones,
sets parameters and builders of dense databases, and builds in any order, on any of the builders it has.
Every `Build` fails with FAILED_PRECONDITION if this builder was already built and not cleared since;
otherwise it does what a new builder would do with the last parameters and the records inserted (into it or
the one it was cloned from, up to then) since it was last cleared. -/
theorem C39_cuckoo_programs (sha : Sha256) (ops : List (HashedOp CuckooParams (Nat → Nat))) :
    runOps (cuckooStep sha) [CuckooBuilder.new] ops =
      runOps (abstractHashedStep fun params records random =>
        ((records.foldl CuckooBuilder.insert (CuckooBuilder.new.setParams params)).build sha random).1)
        [⟨⟨⟨0, []⟩, 0, 0⟩, [], false⟩] ops := by
  refine runOps_eq (R := CuckooStands) (fun bs as op h => cuckoo_step sha bs as op h) ops ⟨rfl, ?_⟩
  intro i b a hb ha
  match i, hb, ha with
  | 0, hb, ha =>
    simp at hb ha
    subst hb; subst ha
    exact ⟨rfl, rfl, rfl, rfl, rfl⟩

/-- C39 for databases with simple hashing, as `C39_cuckoo_programs`. -/
theorem C39_simple_programs (sha : Sha256) (codec : BucketCodec) (ops : List (HashedOp SimpleParams Unit)) :
    runOps (simpleStep sha codec) [SimpleBuilder.new] ops =
      runOps (abstractHashedStep fun params records _ =>
        ((records.foldl SimpleBuilder.insert (SimpleBuilder.new.setParams params)).build sha codec).1)
        [⟨⟨⟨0, []⟩, 0⟩, [], false⟩] ops := by
  refine runOps_eq (R := SimpleStands) (fun bs as op h => simple_step sha codec bs as op h) ops ⟨rfl, ?_⟩
  intro i b a hb ha
  match i, hb, ha with
  | 0, hb, ha =>
    simp at hb ha
    subst hb; subst ha
    exact ⟨rfl, rfl, rfl, rfl⟩

/-- Insert a record, give a used builder for the keys, clone, build the original twice, clear it, insert
another record, and build both. -/
example (sha : Sha256) (r : Nat → Nat) (p : CuckooParams) (d : DenseBuilder) :
    runOps (cuckooStep sha) [CuckooBuilder.new] [.setParams 0 p, .insert 0 ([1], [2]), .setDense 0 true (some d),
      .clone 0, .build 0 r, .build 0 r, .clear 0, .insert 0 ([3], [4]), .build 0 r, .build 1 r] =
    [((CuckooBuilder.new.setParams p).insert ([1], [2])).build sha r |>.1, err .failedPrecondition,
      ((CuckooBuilder.new.setParams p).insert ([3], [4])).build sha r |>.1,
      ((CuckooBuilder.new.setParams p).insert ([1], [2])).build sha r |>.1] := by
  rw [C39_cuckoo_programs]; rfl

end Verif
