import Verif.Model.Hashing
/-!
# Specification: hash functions and hash tables
-/
namespace Verif.Spec
open Res

/-- The hash function maps every string to a number below `n`. -/
def InRange (n : Nat) (f : HashFunction) : Prop := ∀ x, ∃ i, i < n ∧ f x n = ok (i : Int)

/-- The hash functions map `x` to the numbers `hs`, in this order. -/
def HashesTo (fs : List HashFunction) (n : Nat) (x : Bytes) (hs : List Nat) : Prop :=
  fs.map (fun f => f x n) = hs.map fun h : Nat => ok (h : Int)

/-- Inserting elements one after the other: the statuses, and the table at the end. -/
def insertAll {τ : Type} (insert : τ → Bytes → Res Unit × τ) (t : τ) : List Bytes → List (Res Unit) × τ
  | [] => ([], t)
  | x :: xs => ((insert t x).1 :: (insertAll insert (insert t x).2 xs).1,
      (insertAll insert (insert t x).2 xs).2)

/-- The elements whose insertion succeeded. -/
def accepted (xs : List Bytes) (statuses : List (Res Unit)) : List Bytes :=
  (xs.zip statuses).filterMap fun (x, s) => if s = ok () then some x else none

/-- All elements of a cuckoo hash table: those in buckets and those on the stash. -/
def contents (t : CuckooTable) : List Bytes := t.table.filterMap id ++ t.stash

/-- The bucket has reached the maximum size. -/
def Full (limit : Option Int) (bucket : List Bytes) : Prop := ∃ m ∈ limit, m ≤ bucket.length

/-- The bucket with this number. -/
def bucketAt (t : BucketTable) (i : Nat) : List Bytes := t.table.getD i []

/-- A table with `n` buckets, hash functions that map to numbers of buckets, and a limit that is
positive if there is one. -/
structure WellFormed (n : Nat) (t : BucketTable) : Prop where
  length : t.table.length = n
  buckets : t.numBuckets = n
  hashes : ∀ f ∈ t.hashFunctions, InRange n f
  limit : ∀ m ∈ t.maxBucketSize, 0 < m

/-- The first of the numbers that minimises `f`. -/
def firstMin (f : Nat → Nat) : List Nat → Option Nat
  | [] => none
  | h :: hs =>
    match firstMin f hs with
    | none => some h
    | some m => some (if f m < f h then m else h)

end Verif.Spec
