import Verif.Spec.SparsePir
/-!
# The wire format of buckets

The protobuf encoding of `HashedPirDatabaseBucket` (/repo/pir/private_information_retrieval.proto:120-123),
following the protobuf documentation: the strings of field 1, then those of field 2, each as tag byte,
length as varint, content. Parsing ends at a zero tag. It satisfies the assumption on the protobuf library in
C47. Fields and wire types that these buckets do not have end the parsing, too.
-/
namespace Verif
open Spec

/-- A number in groups of seven bits, lowest first; the highest bit of a byte tells whether more follow. -/
def varint (n : Nat) : Bytes :=
  if n < 128 then [BitVec.ofNat 8 n] else BitVec.ofNat 8 (n % 128 + 128) :: varint (n / 128)

/-- Reads such a number. -/
def readVarint : Bytes → Option (Nat × Bytes)
  | [] => none
  | b :: rest =>
    if b.toNat < 128 then some (b.toNat, rest)
    else (readVarint rest).map fun (v, r) => (b.toNat - 128 + 128 * v, r)

theorem readVarint_law (n : Nat) (r : Bytes) : readVarint (varint n ++ r) = some (n, r) := by
  induction n using Nat.strongRecOn with
  | _ n ih =>
    rw [varint]
    split
    · rename_i h
      rw [List.cons_append, List.nil_append, readVarint, BitVec.toNat_ofNat,
        Nat.mod_eq_of_lt (by omega : n < 2 ^ 8), if_pos h]
    · rename_i h
      rw [List.cons_append, readVarint, BitVec.toNat_ofNat,
        Nat.mod_eq_of_lt (by omega : n % 128 + 128 < 2 ^ 8), if_neg (by omega),
        ih (n / 128) (by omega), Option.map_some]
      have : n % 128 + 128 - 128 + 128 * (n / 128) = n := by omega
      dsimp only
      rw [this]

/-- A field with the given tag. -/
def field (tag : BitVec 8) (s : Bytes) : Bytes := tag :: (varint s.length ++ s)

/-- Reads a field of keys (tag 10) or values (tag 18): the tag, the content, and what follows. -/
def readField : Bytes → Option (BitVec 8 × Bytes × Bytes)
  | [] => none
  | tag :: rest =>
    if tag = 10 ∨ tag = 18 then
      match readVarint rest with
      | some (n, r) => if n ≤ r.length then some (tag, r.take n, r.drop n) else none
      | none => none
    else none

theorem readField_law {tag : BitVec 8} (h : tag = 10 ∨ tag = 18) (s r : Bytes) :
    readField (field tag s ++ r) = some (tag, s, r) := by
  unfold field
  rw [List.cons_append, readField, if_pos h, List.append_assoc, readVarint_law]
  dsimp only
  rw [if_pos (by simp), List.take_left, List.drop_left]

/-- Adds a field to a bucket. -/
def addField (b : PirBucket) (tag : BitVec 8) (s : Bytes) : PirBucket :=
  if tag = 10 then ⟨b.keys ++ [s], b.values⟩ else ⟨b.keys, b.values ++ [s]⟩

/-- Reads fields as long as there are any. -/
def readFields : Nat → PirBucket → Bytes → PirBucket
  | 0, b, _ => b
  | fuel + 1, b, bytes =>
    match readField bytes with
    | some (tag, s, r) => readFields fuel (addField b tag s) r
    | none => b

/-- Serialization and parsing. Serialization fails for more than 2^31 - 1 bytes. -/
def wireCodec : BucketCodec where
  serialize b :=
    let s := b.keys.flatMap (field 10) ++ b.values.flatMap (field 18)
    if s.length < 2 ^ 31 then some s else none
  parse bytes := readFields bytes.length ⟨[], []⟩ bytes

theorem readFields_keys (keys : List Bytes) (b : PirBucket) (r : Bytes) (fuel : Nat) :
    readFields (keys.length + fuel) b (keys.flatMap (field 10) ++ r) =
      readFields fuel ⟨b.keys ++ keys, b.values⟩ r := by
  induction keys generalizing b with
  | nil => simp
  | cons k keys ih =>
    rw [List.length_cons, show keys.length + 1 + fuel = (keys.length + fuel) + 1 by omega,
      List.flatMap_cons, List.append_assoc, readFields, readField_law (Or.inl rfl)]
    dsimp only
    rw [ih, addField, if_pos rfl]
    simp

theorem readFields_values (values : List Bytes) (b : PirBucket) (r : Bytes) (fuel : Nat) :
    readFields (values.length + fuel) b (values.flatMap (field 18) ++ r) =
      readFields fuel ⟨b.keys, b.values ++ values⟩ r := by
  induction values generalizing b with
  | nil => simp
  | cons k keys ih =>
    rw [List.length_cons, show keys.length + 1 + fuel = (keys.length + fuel) + 1 by omega,
      List.flatMap_cons, List.append_assoc, readFields, readField_law (Or.inr rfl)]
    dsimp only
    rw [ih, addField, if_neg (by decide)]
    simp

theorem readFields_zeros (fuel n : Nat) (b : PirBucket) : readFields fuel b (List.replicate n 0) = b := by
  cases fuel with
  | zero => rfl
  | succ fuel =>
    cases n with
    | zero => rfl
    | succ n =>
      rw [List.replicate_succ, readFields]
      have : readField (0 :: List.replicate n 0) = none := by
        rw [readField, if_neg (by decide)]
      rw [this]

theorem flatMap_field_length (tag : BitVec 8) (l : List Bytes) : l.length ≤ (l.flatMap (field tag)).length := by
  induction l with
  | nil => simp
  | cons a l ih =>
    rw [List.flatMap_cons, List.length_append, List.length_cons]
    unfold field at ih ⊢
    rw [List.length_cons]
    omega

theorem wireCodec_ok : CodecOk wireCodec := by
  intro b s h n
  unfold wireCodec at h ⊢
  dsimp only at h ⊢
  split at h
  · cases h
    obtain ⟨fuel, hf⟩ : ∃ fuel, (b.keys.flatMap (field 10) ++ b.values.flatMap (field 18) ++
        List.replicate n 0).length = b.keys.length + (b.values.length + fuel) := by
      have h1 := flatMap_field_length 10 b.keys
      have h2 := flatMap_field_length 18 b.values
      refine ⟨(b.keys.flatMap (field 10) ++ b.values.flatMap (field 18) ++
        List.replicate n 0).length - b.keys.length - b.values.length, ?_⟩
      simp only [List.length_append] at *
      omega
    rw [hf, List.append_assoc, readFields_keys, readFields_values, readFields_zeros]
    simp
  · cases h

/-- Buckets with records have a non-empty serialization. -/
theorem wireCodec_nonempty {b : PirBucket} {s : Bytes} (h : wireCodec.serialize b = some s)
    (hb : b.keys ≠ []) : s ≠ [] := by
  rintro rfl
  have := wireCodec_ok b [] h 0
  rw [← this] at hb
  exact hb rfl

end Verif
