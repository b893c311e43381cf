import Verif.Model.InnerProduct
/-!
# Specification: XOR of selected records
-/
namespace Verif.Spec

/-- Byte `p` of a record that is continued by zeros. -/
def byteAt (r : Bytes) (p : Nat) : BitVec 8 := r.getD p 0

/-- Bit `i` of a bit vector packed in blocks of 128 bits. -/
def selectionBit (sel : List U128) (i : Nat) : Bool := (sel.getD (i / 128) 0).getLsbD (i % 128)

/-- The records whose number is selected. -/
def selectedRecords (values : List Bytes) (selected : Nat → Bool) : List Bytes :=
  (values.zipIdx.filter fun vi => selected vi.2).map (·.1)

/-- XOR of records, each continued by zeros to `n` bytes. -/
def xorPadded (n : Nat) (records : List Bytes) : Bytes :=
  (List.range n).map fun p => (records.map fun r => byteAt r p).foldl (· ^^^ ·) 0

/-- A record continued by zeros to `n` bytes. -/
def padded (n : Nat) (r : Bytes) : Bytes := r ++ List.replicate (n - r.length) 0

/-- Vectors have a power of two bytes and can be halved down to one byte; addresses with the alignment that the code
checks and those of the buffers are aligned for vectors. Nothing is assumed of the addresses of records. -/
def SimdOk (env : SimdEnv) : Prop :=
  ∃ e, env.lanes = 2 ^ e ∧ e ≤ env.halvings ∧ (∃ f, env.alignment = 2 ^ f ∧ e ≤ f) ∧
    ∀ k, env.bufferAddress k % env.lanes = 0

end Verif.Spec
