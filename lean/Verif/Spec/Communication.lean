import Verif.Spec.Textbook
import Verif.Spec.Wire
/-!
# Specification: bytes that are sent
-/
namespace Verif.Spec
open Verif

/-- Bytes for the values of the levels: as many values as there are in a block, each with at most 6 bytes for its
header. -/
def levelBytes (T : Nat → Ty) (levels : Nat) : Nat :=
  ((List.range levels).map fun h => perBlock (T h) * (messageBytes (T h) + 6)).sum

/-- Bytes of a key in a tree of this depth: 34 for each level of the tree, and the values. -/
def keyBytes (T : Nat → Ty) (levels depth : Nat) : Nat := 26 + 34 * depth + levelBytes T levels

/-- Bytes of a key of a comparison function on `bits` bits. -/
def dcfKeyBytes (T : Ty) (bits : Nat) : Nat := keyBytes (fun _ => T) bits (bits - 1) + 6

/-- Bytes of a key of a gate on `bits` bits: the key of a comparison function and 26 for each interval. -/
def micKeyBytes (bits intervals : Nat) : Nat := dcfKeyBytes (.uint .w128) bits + 6 + 26 * intervals

/-- Bytes of a request with keys for `2^l` buckets, if encryption makes messages longer by at most `growth` bytes: each
of the keys is sent to both servers. -/
def requestBytes (keys l growth : Nat) : Nat := 2 * (keys * (68 + 34 * l)) + growth + 64

/-- Bytes of a response with strings of these lengths for each key. -/
def responseBytes (keys : Nat) (lengths : List Nat) : Nat := keys * (lengths.map (· + 6)).sum + 6

end Verif.Spec
