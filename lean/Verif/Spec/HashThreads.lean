import Verif.Model.HashThreads
import Verif.Spec.Textbook
/-!
# Specification: threads that share hash objects
-/
namespace Verif.Spec
open HashThreads

/-- The address is in the span. -/
def InSpan (s : Span) (a : Nat) : Prop := s.data ≤ a ∧ a < s.data + s.size

/-- No block is in both spans. -/
def Disjoint (s t : Span) : Prop := ∀ a, ¬ (InSpan s a ∧ InSpan t a)

/-- No thread writes where another one reads or writes. They may share inputs. -/
def Separate (calls : List Call) : Prop :=
  ∀ (i j : Nat) (c c' : Call), calls[i]? = some c → calls[j]? = some c' → i ≠ j →
    Disjoint c.out c'.input ∧ Disjoint c.out c'.out

/-- Output that does not overwrite input still to be read: the same span, a span that begins before the input or after its
end, or anywhere if there is only one batch of at most 64 blocks. -/
def Keeps (c : Call) : Prop :=
  c.out.data ≤ c.input.data ∨ c.input.data + c.input.size ≤ c.out.data ∨ c.input.size ≤ 64

/-- Two accesses to the same block, one of them a write. -/
def Conflict : Access → Access → Prop
  | .read _, .read _ => False
  | .read a, .write b => a = b
  | .write a, .read b => a = b
  | .write a, .write b => a = b

/-- The address of an access. -/
def Access.address : Access → Nat
  | .read a => a
  | .write a => a

/-- The output of a call: the hashes of the blocks that were in the input at first. -/
def Hashed (aes : U128 → U128 → U128) (key : U128) (c : Call) (before after : Mem) : Prop :=
  ∀ j < c.input.size, after (c.out.data + j) = hashBlock aes key (before (c.input.data + j))

end Verif.Spec
