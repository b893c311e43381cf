import Verif.Spec.Evaluation
import Verif.Spec.Textbook
/-! # Specification: what an evaluation context holds -/
namespace Verif.Spec

/-- The value corrections of all levels can be read as elements of their types. -/
def ReadableKey (params : List DpfParameters) (T : Nat → Ty) (depth : Nat → Nat) (key : DpfKey) : Prop :=
  ∀ h < params.length, ∃ corr, ReadsCorrections (T h) (corrections params depth key h) corr

/-- The block of a point of level `h`: the index of its node in the tree. -/
def blockOf (params : List DpfParameters) (depth : Nat → Nat) (h : Nat) (x : U128) : Nat :=
  x.toNat / 2 ^ (logSize params h - depth h)

/-- A context with the given parameters, key and level that stores the nodes of the given blocks, which are blocks of
level `storedLevel`. -/
structure Holds (aes : U128 → U128 → U128) (depth : Nat → Nat) (parameters : List DpfParameters) (key : DpfKey)
    (level : Int) (storedLevel : Nat) (blocks : List Nat) (ctx : EvaluationContext) : Prop where
  hasParameters : ctx.parameters = parameters
  hasKey : ctx.key = some key
  hasLevel : ctx.previousHierarchyLevel = level
  atLevel : blocks ≠ [] → ctx.partialEvaluationsLevel = storedLevel
  count : ctx.partialEvaluations.length = blocks.length
  stored : ∀ (i : Nat) (y : Nat) (e : PartialEvaluation), blocks[i]? = some y → ctx.partialEvaluations[i]? = some e →
    e.prefix.toNat = y ∧ e.seed = (keyNode aes key (depth storedLevel) y).seed ∧
      e.controlBit = (keyNode aes key (depth storedLevel) y).ctrl

end Verif.Spec
