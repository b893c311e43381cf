import Verif.Spec.Faults
import Verif.Spec.Textbook
/-! # Specification: calls of the cipher and of the allocator -/
namespace Verif.Spec

/-- On a machine on which nothing fails, the run makes `n` calls of the environment and returns `result`: of any larger
number of outcomes it uses up `n`. -/
def MakesCalls {α : Type} (run : Faulty α) (n : Nat) (result : α) : Prop :=
  ∀ more, run (List.replicate (n + more) false) = (.ok result, List.replicate more false)

/-- The same for code that modifies an object. -/
def MakesCallsOn {κ α : Type} (run : FaultyOn κ α) (n : Nat) (result : α) (object : κ) : Prop :=
  ∀ more, run (List.replicate (n + more) false) = ((.ok result, object), List.replicate more false)

/-- The cipher is called for 64 blocks at a time. -/
def batches (blocks : Nat) : Nat := (blocks + 63) / 64

/-- Calls for generating keys, in a tree of this depth: both seeds are expanded to the left and to the right at each
level, and the blocks of both are hashed for the values of each level of the hierarchy. -/
def keyGenCalls (depth levels : Nat) (blocks : Nat → Nat) : Nat :=
  2 * depth + ((List.range levels).map fun h => batches (2 * blocks h)).sum

/-- Calls for evaluating the whole domain: four arrays, the `2^l` seeds of level `l` to the left and to the right, and
the blocks of the leaves. -/
def domainCalls (depth blocks : Nat) : Nat :=
  4 + ((List.range depth).map fun l => 2 * batches (2 ^ l)).sum + batches (2 ^ depth * blocks)

/-- Calls for walking down `depth` levels from `points` seeds. One array is allocated. Without vector instructions each
seed is expanded to the left and to the right at each level. With vectors of `blocks` blocks, both keys of the cipher
are set up, and a buffer is allocated if the last vector is incomplete. -/
def walkCalls (vector : Option Nat) (points depth : Nat) : Nat :=
  if depth = 0 then 0
  else 1 + match vector with
    | none => 2 * depth * batches points
    | some blocks => 2 + if points % blocks = 0 then 0 else 1

/-- Calls for evaluating below prefixes that lie below `nodes` nodes at depth `start`, of which seeds at depth `kept`
are known: four arrays, the walk from there to the nodes, each level below them to the left and to the right, and the
blocks of the leaves. -/
def belowCalls (vector : Option Nat) (nodes kept start stop blocks : Nat) : Nat :=
  4 + walkCalls vector nodes (start - kept) +
    ((List.range (stop - start)).map fun l => 2 * batches (nodes * 2 ^ l)).sum +
    batches (nodes * 2 ^ (stop - start) * blocks)

/-- The depth at which a context has stored seeds that can be used for prefixes at depth `start`; the root otherwise. -/
def keptDepth (depth : Nat → Nat) (start : Nat) (ctx : EvaluationContext) : Nat :=
  if ctx.partialEvaluations ≠ [] ∧ depth ctx.partialEvaluationsLevel.toNat ≤ start then
    depth ctx.partialEvaluationsLevel.toNat
  else 0

/-- Calls for evaluating `points` points: the arrays, the walk to the leaves, and the blocks of the leaves. -/
def pointCalls (vector : Option Nat) (points depth blocks perBlock : Nat) : Nat :=
  (if 1 < perBlock then 1 else 0) + walkCalls vector points depth + 2 + batches (points * blocks)

/-- Calls for evaluating this number of keys at all levels of the hierarchy, each at its own point: the seeds, and for
each level the walk from the level above, an array, and the blocks. -/
def applyCalls (vector : Option Nat) (keys levels : Nat) (depth blocks : Nat → Nat) : Nat :=
  1 + ((List.range levels).map fun h =>
    walkCalls vector keys (if h = 0 then depth 0 else depth h - depth (h - 1)) + (1 + batches (keys * blocks h))).sum

/-- A machine that never uses vector instructions, or one that always uses vectors of this number of blocks. -/
def UsesVectors (env : Env) : Option Nat → Prop
  | none => ∀ numSeeds numLevels numCw seeds paths, env.target numSeeds numLevels numCw seeds paths = none
  | some blocks => 0 < blocks ∧ ∀ numSeeds numLevels numCw seeds paths,
      ∃ t, env.target numSeeds numLevels numCw seeds paths = some t ∧ t.aligned = true ∧ t.lanes = 16 * blocks

end Verif.Spec
