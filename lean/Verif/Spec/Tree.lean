import Verif.Model.Proto
/-!
# Specification: walking down the tree of a (incremental) distributed point function

Independent of the loops, batches and buffers of the code. A node has a 128-bit seed and a control
bit; `G b` is the PRG for child `b` (`false` = left, `true` = right).
-/
namespace Verif.Spec

/-- A node of the evaluation tree. -/
structure Node where
  seed : U128
  ctrl : Bool
  deriving DecidableEq, Repr

/-- One step down: expand, correct if the control bit is set, split off the lowest bit as the new
control bit. -/
def child (G : Bool → U128 → U128) (cwSeed : U128) (cwLeft cwRight : Bool) (b : Bool) (n : Node) :
    Node :=
  let v := if n.ctrl then G b n.seed ^^^ cwSeed else G b n.seed
  { seed := v &&& ~~~1#128
    ctrl := v.getLsbD 0 ^^ (n.ctrl && (if b then cwRight else cwLeft)) }

/-- `child` with a correction word message. -/
def step (G : Bool → U128 → U128) (cw : CorrectionWord) (b : Bool) (n : Node) : Node :=
  child G cw.seed cw.controlLeft cw.controlRight b n

/-- The node reached from `n` with correction words `cws` along the lowest `cws.length` bits of `x`,
most significant first. -/
def walk (G : Bool → U128 → U128) : List CorrectionWord → Nat → Node → Node
  | [], _, n => n
  | cw :: cws, x, n => walk G cws x (step G cw (x.testBit cws.length) n)

end Verif.Spec
