import Verif.Spec.Evaluation
/-!
# Specification: evaluating many keys and calling back after each level
-/
namespace Verif.Spec
open Res

/-- The value of one key at one point. -/
def evaluateOne (d : Dpf) (env : Env) (T : Ty) (key : DpfKey) (h : Nat) (x : U128) : Res T.den :=
  d.evaluateAt env T.helper key h [x] >>= fun vs => rd vs 0

/-- Number of levels of the tree of seeds between hierarchy level `h` and the hierarchy level before it (the root,
if `h` is the first one). -/
def stepLevels (d : Dpf) (h : Nat) : Nat :=
  d.pv.hierarchyToTree.getD h 0 - if h > 0 then d.pv.hierarchyToTree.getD (h - 1) 0 else 0

/-- Calling `op` on one list of values after another, in order, until it returns `false`. If there are
no values because of an error, stop with this error. -/
def runCallback {α σ : Type} (op : σ → List α → Bool × σ) : List (Res (List α)) → σ → Res Unit × σ
  | [], s => (ok (), s)
  | ok values :: rest, s =>
    match op s values with
    | (true, s') => runCallback op rest s'
    | (false, s') => (ok (), s')
  | err c :: _, s => (err c, s)
  | ub :: _, s => (ub, s)
  | crash :: _, s => (crash, s)

end Verif.Spec
