import Verif.Spec.Evaluation
import Verif.Spec.Group
/-!
# Specification for C79 and C80: two servers that add up the shares of many clients
-/
namespace Verif.Spec
open Res

/-- What a client reports: a point with a value for each level, here as a message and as an element, and the seeds of its
keys. -/
structure Report (T : Nat → Ty) where
  alpha : U128
  beta : List Value
  b : (h : Nat) → (T h).den
  seed0 : U128
  seed1 : U128

/-- The point is in the domain, and there is a value for each level. -/
structure Report.Valid {T : Nat → Ty} (params : List DpfParameters) (r : Report T) : Prop where
  point : r.alpha.toNat < 2 ^ lastLogSize params
  values : BetasRepresent params T r.beta r.b

/-- Sum of elements. -/
def total {α : Type} (H : Helper α) (xs : List α) : α := xs.foldr H.add H.zero

/-- The sum, over all reports of points with the prefix `x` at level `h`, of the values for that level. -/
def totalAt (params : List DpfParameters) {T : Nat → Ty} (reports : List (Report T)) (h : Nat) (x : U128) : (T h).den :=
  total (T h).helper ((reports.filter fun r => x.toNat = alphaPrefix params r.alpha h).map fun r => r.b h)

/-- A round of evaluation: a level, and prefixes for `EvaluateUntil`. -/
abbrev Round := Nat × List U128

/-- The rounds can be evaluated one after the other, if the level before is `prev` (negative: none) and `avail` are the
points for which there were values: the levels ascend, no prefixes are given in the first round and some in each other one,
prefixes are points that had a value in the round before, and sizes are not too large. -/
def RoundsOk (params : List DpfParameters) (d : Dpf) : Int → List U128 → List Round → Prop
  | _, _, [] => True
  | prev, avail, (h, prefixes) :: rounds =>
    prev < h ∧ h < params.length ∧ (prev < 0 ↔ prefixes = []) ∧ (∀ x ∈ prefixes, x ∈ avail) ∧
    (if prev < 0 then logSize params h < 63 else
      logSize params h - logSize params prev.toNat < 63 ∧
      prefixes.length * 2 ^ (logSize params h - logSize params prev.toNat) < 2 ^ 63 ∧
      SmallExpansion params d prev.toNat h prefixes) ∧
    RoundsOk params d h (outputPoints params prev h prefixes) rounds

/-- The level of each round and the points it gives values for. -/
def roundPoints (params : List DpfParameters) : Int → List Round → List (Nat × List U128)
  | _, [] => []
  | prev, (h, prefixes) :: rounds => (h, outputPoints params prev h prefixes) :: roundPoints params h rounds

/-- Sum of lists, element by element. -/
def addVectors {α : Type} (H : Helper α) : List (List α) → List α
  | [] => []
  | [v] => v
  | v :: w :: vs => List.zipWith H.add v (addVectors H (w :: vs))

/-- What a server does in a round: it calls `EvaluateUntil` on the contexts of all clients and adds up the results. -/
def serverRound (d : Dpf) (env : Env) {α : Type} (H : Helper α) (h : Nat) (prefixes : List U128)
    (ctxs : List EvaluationContext) : Res (List α) × List EvaluationContext :=
  (do let vals ← mapRes (fun ctx => (d.evaluateUntil env H h prefixes ctx).1) ctxs
      ok (addVectors H vals),
   ctxs.map fun ctx => (d.evaluateUntil env H h prefixes ctx).2)

/-- All rounds of a server, with the level and the sums of each. -/
def serverRounds (d : Dpf) (env : Env) (T : Nat → Ty) :
    List Round → List EvaluationContext → Res (List ((h : Nat) × List (T h).den))
  | [], _ => ok []
  | (h, prefixes) :: rounds, ctxs => do
    let s ← (serverRound d env (T h).helper h prefixes ctxs).1
    let rest ← serverRounds d env T rounds (serverRound d env (T h).helper h prefixes ctxs).2
    ok (⟨h, s⟩ :: rest)

/-- The two servers look for points reported by at least `t` clients: in each round both publish their sums at all points
extending those found in the round before, at level `prev`. -/
def hitters (params : List DpfParameters) (d : Dpf) (env : Env) (w : Nat → Width) (t : Nat) :
    List Nat → Int → List U128 → List EvaluationContext → List EvaluationContext → Res (List U128)
  | [], _, found, _, _ => ok found
  | h :: levels, prev, found, ctxs0, ctxs1 =>
    if 0 ≤ prev ∧ found = [] then ok [] else do
      let s0 ← (serverRound d env (uintHelper (w h).bits) h found ctxs0).1
      let s1 ← (serverRound d env (uintHelper (w h).bits) h found ctxs1).1
      let counts := List.zipWith (uintHelper (w h).bits).add s0 s1
      let found' := (((outputPoints params prev h found).zip counts).filter fun (_, c) => t ≤ c.toNat).map (·.1)
      hitters params d env w t levels h found' (serverRound d env (uintHelper (w h).bits) h found ctxs0).2
        (serverRound d env (uintHelper (w h).bits) h found ctxs1).2

/-- How many of the points `alphas` have the prefix `x` at level `h`? -/
def countAt (params : List DpfParameters) (alphas : List U128) (h : Nat) (x : U128) : Nat :=
  alphas.countP fun a => x.toNat = alphaPrefix params a h

/-- Levels that can be evaluated one after the other, starting below level `prev`: they ascend and the domain size grows by
at most 23 bits from each to the next, and has less than 63 bits at the first. -/
def LevelsOk (params : List DpfParameters) : Int → List Nat → Prop
  | _, [] => True
  | prev, h :: levels => prev < h ∧ h < params.length ∧
    (if prev < 0 then logSize params h < 63 else logSize params h ≤ logSize params prev.toNat + 23) ∧
    LevelsOk params h levels

end Verif.Spec
