import Verif.Spec.Evaluation
/-!
# Specification: sequences of calls on one context
-/
namespace Verif.Spec

/-- A call on a context, with output type `S`. -/
inductive ContextCall where
  | evalUntil (S : Ty) (h : Int) (prefixes : List U128)
  | evalNext (S : Ty) (prefixes : List U128)
  | evalAt (S : Ty) (h : Int) (points : List U128)

/-- What a call returns. -/
abbrev CallResult := (S : Ty) × Res (List S.den)

/-- One call: its result and the context afterwards. -/
def ContextCall.run (d : Dpf) (env : Env) (ctx : EvaluationContext) : ContextCall → CallResult × EvaluationContext
  | .evalUntil S h ps => (⟨S, (d.evaluateUntil env S.helper h ps ctx).1⟩, (d.evaluateUntil env S.helper h ps ctx).2)
  | .evalNext S ps => (⟨S, (d.evaluateNext env S.helper ps ctx).1⟩, (d.evaluateNext env S.helper ps ctx).2)
  | .evalAt S h xs => (⟨S, (d.evaluateAtCtx env S.helper h xs ctx).1⟩, (d.evaluateAtCtx env S.helper h xs ctx).2)

/-- The results of a sequence of calls. -/
def callResults (d : Dpf) (env : Env) : List ContextCall → EvaluationContext → List CallResult
  | [], _ => []
  | c :: cs, ctx => (c.run d env ctx).1 :: callResults d env cs (c.run d env ctx).2

end Verif.Spec
