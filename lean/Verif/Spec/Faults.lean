import Verif.Model.PirFaults
import Verif.Spec.Evaluation
/-! # Specification: failures of the environment are reported -/
namespace Verif.Spec

/-- A run is given the outcomes `fs` of calls of the environment and leaves `rest`. Either no call that it made failed
and its result is `expected`, the result on a machine without failures; or a call that it made failed and the result is
the status INTERNAL or RESOURCE_EXHAUSTED. -/
def Reported {α : Type} (fs rest : Faults) (expected result : Res α) : Prop :=
  ∃ made : Faults, fs = made ++ rest ∧
    ((true ∉ made ∧ result = expected) ∨
     (true ∈ made ∧ (result = .err .internal ∨ result = .err .resourceExhausted)))

/-- The same for code that modifies an object: without a failing call, result and object are as expected. (After undefined
behaviour nothing is said about the object.) -/
def ReportedOn {κ α : Type} (fs rest : Faults) (expected result : Res α × κ) : Prop :=
  ∃ made : Faults, fs = made ++ rest ∧
    ((true ∉ made ∧ (result = expected ∨ ((expected.1 = .ub ∨ expected.1 = .crash) ∧ result.1 = expected.1))) ∨
     (true ∈ made ∧ (result.1 = .err .internal ∨ result.1 = .err .resourceExhausted)))

/-- The same for code that also waits for an answer from elsewhere: if a call failed, the result may instead be that
answer, if it is not a response. -/
def ReportedBy {α : Type} (answer : Res α) (fs rest : Faults) (expected result : Res α) : Prop :=
  ∃ made : Faults, fs = made ++ rest ∧
    ((true ∉ made ∧ result = expected) ∨
     (true ∈ made ∧ (result = .err .internal ∨ result = .err .resourceExhausted ∨
       (answer.isOk = false ∧ result = answer))))

/-- What the sender of a leader returns for the helper's part of a request. -/
def sentFor (sender : Sender) (request : PirRequest) : Res PirResponse :=
  match request.dpf with
  | .leader _ (some encrypted) => (sender (some (.encrypted encrypted))).2
  | _ => .err .invalidArgument

/-- Contexts obtained from `CreateEvaluationContext(key)` by any sequence of calls, of which any may fail because of
the environment. -/
inductive FaultyHistory (d : Dpf) (env : Env) (key : DpfKey) : EvaluationContext → Prop
  | create {ctx : EvaluationContext} : d.createEvaluationContext key = .ok ctx → FaultyHistory d env key ctx
  | evalUntil {ctx : EvaluationContext} (S : Ty) (h : Int) (prefixes : List U128) (fs : Faults) :
      FaultyHistory d env key ctx → FaultyHistory d env key (d.evaluateUntilF env S.helper h prefixes ctx fs).1.2
  | evalNext {ctx : EvaluationContext} (S : Ty) (prefixes : List U128) (fs : Faults) :
      FaultyHistory d env key ctx → FaultyHistory d env key (d.evaluateNextF env S.helper prefixes ctx fs).1.2
  | evalAt {ctx : EvaluationContext} (S : Ty) (h : Int) (points : List U128) (fs : Faults) :
      FaultyHistory d env key ctx → FaultyHistory d env key (d.evaluateAtCtxF env S.helper h points ctx fs).1.2

/-- The callback `op` of `EvaluateAndApply` that is only called `k` times; the calls are counted in the state. -/
def stopping {α σ : Type} (k : Nat) (op : σ → List α → Bool × σ) (s : σ × Nat) (values : List α) : Bool × (σ × Nat) :=
  if s.2 < k then ((op s.1 values).1, ((op s.1 values).2, s.2 + 1)) else (false, s)

end Verif.Spec
