import Verif.Model.Base
import Verif.Model.Values
/-!
# Specification: no undefined behaviour, no abort
-/
namespace Verif.Spec

/-- The call returns, with a value or an error: no undefined behaviour and no fatal check. -/
def Safe {α : Type} (r : Res α) : Prop := r ≠ .ub ∧ r ≠ .crash

mutual
/-- No tuple without elements inside. -/
def NoEmptyTuple : ValueType → Prop
  | .tuple els => els ≠ [] ∧ NoEmptyTuples els
  | _ => True
@[inherit_doc NoEmptyTuple] def NoEmptyTuples : List ValueType → Prop
  | [] => True
  | el :: els => NoEmptyTuple el ∧ NoEmptyTuples els
end

mutual
/-- Number of integers in an object of the type. -/
def leaves : ValueType → Nat
  | .tuple els => leavesAll els
  | _ => 1
@[inherit_doc leaves] def leavesAll : List ValueType → Nat
  | [] => 0
  | el :: els => leaves el + leavesAll els
end

end Verif.Spec
