import Verif.Spec.Evaluation
/-!
# Specification: parameters that mean the same for evaluation
-/
namespace Verif.Spec

/-- The parameters have the same number of levels, and level by level the same domain size and the same value type up to
its encoding. Security parameters may differ. -/
structure SameLevels (ps qs : List DpfParameters) : Prop where
  count : qs.length = ps.length
  domain : ∀ (i : Nat) (p q : DpfParameters), ps[i]? = some p → qs[i]? = some q → p.logDomainSize = q.logDomainSize
  type : ∀ (i : Nat) (p q : DpfParameters), ps[i]? = some p → qs[i]? = some q → SameType p.vt q.vt

end Verif.Spec
