import Verif.Model.KeySpan
/-!
# Specification for C86: what a span of keys refers to
-/
namespace Verif.Spec

/-- The span refers to these keys: it is a span of them, or a span of pointers to them. The pointers may coincide. -/
inductive Refers {κ : Type} : KeySpan κ → List κ → Prop
  | direct (keys : List κ) : Refers (.direct keys) keys
  | pointers (keys : List κ) : Refers (.pointers (keys.map some)) keys

/-- Element `i` of the span is a pointer to no object. -/
def Dangles {κ : Type} (span : KeySpan κ) (i : Nat) : Prop :=
  ∃ ps : List (Option κ), span = .pointers ps ∧ ps[i]? = some none

end Verif.Spec
