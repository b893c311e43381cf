import Verif.Model.Values
/-!
# Specification: the form of a type

Messages record which kind of value they hold (an integer, an integer modulo N, …) and the elements of a tuple, but
neither the width of an integer nor the modulus.
-/
namespace Verif
namespace Spec

/-- What a message tells about the type of its value. -/
inductive Form where
  | integer
  | intModN
  | xorWrapper
  | tuple (elements : List Form)

mutual
/-- The form of a C++ type. -/
def formOf : Ty → Form
  | .uint _ => .integer
  | .intModN .. => .intModN
  | .xorWrapper _ => .xorWrapper
  | .tuple ts => .tuple (formsOf ts)
/-- The forms of the elements of a tuple. -/
def formsOf : Tys → List Form
  | .one t => [formOf t]
  | .cons t ts => formOf t :: formsOf ts
end

end Spec
end Verif
