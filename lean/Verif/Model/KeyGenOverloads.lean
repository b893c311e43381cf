import Verif.Model.Dpf
/-!
# The overloads of `GenerateKeys` and `GenerateKeysIncremental`
(/repo/dpf/distributed_point_function.h)

They are not `const`: converting an argument registers its type. Each function returns its result and
the object afterwards. `SerializeValueTypeDeterministically` does not fail on descriptions made by
`ToValueType`, so `RegisterValueType` and `ToValue` do not fail.
-/
namespace Verif
open Res

/-- An argument of a function template: a supported C++ type and an element of it. -/
abbrev TypedArg := (t : Ty) × t.den

/-- What a call of key generation returns, and the object afterwards. -/
abbrev KeyGenResult := Res (DpfKey × DpfKey) × Dpf

namespace Dpf
variable (d : Dpf)

/-- `ToValue<T>` (/repo/dpf/distributed_point_function.h:114-121): registers the type, converts. -/
def toValue (x : TypedArg) : Value × Dpf :=
  (x.1.helper.toValue x.2, d.registerValueType x.1.helper)

/-- One round of the conversion loops (/repo/dpf/distributed_point_function.h:249-253, 682-689):
converts an argument and appends the result. -/
def convertStep (st : List Value × Dpf) (x : TypedArg) : List Value × Dpf :=
  let r := st.2.toValue x
  (st.1 ++ [r.1], r.2)

/-- `GenerateKeysIncremental(alpha, Span<const T>)`
(/repo/dpf/distributed_point_function.h:244-256). Sizes of `2^31` and more, which do not fit the
`int` of the loop, are not modelled. -/
def generateKeysSpan (env : Env) (alpha : U128) (t : Ty) (beta : List t.den) (seed0 seed1 : U128) :
    KeyGenResult :=
  let st := beta.foldl (fun st x => convertStep st ⟨t, x⟩) ([], d)
  (st.2.generateKeysIncremental env alpha st.1 seed0 seed1, st.2)

/-- `GenerateKeysIncremental(alpha, const std::vector<absl::uint128>&)`
(/repo/dpf/distributed_point_function.h:237-240). -/
def generateKeysIntegers (env : Env) (alpha : U128) (beta : List U128) (seed0 seed1 : U128) :
    KeyGenResult :=
  d.generateKeysSpan env alpha (.uint .w128) beta seed0 seed1

/-- `GenerateKeysIncremental(alpha, beta_0, beta_n...)`
(/repo/dpf/distributed_point_function.h:663-697): `beta_0` is converted first, then the others in
their order. -/
def generateKeysVariadic (env : Env) (alpha : U128) (beta0 : TypedArg) (betas : List TypedArg)
    (seed0 seed1 : U128) : KeyGenResult :=
  let first := d.toValue beta0
  let st := betas.foldl convertStep ([first.1], first.2)
  (st.2.generateKeysIncremental env alpha st.1 seed0 seed1, st.2)

/-- `GenerateKeys(alpha, absl::uint128)` (/repo/dpf/distributed_point_function.h:172-175). -/
def generateKeysInteger (env : Env) (alpha beta seed0 seed1 : U128) : KeyGenResult :=
  d.generateKeysSpan env alpha (.uint .w128) [beta] seed0 seed1

/-- `GenerateKeys(alpha, Value)` (/repo/dpf/distributed_point_function.h:178-181). -/
def generateKeysValue (env : Env) (alpha : U128) (beta : Value) (seed0 seed1 : U128) :
    KeyGenResult :=
  (d.generateKeysIncremental env alpha [beta] seed0 seed1, d)

/-- `GenerateKeys(alpha, const T&)` (/repo/dpf/distributed_point_function.h:186-197). -/
def generateKeysTyped (env : Env) (alpha : U128) (beta : TypedArg) (seed0 seed1 : U128) :
    KeyGenResult :=
  let r := d.toValue beta
  (r.2.generateKeysIncremental env alpha [r.1] seed0 seed1, r.2)

end Dpf
end Verif
