import Verif.Spec.ServerSafety
/-!
# Specification: what a server answers to keys that need not come from a client
-/
namespace Verif.Spec

/-- A key message that the DPF object of the server can evaluate. -/
def Evaluable (d : Dpf) (env : Env) (key : DpfKey) : Prop :=
  ∃ v, d.evaluateAt env pirTy.helper key 0 [0] = .ok v

/-- The bit that a key has for record `i`: bit `i % 128` of its value (`EvaluateAt`) at point `i / 128`. -/
def keyBit (d : Dpf) (env : Env) (key : DpfKey) (i : Nat) : Bool :=
  match d.evaluateAt env pirTy.helper key 0 [BitVec.ofNat 128 (i / 128)] with
  | .ok [v] => BitVec.getLsbD (w := 128) v (i % 128)
  | _ => false

/-- The XOR of the records for which the key has a one, each continued by zeros to the length of the longest. -/
def answerTo (records : List Bytes) (d : Dpf) (env : Env) (key : DpfKey) : Bytes :=
  xorPadded (maxLength records) (selectedRecords records (keyBit d env key))

end Verif.Spec
