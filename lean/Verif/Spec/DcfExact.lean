import Verif.Spec.Dcf
/-!
# Specification: what the shares of a DCF add up to, for all types
-/
namespace Verif.Spec

mutual
/-- What the shares add up to: in the place of integers and of residues the part of `b` if `less`, otherwise zero; in
the place of a `XorWrapper` the part of `b` if `odd`, otherwise zero. -/
def compared : (t : Ty) → t.den → Bool → Bool → t.den
  | .uint _, b, less, _ => if less then b else 0#_
  | .intModN w N hp hl, b, less, _ => if less then b else (Ty.intModN w N hp hl).helper.zero
  | .xorWrapper _, b, _, odd => if odd then b else 0#_
  | .tuple ts, b, less, odd => comparedAll ts b less odd
@[inherit_doc compared] def comparedAll : (ts : Tys) → ts.den → Bool → Bool → ts.den
  | .one t, b, less, odd => compared t b less odd
  | .cons t ts, b, less, odd => (compared t b.1 less odd, comparedAll ts b.2 less odd)
end

/-- The number of levels `i < j` of a domain of `2^n` points at which the path to `x` has not yet left the path to `a` and
goes left. -/
def sharedZeros (n x a : Nat) : Nat → Nat
  | 0 => 0
  | i + 1 => sharedZeros n x a i +
      if x / 2 ^ (n - i) = a / 2 ^ (n - i) ∧ x / 2 ^ (n - i - 1) % 2 = 0 then 1 else 0

mutual
/-- The message has the form of an element and holds the `XorWrapper` parts of `b`. Whatever stands in the place of
integers and residues (also nothing, also numbers out of range) does not count. -/
def HasForm : (t : Ty) → Value → t.den → Prop
  | .uint _, v, _ => ∃ i, v = .integer i
  | .intModN _ _ _ _, v, _ => ∃ i, v = .intModN i
  | .xorWrapper w, v, b => Represents (.xorWrapper w) v b
  | .tuple ts, v, b => ∃ vs, v = .tuple vs ∧ HasFormAll ts vs b
@[inherit_doc HasForm] def HasFormAll : (ts : Tys) → List Value → ts.den → Prop
  | .one t, vs, b => ∃ v, vs = [v] ∧ HasForm t v b
  | .cons t ts, vs, b => ∃ v vs', vs = v :: vs' ∧ HasForm t v b.1 ∧ HasFormAll ts vs' b.2
end

/-- The messages that `GenerateKeys` accepts for `b`: all of `b` is looked at only if some bit of alpha is set. -/
def AcceptedBeta (T : Ty) (alpha : U128) (beta : Value) (b : T.den) : Prop :=
  if alpha = 0 then HasForm T beta b else Represents T beta b

end Verif.Spec
