import Verif.Model.Values
/-!
# Specification: what a value message represents, when two value types are the same, sampling
-/
namespace Verif.Spec

/-- The number stored in an integer message, if it is set. -/
def intMsg : IntegerP → Option Nat
  | .notSet => none
  | .u64 v => some v.toNat
  | .u128 hi lo => some (hi.toNat * 2 ^ 64 + lo.toNat)

mutual
/-- The message `v` represents the element `x` of the type: same kind, and the stored number is the
element (so it is below `2^w`, or below the modulus); tuples element by element. -/
def Represents : (t : Ty) → Value → t.den → Prop
  | .uint _, v, x => ∃ i, v = .integer i ∧ intMsg i = some (BitVec.toNat x)
  | .intModN _ _ _ _, v, x => ∃ i, v = .intModN i ∧ intMsg i = some x.1.toNat
  | .xorWrapper _, v, x => ∃ i, v = .xorWrapper i ∧ intMsg i = some (BitVec.toNat x)
  | .tuple ts, v, x => ∃ vs, v = .tuple vs ∧ RepresentsAll ts vs x
/-- Element by element, with exactly as many messages as element types. -/
def RepresentsAll : (ts : Tys) → List Value → ts.den → Prop
  | .one t, vs, x => ∃ v, vs = [v] ∧ Represents t v x
  | .cons t ts, vs, x => ∃ v vs', vs = v :: vs' ∧ Represents t v x.1 ∧ RepresentsAll ts vs' x.2
end

/-- The integer message holds a number of at most `b` bits. The library does not look at the message
if `b` is 128 (it may be unset). -/
def fitsBits (i : IntegerP) (b : Int) : Prop :=
  b = 128 ∨ ∃ n, intMsg i = some n ∧ n < 2 ^ b.toNat

mutual
/-- A value message that matches a value type: same kind; integers in range; residues below the
modulus; tuples of the same length, element by element. -/
def Matches : ValueType → Value → Prop
  | .notSet, _ => False
  | .integer b, v => ∃ i, v = .integer i ∧ fitsBits i b
  | .xorWrapper b, v => ∃ i, v = .xorWrapper i ∧ fitsBits i b
  | .intModN b m, v => ∃ i n N, v = .intModN i ∧ intMsg i = some n ∧ intMsg m = some N ∧
      n < N ∧ fitsBits i b
  | .tuple ts, v => ∃ vs, v = .tuple vs ∧ MatchesAll ts vs
@[inherit_doc Matches] def MatchesAll : List ValueType → List Value → Prop
  | [], vs => vs = []
  | t :: ts, vs => ∃ v vs', vs = v :: vs' ∧ Matches t v ∧ MatchesAll ts vs'
end

/-- The integer message holds a number below `2^64`, or is unset. -/
def below64 (i : IntegerP) : Prop := ∀ n, intMsg i = some n → n < 2 ^ 64

mutual
/-- No integer message in the place of an 8- to 64-bit integer holds a number of `2^64` or more. -/
def NoWide : Ty → Value → Prop
  | .uint w, .integer i => w ≠ .w128 → below64 i
  | .xorWrapper w, .xorWrapper i => w ≠ .w128 → below64 i
  | .tuple ts, .tuple vs => NoWideAll ts vs
  | _, _ => True
@[inherit_doc NoWide] def NoWideAll : Tys → List Value → Prop
  | .one t, v :: _ => NoWide t v
  | .cons t ts, v :: vs => NoWide t v ∧ NoWideAll ts vs
  | _, _ => True
end

/-- The number the library takes an integer message for when it reads an integer of `w` bits: the number itself for 128
bits, its low 64 bits for fewer. -/
def readAs (w : Width) (n : Nat) : Nat := if w = .w128 then n else n % 2 ^ 64

mutual
/-- The element for which the library takes a value message: as `Represents`, but of the numbers in the place of 8- to
64-bit integers only the low 64 bits count. -/
def Reads : (t : Ty) → Value → t.den → Prop
  | .uint w, v, x => ∃ i n, v = .integer i ∧ intMsg i = some n ∧ readAs w n = BitVec.toNat x
  | .intModN _ _ _ _, v, x => ∃ i, v = .intModN i ∧ intMsg i = some x.1.toNat
  | .xorWrapper w, v, x => ∃ i n, v = .xorWrapper i ∧ intMsg i = some n ∧ readAs w n = BitVec.toNat x
  | .tuple ts, v, x => ∃ vs, v = .tuple vs ∧ ReadsAll ts vs x
@[inherit_doc Reads] def ReadsAll : (ts : Tys) → List Value → ts.den → Prop
  | .one t, vs, x => ∃ v, vs = [v] ∧ Reads t v x
  | .cons t ts, vs, x => ∃ v vs', vs = v :: vs' ∧ Reads t v x.1 ∧ ReadsAll ts vs' x.2
end

/-- A value type without its encoding. -/
inductive Canon where
  | integer (bits : Int)
  | xorWrapper (bits : Int)
  | intModN (bits : Int) (modulus : Nat)
  | tuple (els : List Canon)

mutual
/-- The canonical form of a value type message; `none` if a part is unset. -/
def canon : ValueType → Option Canon
  | .notSet => none
  | .integer b => some (.integer b)
  | .xorWrapper b => some (.xorWrapper b)
  | .intModN b m => (intMsg m).map (.intModN b)
  | .tuple els => (canons els).map .tuple
@[inherit_doc canon] def canons : List ValueType → Option (List Canon)
  | [] => some []
  | el :: els => match canon el, canons els with
    | some c, some cs => some (c :: cs)
    | _, _ => none
end

/-- The next state after a sample: the quotient moved up by `w` bits (within 128 bits), with the next
`w` random bits filled in. For a 128-bit base integer the code does not move the quotient up but
combines it bitwise with the fresh bits (int_mod_n.h:176-179). -/
def refill (N w state x : Nat) : Nat :=
  if w < 128 then state / N * 2 ^ w % 2 ^ 128 + x else state / N ||| x

/-- Residues mod `N` of the successive states. -/
def residues (N w : Nat) (state : Nat) : List Nat → List Nat
  | [] => [state % N]
  | x :: xs => state % N :: residues N w (refill N w state x) xs

/-- Little-endian value of `n` bytes starting at `pos`. -/
def leAt (b : Bytes) (pos n : Nat) : Nat := leNat ((b.drop pos).take n)

end Verif.Spec
