import Verif.Model.SyntheticInput
/-!
# Specification for C93: numbers in texts
-/
namespace Verif.Spec
open SyntheticData

/-- Only white space. -/
def Blank (t : List Char) : Prop := ∀ c ∈ t, c ∈ [' ', '\t', '\n', '\x0b', '\x0c', '\r']

/-- `t` writes the number `n` with decimal digits; there may be leading zeros. -/
def Numeral (t : List Char) (n : Nat) : Prop := t ≠ [] ∧ (∀ c ∈ t, c.isDigit = true) ∧ n = Nat.ofDigitChars 10 t 0

/-- `t` writes the natural number `n`, possibly with a plus sign, and white space around. -/
def Natural (t : List Char) (n : Nat) : Prop :=
  ∃ a s d b, t = a ++ s ++ d ++ b ∧ Blank a ∧ Blank b ∧ (s = [] ∨ s = ['+']) ∧ Numeral d n

/-- `t` writes the integer `i`. -/
def Integer (t : List Char) (i : Int) : Prop :=
  (∃ n : Nat, Natural t n ∧ i = n) ∨
    ∃ a d b n, t = a ++ ['-'] ++ d ++ b ∧ Blank a ∧ Blank b ∧ Numeral d n ∧ i = -(n : Int)

/-- A line whose first column that is not blank writes `n`: before it, there are only commas and white space. -/
def Line (t : List Char) (n : Nat) : Prop :=
  ∃ a f b, t = a ++ f ++ b ∧ (∀ c ∈ a, c = ',' ∨ Blank [c]) ∧ (a = [] ∨ a.getLast? = some ',') ∧ Natural f n ∧
    (b = [] ∨ b.head? = some ',')

/-- The text in the first column: all before the first comma. -/
def firstColumn (t : List Char) : List Char := t.takeWhile (· ≠ ',')

/-- The texts of the flags and of the file `fl` write the numbers `fl'`. -/
structure WritesFlags (fl : FlagTexts) (fl' : Flags) : Prop where
  logDomainSize : fl'.logDomainSize = fl.logDomainSize
  numIterations : fl'.numIterations = fl.numIterations
  maxExpansionFactor : fl'.maxExpansionFactor = fl.maxExpansionFactor
  onlyNonzeros : fl'.onlyNonzeros = fl.onlyNonzeros
  levels : fl'.levels.length = fl.levels.length ∧
    ∀ (i : Nat) t (l : Int), fl.levels[i]? = some t → fl'.levels[i]? = some l → Integer t l ∧ -2 ^ 31 ≤ l ∧ l < 2 ^ 31
  input : match fl.input, fl'.input with
    | none, none => True
    | some file, some xs => file.ok = true ∧ (∀ t ∈ file.lines, ∃ x : U128, Line t x.toNat) ∧
        ∀ x : U128, x ∈ xs ↔ ∃ t ∈ file.lines, Line t x.toNat
    | _, _ => False

end Verif.Spec
