import Verif.Model.SyntheticData
/-!
# Input of the benchmark program for hierarchical evaluation: its file and its list of levels
(/repo/experiments/synthetic_data_benchmarks.cc:73-93, 117-140, 218-242)

The functions of Abseil that are used, `absl::StrSplit` at commas with `absl::SkipWhitespace`, and `absl::SimpleAtoi`, are
not part of /repo; they are modelled as documented. `riegeli::ReadLine` is not modelled: a file is the list of its lines,
without the ends of lines, and whether reading ended without an error. Parsing of the command line by Abseil is not
modelled: the values of flags are inputs.
-/
namespace Verif
open Res

namespace SyntheticData

abbrev Text := List Char

/-- `absl::ascii_isspace`. -/
def isSpace (c : Char) : Bool := c = ' ' || ('\t' ≤ c && c ≤ '\r')

/-- The pieces of a text between commas; `current` is the piece before, reversed. -/
def splitFrom (current : Text) : Text → List Text
  | [] => [current.reverse]
  | c :: cs => if c = ',' then current.reverse :: splitFrom [] cs else splitFrom (c :: current) cs

/-- `absl::StrSplit(line, ',', absl::SkipWhitespace())`: pieces that are empty or only have white space are left out
(/repo/experiments/synthetic_data_benchmarks.cc:127-128). -/
def splitFields (line : Text) : List Text := (splitFrom [] line).filter fun piece => !piece.all isSpace

/-- Leaving out white space at both ends. -/
def strip (text : Text) : Text := ((text.dropWhile isSpace).reverse.dropWhile isSpace).reverse

/-- Reading decimal digits; there is no number if a character is not a digit or the number exceeds `max`. -/
def parseDigits (max : Nat) : Nat → Text → Option Nat
  | n, [] => some n
  | n, c :: cs =>
    if '0' ≤ c ∧ c ≤ '9' then
      let n' := n * 10 + (c.toNat - '0'.toNat)
      if n' ≤ max then parseDigits max n' cs else none
    else none

/-- The sign and the characters after it; there must be some. -/
def parseSign (text : Text) : Option (Bool × Text) :=
  match strip text with
  | [] => none
  | '-' :: cs => if cs = [] then none else some (true, cs)
  | '+' :: cs => if cs = [] then none else some (false, cs)
  | cs => some (false, cs)

/-- `absl::SimpleAtoi` for `absl::uint128` (used in /repo/experiments/synthetic_data_benchmarks.cc:131). A minus sign is
not allowed. -/
def atoiU128 (text : Text) : Option U128 :=
  match parseSign text with
  | some (false, cs) => (parseDigits (2 ^ 128 - 1) 0 cs).map (BitVec.ofNat 128)
  | _ => none

/-- `absl::SimpleAtoi` for `int` (used in /repo/experiments/synthetic_data_benchmarks.cc:89, 239-240). -/
def atoiInt (text : Text) : Option Int :=
  match parseSign text with
  | some (true, cs) => (parseDigits (2 ^ 31) 0 cs).map fun n : Nat => -(n : Int)
  | some (false, cs) => (parseDigits (2 ^ 31 - 1) 0 cs).map fun n : Nat => (n : Int)
  | none => none

/-- `ABSL_QCHECK` or `ABSL_CHECK` of the result of `SimpleAtoi`. -/
def checked {α : Type} : Option α → Res α
  | some a => ok a
  | none => crash

/-- One line of the file (/repo/experiments/synthetic_data_benchmarks.cc:127-133). -/
def readLine (line : Text) : Res U128 := do
  let fields := splitFields line
  check (fields ≠ [])
  let field ← rd fields 0
  checked (atoiU128 field)

/-- A file: its lines, and whether reading ended without an error. -/
structure File where
  lines : List Text
  ok : Bool

/-- The loop of `ReadUniqueValuesFromFile` (/repo/experiments/synthetic_data_benchmarks.cc:126-135). -/
def readLines : List Text → List U128 → Res (List U128)
  | [], nonzeros => ok nonzeros
  | line :: lines, nonzeros => do
    let nonzero ← readLine line
    readLines lines (setInsert nonzero nonzeros)

/-- `ReadUniqueValuesFromFile` (/repo/experiments/synthetic_data_benchmarks.cc:117-140): the elements of the set, in
increasing order. -/
def readUniqueValuesFromFile (file : File) : Res (List U128) := do
  let nonzeros ← readLines file.lines []
  check (file.ok = true)
  ok nonzeros

/-- Values of the flags (/repo/experiments/synthetic_data_benchmarks.cc:45-61). `input` is the file that the flag of that
name gives; it is `none` if the flag is empty. -/
structure FlagTexts where
  logDomainSize : Int
  numIterations : Int
  maxExpansionFactor : Int
  onlyNonzeros : Bool
  levels : List Text
  input : Option File

/-- `ValidateFlags` (/repo/experiments/synthetic_data_benchmarks.cc:73-93). -/
def validateFlagTexts (fl : FlagTexts) : Res Unit := do
  check (0 ≤ fl.logDomainSize)
  check (0 < fl.numIterations)
  check (fl.onlyNonzeros = true → fl.input.isSome = true)
  check (2 ≤ fl.maxExpansionFactor)
  let _ ← mapRes (fun text => do
    let level ← checked (atoiInt text)
    check (0 < level ∧ level ≤ fl.logDomainSize)) fl.levels
  ok ()

/-- The prefixes for each length (/repo/experiments/synthetic_data_benchmarks.cc:222-230). -/
def readPrefixTexts (fl : FlagTexts) : Res (List (List U128)) :=
  match fl.input with
  | none => ok [[]]
  | some file => do
    let nonzeros ← readUniqueValuesFromFile file
    ok (computePrefixes nonzeros fl.logDomainSize.toNat)

/-- `main` (/repo/experiments/synthetic_data_benchmarks.cc:218-308); `none` if it is still choosing levels after `fuel`
rounds. Simplified: `log_domain_size + 1` does not overflow. -/
def mainTexts (D : Doubles) (fp : FpEnv) (env : Env) (fuel : Nat) (fl : FlagTexts) (random seed0 seed1 : U128) :
    Option (Res (DpfKey × List (List (List Output)))) :=
  let read : Res (List (List U128) × List Int) := do
    validateFlagTexts fl
    let prefixes ← readPrefixTexts fl
    let levels ← mapRes (fun text => checked (atoiInt text)) fl.levels
    ok (prefixes, levels)
  match read with
  | ok (prefixes, levels) =>
    let fl' : Flags := ⟨fl.logDomainSize, fl.numIterations, fl.maxExpansionFactor, fl.onlyNonzeros, levels, none⟩
    match levelsToEvaluate D fuel fl' prefixes with
    | some (ok levels) => some (run fp env fl' prefixes levels random seed0 seed1)
    | some ub => some ub
    | some _ => some crash
    | none => none
  | ub => some ub
  | _ => some crash

end SyntheticData
end Verif
