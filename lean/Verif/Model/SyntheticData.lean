import Verif.Model.KeyGenOverloads
/-!
# The benchmark program for hierarchical evaluation
(/repo/experiments/synthetic_data_benchmarks.cc)

The flags and the numbers of the input file are inputs of the model here; see Model/SyntheticInput.lean for reading
them. Not modelled: log output, measuring time. Memory is unlimited.
-/
namespace Verif
open Res

namespace SyntheticData

/-- Double precision arithmetic: `std::log2` of an `int`, and rounding of the exact results of `+` and `-`. -/
structure Doubles where
  log2 : Int → Rat
  round : Rat → Rat

/-- Command line flags (/repo/experiments/synthetic_data_benchmarks.cc:45-61). `input` holds the numbers in the
first column of the file; it is `none` if no file is given. -/
structure Flags where
  logDomainSize : Int
  numIterations : Int
  maxExpansionFactor : Int
  onlyNonzeros : Bool
  levels : List Int
  input : Option (List U128)

/-- `T = uint32_t`, the type of results (/repo/experiments/synthetic_data_benchmarks.cc:296). -/
abbrev Output := (Ty.uint .w32).den

/-- `.value()` of a `StatusOr`: aborts if there is none. -/
def value {α : Type} : Res α → Res α
  | ok a => ok a
  | err _ => crash
  | ub => ub
  | crash => crash

/-- `ValidateFlags` (/repo/experiments/synthetic_data_benchmarks.cc:73-93). -/
def validateFlags (fl : Flags) : Res Unit := do
  check (0 ≤ fl.logDomainSize)
  check (0 < fl.numIterations)
  check (fl.onlyNonzeros = true → fl.input ≠ none)
  check (2 ≤ fl.maxExpansionFactor)
  check (∀ l ∈ fl.levels, 0 < l ∧ l ≤ fl.logDomainSize)

/-- `btree_set::insert`, on the ordered list of elements. -/
def setInsert (x : U128) : List U128 → List U128
  | [] => [x]
  | y :: ys => if x < y then x :: y :: ys else if x = y then y :: ys else y :: setInsert x ys

/-- The elements of a `btree_set` after inserting `xs`
(/repo/experiments/synthetic_data_benchmarks.cc:107-110, 121-135). -/
def toSet (xs : List U128) : List U128 := xs.foldl (fun s x => setInsert x s) []

/-- One round of the loop of `ComputePrefixes`, with index `i`
(/repo/experiments/synthetic_data_benchmarks.cc:106-113). -/
def prefixStep (result : List (List U128)) (i : Nat) : List (List U128) :=
  result.set (i - 1) (toSet ((result.getD i []).map fun x : U128 => x >>> (1 : Nat)))

/-- `ComputePrefixes` (/repo/experiments/synthetic_data_benchmarks.cc:97-115): `i` runs from `log_domain_size` down
to 2. -/
def computePrefixes (lastLevelPrefixes : List U128) (log : Nat) : List (List U128) :=
  ((List.range (log - 1)).map (log - ·)).foldl prefixStep (List.replicate log [] ++ [lastLevelPrefixes])

/-- `static_cast<int>` of a `double`: rounds towards zero (undefined outside the range of `int`, which is not
modelled: the sums are small). -/
def truncate (x : Rat) : Int := if 0 ≤ x then x.floor else x.ceil

/-- The first level (/repo/experiments/synthetic_data_benchmarks.cc:154-158). -/
def firstLevel (D : Doubles) (log n f : Int) : Int :=
  min log (truncate (D.round (D.log2 n + D.log2 f))) - 1

/-- The level after `l` (/repo/experiments/synthetic_data_benchmarks.cc:165-169). -/
def nextLevel (D : Doubles) (log n f l m : Int) : Int :=
  min log (truncate (D.round (D.round (D.round (l + D.log2 n) + D.log2 f) - D.log2 m)))

/-- The loop of `ComputeLevelsToEvaluate` (/repo/experiments/synthetic_data_benchmarks.cc:160-170), for at most `fuel`
rounds; `none` if it is still running. The logarithm of zero is infinite; its conversion is undefined. -/
def levelsLoop (D : Doubles) (prefixes : List (List U128)) (log n f : Int) :
    Nat → List Int → Option (Res (List Int))
  | 0, _ => none
  | fuel + 1, levels =>
    let last := levels.getLastD 0
    if last < log then
      match rdInt prefixes (last + 1) with
      | ok p =>
        let m := wrapInt32 p.length
        if m ≤ 0 then some ub
        else levelsLoop D prefixes log n f fuel (levels ++ [nextLevel D log n f last m])
      | _ => some ub
    else some (ok levels)

/-- `ComputeLevelsToEvaluate` (/repo/experiments/synthetic_data_benchmarks.cc:146-172). -/
def computeLevelsToEvaluate (D : Doubles) (fuel : Nat) (prefixes : List (List U128)) (log f : Int) :
    Option (Res (List Int)) :=
  let n := wrapInt32 (prefixes.getLastD []).length
  if n ≤ 0 then some crash
  else levelsLoop D prefixes log n f fuel [firstLevel D log n f]

/-- The prefixes for each length (/repo/experiments/synthetic_data_benchmarks.cc:225-230). -/
def readPrefixes (fl : Flags) : List (List U128) :=
  match fl.input with
  | none => [[]]
  | some xs => computePrefixes (toSet xs) fl.logDomainSize.toNat

/-- Choice of the levels (/repo/experiments/synthetic_data_benchmarks.cc:235-250). -/
def levelsToEvaluate (D : Doubles) (fuel : Nat) (fl : Flags) (prefixes : List (List U128)) :
    Option (Res (List Int)) :=
  if fl.levels = [] then
    if fl.onlyNonzeros = false ∧ prefixes.getLastD [] ≠ [] then
      computeLevelsToEvaluate D fuel prefixes fl.logDomainSize fl.maxExpansionFactor
    else some (ok [fl.logDomainSize])
  else some (ok fl.levels)

/-- `prefixes_to_evaluate` (/repo/experiments/synthetic_data_benchmarks.cc:253-257). -/
def prefixesToEvaluate (prefixes : List (List U128)) (levels : List Int) : Res (List (List U128)) := do
  let rest ← mapRes (fun l => rdInt prefixes l) levels.dropLast
  ok ([] :: rest)

/-- The parameters of the DPF (/repo/experiments/synthetic_data_benchmarks.cc:268-276). -/
def parameters (levels : List Int) : List DpfParameters :=
  levels.map fun l => ⟨l, some (.integer 32), .val 0⟩

/-- The random point of the keys (/repo/experiments/synthetic_data_benchmarks.cc:283-287). -/
def alphaOf (log : Int) (random : U128) : Res U128 :=
  if log < 128 then do
    let size ← shl128 1 log
    ok (random % size)
  else ok random

/-- The loop over levels of `RunHierarchicalEvaluation` (/repo/experiments/synthetic_data_benchmarks.cc:186-196). -/
def evaluateLevels (d : Dpf) (env : Env) : List (List U128) → Nat → EvaluationContext → Res (List (List Output))
  | [], _, _ => ok []
  | p :: ps, level, ctx => do
    let r := d.evaluateUntil env (Ty.uint .w32).helper level p ctx
    let vals ← value r.1
    let rest ← evaluateLevels d env ps (level + 1) r.2
    ok (vals :: rest)

/-- `RunHierarchicalEvaluation` (/repo/experiments/synthetic_data_benchmarks.cc:176-198): the results of each level in
each iteration. -/
def runHierarchicalEvaluation (d : Dpf) (env : Env) (key : DpfKey) (prefixes : List (List U128)) (iterations : Int) :
    Res (List (List (List Output))) := do
  let ctx ← value (d.createEvaluationContext key)
  check (prefixes.length = ctx.parameters.length)
  mapRes (fun _ => evaluateLevels d env prefixes 0 ctx) (List.range iterations.toNat)

/-- `RunBatchedSinglePointEvaluation` (/repo/experiments/synthetic_data_benchmarks.cc:202-214): the results of each
iteration. -/
def runBatchedSinglePointEvaluation (d : Dpf) (env : Env) (key : DpfKey) (nonzeros : List U128) (iterations : Int) :
    Res (List (List (List Output))) := do
  check (d.pv.parameters.length = 1)
  mapRes (fun _ => do
    let result ← value (d.evaluateAt env (Ty.uint .w32).helper key 0 nonzeros)
    check (result.length = nonzeros.length)
    ok [result]) (List.range iterations.toNat)

/-- The rest of `main` (/repo/experiments/synthetic_data_benchmarks.cc:253-304), when the levels are chosen. Also
returns the key. `random`, `seed0` and `seed1` are random. -/
def run (fp : FpEnv) (env : Env) (fl : Flags) (prefixes : List (List U128)) (levels : List Int)
    (random seed0 seed1 : U128) : Res (DpfKey × List (List (List Output))) := do
  let toEvaluate ← prefixesToEvaluate prefixes levels
  let d ← value (Dpf.createIncremental fp (parameters levels))
  let alpha ← alphaOf fl.logDomainSize random
  let r := d.generateKeysIntegers env alpha (levels.map fun _ => 1) seed0 seed1
  let keys ← value r.1
  let results ← if fl.onlyNonzeros then
      runBatchedSinglePointEvaluation r.2 env keys.1 (prefixes.getLastD []) fl.numIterations
    else runHierarchicalEvaluation r.2 env keys.1 toEvaluate fl.numIterations
  ok (keys.1, results)

/-- `main` (/repo/experiments/synthetic_data_benchmarks.cc:218-308); `none` if it is still choosing levels after
`fuel` rounds. -/
def main (D : Doubles) (fp : FpEnv) (env : Env) (fuel : Nat) (fl : Flags) (random seed0 seed1 : U128) :
    Option (Res (DpfKey × List (List (List Output)))) :=
  match validateFlags fl with
  | ok () =>
    let prefixes := readPrefixes fl
    match levelsToEvaluate D fuel fl prefixes with
    | some (ok levels) => some (run fp env fl prefixes levels random seed0 seed1)
    | some ub => some ub
    | some _ => some crash
    | none => none
  | _ => some crash

end SyntheticData
end Verif
