import Verif.Model.SyntheticData
import Verif.Model.Mic
/-!
# The benchmarks of DPFs, DCFs and interval containment gates
(/repo/dpf/distributed_point_function_benchmark.cc, /repo/dcf/distributed_comparison_function_benchmark.cc,
/repo/dcf/fss_gates/multiple_interval_containment_benchmark.cc)

Not modelled: measuring time, labels, arenas. `iterations` is the number of rounds of `for (auto s : state)`. Random
numbers are inputs. Memory is unlimited.
-/
namespace Verif
open Res

namespace Benchmarks
open SyntheticData (value setInsert toSet truncate Doubles)

/-! ## DPFs -/

/-- The part after the context in the benchmarks of hierarchies: `EvaluateNext` with each list of prefixes
(/repo/dpf/distributed_point_function_benchmark.cc:138-141, 227-231, 345-349). -/
def evaluateAll (d : Dpf) (env : Env) (t : Ty) : List (List U128) → EvaluationContext → Res (List (List t.den))
  | [], _ => ok []
  | p :: ps, ctx => do
    let r := d.evaluateNext env t.helper p ctx
    let vals ← value r.1
    let rest ← evaluateAll d env t ps r.2
    ok (vals :: rest)

/-- Parameters with integers of `w` bits
(/repo/dpf/distributed_point_function_benchmark.cc:105-111, 197-205, 244-254, 324-328). -/
def parametersOf (w : Width) (sizes : List Int) : List DpfParameters :=
  sizes.map fun l => ⟨l, some (.integer w.bits), .val 0⟩

/-- The common first part of the benchmarks of hierarchies: creates the DPF, a key, and a context for it
(/repo/dpf/distributed_point_function_benchmark.cc:112-125, 207-214, 221, 329-334, 339). Two of them compute prefixes before
the context, which is not part of that computation. -/
def createHierarchy (fp : FpEnv) (env : Env) (w : Width) (sizes : List Int) (alpha : U128) (beta : List U128)
    (seed0 seed1 : U128) : Res (Dpf × DpfKey × EvaluationContext) := do
  let d ← value (Dpf.createIncremental fp (parametersOf w sizes))
  let r := d.generateKeysIntegers env alpha beta seed0 seed1
  let keys ← value r.1
  let ctx ← value (r.2.createEvaluationContext keys.1)
  ok (r.2, keys.1, ctx)

/-- The common last part of the benchmarks of hierarchies: in each iteration, all levels are evaluated
(/repo/dpf/distributed_point_function_benchmark.cc:132-143, 222-233, 340-351). Returns the key and the results. -/
def evaluateHierarchy (env : Env) (w : Width) (h : Dpf × DpfKey × EvaluationContext) (prefixes : List (List U128))
    (iterations : Nat) : Res (DpfKey × List (List (List (Ty.uint w).den))) := do
  let results ← mapRes (fun _ => evaluateAll h.1 env (.uint w) prefixes h.2.2) (List.range iterations)
  ok (h.2.1, results)

/-- `GenerateKeys(alpha, T{})`: integers are converted to `absl::uint128`, other types are passed to the template
(/repo/dpf/distributed_point_function_benchmark.cc:50-52, 386-388). -/
def generateKeysZero (d : Dpf) (env : Env) (t : Ty) (alpha seed0 seed1 : U128) : KeyGenResult :=
  match t with
  | .uint _ => d.generateKeysInteger env alpha 0 seed0 seed1
  | t => d.generateKeysTyped env alpha ⟨t, t.helper.zero⟩ seed0 seed1

/-- `BM_EvaluateRegularDpf` (/repo/dpf/distributed_point_function_benchmark.cc:42-62): the key and the results of all
iterations. -/
def evaluateRegularDpf (fp : FpEnv) (env : Env) (t : Ty) (log : Int) (iterations : Nat) (seed0 seed1 : U128) :
    Res (DpfKey × List (List t.den)) := do
  let d ← value (Dpf.createIncremental fp [⟨log, some t.helper.toValueType, .val 0⟩])
  let r := generateKeysZero (d.registerValueType t.helper) env t 0 seed0 seed1
  let keys ← value r.1
  let ctx ← value (r.2.createEvaluationContext keys.1)
  let results ← mapRes (fun _ => value (r.2.evaluateNext env t.helper [] ctx).1) (List.range iterations)
  ok (keys.1, results)

/-- The domain size of level `i` out of `n` (/repo/dpf/distributed_point_function_benchmark.cc:103-108). -/
def levelSize (D : Doubles) (n i : Nat) : Int :=
  truncate (D.round (D.round (((i + 1 : Nat) : Rat) / (n : Rat)) * 20))

/-- All points of every level but the last (/repo/dpf/distributed_point_function_benchmark.cc:126-130). Shifting the `int`
1 by a negative number or by 31 or more is undefined or gives a negative size. -/
def fullPrefixes (sizes : List Int) : Res (List (List U128)) :=
  match sizes with
  | [] => ok []
  | _ => do
    let rest ← mapRes (fun l : Int => if l < 0 ∨ 31 ≤ l then ub else ok ((List.range (2 ^ l.toNat)).map (BitVec.ofNat 128)))
      sizes.dropLast
    ok ([] :: rest)

/-- `BM_EvaluateHierarchicalFull` with `n` levels (/repo/dpf/distributed_point_function_benchmark.cc:100-144). -/
def hierarchicalFull (D : Doubles) (fp : FpEnv) (env : Env) (w : Width) (n iterations : Nat) (seed0 seed1 : U128) :
    Res (DpfKey × List (List (List (Ty.uint w).den))) := do
  let sizes := (List.range n).map (levelSize D n)
  let h ← createHierarchy fp env w sizes 12345 ((List.range n).map (BitVec.ofNat 128)) seed0 seed1
  let prefixes ← fullPrefixes sizes
  evaluateHierarchy env w h prefixes iterations

/-- `std::sort`, on lists. -/
def sortInsert (x : U128) : List U128 → List U128
  | [] => [x]
  | y :: ys => if x ≤ y then x :: y :: ys else y :: sortInsert x ys

/-- The prefixes for level `i` in `GenerateRandomPrefixes`, if `prev` are those for the level before
(/repo/dpf/distributed_point_function_benchmark.cc:163-188). `index i j` and `digits i j` are the numbers drawn for prefix `j`
of level `i`. -/
def randomLevel (sizes nonzeros : List Int) (index : Nat → Nat → Nat) (digits : Nat → Nat → BitVec 32) (i : Nat)
    (prev : List U128) : Res (List U128) :=
  if i = 0 then ok [] else do
    let n ← rd nonzeros (i - 1)
    if n < 0 then crash else do
    let size ← rd sizes (i - 1)
    let before ← if 1 < i then rd sizes (i - 2) else ok 0
    let difference := size - before
    if difference < 0 ∨ 31 ≤ difference then ub else do
    let xs ← mapRes (fun j => do
      let pre ← if 1 < i then do
          let p ← rd prev (index i j)
          shl128 p difference
        else ok 0
      ok (pre ||| (digits i j).setWidth 128)) (List.range n.toNat)
    ok (xs.foldr sortInsert [])

/-- The loop over levels of `GenerateRandomPrefixes` (/repo/dpf/distributed_point_function_benchmark.cc:162-189), for the
levels from `i` on, of which there are `count`. -/
def randomLevels (sizes nonzeros : List Int) (index : Nat → Nat → Nat) (digits : Nat → Nat → BitVec 32) :
    (count i : Nat) → (prev : List U128) → Res (List (List U128))
  | 0, _, _ => ok []
  | count + 1, i, prev => do
    let level ← randomLevel sizes nonzeros index digits i prev
    let rest ← randomLevels sizes nonzeros index digits count (i + 1) level
    ok (level :: rest)

/-- `GenerateRandomPrefixes` (/repo/dpf/distributed_point_function_benchmark.cc:154-191). -/
def generateRandomPrefixes (sizes nonzeros : List Int) (index : Nat → Nat → Nat) (digits : Nat → Nat → BitVec 32) :
    Res (List (List U128)) :=
  randomLevels sizes nonzeros index digits sizes.length 0 []

/-- `BM_IsrgExampleHierarchy` (/repo/dpf/distributed_point_function_benchmark.cc:195-234). -/
def isrgExampleHierarchy (fp : FpEnv) (env : Env) (index : Nat → Nat → Nat) (digits : Nat → Nat → BitVec 32)
    (iterations : Nat) (seed0 seed1 : U128) : Res (DpfKey × List (List (List (Ty.uint .w32).den))) := do
  let h ← createHierarchy fp env .w32 [12, 25] 1234567 [1, 1] seed0 seed1
  let prefixes ← generateRandomPrefixes [12, 25] [32] index digits
  evaluateHierarchy env .w32 h prefixes iterations

/-- The loop of `BM_KeyGeneration` (/repo/dpf/distributed_point_function_benchmark.cc:264-269): a point and two seeds are
drawn in each iteration. -/
def keyGenerationLoop (env : Env) (mask : U128) (beta : List U128) : List (U128 × U128 × U128) → Dpf →
    Res (List (DpfKey × DpfKey) × Dpf)
  | [], d => ok ([], d)
  | (x, seed0, seed1) :: draws, d => do
    let r := d.generateKeysIntegers env (x &&& mask) beta seed0 seed1
    let keys ← value r.1
    let rest ← keyGenerationLoop env mask beta draws r.2
    ok (keys :: rest.1, rest.2)

/-- `BM_KeyGeneration` (/repo/dpf/distributed_point_function_benchmark.cc:241-271): the keys of all iterations and the DPF. -/
def keyGeneration (fp : FpEnv) (env : Env) (direct : Bool) (log : Nat) (draws : List (U128 × U128 × U128)) :
    Res (List (DpfKey × DpfKey) × Dpf) := do
  let sizes : List Int := if direct then [(log : Int)] else (List.range log).map fun i => ((i + 1 : Nat) : Int)
  let d ← value (Dpf.createIncremental fp (parametersOf .w32 sizes))
  let size ← shl128 1 (sizes.getLastD 0)
  keyGenerationLoop env (size - 1) (List.replicate sizes.length 23) draws d

/-- The loop that draws `n` distinct numbers of `size` bits (/repo/dpf/distributed_point_function_benchmark.cc:293-299);
`none` if it is still running when the list of draws ends. -/
def uniformSet (size n : Int) : List U128 → List U128 → Option (Res (List U128))
  | draws, s =>
    if n ≤ s.length then some (ok s) else
    match draws with
    | [] => none
    | x :: draws =>
      match shl128 1 size with
      | ok one => uniformSet size n draws (setInsert (x &&& (one - 1)) s)
      | _ => some ub

/-- The loop of `GenerateUniformPrefixes` that goes back to shorter prefixes
(/repo/dpf/distributed_point_function_benchmark.cc:303-314), on the sizes in decreasing order: `p` are prefixes of the first
size. -/
def prefixesBack : List Int → List U128 → Res (List (List U128))
  | [], _ => ok []
  | [_], p => ok [p]
  | a :: b :: sizes, p => do
    let shorter ← mapRes (fun x => shr128 x (a - b)) p
    let rest ← prefixesBack (b :: sizes) (toSet shorter)
    ok (p :: rest)

/-- `GenerateUniformPrefixes` (/repo/dpf/distributed_point_function_benchmark.cc:277-316); `none` if it is still drawing
numbers. The logarithm of `n` (line 284) is compared exactly; that of zero is minus infinity and that of a negative number
is not a number. -/
def generateUniformPrefixes (sizes : List Int) (n : Int) (draws : List U128) : Option (Res (List (List U128))) :=
  if sizes.length ≤ 1 then some (ok (sizes.map fun _ => [])) else
  let size := sizes.dropLast.getLastD 0
  if 0 < n ∧ (size < 0 ∨ (2 : Int) ^ size.toNat < n) then some (err .invalidArgument) else
  match uniformSet size n draws [] with
  | none => none
  | some (ok p) => some (do
      let levels ← prefixesBack sizes.dropLast.reverse p
      ok ([] :: levels.reverse))
  | some _ => some ub

/-- `BM_HeavyHitters` with `n` levels (/repo/dpf/distributed_point_function_benchmark.cc:321-352); `none` if it is still
drawing numbers. -/
def heavyHitters (fp : FpEnv) (env : Env) (n : Nat) (draws : List U128) (iterations : Nat) (seed0 seed1 : U128) :
    Option (Res (DpfKey × List (List (List (Ty.uint .w64).den)))) :=
  let sizes := (List.range n).map fun i => ((i + 1 : Nat) : Int)
  match createHierarchy fp env .w64 sizes 42 (List.replicate n 23) seed0 seed1 with
  | ok h =>
    match generateUniformPrefixes sizes 10000 draws with
    | none => none
    | some r => some (do
        let prefixes ← value r
        evaluateHierarchy env .w64 h prefixes iterations)
  | err c => some (err c)
  | ub => some ub
  | crash => some crash

/-- What is drawn for a key in `BM_BatchEvaluation`: a point, seeds, and points for evaluation. -/
structure BatchDraw where
  alpha : U128
  seed0 : U128
  seed1 : U128
  points : List U128

/-- The first loop of `BM_BatchEvaluation` (/repo/dpf/distributed_point_function_benchmark.cc:382-397): the keys, and the DPF. -/
def batchKeys (env : Env) (t : Ty) (mask : U128) : List BatchDraw → Dpf → Res (List DpfKey × Dpf)
  | [], d => ok ([], d)
  | b :: bs, d => do
    let r := generateKeysZero d env t (b.alpha &&& mask) b.seed0 b.seed1
    let keys ← value r.1
    let rest ← batchKeys env t mask bs r.2
    ok (keys.1 :: rest.1, rest.2)

/-- `BM_BatchEvaluation` (/repo/dpf/distributed_point_function_benchmark.cc:359-411) with `m` points for each key: the keys, the
DPF, and the results of one iteration. `key_pointers` holds each key `m` times; evaluation `i` uses `key_pointers[i]` and
the points of key `i`. -/
def batchEvaluation (fp : FpEnv) (env : Env) (t : Ty) (m : Nat) (draws : List BatchDraw) :
    Res (List DpfKey × Dpf × List (List t.den)) := do
  let one ← shl128 1 56
  let mask := one - 1
  let d ← value (Dpf.createIncremental fp [⟨56, some t.helper.toValueType, .val 0⟩])
  let (keys, d) ← batchKeys env t mask draws d
  let keyPointers := keys.flatMap fun k => List.replicate m k
  let points := draws.flatMap fun b => b.points.map fun x => x &&& mask
  let results ← mapRes (fun i => do
    let key ← rd keyPointers i
    value (d.evaluateAt env t.helper key 0 ((points.drop (i * m)).take m))) (List.range draws.length)
  ok (keys, d, results)

/-! ## DCFs -/

/-- What is drawn for a key in `BM_EvaluateDcf`: a point, a value, seeds, and a point for evaluation. -/
structure DcfDraw (w : Width) where
  alpha : U128
  beta : (Ty.uint w).den
  seed0 : U128
  seed1 : U128
  point : U128

/-- The first loop of `BM_EvaluateDcf` (/repo/dcf/distributed_comparison_function_benchmark.cc:50-57). -/
def dcfKeys (env : Env) (w : Width) (mask : U128) : List (DcfDraw w) → Dcf → Res (List DcfKey × Dcf)
  | [], c => ok ([], c)
  | b :: bs, c => do
    let r := c.generateKeysFor env (Ty.uint w).helper (b.alpha &&& mask) b.beta b.seed0 b.seed1
    let keys ← value r.1
    let rest ← dcfKeys env w mask bs r.2
    ok (keys.1 :: rest.1, rest.2)

/-- `domain_mask` (/repo/dcf/distributed_comparison_function_benchmark.cc:45-48). -/
def domainMask (log : Nat) : Res U128 :=
  if log < 128 then do
    let one ← shl128 1 log
    ok (one - 1)
  else ok (BitVec.allOnes 128)

/-- `BM_EvaluateDcf` (/repo/dcf/distributed_comparison_function_benchmark.cc:32-64): the keys, the DCF, and the result of one
iteration. -/
def evaluateDcf (fp : FpEnv) (env : Env) (w : Width) (log : Nat) (draws : List (DcfDraw w)) :
    Res (List DcfKey × Dcf × List (Ty.uint w).den) := do
  let c ← value (Dcf.create fp ⟨log, some (Ty.uint w).helper.toValueType, .val 0⟩)
  let mask ← domainMask log
  let (keys, c) ← dcfKeys env w mask draws c
  let result ← value (c.batchEvaluate env (Ty.uint w).helper keys (draws.map fun b => b.point &&& mask))
  ok (keys, c, result)

/-! ## Gates -/

/-- The intervals of `BM_BatchedMicEvaluation` (/repo/dcf/fss_gates/multiple_interval_containment_benchmark.cc:42-48): two
64-bit numbers in order. -/
def micInterval (x y : BitVec 64) : Interval :=
  if x > y then ⟨some (.u64 y), some (.u64 x)⟩ else ⟨some (.u64 x), some (.u64 y)⟩

/-- What is drawn for an interval: two numbers for the bounds, and an output mask. -/
structure IntervalDraw where
  x : BitVec 64
  y : BitVec 64
  rOut : BitVec 64

/-- What is drawn for a key: an input mask, and the output of `RAND_bytes`. -/
structure MicDraw where
  rIn : BitVec 64
  seed0 : U128
  seed1 : U128
  rand : Nat → U128

/-- The parameters of `BM_BatchedMicEvaluation` (/repo/dcf/fss_gates/multiple_interval_containment_benchmark.cc:37-50). -/
def micParameters (intervals : List IntervalDraw) : MicParameters :=
  ⟨64, intervals.map fun d => micInterval d.x d.y⟩

/-- The loop that generates keys (/repo/dcf/fss_gates/multiple_interval_containment_benchmark.cc:53-57): the first key of each
pair is kept. Returning early after a failure (`DPF_ASSERT_OK_AND_ASSIGN`) is modelled as `crash`. -/
def micKeys (env : Env) (rOut : List U128) : List MicDraw → Mic → Res (List MicKey × Mic)
  | [], g => ok ([], g)
  | d :: ds, g => do
    let r := g.gen env (d.rIn.setWidth 128) rOut d.seed0 d.seed1 d.rand
    let keys ← value r.1
    let rest ← micKeys env rOut ds r.2
    ok (keys.1 :: rest.1, rest.2)

/-- `BM_BatchedMicEvaluation` (/repo/dcf/fss_gates/multiple_interval_containment_benchmark.cc:32-65): the keys, the gate, and the
result of one iteration. The points for evaluation are all zero (line 36). -/
def batchedMic (fp : FpEnv) (env : Env) (intervals : List IntervalDraw) (draws : List MicDraw) :
    Res (List MicKey × Mic × List U128) := do
  let g ← value (Mic.create fp (micParameters intervals))
  let (keys, g) ← micKeys env (intervals.map fun d => d.rOut.setWidth 128) draws g
  let result ← value (g.batchEval env keys (List.replicate draws.length 0))
  ok (keys, g, result)

end Benchmarks
end Verif
