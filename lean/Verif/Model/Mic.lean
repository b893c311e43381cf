import Verif.Model.Dcf
/-!
# `MultipleIntervalContainmentGate` (/repo/dcf/fss_gates/multiple_interval_containment.cc)
-/
namespace Verif
open Res

/-- `Interval` (/repo/dcf/fss_gates/multiple_interval_containment.proto:23-31); `none`: field absent. -/
structure Interval where
  lower : Option IntegerP
  upper : Option IntegerP

/-- `MicParameters` (/repo/dcf/fss_gates/multiple_interval_containment.proto:33-46). -/
structure MicParameters where
  logGroupSize : Int
  intervals : List Interval

/-- `MicKey` (/repo/dcf/fss_gates/multiple_interval_containment.proto:51-60). -/
structure MicKey where
  dcfKey : DcfKey
  outputMaskShare : List IntegerP

/-- `absl::MakeUint128(m.value_uint128().high(), m.value_uint128().low())`: the accessor of a `oneof`
case that is not set returns the zero block. -/
def valueUint128 : IntegerP → U128
  | .u128 hi lo => makeU128 hi lo
  | _ => 0

/-- `p` (/repo/dcf/fss_gates/multiple_interval_containment.cc:59-61, 147-149, 246-248). -/
def Interval.p (iv : Interval) : U128 := valueUint128 (iv.lower.getD .notSet)
/-- `q` (/repo/dcf/fss_gates/multiple_interval_containment.cc:63-65, 151-153, 250-252). -/
def Interval.q (iv : Interval) : U128 := valueUint128 (iv.upper.getD .notSet)

/-- Members of `MultipleIntervalContainmentGate`
(/repo/dcf/fss_gates/multiple_interval_containment.h:94-105). -/
structure Mic where
  params : MicParameters
  dcf : Dcf

namespace Mic

/-- Checks on one interval (/repo/dcf/fss_gates/multiple_interval_containment.cc:52-84). -/
def checkInterval (N : U128) (iv : Interval) : Res Unit := do
  failIf (iv.lower = none ∨ iv.upper = none) .invalidArgument
  failIf (iv.p ≥ N) .invalidArgument
  failIf (iv.q ≥ N) .invalidArgument
  failIf (iv.p > iv.q) .invalidArgument

/-- `Create` (/repo/dcf/fss_gates/multiple_interval_containment.cc:37-103). -/
def create (fp : FpEnv) (params : MicParameters) : Res Mic := do
  failIf (params.logGroupSize < 0 ∨ params.logGroupSize > 127) .invalidArgument
  let N ← shl128 1 params.logGroupSize
  let _ ← mapRes (checkInterval N) params.intervals
  let dcf ← Dcf.create fp ⟨params.logGroupSize, some (uintHelper 128).toValueType, .val 0⟩
  ok ⟨params, dcf⟩

/-- `cond ? a : b` of `int`s, converted to `absl::uint128`. -/
def sel (cond : Prop) [Decidable cond] (a : Int) : U128 := BitVec.ofInt 128 (if cond then a else 0)

/-- The correction term `z` (/repo/dcf/fss_gates/multiple_interval_containment.cc:155-170). -/
def correctionTerm (N rIn rOut : U128) (iv : Interval) : U128 :=
  let p := iv.p
  let q := iv.q
  let qPrime := (q + 1) % N
  let alphaP := (p + rIn) % N
  let alphaQ := (q + rIn) % N
  let alphaQPrime := (q + 1 + rIn) % N
  let z := rOut + sel (alphaP > alphaQ) 1 + sel (alphaP > p) (-1) + sel (alphaQPrime > qPrime) 1 +
    sel (alphaQ = N - 1) 1
  z % N

/-- Message holding a 128-bit number (/repo/dcf/fss_gates/multiple_interval_containment.cc:184-197). -/
def blockMessage (x : U128) : IntegerP := .u128 (high64 x) (low64 x)

/-- Argument checks of `Gen` (/repo/dcf/fss_gates/multiple_interval_containment.cc:112-133). -/
def checkGen (g : Mic) (N rIn : U128) (rOut : List U128) : Res Unit := do
  failIf (rOut.length ≠ g.params.intervals.length) .invalidArgument
  failIf (rIn ≥ N) .invalidArgument
  let _ ← mapRes (fun r : U128 => failIf (r ≥ N) .invalidArgument) rOut
  ok ()

/-- `Gen` (/repo/dcf/fss_gates/multiple_interval_containment.cc:110-209): result and gate afterwards
(the DCF registers a type). `seed0`, `seed1` and `rand i` are the outputs of `RAND_bytes`, which is
assumed to succeed. -/
def gen (g : Mic) (env : Env) (rIn : U128) (rOut : List U128) (seed0 seed1 : U128) (rand : Nat → U128) :
    Res (MicKey × MicKey) × Mic :=
  match shl128 1 g.params.logGroupSize >>= fun N => g.checkGen N rIn rOut >>= fun _ => ok N with
  | .ok N =>
    let gamma := (N - 1 + rIn) % N
    let r := g.dcf.generateKeysFor env (uintHelper 128) gamma 1 seed0 seed1
    (r.1 >>= fun (k0, k1) => do
      let zs ← mapRes (fun i => do
        let iv ← rd g.params.intervals i
        let ro ← rd rOut i
        let z := correctionTerm N rIn ro iv
        let z0 := rand i % N
        let z1 := (z - z0) % N
        ok (blockMessage z0, blockMessage z1)) (List.range g.params.intervals.length)
      ok (⟨k0, zs.map (·.1)⟩, ⟨k1, zs.map (·.2)⟩), { g with dcf := r.2 })
  | .err c => (err c, g)
  | .ub => (ub, g)
  | .crash => (crash, g)

/-- One entry of the arrays with index `i * num_intervals + j`: key, point and `j`. -/
structure Cell where
  key : MicKey
  x : U128
  j : Nat

/-- All entries in the order of their index. -/
def cells (keys : List MicKey) (points : List U128) (m : Nat) : List Cell :=
  (keys.zip points).flatMap fun kx => (List.range m).map fun j => ⟨kx.1, kx.2, j⟩

/-- `x_p[index]` (/repo/dcf/fss_gates/multiple_interval_containment.cc:265). -/
def xP (g : Mic) (N : U128) (c : Cell) : Res U128 := do
  let iv ← rd g.params.intervals c.j
  ok ((c.x + N - 1 - iv.p) % N)
/-- `x_q_prime[index]` (/repo/dcf/fss_gates/multiple_interval_containment.cc:255, 266). -/
def xQ (g : Mic) (N : U128) (c : Cell) : Res U128 := do
  let iv ← rd g.params.intervals c.j
  ok ((c.x + N - 1 - (iv.q + 1) % N) % N)

/-- `y % N` (/repo/dcf/fss_gates/multiple_interval_containment.cc:288-303). -/
def output (g : Mic) (N : U128) (c : Cell) (sP sQ : U128) : Res U128 := do
  let iv ← rd g.params.intervals c.j
  let z ← rd c.key.outputMaskShare c.j
  let qPrime := (iv.q + 1) % N
  let first : Int := if c.key.dcfKey.party ≠ 0 then
      (if c.x > iv.p then 1 else 0) - (if c.x > qPrime then 1 else 0)
    else 0
  let y := BitVec.ofInt 128 first - sP % N + sQ % N + valueUint128 z
  ok (y % N)

/-- `BatchEval` (/repo/dcf/fss_gates/multiple_interval_containment.cc:211-308). Simplified: allocation
succeeds. The counters of the loops over points and keys (lines 224, 260, 286) and `index` (lines 263, 290) are
`int`s, whose overflow is undefined. -/
def batchEval (g : Mic) (env : Env) (keys : List MicKey) (points : List U128) : Res (List U128) := do
  failIf (keys.length ≠ points.length) .invalidArgument
  let N ← shl128 1 g.params.logGroupSize
  let _ ← mapRes (fun x : U128 => failIf (x ≥ N) .invalidArgument) (points.take (2 ^ 31))
  if 2 ^ 31 ≤ points.length ∨ 2 ^ 31 < keys.length * g.params.intervals.length then ub else do
  let cs := cells keys points g.params.intervals.length
  let dcfKeys := cs.map (·.key.dcfKey)
  let xp ← mapRes (g.xP N) cs
  let xq ← mapRes (g.xQ N) cs
  let sP ← g.dcf.batchEvaluate env (uintHelper 128) dcfKeys xp
  let sQ ← g.dcf.batchEvaluate env (uintHelper 128) dcfKeys xq
  mapRes (fun (c : Cell × U128 × U128) => g.output N c.1 c.2.1 c.2.2) (cs.zip (sP.zip sQ))

/-- `Eval` (/repo/dcf/fss_gates/multiple_interval_containment.h:75-78). -/
def eval (g : Mic) (env : Env) (key : MicKey) (x : U128) : Res (List U128) :=
  g.batchEval env [key] [x]

end Mic
end Verif
