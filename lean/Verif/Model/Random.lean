import Verif.Model.Mic
import Verif.Model.Prng
/-!
# Random numbers and failures of `RAND_bytes`

In the other files the outputs of `RAND_bytes` are parameters and the calls succeed. Here a call may fail.
-/
namespace Verif
open Res

/-- One call of OpenSSL's `RAND_bytes`: the number it returns (1: success; 0: failure; -1: not supported by the current
generator, also a failure), and the contents of the buffer afterwards (after a failure, whatever the buffer contained
or OpenSSL left in it). BoringSSL always returns 1. -/
structure RandCall where
  result : Int
  bytes : Nat → BitVec 8

/-- A buffer of `n` bytes after the call. -/
def RandCall.buffer (c : RandCall) (n : Nat) : Bytes := (List.range n).map c.bytes

/-- An integer of `w` bits overwritten by the call, on a little-endian machine. -/
def RandCall.integer (c : RandCall) (w : Nat) : BitVec w := BitVec.ofNat w (leNat (c.buffer (w / 8)))

/-- `BasicRng::Rand<T>` (/repo/dcf/fss_gates/prng/basic_rng.h:64-73) for an unsigned integer type of `w` bits;
`Rand8`, `Rand64` and `Rand128` are the instances for 8, 64 and 128 bits
(/repo/dcf/fss_gates/prng/basic_rng.h:45-57). The test is `if (!success)`. -/
def BasicRng.rand (w : Nat) (c : RandCall) : Res (BitVec w) := do
  failIf (c.result = 0) .internal
  ok (c.integer w)

/-- `GenerateKeysIncremental` (/repo/dpf/distributed_point_function.cc:645-713): the results of the two calls of
`RAND_bytes` (/repo/dpf/distributed_point_function.cc:682-684) are ignored. -/
def Dpf.generateKeysIncrementalRand (d : Dpf) (env : Env) (alpha : U128) (beta : List Value) (c0 c1 : RandCall) :
    Res (DpfKey × DpfKey) :=
  d.generateKeysIncremental env alpha beta (c0.integer 128) (c1.integer 128)

/-- `GenerateSeed` (/repo/pir/prng/aes_128_ctr_seeded_prng.cc:46-50): the result of `RAND_bytes` is ignored. -/
def Prng.generateSeedRand (c : RandCall) : Res Bytes := ok (Prng.generateSeed c.bytes)

/-- `Gen` (/repo/dcf/fss_gates/multiple_interval_containment.cc:110-209) when calls of `RAND_bytes` may fail: `c0`
and `c1` are the calls for the seeds of the DCF keys, `cs i` is the call for the mask of interval `i`. -/
def Mic.genRand (g : Mic) (env : Env) (rIn : U128) (rOut : List U128) (c0 c1 : RandCall) (cs : Nat → RandCall) :
    Res (MicKey × MicKey) × Mic :=
  match shl128 1 g.params.logGroupSize >>= fun N => g.checkGen N rIn rOut >>= fun _ => ok N with
  | .ok N =>
    let gamma := (N - 1 + rIn) % N
    let r := g.dcf.generateKeysFor env (uintHelper 128) gamma 1 (c0.integer 128) (c1.integer 128)
    (r.1 >>= fun (k0, k1) => do
      let zs ← mapRes (fun i => do
        let iv ← rd g.params.intervals i
        let ro ← rd rOut i
        let z := Mic.correctionTerm N rIn ro iv
        let z0 ← BasicRng.rand 128 (cs i)
        let z0 := z0 % N
        let z1 := (z - z0) % N
        ok (Mic.blockMessage z0, Mic.blockMessage z1)) (List.range g.params.intervals.length)
      ok (⟨k0, zs.map (·.1)⟩, ⟨k1, zs.map (·.2)⟩), { g with dcf := r.2 })
  | .err c => (err c, g)
  | .ub => (ub, g)
  | .crash => (crash, g)

end Verif
