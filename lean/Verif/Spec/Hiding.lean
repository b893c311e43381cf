import Verif.Spec.Ideal
import Verif.Spec.Mic
import Verif.Spec.Prng
import Verif.Model.SparsePir
/-!
# Specification: what one party sees of comparison functions, gates and PIR

As in Spec/Ideal.lean, the pseudorandom blocks that the other party computes on the path of alpha are an argument.
-/
namespace Verif.Spec

/-- Over uniform `r`, `view r` and `view' r` have the same distribution: some bijection takes one to the other. -/
def SameView {R V : Type} (view view' : R → V) : Prop :=
  ∃ φ ψ : R → R, (∀ r, ψ (φ r) = r) ∧ (∀ r, φ (ψ r) = r) ∧ ∀ r, view' (φ r) = view r

/-! ## Comparison functions -/

mutual
/-- The element with all numbers outside of `XorWrapper`s replaced by zero. -/
def zeroed : (t : Ty) → t.den → t.den
  | .uint w, _ => (Ty.uint w).helper.zero
  | .intModN w N h h', _ => (Ty.intModN w N h h').helper.zero
  | .xorWrapper _, x => x
  | .tuple ts, x => zeroedAll ts x
@[inherit_doc zeroed] def zeroedAll : (ts : Tys) → ts.den → ts.den
  | .one t, x => zeroed t x
  | .cons t ts, x => (zeroed t x.1, zeroedAll ts x.2)
end

/-- The key of party `p` for `alpha` and `b` in the experiment, given the other party's blocks and elements: a key
for the prefixes of alpha, with `b` at the levels where the next bit of alpha is one. -/
def dcfExperimentKey (c : Dcf) (env : Env) (params : DpfParameters) (T : Ty) (p : Bool) (seed : U128)
    (alpha : U128) (b : T.den)
    (r : Rand (treeLevels c.dpf) (Dcf.dpfParameters params).length (fun _ => T)) : DcfKey :=
  experimentKey c.dpf env (Dcf.dpfParameters params) (fun _ => T) p seed (alpha >>> 1)
    (fun h => if alpha.toNat.testBit (params.logDomainSize.toNat - h - 1) then b else zeroed T b) r

/-- The blocks that the holder of DCF key `k` computes on the path of alpha. -/
def dcfPathBits (c : Dcf) (env : Env) (params : DpfParameters) (alpha : U128) (k : DcfKey) :
    Bits (treeLevels c.dpf) (Dcf.dpfParameters params).length (blocksOf c.dpf) :=
  pathBits c.dpf env (Dcf.dpfParameters params) (alpha >>> 1) k _ _

/-! ## Gates -/

/-- The parameters of a gate's comparison function. -/
abbrev gateDcfParams (params : MicParameters) : DpfParameters :=
  ⟨params.logGroupSize, some (.integer 128), .val 0⟩

/-- Randomness of a gate's keys: the other party's blocks and one block per interval. -/
abbrev GateRand (c : Dcf) (params : MicParameters) : Type :=
  Bits (treeLevels c.dpf) (Dcf.dpfParameters (gateDcfParams params)).length (blocksOf c.dpf) ×
    (Fin params.intervals.length → U128)

/-- The key of party `p` for the masks `rIn` and `rOut` in the experiment: a DCF key for `rIn - 1`, and the party's
shares of the correction terms. -/
def gateExperimentKey (c : Dcf) (env : Env) (params : MicParameters) (p : Bool) (seed rIn : U128)
    (rOut : List U128) (blocks : Rand (treeLevels c.dpf) (Dcf.dpfParameters (gateDcfParams params)).length
      (fun _ => .uint .w128)) (shares : Fin params.intervals.length → U128) : MicKey :=
  let N := (1 : U128) <<< params.logGroupSize.toNat
  ⟨dcfExperimentKey c env (gateDcfParams params) (.uint .w128) p seed ((N - 1 + rIn) % N) 1#128 blocks,
   List.ofFn fun i => Mic.blockMessage (
    if p then (Mic.correctionTerm N rIn (rOut.getD i 0) (params.intervals.getD i ⟨none, none⟩) - shares i % N) % N
    else shares i % N)⟩

/-! ## PIR -/

/-- The random blocks for one index. -/
abbrev PirRand (d : Dpf) : Type := Bits (treeLevels d) 1 (blocksOf d)

/-- The block in which index `q` lies. -/
def pirAlpha (q : Int) : U128 := BitVec.ofInt 128 (q.tdiv 128)

/-- The key of party `p` for index `q` in the experiment: the bit of `q` in the block of `q`. -/
def pirExperimentKey (d : Dpf) (env : Env) (params : DpfParameters) (p : Bool) (seed : U128) (q : Int)
    (r : PirRand d) : DpfKey :=
  experimentKey d env [params] (fun _ => pirTy) p seed (pirAlpha q)
    (fun _ => ((1 : U128) <<< (q.tmod 128).toNat : U128)) (r.rand _)

/-- The request to server `p` for the indices `queries`; `seeds i` is the own seed of the `i`-th key. -/
def experimentRequest (d : Dpf) (env : Env) (params : DpfParameters) (p : Bool) (seeds : Nat → U128)
    (fingerprint : BitVec 32) {n : Nat} (queries : List Int) (r : Fin n → PirRand d) : PlainRequest :=
  ⟨List.ofFn fun i => pirExperimentKey d env params p (seeds i) (queries.getD i 0) (r i), fingerprint⟩

/-- The blocks that the holder of the keys `ks` computes on the paths for `queries`. -/
def pirPathBits (d : Dpf) (env : Env) (params : DpfParameters) (queries : List Int) (ks : List DpfKey)
    {n : Nat} (i : Fin n) : PirRand d :=
  pathBits d env [params] (pirAlpha (queries.getD i 0)) (ks.getD i DpfKey.default) _ _

/-- The requests to both servers for the indices `queries` are those of the experiment, each at the blocks that the
other server computes. -/
def ExperimentRequests (d : Dpf) (env : Env) (params : DpfParameters) (seeds : Nat → U128 × U128)
    (fingerprint : BitVec 32) (queries : List Int) (leader helper : PlainRequest) : Prop :=
  leader = experimentRequest (n := queries.length) d env params false (fun i => (seeds i).1) fingerprint queries
    (pirPathBits d env params queries helper.dpfKeys) ∧
  helper = experimentRequest (n := queries.length) d env params true (fun i => (seeds i).2) fingerprint queries
    (pirPathBits d env params queries leader.dpfKeys)

/-- XOR of successive bytes of the strings with bytes `k`, `k + 1`, … of a pad. -/
def xorPad (pad : Nat → BitVec 8) : Nat → List Bytes → List Bytes
  | _, [] => []
  | k, s :: ss => (s.mapIdx fun i b => b ^^^ pad (k + i)) :: xorPad pad (k + s.length) ss

end Verif.Spec
