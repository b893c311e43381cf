import Verif.Model.Random
import Verif.Lemmas.Mic
import Verif.Lemmas.InnerProduct
/-!
# Failures of the random number generator
-/
namespace Verif
open Res Spec

theorem RandCall.integer_byte (c : RandCall) (w i : Nat) (hw : 8 * (i + 1) ≤ w) :
    (c.integer w).extractLsb' (8 * i) 8 = c.bytes i := by
  apply BitVec.eq_of_getLsbD_eq
  intro j hj
  have hb : byteAt (c.buffer (w / 8)) i = c.bytes i := by
    have hi : i < w / 8 := by omega
    simp [byteAt, RandCall.buffer, hi]
  rw [BitVec.getLsbD_extractLsb', RandCall.integer, BitVec.getLsbD_ofNat, leNat_testBit _ i j hj, hb]
  simp only [hj, decide_true, Bool.true_and]
  simp [show 8 * i + j < w by omega]

theorem BasicRng.rand_success {c : RandCall} (w : Nat) (h : c.result ≠ 0) : BasicRng.rand w c = ok (c.integer w) := by
  unfold BasicRng.rand
  rw [failIf_false h]; rfl

theorem BasicRng.rand_failure {c : RandCall} (w : Nat) (h : c.result = 0) : BasicRng.rand w c = err .internal := by
  unfold BasicRng.rand
  rw [failIf_true h]; rfl

/-- What `Gen` computes when the masks are drawn: the masks of `gen` if all calls succeed. -/
theorem Mic.genRand_eq {g : Mic} (env : Env) (rIn : U128) (rOut : List U128) (c0 c1 : RandCall)
    {cs : Nat → RandCall} (h : ∀ i < g.params.intervals.length, (cs i).result ≠ 0) :
    g.genRand env rIn rOut c0 c1 cs =
      g.gen env rIn rOut (c0.integer 128) (c1.integer 128) (fun i => (cs i).integer 128) := by
  unfold Mic.genRand Mic.gen
  cases (shl128 1 g.params.logGroupSize >>= fun N => g.checkGen N rIn rOut >>= fun _ => ok N)
  case ok N =>
    dsimp only
    congr 2
    funext k
    refine congrArg (· >>= _) (mapRes_congr ?_)
    intro i hi
    rw [BasicRng.rand_success 128 (h i (List.mem_range.mp hi))]
    rfl
  all_goals rfl

end Verif
