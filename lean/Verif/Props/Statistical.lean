import Verif.Lemmas.StatisticalBiased
import Verif.Props.Hiding
/-!
# C63: how well keys hide their inputs

Continues C48 and C62 for value types with `IntModN`, where over uniform blocks the distributions of keys for
different inputs are not equal (`C48_refuted`, `C62_dcf_refuted`) but close.
-/
namespace Verif
open Res Spec Verif.Uniform

/-- C63: over uniform blocks, the key of a party is close to a key with its own seed and uniform contents, whatever
alpha and beta are: no test distinguishes them with probability more than the sum of the gaps of the levels. -/
theorem C63_simulated (fp : FpEnv) (params : List DpfParameters) (T : Nat → Ty) (d : Dpf) (hs : Setup fp params T d)
    (env : Env) (p : Bool) (seed alpha : U128) (b : (h : Nat) → (T h).den) :
    CloseViews (totalGap T params.length)
      (fun r : Bits (treeLevels d) params.length (blocksOf d) => experimentKey d env params T p seed alpha b (r.rand T))
      (fun v : KeyData (treeLevels d) params.length T => keyOf (treeOf d) p seed v) :=
  key_close hs env p seed alpha b

/-- C63: over uniform blocks, the keys of a party for two inputs are close. -/
theorem C63_close (fp : FpEnv) (params : List DpfParameters) (T : Nat → Ty) (d : Dpf) (hs : Setup fp params T d)
    (env : Env) (p : Bool) (seed alpha alpha' : U128) (b b' : (h : Nat) → (T h).den) :
    CloseViews (2 * totalGap T params.length)
      (fun r : Bits (treeLevels d) params.length (blocksOf d) => experimentKey d env params T p seed alpha b (r.rand T))
      (fun r : Bits (treeLevels d) params.length (blocksOf d) =>
        experimentKey d env params T p seed alpha' b' (r.rand T)) := by
  rw [two_mul]
  exact closeViews_trans (key_close hs env p seed alpha b) (key_close hs env p seed alpha' b')

/-- C63: the same for comparison functions, which have one level per bit of the domain. -/
theorem C63_dcf_close (fp : FpEnv) (p : DpfParameters) (T : Ty) (c : Dcf) (hs : DcfSetup fp p T c) (env : Env)
    (party : Bool) (seed alpha alpha' : U128) (b b' : T.den) :
    CloseViews (2 * (p.logDomainSize.toNat * samplingGap T))
      (fun r : Bits (treeLevels c.dpf) (Dcf.dpfParameters p).length (blocksOf c.dpf) =>
        dcfExperimentKey c env p T party seed alpha b (r.rand _))
      (fun r : Bits (treeLevels c.dpf) (Dcf.dpfParameters p).length (blocksOf c.dpf) =>
        dcfExperimentKey c env p T party seed alpha' b' (r.rand _)) := by
  have h := C63_close fp _ _ _ hs.setup env party seed (alpha >>> 1) (alpha' >>> 1)
    (fun h => if alpha.toNat.testBit (p.logDomainSize.toNat - h - 1) then b else zeroed T b)
    (fun h => if alpha'.toNat.testBit (p.logDomainSize.toNat - h - 1) then b' else zeroed T b')
  have e : totalGap (fun _ => T) (Dcf.dpfParameters p).length = p.logDomainSize.toNat * samplingGap T := by
    unfold totalGap Dcf.dpfParameters
    simp
  rw [e] at h
  exact h

/-- C63 in terms of the security parameter, restricted to tuples of equal `IntModN`: if `BitsNeeded` accepts a
security parameter `σ` and `GetSecurityLevel` does not round up, the gap of a level is at most `2^-σ`. Missing:
tuples of `IntModN` and other integers, for which it is false, see `C63_refuted`. -/
theorem C63_level_partial (fp : FpEnv) (w : Width) (N : U128) (h1 : 0 < N.toNat) (h2 : N.toNat < 2 ^ w.bits)
    (m : Nat) (σ : ℚ) (bits : Int)
    (hbits : bitsNeeded fp (Ty.tuple (copies (.intModN w N h1 h2) m)).helper.toValueType (.val σ) = ok bits)
    (hfp : (fp.secLevel (m + 1 : Nat) N : ℝ) ≤ 128 + 3 - (Real.logb 2 N.toNat + Real.logb 2 (m + 1 : Nat) +
      Real.logb 2 ((m + 1 : Nat) + 1))) :
    (samplingGap (.tuple (copies (.intModN w N h1 h2) m)) : ℝ) ≤ 2 ^ (-(σ : ℝ)) := by
  have hno : (Ty.tuple (copies (.intModN w N h1 h2) m)).noMod = false := by
    show (copies (.intModN w N h1 h2) m).noMod = false
    cases m <;> rfl
  have hmap : (leavesOf (.tuple (copies (.intModN w N h1 h2) m))).map Leaf.count =
      List.replicate (m + 1) N.toNat := by
    rw [show leavesOf (.tuple (copies (.intModN w N h1 h2) m)) = List.replicate (m + 1) (.mod w.bits N.toNat) from
      leavesOfAll_copies _ _ rfl m, List.map_replicate]
    rfl
  refine level_bound fp N h1 σ (m + 1) (by omega) (bitsNeeded_copies fp h1 h2 m _ bits hbits) hfp _ (le_of_eq ?_)
  unfold samplingGap
  rw [hno, if_neg (by decide), hmap]
  have e := alpha_replicate (m + 1) N.toNat (2 ^ w.bits)
  have e2 := alpha_beta (List.replicate (m + 1) (N.toNat, 2 ^ w.bits)) 1
  rw [Nat.mul_one, List.map_replicate] at e2
  rw [e2] at e
  have e' : (2 : ℚ) * (((List.replicate (m + 1) N.toNat).zipIdx 1).map fun p => p.1 * p.2).sum =
      (m + 1 : Nat) * ((m + 1 : Nat) + 1) * N.toNat := by exact_mod_cast e
  rw [← e']
  norm_num
  ring

/-- The documented bound `2^-security_parameter` is false for keys of types with `IntModN` and other integers: with
security parameter 40, the keys for `(0, 0)` and `(0, 2^127)` of type `Tuple<IntModN<uint8_t, 171>, uint128>` are
told apart with probability more than 1/4. -/
theorem C63_refuted : ∃ (fp : FpEnv) (d : Dpf) (b b' : exBiased.den),
    Setup fp [⟨0, some exBiased.helper.toValueType, .val 40⟩] (fun _ => exBiased) d ∧ ∀ (env : Env) (seed : U128),
    ¬ CloseViews (1 / 4)
      (fun r : Bits (treeLevels d) 1 (blocksOf d) =>
        experimentKey d env [⟨0, some exBiased.helper.toValueType, .val 40⟩] (fun _ => exBiased) false seed 0
          (fun _ => b) (r.rand _))
      (fun r : Bits (treeLevels d) 1 (blocksOf d) =>
        experimentKey d env [⟨0, some exBiased.helper.toValueType, .val 40⟩] (fun _ => exBiased) false seed 0
          (fun _ => b') (r.rand _)) := by
  obtain ⟨d, hs, hL, ht, hk⟩ := exBiased_setup
  obtain ⟨c, hc⟩ : ∃ c : U128, c.toNat = 2 ^ 127 := ⟨BitVec.ofNat 128 (2 ^ 127), rfl⟩
  refine ⟨exFp, d, (⟨0#8, by decide⟩, 0#128), (⟨0#8, by decide⟩, c), hs, fun env seed h => ?_⟩
  obtain ⟨test, ht⟩ := exBiased_differs hL ht hk env seed c hc
  have h := (le_abs_self _).trans (h test)
  have := ht.trans h
  norm_num at this

/-! ## Examples -/

/-- Probabilities are over finite, nonempty sets. -/
example (L n : Nat) (k : Nat → Nat) : Nat.card (Bits L n k) ≠ 0 := Nat.card_ne_zero.mpr ⟨inferInstance, inferInstance⟩
example : probability (fun b : Bool => b = true) = 1 / 2 := by
  rw [probability_eq_mean]
  simp [mean]
/-- A 64-bit integer and a number mod 11: `(2^64 + 2 * 11) / 2^130`. -/
theorem exT_gap : samplingGap (exT 1) = (2 ^ 64 + 22) / 2 ^ 130 := by
  unfold samplingGap
  rw [if_neg (by decide), show (leavesOf (exT 1)).map Leaf.count = [2 ^ 64, 11] from rfl]
  norm_num
/-- C63 on three levels, of which one has a gap: alpha 2^127 + 5 against alpha 0. -/
example : ∃ d, Setup exFp exParams exT d ∧ ∀ env seed, CloseViews (1 / 2 ^ 64)
    (fun r : Bits (treeLevels d) exParams.length (blocksOf d) =>
      experimentKey d env exParams exT true seed 0 (fun h => (exT h).helper.zero) (r.rand _))
    (fun r : Bits (treeLevels d) exParams.length (blocksOf d) =>
      experimentKey d env exParams exT true seed (BitVec.ofNat 128 (2 ^ 127 + 5)) exB (r.rand _)) := by
  obtain ⟨d, hd⟩ := exSetup
  refine ⟨d, hd, fun env seed test => (C63_close exFp exParams exT d hd env true seed _ _ _ _ test).trans ?_⟩
  have e : totalGap exT exParams.length = 0 + ((2 ^ 64 + 22) / 2 ^ 130 + (0 + 0)) := by
    rw [← exT_gap]
    rfl
  rw [e]
  norm_num
/-- C63 on the DCF of C27: 6 levels with gap `(2^8 + 2 * 11) / 2^130`. -/
example : CloseViews (2 * (6 * ((2 ^ 8 + 22) / 2 ^ 130)))
    (fun r : Bits (treeLevels exDcf.dpf) (Dcf.dpfParameters exDcfParams).length (blocksOf exDcf.dpf) =>
      dcfExperimentKey exDcf exEnv exDcfParams exDcfTy true 2 37 (7#8, ⟨10#32, by decide⟩) (r.rand _))
    (fun r : Bits (treeLevels exDcf.dpf) (Dcf.dpfParameters exDcfParams).length (blocksOf exDcf.dpf) =>
      dcfExperimentKey exDcf exEnv exDcfParams exDcfTy true 2 5 (255#8, ⟨0#32, by decide⟩) (r.rand _)) := by
  have h := C63_dcf_close exFp exDcfParams exDcfTy exDcf exDcf_setup exEnv true 2 37 5 (7#8, ⟨10#32, by decide⟩)
    (255#8, ⟨0#32, by decide⟩)
  have e : samplingGap exDcfTy = (2 ^ 8 + 22) / 2 ^ 130 := by
    unfold samplingGap
    rw [if_neg (by decide), show (leavesOf exDcfTy).map Leaf.count = [2 ^ 8, 11] from rfl]
    norm_num
  rw [e] at h
  exact h

/-- C63 on the example: the key of a party from the data alone. -/
example : ∃ d, Setup exFp exParams exT d ∧ ∀ env seed, CloseViews (totalGap exT exParams.length)
    (fun r : Bits (treeLevels d) exParams.length (blocksOf d) => experimentKey d env exParams exT true seed 12345 exB (r.rand _))
    (fun v : KeyData (treeLevels d) exParams.length exT => keyOf (treeOf d) true seed v) := by
  obtain ⟨d, hd⟩ := exSetup
  exact ⟨d, hd, fun env seed => C63_simulated exFp exParams exT d hd env true seed 12345 exB⟩
/-- C58 and C63 for five residues modulo 10 of 32-bit integers, accepted for a security parameter of 40. -/
theorem exLevel_bound : (((⟨fun _ _ => 80, fun _ => 0⟩ : FpEnv).secLevel (4 + 1 : Nat) 10#128 : ℚ) : ℝ) ≤
    128 + 3 - (Real.logb 2 (10#128).toNat + Real.logb 2 (4 + 1 : Nat) + Real.logb 2 ((4 + 1 : Nat) + 1)) := by
  have h : ∀ x : ℝ, 0 < x → x ≤ 16 → Real.logb 2 x ≤ 4 := fun x hx h => by
    rw [Real.logb_le_iff_le_rpow (by norm_num) hx]
    norm_num
    exact h
  have h1 := h ((10#128).toNat : ℝ) (by norm_num) (by norm_num)
  have h2 := h ((4 + 1 : Nat) : ℝ) (by norm_num) (by norm_num)
  have h3 := h (((4 + 1 : Nat) : ℝ) + 1) (by norm_num) (by norm_num)
  have h4 : (((⟨fun _ _ => 80, fun _ => 0⟩ : FpEnv).secLevel (4 + 1 : Nat) 10#128 : ℚ) : ℝ) = 80 := by norm_num [FpEnv.secLevel]
  rw [h4]
  linarith
example : (∃ f : (Fin (Ty.tuple (copies (.intModN .w32 10#128 (by decide) (by decide)) 4)).bytesRead → Fin 256) → List Nat,
      (distance f (vectors (List.replicate 5 10)) : ℝ) ≤ 2 ^ (-((40 : ℚ) : ℝ))) ∧
    (samplingGap (.tuple (copies (.intModN .w32 10#128 (by decide) (by decide)) 4)) : ℝ) ≤ 2 ^ (-((40 : ℚ) : ℝ)) := by
  have hb : bitsNeeded ⟨fun _ _ => 80, fun _ => 0⟩
    (Ty.tuple (copies (.intModN .w32 10#128 (by decide) (by decide)) 4)).helper.toValueType (.val 40) = ok 256 := by
    decide +kernel
  obtain ⟨f, _, h⟩ := C58_level_partial ⟨fun _ _ => 80, fun _ => 0⟩ .w32 10#128 (by decide) (by decide) 4 40 256 hb exLevel_bound
  exact ⟨⟨f, h⟩, C63_level_partial ⟨fun _ _ => 80, fun _ => 0⟩ .w32 10#128 (by decide) (by decide) 4 40 256 hb exLevel_bound⟩

end Verif
