import Verif.Lemmas.Statistical
/-!
# Keys with a badly sampled type
-/
namespace Verif
open Res Spec Finset Verif.Uniform

/-- One level with one element. -/
def exParamsBiased : List DpfParameters := [⟨0, some exBiased.helper.toValueType, .val 40⟩]

theorem exBiased_setup : ∃ d, Setup exFp exParamsBiased (fun _ => exBiased) d ∧ treeLevels d = 0 ∧ treeOf d 0 = 0 ∧
    blocksOf d 0 = 2 := by
  have h : (match Dpf.createIncremental exFp exParamsBiased with
    | .ok d => some (d.pv.treeLevelsNeeded, d.pv.hierarchyToTree, d.blocksNeeded)
    | _ => none) = some (1, [0], [2]) := by decide +kernel
  split at h
  · rename_i d0 hd
    simp only [Option.some.injEq, Prod.mk.injEq] at h
    refine ⟨d0.registerAll [exBiased], Setup.of_flat hd ?_ ?_ ?_, ?_, ?_, ?_⟩
    · intro h p hp
      match h, hp with
      | 0, hp => simp [exParamsBiased] at hp; rw [← hp]
      | h + 1, hp => simp [exParamsBiased] at hp
    · intro h _; exact Or.inl (by simp)
    · intro h _; exact Or.inl rfl
    · unfold treeLevels; rw [(d0.registerAll_pv [exBiased]).1, h.1]
    · unfold treeOf; rw [(d0.registerAll_pv [exBiased]).1, h.2.1]; rfl
    · unfold blocksOf; rw [(d0.registerAll_pv [exBiased]).2, h.2.2]; rfl
  · cases h

theorem probability_mono {R : Type} [Finite R] {p q : R → Prop} (h : ∀ r, p r → q r) :
    probability p ≤ probability q := by
  classical
  haveI : Fintype R := Fintype.ofFinite _
  rw [probability_eq_mean, probability_eq_mean]
  apply mean_mono
  intro r
  by_cases hp : p r
  · rw [if_pos hp, if_pos (h r hp)]
  · rw [if_neg hp]
    split <;> norm_num

theorem probability_not {R : Type} [Finite R] [Nonempty R] (p : R → Prop) :
    probability (fun r => ¬ p r) = 1 - probability p := by
  classical
  haveI : Fintype R := Fintype.ofFinite _
  have h := mean_sub (fun _ => (1 : ℚ)) fun r => if p r then (1 : ℚ) else 0
  rw [mean_const] at h
  rw [probability_eq_mean, probability_eq_mean, h]
  apply mean_congr
  intro r
  by_cases hp : p r <;> simp [hp]

/-- The second number of the element is in the lower half. -/
def exLow {L : Nat} {k : Nat → Nat} (r : Bits L exParamsBiased.length k) : Prop :=
  (numbersOf exBiased ((r.rand (fun _ => exBiased)).value ⟨0, Nat.one_pos⟩
    (⟨0, by decide⟩ : Fin exBiased.helper.elementsPerBlock))).getD 1 0 < 2 ^ 127

theorem exLow_probability {L : Nat} {k : Nat → Nat} (hk : 2 ≤ k 0) :
    341 / 512 ≤ probability (fun r : Bits L exParamsBiased.length k => exLow r) := by
  classical
  obtain ⟨M, hM⟩ : ∃ M, M = 2 ^ 128 := ⟨_, rfl⟩
  obtain ⟨m, hm⟩ : ∃ m, m = 2 ^ 127 := ⟨_, rfl⟩
  haveI : Fintype U128 := Fintype.ofFinite _
  haveI : Fintype (Bits L exParamsBiased.length k) := Fintype.ofFinite _
  let smp : Bytes → List Nat := fun b => sampled (leavesOf exBiased) (leAt b 0 16) (b.drop 16)
  have hm17 : exBiased.bytesRead = 17 := rfl
  have hlow : ∀ r : Bits L exParamsBiased.length k, exLow r ↔
      (smp (blocksBytes (List.ofFn (r.blocks ⟨0, Nat.one_pos⟩)))).getD 1 0 < m := by
    intro r
    obtain ⟨xs, h1, h2⟩ := C51_elements exBiased (blocksBytes (List.ofFn (r.blocks ⟨0, Nat.one_pos⟩)))
      (by rw [blocksBytes_length, List.length_ofFn, hm17]; show 17 ≤ 16 * k 0; omega)
    rw [elementsFrom, if_neg (by decide)] at h2
    obtain ⟨x, rfl, h3⟩ := List.map_eq_singleton_iff.mp h2
    have e : (r.rand (fun _ => exBiased)).value ⟨0, Nat.one_pos⟩
        (⟨0, by decide⟩ : Fin exBiased.helper.elementsPerBlock) = x := by
      show (elementsOfBlocks exBiased (List.ofFn (r.blocks ⟨0, Nat.one_pos⟩))).getD 0 _ = x
      rw [elementsOfBlocks_eq]
      unfold eltsOf
      rw [h1]
      rfl
    unfold exLow
    rw [e, h3, hm]
  obtain ⟨e, he⟩ := blocks_bytes (k 0)
  have hmean : probability (fun r : Bits L exParamsBiased.length k => exLow r) =
      mean fun b : Fin 17 → Fin 256 => if (biased M b).getD 1 0 < m then (1 : ℚ) else 0 := by
    rw [probability_eq_mean, ← mean_equiv (bitsEquiv L exParamsBiased.length k).symm, mean_congr (G := fun p =>
      if (smp (bytesOf (e (p.2 ⟨0, Nat.one_pos⟩)))).getD 1 0 < m then (1 : ℚ) else 0)]
    · rw [mean_prod (fun _ (b : (h : Fin exParamsBiased.length) → Fin (k h) → U128) =>
        if (smp (bytesOf (e (b ⟨0, Nat.one_pos⟩)))).getD 1 0 < m then (1 : ℚ) else 0), mean_const]
      have hu := mean_equiv (Equiv.piUnique (α := Fin 1) fun h : Fin 1 => Fin (k h) → U128) fun f =>
        if (smp (bytesOf (e f))).getD 1 0 < m then (1 : ℚ) else 0
      refine hu.trans ?_
      refine (mean_equiv e fun b => if (smp (bytesOf b)).getD 1 0 < m then (1 : ℚ) else 0).trans ?_
      refine (mean_bytes (m := 17) (by omega) (fun b => if (smp b).getD 1 0 < m then (1 : ℚ) else 0)
        (fun b => if (smp b).getD 1 0 < m then (1 : ℚ) else 0) ?_).trans (mean_congr fun b => ?_)
      · intro b c hb
        have : smp (b ++ c) = smp b := by
          show sampled _ _ _ = sampled _ _ _
          have hr : restBytes (leavesOf exBiased) = 1 := rfl
          rw [List.drop_append_of_le_length (by omega), sampled_more _ _ _ _ (by rw [List.length_drop]; omega)]
          unfold leAt
          rw [List.drop_zero, List.drop_zero, List.take_append_of_le_length (by omega)]
        rw [this]
      · have : smp (bytesOf b) = biased M b := by
          rw [hM]
          rfl
        rw [this]
    · intro p
      rw [he]
      exact if_congr (hlow _) rfl rfl
  rw [hmean]
  unfold mean
  rw [Finset.sum_boole, Fintype.card_fun, Fintype.card_fin, Fintype.card_fin, le_div_iff₀ (by norm_num)]
  refine le_trans (le_of_eq ?_) (biased_low M hM m hm)
  norm_num

theorem no_half {a b c : BitVec 128} (hc : c.toNat = 2 ^ 127) (h : a + c = b + 0#128) (ha : a.toNat < 2 ^ 127)
    (hb : b.toNat < 2 ^ 127) : False := by
  have h := congrArg BitVec.toNat h
  rw [BitVec.toNat_add, BitVec.toNat_add, hc] at h
  have : (0#128).toNat = 0 := rfl
  omega

/-- Keys for 0 and for `2^127` in the second component are told apart. -/
theorem exBiased_differs {d : Dpf} (hL : treeLevels d = 0) (ht : treeOf d 0 = 0) (hk : blocksOf d 0 = 2) (env : Env)
    (seed : U128) (c : U128) (hc : c.toNat = 2 ^ 127) :
    ∃ test : DpfKey → Prop, 85 / 256 ≤
      probability (fun r : Bits (treeLevels d) exParamsBiased.length (blocksOf d) =>
        test (experimentKey d env exParamsBiased (fun _ => exBiased) false seed 0
          (fun _ => (⟨0#8, by decide⟩, 0#128)) (r.rand _))) -
      probability (fun r : Bits (treeLevels d) exParamsBiased.length (blocksOf d) =>
        test (experimentKey d env exParamsBiased (fun _ => exBiased) false seed 0
          (fun _ => (⟨0#8, by decide⟩, c)) (r.rand _))) := by
  refine ⟨fun key => ∃ r : Bits (treeLevels d) exParamsBiased.length (blocksOf d), exLow r ∧
    key = experimentKey d env exParamsBiased (fun _ => exBiased) false seed 0
          (fun _ => (⟨0#8, by decide⟩, 0#128)) (r.rand _), ?_⟩
  have h0 := exLow_probability (L := treeLevels d) (k := blocksOf d) (by omega)
  have h1 := probability_mono (R := Bits (treeLevels d) exParamsBiased.length (blocksOf d))
    (p := fun r => exLow r) (q := fun r => ∃ r' : Bits (treeLevels d) exParamsBiased.length (blocksOf d), exLow r' ∧
      experimentKey d env exParamsBiased (fun _ => exBiased) false seed 0 (fun _ => (⟨0#8, by decide⟩, 0#128))
        (r.rand _) =
      experimentKey d env exParamsBiased (fun _ => exBiased) false seed 0
          (fun _ => (⟨0#8, by decide⟩, 0#128)) (r'.rand _)) fun r hr => ⟨r, hr, rfl⟩
  have h2 := probability_mono (R := Bits (treeLevels d) exParamsBiased.length (blocksOf d))
    (q := fun r => ¬ exLow r) (p := fun r => ∃ r' : Bits (treeLevels d) exParamsBiased.length (blocksOf d), exLow r' ∧
      experimentKey d env exParamsBiased (fun _ => exBiased) false seed 0
        (fun _ => (⟨0#8, by decide⟩, c)) (r.rand _) =
      experimentKey d env exParamsBiased (fun _ => exBiased) false seed 0
          (fun _ => (⟨0#8, by decide⟩, 0#128)) (r'.rand _)) (by
    rintro r ⟨r', hlow', hkey⟩ hlow
    have hidx : ∀ x : (h : Nat) → exBiased.den,
        0 = (dpfInput d exParamsBiased (T := fun _ => exBiased) 0 x).index 0 := by
      intro x
      show 0 = _ % _
      have : alphaPrefix exParamsBiased 0 0 = 0 := by decide
      rw [this, Nat.zero_mod]
    have hkey := keyOf_last_inj (tree := treeOf d) (by
      intro a c ha hc _
      have ha : a < 1 := ha
      have hc : c < 1 := hc
      omega) _ _ ⟨0, Nat.one_pos⟩ (ht.trans hL.symm) hkey (⟨0, by decide⟩ : Fin exBiased.helper.elementsPerBlock)
    have hnode : ∀ (I : Input fun _ => exBiased) tree,
        ownNode (dpfParty d env (fun _ => exBiased) false seed) I tree (treeOf d 0) = ⟨seed, false⟩ := by
      intro I tree; rw [ht]; rfl
    unfold keyData at hkey
    dsimp only at hkey
    rw [hnode, hnode] at hkey
    have h6 := valueCorr_sum _ _ _ _ _ _ _ _ rfl (hidx _) (hidx _) hkey
    unfold exLow at hlow hlow'
    exact no_half hc (congrArg Prod.snd h6) hlow hlow')
  rw [probability_not] at h2
  refine le_trans ?_ (sub_le_sub (h0.trans h1) (h2.trans (sub_le_sub_left h0 1)))
  norm_num

end Verif
