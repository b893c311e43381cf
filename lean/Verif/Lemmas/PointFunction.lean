import Verif.Lemmas.Setup
/-! Shares of generated keys add up to the point function. -/
namespace Verif
open Res Spec

namespace Helper.IsGroup
variable {α : Type} {H : Helper α} (g : H.IsGroup)
include g

theorem zero_add (a : α) : H.add H.zero a = a := by rw [g.add_comm, g.add_zero]
theorem neg_add_self (a : α) : H.add (H.neg a) a = H.zero := by rw [g.add_comm, g.add_neg]
theorem eq_neg {a b : α} (h : H.add a b = H.zero) : b = H.neg a := by
  rw [← g.zero_add b, ← g.neg_add_self a, g.add_assoc, h, g.add_zero]
theorem neg_neg (a : α) : H.neg (H.neg a) = a := (g.eq_neg (g.neg_add_self a)).symm
theorem add_left_comm (a b c : α) : H.add a (H.add b c) = H.add b (H.add a c) := by
  rw [← g.add_assoc, g.add_comm a b, g.add_assoc]
theorem neg_add (a b : α) : H.neg (H.add a b) = H.add (H.neg a) (H.neg b) := by
  refine (g.eq_neg ?_).symm
  rw [g.add_assoc, g.add_left_comm b, g.add_neg, g.add_zero, g.add_neg]
theorem neg_zero : H.neg H.zero = H.zero := by
  have := g.add_neg H.zero
  rwa [g.zero_add] at this
theorem add_neg_cancel (a b : α) : H.add a (H.add (H.neg a) b) = b := by
  rw [← g.add_assoc, g.add_neg, g.zero_add]
theorem sub_self_add (a b : α) : H.add (H.add b a) (H.neg b) = a := by
  rw [g.add_comm b a, g.add_assoc, g.add_neg, g.add_zero]

/-- Party 0 has the control bit. -/
theorem share_left (a b c : α) : H.add (H.add a (H.sub c a)) (H.neg b) = H.sub c b := by
  rw [g.sub_eq, g.sub_eq, g.add_comm c, g.add_neg_cancel]

/-- Party 1 has the control bit. -/
theorem share_right (a b c : α) : H.add a (H.neg (H.add b (H.neg (H.sub c a)))) = H.sub c b := by
  rw [g.neg_add, g.neg_neg, g.sub_eq, g.sub_eq, g.add_comm (H.neg b), g.add_comm c (H.neg a),
    g.add_assoc, g.add_neg_cancel]

end Helper.IsGroup

namespace Dpf
variable {d : Dpf}

theorem corrList_getD (env : Env) {T : Ty} {k : Nat} (hf : T.bytesRead ≤ 16 * k) (n0 n1 : Node)
    (idx : Nat) (b : T.den) {i : Nat} (hi : i < T.helper.elementsPerBlock) :
    (corrList env T k n0 n1 idx b).getD i T.helper.zero =
      let A := (blockElems env T k n0.seed).getD i T.helper.zero
      let B := (blockElems env T k n1.seed).getD i T.helper.zero
      let C := if i = idx then T.helper.add B b else B
      if n1.ctrl then T.helper.neg (T.helper.sub C A) else T.helper.sub C A := by
  have h0 := (blockElems_ok env hf n0.seed).2
  have h1 := (blockElems_ok env hf n1.seed).2
  have hl := corrList_length env hf n0 n1 idx b
  extract_lets A B C
  rw [getD_eq_getElem _ _ _ (by omega)]
  simp only [corrList, List.getElem_zipWith, List.getElem_set]
  have hA : (blockElems env T k n0.seed)[i]'(by omega) = A := (getD_eq_getElem _ _ _ _).symm
  have hB : (blockElems env T k n1.seed)[i]'(by omega) = B := (getD_eq_getElem _ _ _ _).symm
  have hC : (if idx = i then T.helper.add ((blockElems env T k n1.seed).getD idx T.helper.zero) b
      else (blockElems env T k n1.seed)[i]'(by omega)) = C := by
    by_cases e : idx = i
    · rw [if_pos e, e]; simp only [C]; rw [if_pos e.symm]
    · rw [if_neg e]; simp only [C]; rw [if_neg (fun h => e h.symm), hB]
  rw [hA, hC]

variable {env : Env} {alpha : U128} {T : Nat → Ty} {b : (h : Nat) → (T h).den}
  {seed0 seed1 : U128} {k0 k1 : DpfKey}

/-- The value corrections stored in the keys. -/
def genCorr (d : Dpf) (env : Env) (alpha : U128) (T : Nat → Ty) (b : (h : Nat) → (T h).den)
    (k0 k1 : DpfKey) (h : Nat) : List (T h).den :=
  corrList env (T h) (d.blocksAt h)
    (nodeAt env k0 (d.treeAt h) (alpha.toNat / 2 ^ (d.logAt (d.n - 1) - d.treeAt h)))
    (nodeAt env k1 (d.treeAt h) (alpha.toNat / 2 ^ (d.logAt (d.n - 1) - d.treeAt h)))
    (d.alphaIndex alpha h) (b h)

theorem GenOk.valueCorrectionOf1 (g : GenOk d env alpha T b seed0 seed1 k0 k1) (h : Nat) :
    d.valueCorrectionOf k1 h = d.valueCorrectionOf k0 h := by
  unfold valueCorrectionOf; rw [g.cws, g.last]

theorem valuesToArray_map_toValue {T : Ty} {l : List T.den}
    (hl : l.length = T.helper.elementsPerBlock) :
    T.helper.valuesToArray (l.map T.helper.toValue) = ok l := by
  unfold Helper.valuesToArray
  rw [if_neg (by simp [hl]), mapRes_map]
  have := mapRes_eq_ok_map (f := fun x => T.helper.fromValue (T.helper.toValue x)) (g := id) (l := l)
    (fun x _ => T.fromValue_toValue x)
  simpa using this

theorem GenOk.corr0 (g : GenOk d env alpha T b seed0 seed1 k0 k1) {h : Nat} (hh : h < d.n)
    (ht : d.TypedAt h (T h)) :
    d.getValueCorrectionAsArray (T h).helper k0 h = ok (genCorr d env alpha T b k0 k1 h) := by
  rw [getValueCorrection_unfold, g.vc h hh, bind_ok]
  exact valuesToArray_map_toValue (corrList_length env ht.fits _ _ _ _)

theorem GenOk.corr1 (g : GenOk d env alpha T b seed0 seed1 k0 k1) {h : Nat} (hh : h < d.n)
    (ht : d.TypedAt h (T h)) :
    d.getValueCorrectionAsArray (T h).helper k1 h = ok (genCorr d env alpha T b k0 k1 h) := by
  rw [getValueCorrection_unfold, g.valueCorrectionOf1, g.vc h hh, bind_ok]
  exact valuesToArray_map_toValue (corrList_length env ht.fits _ _ _ _)

theorem WF.log_le_last (wf : d.WF) {h : Nat} (hh : h < d.n) : d.logAt h ≤ d.logAt (d.n - 1) := by
  rcases Nat.lt_or_ge h (d.n - 1) with h1 | h1
  · exact Nat.le_of_lt (wf.log_asc h (d.n - 1) h1 (by omega))
  · have : h = d.n - 1 := by omega
    rw [this]; omega

/-- Shares add up. -/
theorem GenOk.share_sum (wf : d.WF) (g : GenOk d env alpha T b seed0 seed1 k0 k1) {h : Nat}
    (hh : h < d.n) (ht : d.TypedAt h (T h)) {x : Nat} (hx : x < 2 ^ d.logAt h) :
    (T h).helper.add (d.share env (T h) k0 h (genCorr d env alpha T b k0 k1 h) x)
      (d.share env (T h) k1 h (genCorr d env alpha T b k0 k1 h) x) =
    if x = alpha.toNat / 2 ^ (d.logAt (d.n - 1) - d.logAt h) then b h else (T h).helper.zero := by
  have G := (T h).helper_isGroup
  have hll := wf.log_le_last hh
  have htl := wf.tree_le h
  have hneed := wf.tree_lt_needed hh
  have hgap : d.gapAt h = d.logAt h - d.treeAt h := rfl
  have hP : alpha.toNat / 2 ^ (d.logAt (d.n - 1) - d.logAt h) / 2 ^ d.gapAt h =
      alpha.toNat / 2 ^ (d.logAt (d.n - 1) - d.treeAt h) := by
    rw [Nat.div_div_eq_div_mul, ← Nat.pow_add]; congr 2; omega
  unfold share
  simp only [correct, g.party0, g.party1]
  by_cases hy : x / 2 ^ d.gapAt h = alpha.toNat / 2 ^ (d.logAt (d.n - 1) - d.treeAt h)
  · have hon := g.on (d.treeAt h) hneed
    have hcr := corrList_getD env ht.fits
      (nodeAt env k0 (d.treeAt h) (alpha.toNat / 2 ^ (d.logAt (d.n - 1) - d.treeAt h)))
      (nodeAt env k1 (d.treeAt h) (alpha.toNat / 2 ^ (d.logAt (d.n - 1) - d.treeAt h)))
      (d.alphaIndex alpha h) (b h) (ht.mod_lt x)
    rw [hy, genCorr, hcr]
    have hiff : x = alpha.toNat / 2 ^ (d.logAt (d.n - 1) - d.logAt h) ↔
        x % 2 ^ d.gapAt h = d.alphaIndex alpha h := by
      constructor
      · intro e; rw [e]; rfl
      · intro e
        rw [← Nat.div_add_mod x (2 ^ d.gapAt h), hy, e, ← hP, alphaIndex, Nat.div_add_mod]
    have hfin : ∀ B : (T h).den, (T h).helper.sub (if x % 2 ^ d.gapAt h = d.alphaIndex alpha h then
        (T h).helper.add B (b h) else B) B =
        if x = alpha.toNat / 2 ^ (d.logAt (d.n - 1) - d.logAt h) then b h
        else (T h).helper.zero := by
      intro B
      rw [G.sub_eq]
      by_cases e : x % 2 ^ d.gapAt h = d.alphaIndex alpha h
      · rw [if_pos e, if_pos (hiff.mpr e), G.sub_self_add]
      · rw [if_neg e, if_neg (fun h => e (hiff.mp h)), G.add_neg]
    generalize nodeAt env k0 (d.treeAt h) (alpha.toNat / 2 ^ (d.logAt (d.n - 1) - d.treeAt h)) = n0
      at hon ⊢
    generalize nodeAt env k1 (d.treeAt h) (alpha.toNat / 2 ^ (d.logAt (d.n - 1) - d.treeAt h)) = n1
      at hon ⊢
    rw [← hfin]
    cases h0 : n0.ctrl <;> cases h1 : n1.ctrl
    · simp [h0, h1] at hon
    · simp only [if_true, if_false, Bool.false_eq_true, if_neg (show ¬ (0 : Int) = 1 by decide)]
      rw [G.share_right]
    · simp only [if_true, if_false, Bool.false_eq_true, if_neg (show ¬ (0 : Int) = 1 by decide)]
      rw [G.share_left]
    · simp [h0, h1] at hon
  · have hylt : x / 2 ^ d.gapAt h < 2 ^ d.treeAt h := by
      rw [Nat.div_lt_iff_lt_mul (Nat.two_pow_pos _), ← Nat.pow_add]
      rw [show d.treeAt h + d.gapAt h = d.logAt h by omega]; exact hx
    rw [g.off (d.treeAt h) hneed _ hylt hy, if_neg (show ¬ x = _ from fun e => hy (by rw [e, hP]))]
    simp only [if_true, if_neg (show ¬ (0 : Int) = 1 by decide), G.add_neg]

/-- Generated keys are accepted. -/
theorem GenOk.keyOk (wf : d.WF) (ht : ∀ h, h < d.n → d.TypedAt h (T h))
    (g : GenOk d env alpha T b seed0 seed1 k0 k1) : d.KeyOk k0 ∧ d.KeyOk k1 := by
  have hpos := wf.pos
  have hel : ∀ h, h < d.n → 0 < (T h).helper.elementsPerBlock := by
    intro h hh
    exact Nat.lt_of_lt_of_le (Nat.two_pow_pos _) (ht h hh).elems
  have hvc : ∀ h, h < d.n → ∀ vs, d.valueCorrectionOf k0 h = ok vs → vs ≠ [] := by
    intro h hh vs e
    rw [g.vc h hh] at e
    simp only [ok.injEq] at e
    intro h0
    have : vs.length = (T h).helper.elementsPerBlock := by
      rw [← e, List.length_map, corrList_length env (ht h hh).fits]
    have := hel h hh
    rw [h0] at *
    simp at *
    omega
  have hlast : k0.lastLevelValueCorrection ≠ [] := by
    refine hvc (d.n - 1) (by omega) _ ?_
    unfold valueCorrectionOf
    rw [if_neg (by unfold n; unfold n at hpos; omega)]
  have hv : ∀ h, h + 1 < d.n → ∀ cw, k0.correctionWords[d.treeAt h]? = some cw →
      cw.valueCorrection ≠ [] := by
    intro h hh cw hcw
    refine hvc h (by omega) _ ?_
    unfold valueCorrectionOf
    rw [if_pos (by unfold n at hh; omega), wf.tree_ok (by omega), bind_ok, rd_eq_ok.mpr hcw, bind_ok]
  refine ⟨⟨by simp [g.seed0], hlast, g.len, hv⟩, ⟨by simp [g.seed1], by rw [g.last]; exact hlast,
    by rw [g.cws]; exact g.len, by rw [g.cws]; exact hv⟩⟩

end Dpf
end Verif
