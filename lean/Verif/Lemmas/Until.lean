import Verif.Lemmas.Context
/-! `EvaluateUntil` in terms of the values at points. -/
namespace Verif
open Res Spec

theorem flatMap_length_const {α β : Type} (l : List α) (f : α → List β) {k : Nat}
    (hf : ∀ a, (f a).length = k) : (l.flatMap f).length = l.length * k := by
  induction l with
  | nil => simp
  | cons a l ih => simp [List.flatMap_cons, ih, hf, Nat.add_mul, Nat.add_comm]

theorem slice_flatMap_off {α β : Type} (l : List α) (f : α → List β) {k : Nat}
    (hf : ∀ a, (f a).length = k) {i : Nat} (hi : i < l.length) {off len : Nat} (ho : off + len ≤ k) :
    slice (l.flatMap f) (i * k + off) len = ok (((f l[i]).drop off).take len) := by
  have hb : i * k + k ≤ l.length * k := by
    have := Nat.mul_le_mul_right k (show i + 1 ≤ l.length from hi)
    rw [Nat.add_mul] at this; omega
  rw [slice_eq_ok (by rw [flatMap_length_const l f hf]; omega)]
  congr 1
  have e : l = l.take i ++ l[i] :: l.drop (i + 1) := by
    rw [List.getElem_cons_drop, List.take_append_drop]
  have hl : (((l.take i).flatMap f)).length = i * k := by
    rw [flatMap_length_const _ f hf, List.length_take]; congr 1; omega
  conv => lhs; rw [e]
  rw [List.flatMap_append, List.flatMap_cons, ← List.drop_drop,
    List.drop_left' hl, List.drop_append_of_le_length (by rw [hf]; omega),
    List.take_append_of_le_length (by rw [List.length_drop, hf]; omega)]

namespace Dpf
variable {d : Dpf}

theorem WF.nodeAt_extend (wf : d.WF) (env : Env) {key : DpfKey} (hk : d.KeyOk key) {h t0 : Nat}
    (hh : h < d.n) (ht : t0 ≤ d.treeAt h) (x : Nat) {s : Nat} (hs : s < 2 ^ (d.treeAt h - t0)) :
    walk (dpfPrg env) ((key.correctionWords.drop t0).take (d.treeAt h - t0)) s (nodeAt env key t0 x) =
      nodeAt env key (d.treeAt h) (x * 2 ^ (d.treeAt h - t0) + s) := by
  have hl := wf.tree_le_cws hk hh
  have := walk_split (dpfPrg env) key.correctionWords ht hl (x * 2 ^ (d.treeAt h - t0) + s) (root key)
  rw [Nat.mul_comm x, Nat.mul_add_div (Nat.two_pow_pos _), Nat.div_eq_of_lt hs, Nat.add_zero] at this
  rw [nodeAt, nodeAt, Nat.mul_comm x, ← this]
  apply walk_congr
  intro i hi
  have hi' : i < d.treeAt h - t0 := by
    simp at hi; omega
  rw [Nat.testBit_two_pow_mul_add _ hs, if_pos hi']

/-- First expansion. -/
theorem WF.expand_first (wf : d.WF) (env : Env) {key : DpfKey} {ctx : EvaluationContext}
    (hc : d.CtxOk env key ctx) {h : Nat} (hh : h < d.n) (hfit : d.treeAt h < 64) :
    d.expandAndUpdateContext env h [] ctx =
      ok (.ofNodes ((List.range (2 ^ d.treeAt h)).map fun y => nodeAt env key (d.treeAt h) y),
        { ctx with previousHierarchyLevel := h }) := by
  have hl := wf.tree_le_cws hc.keyOk hh
  unfold expandAndUpdateContext
  rw [if_pos rfl, bind_ok]
  dsimp only
  rw [wf.tree_ok hh, bind_ok, hc.keyD, subspan_ok _ (Nat.zero_le _) (Nat.zero_le _), bind_ok]
  have e : (⟨[key.seedBlock], [decide (key.party ≠ 0)]⟩ : DpfExpansion) = .ofNodes [root key] := rfl
  rw [e, expandSeeds_ofNodes _ _ _ (by
    have := Nat.pow_lt_pow_right (a := 2) (by decide) hfit
    simpa [Nat.min_eq_left hl] using this), bind_ok]
  simp only [List.drop_zero, Nat.sub_zero, List.flatMap_cons, List.flatMap_nil, List.append_nil,
    List.length_take, Nat.min_eq_left hl]
  rfl

/-- Later expansions. -/
theorem WF.expand_next (wf : d.WF) (env : Env) {key : DpfKey} {ctx : EvaluationContext}
    (hc : d.CtxOk env key ctx) {h prev : Nat} (hh : h < d.n)
    (hprev : ctx.previousHierarchyLevel = prev) (hlt : prev < h) {prefixes : List U128}
    (hne : prefixes ≠ [])
    (hcov : ctx.partialEvaluations = [] ∨
      d.treeAt prev < d.treeAt ctx.partialEvaluationsLevel.toNat ∨
      Covered ctx.partialEvaluations prefixes
        (d.treeAt prev - d.treeAt ctx.partialEvaluationsLevel.toNat)) :
    d.expandAndUpdateContext env h prefixes ctx =
      if prefixes.length * 2 ^ (d.treeAt h - d.treeAt prev) < 2 ^ 64 then
      ok (.ofNodes (prefixes.flatMap fun x =>
          (List.range (2 ^ (d.treeAt h - d.treeAt prev))).map fun s =>
            nodeAt env key (d.treeAt h) (x.toNat * 2 ^ (d.treeAt h - d.treeAt prev) + s)),
        { ctx with
          partialEvaluations := if decide ((h : Int) < (d.pv.parameters.length : Int) - 1) then
            partialsAt env key (d.treeAt prev) prefixes else []
          partialEvaluationsLevel := prev
          previousHierarchyLevel := h })
      else ub := by
  have hl := wf.tree_le_cws hc.keyOk hh
  have hasc := wf.tree_asc prev h hlt hh
  have hn : (prev : Int) < d.n := by omega
  unfold expandAndUpdateContext
  rw [if_neg hne]
  dsimp only
  rw [wf.computePartialEvaluations_ok env hc (h := ctx.previousHierarchyLevel) (by omega)
    (by omega) prefixes _ (by rw [hprev]; exact hcov), bind_ok]
  dsimp only
  rw [hprev, rdInt_natCast, wf.tree_ok (by omega), bind_ok, bind_ok]
  dsimp only
  rw [wf.tree_ok hh, bind_ok]
  have hkd : ∀ a b, (EvaluationContext.mk ctx.parameters ctx.key (prev : Int) a b).keyD = key := by
    intro a b; simp [EvaluationContext.keyD, hc.key_eq]
  rw [hkd, subspan_ok _ (by omega) (by omega), bind_ok]
  have hcl : (List.take (d.treeAt h - d.treeAt prev)
    (List.drop (d.treeAt prev) key.correctionWords)).length = d.treeAt h - d.treeAt prev := by
      simp; omega
  by_cases hfit : prefixes.length * 2 ^ (d.treeAt h - d.treeAt prev) < 2 ^ 64
  rotate_left
  · rw [expandSeeds_ub _ _ _ (by rw [hcl, List.length_map]; exact hfit), if_neg hfit]; rfl
  rw [if_pos hfit, expandSeeds_ofNodes _ _ _ (by rw [hcl, List.length_map]; exact hfit), bind_ok]
  simp only [Int.toNat_natCast]
  congr 3
  rw [List.flatMap_map]
  congr 1
  funext x
  rw [show (List.take (d.treeAt h - d.treeAt prev)
    (List.drop (d.treeAt prev) key.correctionWords)).length = d.treeAt h - d.treeAt prev by
      simp; omega]
  apply List.map_congr_left
  intro s hs
  simp only [List.mem_range] at hs
  exact wf.nodeAt_extend env hc.keyOk hh (by omega) x.toNat hs

/-- The values of the blocks `ys` of a level. -/
def blockValues (d : Dpf) (env : Env) (T : Ty) (key : DpfKey) (h : Nat) (corr : List T.den)
    (ys : List Nat) : List T.den :=
  ys.flatMap fun y => (List.range (2 ^ d.gapAt h)).map fun j =>
    d.share env T key h corr (y * 2 ^ d.gapAt h + j)

theorem share_block (env : Env) (T : Ty) (key : DpfKey) (h : Nat) (corr : List T.den) (y : Nat)
    {j : Nat} (hj : j < 2 ^ d.gapAt h) : d.share env T key h corr (y * 2 ^ d.gapAt h + j) =
      correct T.helper corr key.party (nodeAt env key (d.treeAt h) y).ctrl j
        ((blockElems env T (d.blocksAt h) (nodeAt env key (d.treeAt h) y).seed).getD j T.helper.zero) := by
  unfold share
  rw [Nat.mul_comm y, Nat.mul_add_div (Nat.two_pow_pos _), Nat.div_eq_of_lt hj, Nat.add_zero,
    Nat.mul_add_mod, Nat.mod_eq_of_lt hj]

theorem correctBlock_ok (env : Env) {key : DpfKey} {h : Nat} {T : Ty}
    (ht : d.TypedAt h T) {corr : List T.den} (hcl : corr.length = T.helper.elementsPerBlock)
    (seeds : List U128) {i : Nat} (hi : i < seeds.length) (ctrl : Bool) :
    correctBlock T.helper (seeds.flatMap fun s => (iota s (d.blocksAt h)).map (hash env kPrgKeyValue))
      (d.blocksAt h) corr key.party (2 ^ d.gapAt h) i ctrl =
    ok ((List.range (2 ^ d.gapAt h)).map fun j => correct T.helper corr key.party ctrl j
      ((blockElems env T (d.blocksAt h) seeds[i]).getD j T.helper.zero)) := by
  unfold correctBlock
  rw [WF.slice_hashed env _ hi, bind_ok]
  obtain ⟨e1, e2⟩ := blockElems_ok env ht.fits seeds[i]
  rw [seedBytes] at e1
  rw [e1, bind_ok]
  apply mapRes_eq_ok_map
  intro j hj
  simp only [List.mem_range] at hj
  have hel : 2 ^ d.gapAt h ≤ T.helper.elementsPerBlock := ht.elems
  rw [rd_getD (by omega) T.helper.zero, bind_ok, rd_getD (by omega) T.helper.zero]
  unfold correct
  cases ctrl <;> simp

theorem WF.finishUntil_eq (wf : d.WF) (env : Env) {key : DpfKey} {h : Nat} (hh : h < d.n)
    {T : Ty} (ht : d.TypedAt h T) (gap : Nat) (prefixes : List U128) (ti : List U128)
    (pm : List (Nat × Nat)) (ys : List Nat) :
    d.finishUntil env T.helper h gap prefixes ti pm key
      (.ofNodes (ys.map fun y => nodeAt env key (d.treeAt h) y)) =
    (d.getValueCorrectionAsArray T.helper key h >>= fun corr =>
      if prefixes = [] then ok (d.blockValues env T key h corr ys)
      else mapRes (fun (pm : Nat × Nat) =>
        let start : Int := pm.1 * ((ys.length / ti.length : Nat) : Int).bmod (2 ^ 32) * 2 ^ d.gapAt h +
          pm.2 * 2 ^ gap
        if start < 0 then ub
        else slice (d.blockValues env T key h corr ys) start.toNat (2 ^ gap)) pm >>= fun parts =>
        ok parts.flatten) := by
  have hg := wf.gap_le h
  unfold finishUntil
  rw [wf.hashExpandedSeeds_ok hh, bind_ok]
  cases hc : d.getValueCorrectionAsArray T.helper key h with
  | ok corr =>
    rw [bind_ok, bind_ok, wf.blockIndexBits_ok hh, bind_ok]
    rw [if_neg (show ¬ ((d.gapAt h : Int) < 0 ∨ (d.gapAt h : Int) ≥ 31) by omega)]
    dsimp only
    rw [wf.blocks_ok hh, bind_ok, Int.toNat_natCast]
    have hlen : (DpfExpansion.ofNodes (ys.map fun y => nodeAt env key (d.treeAt h) y)).controlBits.length =
        ys.length := by simp [DpfExpansion.ofNodes]
    rw [hlen]
    have hblocks : mapRes (fun i => rd (DpfExpansion.ofNodes (ys.map fun y =>
          nodeAt env key (d.treeAt h) y)).controlBits i >>= fun a =>
        correctBlock T.helper ((DpfExpansion.ofNodes (ys.map fun y =>
          nodeAt env key (d.treeAt h) y)).seeds.flatMap fun s =>
            (iota s (d.blocksAt h)).map (hash env kPrgKeyValue))
          (d.blocksAt h) corr key.party (2 ^ d.gapAt h) i a) (List.range ys.length) =
        ok (ys.map fun y => (List.range (2 ^ d.gapAt h)).map fun j =>
          d.share env T key h corr (y * 2 ^ d.gapAt h + j)) := by
      rw [← range_map_getD ys 0 (fun y => (List.range (2 ^ d.gapAt h)).map fun j =>
          d.share env T key h corr (y * 2 ^ d.gapAt h + j))]
      apply mapRes_eq_ok_map
      intro i hi
      simp only [List.mem_range] at hi
      rw [rd_lt (by rw [hlen]; exact hi), bind_ok,
        correctBlock_ok env ht (getValueCorrection_length hc) _ (by simpa [DpfExpansion.ofNodes] using hi)]
      congr 1
      apply List.map_congr_left
      intro j hj
      simp only [List.mem_range] at hj
      rw [share_block env T key h corr _ hj]
      simp [DpfExpansion.ofNodes, List.getD, hi]
    rw [hblocks, bind_ok]
    have hf : (ys.map fun y => (List.range (2 ^ d.gapAt h)).map fun j =>
          d.share env T key h corr (y * 2 ^ d.gapAt h + j)).flatten = d.blockValues env T key h corr ys := by
      rw [blockValues, List.flatMap_def]
    rw [hf]
    split
    · rfl
    · have e : ((2 ^ d.gapAt h : Nat) : Int) = 2 ^ d.gapAt h := by rw [Int.natCast_pow]; rfl
      simp only [e]
  | err c => rfl
  | ub => rfl
  | crash => rfl

end Dpf
end Verif
