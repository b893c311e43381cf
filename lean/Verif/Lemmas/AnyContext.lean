import Verif.Lemmas.Safe
import Verif.Lemmas.History
/-! Evaluation of arbitrary contexts is safe if the stored level is a level. -/
namespace Verif
open Res Spec
namespace Dpf
variable {d : Dpf}

theorem rd_safe {α : Type} {l : List α} {i : Nat} (h : i < l.length) : Safe (rd l i) := by
  rw [rd_lt h]; exact .ok _

theorem partialsMap_cases (pes : List PartialEvaluation) : OkOrInvalid (partialsMap pes) := by
  apply foldRes_cases
  intro m pe
  split
  · split
    · exact .ok _
    · exact Or.inr rfl
  · exact .ok _

theorem selectPartial_cases (m : List (U128 × (U128 × Bool))) (gap : Nat) (x : U128) :
    OkOrInvalid (selectPartial m (gap : Int) x) := by
  have : selectPartial m (gap : Int) x =
      ((if (gap : Int) < 128 then shr128 x gap else ok 0) >>= fun prev =>
        match m.lookup prev with
        | some v => ok v
        | none => err .invalidArgument) := by
    unfold selectPartial; split <;> rfl
  rw [this]
  refine OkOrInvalid.bind ?_ fun _ _ => ?_
  · split
    · rw [shr128_ok (by omega)]; exact .ok _
    · exact .ok _
  · split
    · exact .ok _
    · exact Or.inr rfl

theorem WF.computePartialEvaluations_any (wf : d.WF) (env : Env) {ctx : EvaluationContext}
    (hk : d.KeyOk ctx.keyD) (hpl : 0 ≤ ctx.partialEvaluationsLevel ∧ ctx.partialEvaluationsLevel < d.n)
    {h : Nat} (hh : h < d.n) (prefixes : List U128) (upd : Bool) :
    (∃ ns ctx', d.computePartialEvaluations env prefixes h upd ctx = ok (.ofNodes ns, ctx') ∧
      ns.length = prefixes.length ∧ ctx'.key = ctx.key ∧
      ctx'.previousHierarchyLevel = ctx.previousHierarchyLevel) ∨
    d.computePartialEvaluations env prefixes h upd ctx = err .invalidArgument := by
  unfold computePartialEvaluations
  rw [wf.treeInt_ok hpl.1 hpl.2, bind_ok, wf.treeInt_ok (by omega) (by omega), bind_ok, Int.toNat_natCast]
  have htl := wf.tree_le_cws hk hh
  have hint := fun s => wf.take_int (α := CorrectionWord) h s
  generalize d.treeAt h = t at *
  generalize d.treeAt ctx.partialEvaluationsLevel.toNat = s at *
  have hstart : (∃ s0 ns, s0 ≤ t ∧ startPartials prefixes s t ctx = ok (.ofNodes ns, s0) ∧
      ns.length = prefixes.length) ∨ startPartials prefixes s t ctx = err .invalidArgument := by
    unfold startPartials
    split
    · rename_i hc
      rcases partialsMap_cases ctx.partialEvaluations with ⟨m, hm⟩ | hm
      · rw [hm, bind_ok, show ((t : Int) - s) = ((t - s : Nat) : Int) by omega]
        rcases OkOrInvalid.mapRes_unit (f := selectPartial m ((t - s : Nat) : Int)) (l := prefixes)
          (fun x _ => selectPartial_cases m (t - s) x) with ⟨sel, hsel⟩ | hsel
        · left
          refine ⟨s, sel.map fun p => ⟨p.1, p.2⟩, hc.2, ?_, ?_⟩
          · rw [hsel, bind_ok]
            simp only [DpfExpansion.ofNodes, List.map_map]
            congr 1
          · rw [List.length_map]; exact mapRes_length hsel
        · right; rw [hsel]; rfl
      · right; rw [hm]; rfl
    · left
      refine ⟨0, prefixes.map fun _ => root ctx.keyD, by omega, ?_, by simp⟩
      simp only [DpfExpansion.ofNodes, List.map_map]
      congr 1
      simp only [Prod.mk.injEq, DpfExpansion.mk.injEq, and_true]
      constructor <;> apply List.ext_getElem <;> simp [root]
  rcases hstart with ⟨s0, ns, hs0, hst, hlen⟩ | hst
  rotate_left
  · right; rw [hst]; rfl
  left
  rw [hst, bind_ok]
  dsimp only
  rw [subspan_ok _ (by omega) hs0, bind_ok, evaluateSeeds_ofNodes _ _ _ _ hlen.symm (hint _ _), bind_ok]
  exact ⟨_, _, rfl, by simp [hlen], rfl, rfl⟩

/-- The value of every block. -/
theorem WF.finishUntil_safe (wf : d.WF) (env : Env) {key : DpfKey} (hk : d.KeyOk key) {h : Nat}
    (hh : h < d.n) {T : Ty} (ht : d.TypedAt h T) (gap : Nat) (prefixes ti : List U128)
    (pm : List (Nat × Nat)) (ns : List Node)
    (hpm : prefixes ≠ [] → ∀ p ∈ pm, 0 ≤ (p.1 : Int) * ((ns.length / ti.length : Nat) : Int).bmod (2 ^ 32) *
        ((2 ^ d.gapAt h : Nat) : Int) + (p.2 : Int) * 2 ^ gap ∧
      ((p.1 : Int) * ((ns.length / ti.length : Nat) : Int).bmod (2 ^ 32) *
        ((2 ^ d.gapAt h : Nat) : Int) + (p.2 : Int) * 2 ^ gap).toNat + 2 ^ gap ≤
        ns.length * 2 ^ d.gapAt h) :
    Safe (d.finishUntil env T.helper h gap prefixes ti pm key (.ofNodes ns)) := by
  have hg := wf.gap_le h
  unfold finishUntil
  rw [wf.hashExpandedSeeds_ok hh, bind_ok]
  refine (OkOrInvalid.safe (wf.getValueCorrection_cases hk hh T)).bind fun corr hc => ?_
  rw [wf.blockIndexBits_ok hh, bind_ok]
  rw [if_neg (show ¬ ((d.gapAt h : Int) < 0 ∨ (d.gapAt h : Int) ≥ 31) by omega)]
  dsimp only
  rw [wf.blocks_ok hh, bind_ok, Int.toNat_natCast]
  have hlen : (DpfExpansion.ofNodes ns).controlBits.length = ns.length := by
    simp [DpfExpansion.ofNodes]
  rw [hlen]
  have hblocks : ∃ bs : List (List T.den), mapRes (fun i => rd (DpfExpansion.ofNodes ns).controlBits i >>= fun a =>
      correctBlock T.helper ((DpfExpansion.ofNodes ns).seeds.flatMap fun s =>
          (iota s (d.blocksAt h)).map (hash env kPrgKeyValue))
        (d.blocksAt h) corr key.party (2 ^ d.gapAt h) i a) (List.range ns.length) = ok bs ∧
      bs.flatten.length = ns.length * 2 ^ d.gapAt h := by
    refine ⟨(List.range ns.length).map fun i => (List.range (2 ^ d.gapAt h)).map fun j =>
      correct T.helper corr key.party ((DpfExpansion.ofNodes ns).controlBits.getD i false) j
        ((blockElems env T (d.blocksAt h) ((DpfExpansion.ofNodes ns).seeds.getD i 0)).getD j
          T.helper.zero), ?_, ?_⟩
    · apply mapRes_eq_ok_map
      intro i hi
      simp only [List.mem_range] at hi
      have hi2 : i < (DpfExpansion.ofNodes ns).seeds.length := by simpa [DpfExpansion.ofNodes] using hi
      rw [rd_getD (by rw [hlen]; exact hi) false, bind_ok,
        correctBlock_ok env ht (getValueCorrection_length hc) _ hi2]
      simp [List.getD, hi2]
    · rw [← List.flatMap_def, flatMap_length_const _ _ (k := 2 ^ d.gapAt h) (by simp), List.length_range]
  obtain ⟨bs, hb, hbl⟩ := hblocks
  rw [hb, bind_ok]
  split
  · exact .ok _
  · rename_i hne
    refine Safe.bind ?_ fun _ _ => .ok _
    apply mapRes_safe
    intro p hp
    obtain ⟨h0, h1⟩ := hpm hne p hp
    rw [if_neg (by omega), slice_eq_ok (by rw [hbl]; exact h1)]
    exact .ok _

theorem WF.finishAt_safe (wf : d.WF) (env : Env) {key : DpfKey} (hk : d.KeyOk key) {h : Nat}
    (hh : h < d.n) {T : Ty} (ht : d.TypedAt h T) (points ti : List U128) (ns : List Node)
    (hlen : ns.length = points.length) (hti : ti.length = points.length) {start : Nat}
    (hs : start ≤ d.treeAt h) :
    Safe (d.finishAt env T.helper key h points ti (.ofNodes ns) start) := by
  have hl := hk.len
  have htn := wf.tree_lt_needed hh
  unfold finishAt
  rw [wf.tree_ok hh, bind_ok, subspan_ok _ (by omega) hs, bind_ok,
    evaluateSeeds_ofNodes _ _ _ _ (by omega) (wf.take_int _ _ _), bind_ok]
  generalize hm : List.zipWith (fun n (x : U128) => walk (dpfPrg env)
    (List.take (d.treeAt h - start) (List.drop start key.correctionWords)) x.toNat n) ns ti = ms
  have hml : ms.length = points.length := by rw [← hm]; simp; omega
  rw [wf.hashExpandedSeeds_ok hh, bind_ok]
  refine (OkOrInvalid.safe (wf.getValueCorrection_cases hk hh T)).bind fun corr hc => ?_
  rw [wf.blocks_ok hh, bind_ok]
  have hcl := getValueCorrection_length hc
  apply mapRes_safe
  intro i hi
  simp only [List.mem_range] at hi
  have hi2 : i < (DpfExpansion.ofNodes ms).seeds.length := by simp [DpfExpansion.ofNodes]; omega
  have hi3 : i < (DpfExpansion.ofNodes ms).controlBits.length := by simp [DpfExpansion.ofNodes]; omega
  rw [WF.slice_hashed env _ hi2, bind_ok]
  obtain ⟨e1, e2⟩ := blockElems_ok env ht.fits (DpfExpansion.ofNodes ms).seeds[i]
  rw [seedBytes] at e1
  rw [e1, bind_ok]
  have tail : ∀ b, b < T.helper.elementsPerBlock →
      Safe (rd (blockElems env T (d.blocksAt h) (DpfExpansion.ofNodes ms).seeds[i]) b >>= fun e =>
      rd (DpfExpansion.ofNodes ms).controlBits i >>= fun c =>
      if c = true then (rd corr b >>= fun y => ok (T.helper.add e y) >>= fun e =>
          ok (if key.party = 1 then T.helper.neg e else e))
        else (ok e >>= fun e => ok (if key.party = 1 then T.helper.neg e else e))) := by
    intro b hb
    refine (rd_safe (by omega)).bind fun e _ => (rd_safe hi3).bind fun c _ => ?_
    split
    · exact (rd_safe (by omega)).bind fun _ _ => .ok _
    · exact .ok _
  dsimp only
  split
  · rw [rd_lt hi, bind_ok, wf.domainToBlockIndex_ok hh, bind_ok]
    exact tail _ (ht.mod_lt _)
  · rw [bind_ok]
    have := ht.elems
    exact tail 0 (Nat.lt_of_lt_of_le (Nat.two_pow_pos _) ht.elems)

theorem keep_safe {α β κ : Type} {x : Res α} {c : κ} {f : α → Res β × κ} (hx : Safe x)
    (hf : ∀ a, x = ok a → Safe (f a).1) : Safe (keep x c f).1 := by
  cases x with
  | ok a => exact hf a rfl
  | err c => exact .err c
  | ub => exact absurd rfl hx.1
  | crash => exact absurd rfl hx.2

theorem WF.evaluateAtCtx_safe (wf : d.WF) (env : Env) {ctx : EvaluationContext}
    (hpl : 0 ≤ ctx.partialEvaluationsLevel ∧ ctx.partialEvaluationsLevel < d.n) {T : Nat → Ty}
    (ht : ∀ h, h < d.n → d.TypedAt h (T h)) (h : Int) (points : List U128) :
    Safe (d.evaluateAtCtx env (T h.toNat).helper h points ctx).1 := by
  unfold evaluateAtCtx
  rcases wf.checkEvaluateAt_cases ctx.keyD h points with ⟨hN, rfl, hh, hk, hp⟩ | he
  rotate_left
  · rw [he]; exact .err _
  rw [wf.checkEvaluateAt_ok hk hh hp, keep_ok]
  split
  · exact .ok _
  obtain ⟨ti, h1, h2⟩ := treeIndicesFor_cases wf (T (hN : Int).toNat).helper hh points
  rw [h1, keep_ok]
  rcases wf.computePartialEvaluations_any env hk hpl hh ti true with ⟨ns, ctx', e, hl, hkey, _⟩ | e
  · rw [e, keep_ok]
    dsimp only
    rw [wf.tree_ok hh, keep_ok]
    have hkd : ctx'.keyD = ctx.keyD := by simp [EvaluationContext.keyD, hkey]
    rw [hkd]
    have hT : d.TypedAt hN (T (hN : Int).toNat) := by rw [Int.toNat_natCast]; exact ht hN hh
    exact keep_safe (wf.finishAt_safe env hk hh hT points ti ns (by omega) h2 (Nat.le_refl _))
      fun _ _ => .ok _
  · rw [e]; exact .err _

theorem WF.evaluateUntil_safe (wf : d.WF) (env : Env) {ctx : EvaluationContext}
    (hk : d.KeyOk ctx.keyD)
    (hpl : 0 ≤ ctx.partialEvaluationsLevel ∧ ctx.partialEvaluationsLevel < d.n) {T : Ty} {h : Nat}
    (hh : h < d.n) (ht : d.TypedAt h T) {prefixes : List U128}
    (ha : d.UntilArgs T.helper.toValueType h prefixes ctx)
    (htr : d.NoTrunc ctx.previousHierarchyLevel.toNat h prefixes) :
    Safe (d.evaluateUntil env T.helper h prefixes ctx).1 := by
  have hl := wf.tree_le_cws hk hh
  unfold evaluateUntil
  rw [wf.checkEvaluateUntil_ok T.helper ha, keep_ok]
  dsimp only
  rw [Int.toNat_natCast]
  by_cases hne : prefixes = []
  · subst hne
    have e : d.dedupPrefixes ctx.previousHierarchyLevel.toNat [] = ok ([], []) := rfl
    rw [e, keep_ok]
    dsimp only
    have e2 : d.expandAndUpdateContext env h [] ctx =
        ok (.ofNodes ((List.range (2 ^ d.treeAt h)).map fun s =>
          walk (dpfPrg env) (ctx.keyD.correctionWords.take (d.treeAt h)) s (root ctx.keyD)),
          { ctx with previousHierarchyLevel := h }) := by
      unfold expandAndUpdateContext
      rw [if_pos rfl, bind_ok]
      dsimp only
      have := subspan_ok ctx.keyD.correctionWords (a := 0) (b := d.treeAt h) (by omega) (by omega)
      rw [wf.tree_ok hh, bind_ok, this, bind_ok]
      have hroot : (⟨[ctx.keyD.seedBlock], [decide (ctx.keyD.party ≠ 0)]⟩ : DpfExpansion) =
        .ofNodes [root ctx.keyD] := rfl
      rw [hroot, expandSeeds_ofNodes _ _ _ (by
        have := Nat.pow_lt_pow_right (a := 2) (by decide) (wf.treeAt_first ha)
        simpa [Nat.min_eq_left hl] using this), bind_ok]
      simp only [List.flatMap_cons, List.flatMap_nil, List.append_nil, List.drop_zero, Nat.sub_zero,
        List.length_take]
      rw [Nat.min_eq_left hl]
    rw [e2, keep_ok]
    exact wf.finishUntil_safe env hk hh ht _ _ _ _ _ (by simp)
  · obtain ⟨prev, hprev⟩ : ∃ prev : Nat, ctx.previousHierarchyLevel = prev := by
      refine ⟨ctx.previousHierarchyLevel.toNat, ?_⟩
      have : ¬ ctx.previousHierarchyLevel < 0 := fun h => hne (ha.first.mp h)
      omega
    have hlt : prev < h := by have := ha.later; omega
    have hpl' : d.prevLog ctx = d.logAt prev := by
      unfold prevLog; rw [hprev, if_neg (by omega)]; rfl
    rw [hprev, Int.toNat_natCast] at htr
    rw [hprev, Int.toNat_natCast]
    obtain ⟨ti, hd, hmem, hnd⟩ := wf.dedupPrefixes_ok (h := prev) (by omega) prefixes
    rw [hd, keep_ok]
    dsimp only
    have htne : ti ≠ [] := by
      obtain ⟨x, hx⟩ := List.exists_mem_of_ne_nil _ hne
      exact List.ne_nil_of_mem ((hmem _).mpr ⟨x, hx, rfl⟩)
    have hasc := wf.tree_asc prev h hlt hh
    have hex : (∃ ns ctx', d.expandAndUpdateContext env h ti ctx = ok (.ofNodes ns, ctx') ∧
        ns.length = ti.length * 2 ^ (d.treeAt h - d.treeAt prev) ∧ ctx'.key = ctx.key) ∨
        d.expandAndUpdateContext env h ti ctx = err .invalidArgument := by
      unfold expandAndUpdateContext
      rw [if_neg htne]
      dsimp only
      rw [hprev]
      rcases wf.computePartialEvaluations_any env hk hpl (h := prev) (by omega) ti
        (decide ((h : Int) < (d.pv.parameters.length : Int) - 1)) with ⟨ns, ctx', e, hl', hkey, hpr⟩ | e
      · left
        rw [e, bind_ok]
        dsimp only
        have hkd : ctx'.keyD = ctx.keyD := by simp [EvaluationContext.keyD, hkey]
        rw [hpr, hprev, rdInt_natCast, wf.tree_ok (by omega), bind_ok, bind_ok]
        dsimp only
        rw [wf.tree_ok hh, bind_ok, hkd, subspan_ok _ (by omega) (by omega), bind_ok,
          expandSeeds_ofNodes _ _ _ (by
            have h1 := htr.fits ti hnd fun y hy => (hmem y).mp hy
            rw [hl']
            simpa [Nat.min_eq_left (show d.treeAt h - d.treeAt prev ≤
              ctx.keyD.correctionWords.length - d.treeAt prev by omega)] using h1),
          bind_ok]
        refine ⟨_, _, rfl, ?_, hkey⟩
        rw [flatMap_length_const _ _ (by intro a; rw [List.length_map, List.length_range]), hl']
        congr 2
        simp; omega
      · right; rw [e]; rfl
    rcases hex with ⟨ns, ctx', e, hnl, hkey⟩ | e
    rotate_left
    · rw [e]; exact .err _
    rw [e, keep_ok]
    dsimp only
    have hkd : ctx'.keyD = ctx.keyD := by simp [EvaluationContext.keyD, hkey]
    rw [hkd]
    apply wf.finishUntil_safe env hk hh ht
    intro _ p hp
    simp only [List.mem_map] at hp
    obtain ⟨x, hx, rfl⟩ := hp
    rw [hpl']
    have hxm : x >>> d.gapAt prev ∈ ti := (hmem _).mpr ⟨x, hx, rfl⟩
    have hdiv : ns.length / ti.length = 2 ^ (d.treeAt h - d.treeAt prev) := by
      rw [hnl, Nat.mul_div_cancel_left _ (List.length_pos_iff.mpr htne)]
    rw [hdiv]
    have hlasc := wf.log_asc prev h hlt hh
    have hsum : d.treeAt h - d.treeAt prev + d.gapAt h = d.gapAt prev + (d.logAt h - d.logAt prev) := by
      have := wf.tree_le h
      have := wf.tree_le prev
      unfold gapAt; omega
    have hz : (ti.idxOf (x >>> d.gapAt prev) : Int) *
        ((2 ^ (d.treeAt h - d.treeAt prev) : Nat) : Int).bmod (2 ^ 32) =
        (ti.idxOf (x >>> d.gapAt prev) : Int) * ((2 ^ (d.treeAt h - d.treeAt prev) : Nat) : Int) := by
      rcases htr with ⟨htr, _⟩ | ⟨_, y, hy⟩
      · rw [Int.bmod_eq_of_le]
        · have := Int.natCast_nonneg (2 ^ (d.treeAt h - d.treeAt prev)); omega
        · have : 2 ^ (d.treeAt h - d.treeAt prev) ≤ 2 ^ 30 := Nat.pow_le_pow_right (by decide) (by omega)
          omega
      · have hall : ∀ z ∈ ti, z = y := by
          intro z hz
          obtain ⟨w, hw, rfl⟩ := (hmem z).mp hz
          exact hy w hw
        have : ti.idxOf (x >>> d.gapAt prev) = 0 := by
          cases ti with
          | nil => rfl
          | cons a l =>
            have h1 := hall a (by simp)
            have h2 := hall _ hxm
            rw [h2, ← h1]; simp
        rw [this]; simp
    have hstart : (ti.idxOf (x >>> d.gapAt prev) : Int) *
        ((2 ^ (d.treeAt h - d.treeAt prev) : Nat) : Int).bmod (2 ^ 32) * ((2 ^ d.gapAt h : Nat) : Int) +
        ((x.toNat % 2 ^ d.gapAt prev : Nat) : Int) * 2 ^ (d.logAt h - d.logAt prev) =
        ((ti.idxOf (x >>> d.gapAt prev) * (2 ^ (d.treeAt h - d.treeAt prev) * 2 ^ d.gapAt h) +
          x.toNat % 2 ^ d.gapAt prev * 2 ^ (d.logAt h - d.logAt prev) : Nat) : Int) := by
      rw [hz]
      simp only [Int.natCast_add, Int.natCast_mul, Int.natCast_pow, Int.cast_ofNat_Int, Int.mul_assoc]
    rw [hstart]
    refine ⟨by omega, ?_⟩
    rw [Int.toNat_natCast, hnl, Nat.mul_assoc]
    have hi := List.idxOf_lt_length_iff.mpr hxm
    have hpow : 2 ^ (d.treeAt h - d.treeAt prev) * 2 ^ d.gapAt h =
        2 ^ d.gapAt prev * 2 ^ (d.logAt h - d.logAt prev) := by
      rw [← Nat.pow_add, ← Nat.pow_add, hsum]
    rw [hpow]
    have hmod := Nat.mod_lt x.toNat (Nat.two_pow_pos (d.gapAt prev))
    have hoff := Nat.mul_le_mul_right (2 ^ (d.logAt h - d.logAt prev)) hmod
    have hidx := Nat.mul_le_mul_right (2 ^ d.gapAt prev * 2 ^ (d.logAt h - d.logAt prev)) hi
    rw [Nat.succ_mul] at hoff hidx
    omega

end Dpf
end Verif
