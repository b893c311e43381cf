import Verif.Lemmas.UntilEval
import Verif.Spec.Evaluation
/-! `EvaluateAt` with a context. -/
namespace Verif
open Res Spec

namespace Dpf
variable {d : Dpf}

theorem treeIndicesFor_cases (wf : d.WF) {α : Type} (H : Helper α) {h : Nat} (hh : h < d.n)
    (points : List U128) : ∃ ti : List U128, d.treeIndicesFor H h points = ok ti ∧
      ti.length = points.length := by
  unfold treeIndicesFor
  split
  · rw [mapRes_eq_ok_map (g := fun x : U128 => x >>> d.gapAt h)
      (fun x _ => wf.domainToTreeIndex_ok hh x)]
    exact ⟨_, rfl, by simp⟩
  · exact ⟨_, rfl, rfl⟩

/-- The final part gives the same from the start and from the level itself. -/
theorem WF.finishAt_congr (wf : d.WF) (env : Env) {key : DpfKey} (hk : d.KeyOk key) {α : Type}
    (H : Helper α) {h : Nat} (hh : h < d.n) (points ti : List U128) :
    d.finishAt env H key h points ti
      (.ofNodes (ti.map fun x => nodeAt env key (d.treeAt h) x.toNat)) (d.treeAt h) =
    d.finishAt env H key h points ti (.ofNodes (ti.map fun _ => root key)) 0 := by
  have hle := wf.tree_le_cws hk hh
  unfold finishAt
  rw [wf.tree_ok hh, bind_ok, bind_ok, subspan_ok _ hle (Nat.le_refl _), bind_ok,
    subspan_ok _ (by omega) (Nat.zero_le _), bind_ok, evaluateSeeds_ofNodes _ _ _ _ (by simp) (wf.take_int _ _ _), bind_ok,
    evaluateSeeds_ofNodes _ _ _ _ (by simp) (wf.take_int _ _ _), bind_ok]
  have e : List.zipWith (fun n (x : U128) => walk (dpfPrg env)
      ((key.correctionWords.drop (d.treeAt h)).take (d.treeAt h - d.treeAt h)) x.toNat n)
      (ti.map fun x : U128 => nodeAt env key (d.treeAt h) x.toNat) ti =
      List.zipWith (fun n (x : U128) => walk (dpfPrg env)
      ((key.correctionWords.drop 0).take (d.treeAt h - 0)) x.toNat n)
      (ti.map fun _ => root key) ti := by
    rw [List.zipWith_map_left, List.zipWith_self, List.zipWith_map_left, List.zipWith_self]
    apply List.map_congr_left
    intro x _
    simp [walk, nodeAt]
  rw [e]

theorem WF.evaluateAtCtx_ok (wf : d.WF) (env : Env) {key : DpfKey} {ctx : EvaluationContext}
    (hc : d.CtxOk env key ctx) {α : Type} (H : Helper α) {h : Nat} (hh : h < d.n)
    {points ti : List U128} (hp : ∀ x ∈ points, x.toNat < 2 ^ d.logAt h) (hne : points ≠ [])
    (hti : d.treeIndicesFor H h points = ok ti) (hu : d.Usable ctx (d.treeAt h) ti) :
    d.evaluateAtCtx env H h points ctx = (d.evaluateAt env H key h points,
      { ctx with
        partialEvaluations := partialsAt env key (d.treeAt h) ti
        partialEvaluationsLevel := h
        previousHierarchyLevel := match d.evaluateAt env H key h points with
          | .ok _ => h
          | _ => ctx.previousHierarchyLevel }) := by
  have hlen : ti.length = points.length := by
    obtain ⟨ti', h1, h2⟩ := treeIndicesFor_cases wf H hh points
    rw [h1] at hti
    simp only [ok.injEq] at hti
    rw [← hti, h2]
  have hE : d.evaluateAt env H key h points =
      d.finishAt env H key h points ti (.ofNodes (ti.map fun _ => root key)) 0 := by
    unfold evaluateAt
    rw [wf.checkEvaluateAt_ok hc.keyOk hh hp, bind_ok, if_neg hne, hti, bind_ok]
    have e : (⟨List.replicate points.length key.seedBlock,
        List.replicate points.length (decide (key.party ≠ 0))⟩ : DpfExpansion) =
        .ofNodes (ti.map fun _ => root key) := by
      simp only [DpfExpansion.ofNodes, DpfExpansion.mk.injEq, List.map_map]
      constructor <;> (apply List.ext_getElem; simp [hlen]; intro i h1 h2; simp [root])
    rw [e]
  unfold evaluateAtCtx
  rw [hc.keyD, wf.checkEvaluateAt_ok hc.keyOk hh hp, keep_ok, if_neg hne, hti, keep_ok,
    wf.computePartialEvaluations_ok env hc (h := (h : Int)) (by omega) (by omega) ti true
      (by rw [Int.toNat_natCast]; exact hu), keep_ok]
  dsimp only
  rw [wf.tree_ok hh, keep_ok]
  have hkd : ∀ a b c, (EvaluationContext.mk ctx.parameters ctx.key a b c).keyD = key := by
    intro a b c; simp [EvaluationContext.keyD, hc.key_eq]
  rw [hkd, Int.toNat_natCast, wf.finishAt_congr env hc.keyOk H hh, ← hE]
  cases d.evaluateAt env H key h points <;> rfl

theorem WF.evaluateAtCtx_empty (wf : d.WF) (env : Env) {key : DpfKey} {ctx : EvaluationContext}
    (hc : d.CtxOk env key ctx) {α : Type} (H : Helper α) {h : Nat} (hh : h < d.n) :
    d.evaluateAtCtx env H h [] ctx = (ok [], ctx) ∧ d.evaluateAt env H key h [] = ok [] := by
  constructor
  · unfold evaluateAtCtx
    rw [hc.keyD, wf.checkEvaluateAt_ok hc.keyOk hh (by simp), keep_ok, if_pos rfl]
  · unfold evaluateAt
    rw [wf.checkEvaluateAt_ok hc.keyOk hh (by simp), bind_ok, if_pos rfl]

theorem WF.evaluateAtCtx_uncovered (wf : d.WF) (env : Env) {key : DpfKey} {ctx : EvaluationContext}
    (hc : d.CtxOk env key ctx) {α : Type} (H : Helper α) {h : Nat} (hh : h < d.n)
    {points ti : List U128} (hp : ∀ x ∈ points, x.toNat < 2 ^ d.logAt h) (hne : points ≠ [])
    (hti : d.treeIndicesFor H h points = ok ti) (hu : ¬ d.Usable ctx (d.treeAt h) ti) :
    d.evaluateAtCtx env H h points ctx = (err .invalidArgument, ctx) := by
  unfold Usable at hu
  simp only [not_or] at hu
  unfold evaluateAtCtx
  rw [hc.keyD, wf.checkEvaluateAt_ok hc.keyOk hh hp, keep_ok, if_neg hne, hti, keep_ok,
    wf.computePartialEvaluations_err env hc (h := (h : Int)) (by omega) (by omega) ti true hu.1
      (by rw [Int.toNat_natCast]; omega) (by rw [Int.toNat_natCast]; exact hu.2.2), keep_err]

/-- All outcomes of `EvaluateAt` with a context, for an arbitrary output type and arguments. -/
theorem WF.evaluateAtCtx_cases (wf : d.WF) (env : Env) {key : DpfKey} {ctx : EvaluationContext}
    (hc : d.CtxOk env key ctx) {α : Type} (H : Helper α) (h : Int) (points : List U128) :
    (d.evaluateAtCtx env H h points ctx = (err .invalidArgument, ctx) ∨
      (d.evaluateAtCtx env H h points ctx).1 = d.evaluateAt env H key h points) ∧
    d.CtxOk env key (d.evaluateAtCtx env H h points ctx).2 := by
  rcases wf.checkEvaluateAt_cases key h points with ⟨hN, rfl, hh, _, hp⟩ | he
  rotate_left
  · have : d.evaluateAtCtx env H h points ctx = (err .invalidArgument, ctx) := by
      unfold evaluateAtCtx
      rw [hc.keyD, he, keep_err]
    rw [this]
    exact ⟨Or.inl rfl, hc⟩
  by_cases hne : points = []
  · subst hne
    obtain ⟨h1, h2⟩ := wf.evaluateAtCtx_empty env hc H hh
    rw [h1, h2]
    exact ⟨Or.inr rfl, hc⟩
  obtain ⟨ti, hti, _⟩ := treeIndicesFor_cases wf H hh points
  by_cases hu : d.Usable ctx (d.treeAt hN) ti
  · rw [wf.evaluateAtCtx_ok env hc H hh hp hne hti hu]
    refine ⟨Or.inr rfl, hc.params, hc.key_eq, hc.keyOk, ?_, ⟨by dsimp only; omega, by dsimp only; omega⟩, ?_⟩
    · dsimp only
      split
      · constructor <;> omega
      · exact hc.prev
    · dsimp only
      rw [Int.toNat_natCast]
      exact partialsAt_ok _ _ _ _
  · rw [wf.evaluateAtCtx_uncovered env hc H hh hp hne hti hu]
    exact ⟨Or.inl rfl, hc⟩

/-- Decoding the output correction of a valid key. -/
theorem WF.getValueCorrection_cases (wf : d.WF) {key : DpfKey} (hk : d.KeyOk key) {h : Nat}
    (hh : h < d.n) (T : Ty) : OkOrInvalid (d.getValueCorrectionAsArray T.helper key h) := by
  have hv : ∀ vs, OkOrInvalid (T.helper.valuesToArray vs) := by
    intro vs
    unfold Helper.valuesToArray
    split
    · exact Or.inr rfl
    · exact OkOrInvalid.mapRes_unit fun v _ => T.fromValue_cases v
  rw [getValueCorrection_unfold]
  unfold valueCorrectionOf
  split
  · rename_i hlt
    rw [wf.tree_ok hh, bind_ok]
    have hlt' : d.treeAt h < key.correctionWords.length := by
      have h1 := hk.len
      have h2 := wf.tree_lt_needed' (h := h) (by unfold n; omega)
      omega
    rw [rd_eq_ok.mpr (List.getElem?_eq_getElem hlt'), bind_ok]
    exact hv _
  · exact hv _

/-! ### Histories -/

theorem WF.wellFormedKey_iff (wf : d.WF) (key : DpfKey) : WellFormedKey d key ↔ d.KeyOk key := by
  have hlast : d.pv.hierarchyToTree.getLast? = some (d.treeAt (d.n - 1)) := by
    have hp := wf.pos
    rw [List.getLast?_eq_getElem?, wf.len_tree, List.getElem?_eq_getElem (by rw [wf.len_tree]; omega),
      Dpf.treeAt, getD_eq_getElem _ _ _ (by rw [wf.len_tree]; omega)]
  have htree : ∀ h t, h < d.n → (d.pv.hierarchyToTree[h]? = some t ↔ d.treeAt h = t) := by
    intro h t hh
    have hl : h < d.pv.hierarchyToTree.length := by rw [wf.len_tree]; exact hh
    rw [List.getElem?_eq_getElem hl, Dpf.treeAt, getD_eq_getElem _ _ _ hl]
    simp
  have hnd := wf.needed
  constructor
  · intro w
    refine ⟨w.seed, w.last, ?_, ?_⟩
    · have := w.depth
      rw [hlast] at this
      simp only [Option.some.injEq] at this
      omega
    · intro h hh cw hcw
      exact w.levels h _ cw hh ((htree h _ (by omega)).mpr rfl) hcw
  · intro k
    refine ⟨k.seed, k.last, ?_, ?_⟩
    · rw [hlast]
      have := k.len
      simp only [Option.some.injEq]; omega
    · intro h t cw hh ht hcw
      have hh' : h + 1 < d.n := hh
      rw [htree h t (by omega)] at ht
      subst ht
      exact k.vc h hh' cw hcw

theorem WF.create_ctxOk (wf : d.WF) (env : Env) {key : DpfKey} {ctx : EvaluationContext}
    (h : d.createEvaluationContext key = ok ctx) :
    ctx = ⟨d.pv.parameters, some key, -1, [], 0⟩ ∧ d.CtxOk env key ctx := by
  unfold createEvaluationContext at h
  obtain ⟨⟨⟩, h1, h2⟩ := bind_eq_ok.mp h
  simp only [ok.injEq] at h2
  subst h2
  have hp := wf.pos
  refine ⟨rfl, rfl, rfl, (wf.validateDpfKey_iff key).mp h1, ⟨by simp, ?_⟩, ⟨by simp, ?_⟩, by simp⟩
  · dsimp only; omega
  · dsimp only; omega

theorem WF.createEvaluationContext_eq (wf : d.WF) {key : DpfKey} (hk : d.KeyOk key) :
    d.createEvaluationContext key = ok ⟨d.pv.parameters, some key, -1, [], 0⟩ := by
  unfold createEvaluationContext
  rw [(wf.validateDpfKey_iff key).mpr hk, bind_ok]

theorem WF.history (wf : d.WF) (env : Env) {key : DpfKey} {ctx : EvaluationContext}
    (h : History d env key ctx) : d.CtxOk env key ctx := by
  induction h with
  | create h => exact (wf.create_ctxOk env h).2
  | evalUntil S h p _ ih => exact wf.evaluateUntil_ctxOk env ih S.helper h p
  | evalNext S p _ ih =>
    unfold evaluateNext
    split <;> exact wf.evaluateUntil_ctxOk env ih S.helper _ p
  | evalAt S h p _ ih => exact (wf.evaluateAtCtx_cases env ih S.helper h p).2

end Dpf
end Verif
