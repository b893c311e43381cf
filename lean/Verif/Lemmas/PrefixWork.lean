import Verif.Lemmas.Work
import Verif.Lemmas.AnyContext
/-! # Calls of the cipher and of the allocator for evaluating below prefixes -/
namespace Verif
open Res Spec Faulty
namespace Dpf
variable {d : Dpf}

theorem startPartials_costs (prefixes : List U128) (s t : Nat) (ctx : EvaluationContext) :
    Costs (startPartialsF prefixes s t ctx) (startPartials prefixes s t ctx) 1 := by
  unfold startPartialsF startPartials
  refine .ite (fun _ => ?_) fun _ => ?_
  · exact .liftThen fun _ _ => .callThen (n := 0) (.liftThen fun _ _ => .lift _)
  · exact .callThen (n := 0) (.lift _)

theorem startPartials_result {prefixes : List U128} {s t : Nat} {ctx : EvaluationContext} {start : DpfExpansion}
    {s0 : Nat} (h : startPartials prefixes s t ctx = ok (start, s0)) :
    start.seeds.length = prefixes.length ∧
      s0 = if ctx.partialEvaluations ≠ [] ∧ s ≤ t then s else 0 := by
  unfold startPartials at h
  by_cases hc : ctx.partialEvaluations ≠ [] ∧ s ≤ t
  · rw [if_pos hc] at h ⊢
    obtain ⟨m, _, h⟩ := bind_eq_ok.mp h
    obtain ⟨sel, hsel, h⟩ := bind_eq_ok.mp h
    cases h
    exact ⟨by rw [List.length_map]; exact mapRes_length hsel, rfl⟩
  · rw [if_neg hc] at h ⊢
    cases h
    exact ⟨by simp, rfl⟩

/-- Part of the correction words of a key that was accepted. -/
theorem subspan_count {α : Type} {l : List α} {s t : Nat} (hst : s ≤ t) (htl : t ≤ l.length) {cws : List α}
    (hc : subspan l s ((t : Int) - s) = ok cws) : cws.length = t - s := by
  unfold subspan at hc
  rw [if_neg (by omega), if_neg (by omega)] at hc
  cases hc
  simp
  omega

theorem WF.computePartialEvaluations_costs (wf : d.WF) {env : Env} {vector : Option Nat}
    (hp : UsesVectors env vector) {ctx : EvaluationContext} (hk : d.KeyOk ctx.keyD) {h : Int} (h0 : 0 ≤ h)
    (hh : h < d.n) (prefixes : List U128) (hne : prefixes ≠ []) (upd : Bool) :
    Costs (d.computePartialEvaluationsF env prefixes h upd ctx) (d.computePartialEvaluations env prefixes h upd ctx)
      (1 + walkCalls vector prefixes.length
        (d.treeAt h.toNat - keptDepth d.treeAt (d.treeAt h.toNat) ctx)) := by
  unfold computePartialEvaluationsF computePartialEvaluations
  have htl := wf.tree_le_cws hk (show h.toNat < d.n by omega)
  refine .liftThen fun s hs => .liftThen fun t ht => ?_
  have es : d.treeAt ctx.partialEvaluationsLevel.toNat = s := by
    unfold rdInt at hs
    by_cases hn : ctx.partialEvaluationsLevel < 0
    · rw [if_pos hn] at hs; exact nomatch hs
    · rw [if_neg hn] at hs; exact getD_of_rd hs
  rw [wf.treeInt_ok h0 hh] at ht
  cases ht
  refine .bind (startPartials_costs _ _ _ _) fun x hx => ?_
  obtain ⟨start, s0⟩ := x
  obtain ⟨hl, hs0⟩ := startPartials_result hx
  have hs0' : s0 = keptDepth d.treeAt (d.treeAt h.toNat) ctx := by rw [hs0]; unfold keptDepth; rw [es]
  have hle : s0 ≤ d.treeAt h.toNat := by
    rw [hs0]
    split
    · rename_i hc; exact hc.2
    · omega
  have hpos : 0 < prefixes.length := List.length_pos_iff.mpr hne
  dsimp only
  refine .liftThen fun cws hcws => ?_
  have hcl := subspan_count hle htl hcws
  refine (Costs.bind (n := walkCalls vector prefixes.length (d.treeAt h.toNat - s0)) (n' := 0)
    ((evaluateSeeds_costs hp _ _ _ (by omega)).cast (by rw [hl, hcl])) fun ev _ => .lift _).cast ?_
  rw [hs0', Nat.add_zero]

/-- With a level of the stored seeds that is none, there is no result. -/
theorem WF.storedLevel_lt' (wf : d.WF) {env : Env} {h : Int} {ctx : EvaluationContext} {prefixes : List U128}
    {upd : Bool} {x : DpfExpansion × EvaluationContext}
    (h1 : d.computePartialEvaluations env prefixes h upd ctx = ok x) :
    0 ≤ ctx.partialEvaluationsLevel ∧ ctx.partialEvaluationsLevel < d.n := by
  unfold computePartialEvaluations at h1
  obtain ⟨s, hs, _⟩ := bind_eq_ok.mp h1
  unfold rdInt at hs
  by_cases hn : ctx.partialEvaluationsLevel < 0
  · rw [if_pos hn] at hs; exact nomatch hs
  · rw [if_neg hn] at hs
    obtain ⟨hlt, _⟩ := List.getElem?_eq_some_iff.mp (rd_eq_ok.mp hs)
    rw [wf.len_tree] at hlt
    omega

theorem WF.storedLevel_lt (wf : d.WF) {env : Env} {h : Nat} {ctx : EvaluationContext} {prefixes : List U128}
    (hne : prefixes ≠ []) {x : DpfExpansion × EvaluationContext}
    (he : d.expandAndUpdateContext env h prefixes ctx = ok x) :
    0 ≤ ctx.partialEvaluationsLevel ∧ ctx.partialEvaluationsLevel < d.n := by
  unfold expandAndUpdateContext at he
  rw [if_neg hne] at he
  obtain ⟨_, h1, _⟩ := bind_eq_ok.mp he
  exact wf.storedLevel_lt' h1

theorem keep_eq_ok {κ α β : Type} {x : Res α} {c c' : κ} {g : α → Res β × κ} {b : β}
    (h : keep x c g = (ok b, c')) : ∃ a, x = ok a ∧ g a = (ok b, c') := by
  cases x with
  | ok a => exact ⟨a, rfl, h⟩
  | err e => exact nomatch h
  | ub => exact nomatch h
  | crash => exact nomatch h

theorem checkEvaluateAt_nonneg {key : DpfKey} {l : Int} {points : List U128} {x : Nat}
    (h : d.checkEvaluateAt key l points = ok x) : 0 ≤ l := by
  unfold checkEvaluateAt at h
  obtain ⟨_, h1, _⟩ := bind_eq_ok.mp h
  refine Classical.byContradiction fun hc => ?_
  rw [failIf_true (by omega)] at h1
  exact nomatch h1

theorem WF.expandBelow_calls (wf : d.WF) {env : Env} {vector : Option Nat} (hp : UsesVectors env vector)
    {h : Nat} (hh : h < d.n) {ctx : EvaluationContext} (hk : d.KeyOk ctx.keyD)
    (h0 : 0 ≤ ctx.previousHierarchyLevel) (hlt : ctx.previousHierarchyLevel < h)
    (prefixes : List U128) (hne : prefixes ≠ [])
    {ev : DpfExpansion} {ctx' : EvaluationContext}
    (he : d.expandAndUpdateContext env h prefixes ctx = ok (ev, ctx')) :
    MakesCallsOn (d.expandAndUpdateContextF env h prefixes ctx)
      (1 + walkCalls vector prefixes.length (d.treeAt ctx.previousHierarchyLevel.toNat -
          keptDepth d.treeAt (d.treeAt ctx.previousHierarchyLevel.toNat) ctx) +
        (2 + ((List.range (d.treeAt h - d.treeAt ctx.previousHierarchyLevel.toNat)).map fun l =>
          2 * batches (prefixes.length * 2 ^ l)).sum)) ev ctx' ∧
      ev.seeds.length = prefixes.length * 2 ^ (d.treeAt h - d.treeAt ctx.previousHierarchyLevel.toNat) := by
  have hcost := wf.computePartialEvaluations_costs hp hk h0 (by omega) prefixes hne
    (decide ((h : Int) < (d.pv.parameters.length : Int) - 1))
  obtain ⟨prev, hprev⟩ : ∃ p : Nat, ctx.previousHierarchyLevel = p := ⟨ctx.previousHierarchyLevel.toNat, by omega⟩
  have hlt' : prev < h := by omega
  have hpn : prev < d.n := by omega
  have hpl := wf.storedLevel_lt hne he
  rcases wf.computePartialEvaluations_any env hk hpl hpn prefixes
    (decide ((h : Int) < (d.pv.parameters.length : Int) - 1)) with ⟨ns, c, e, hl, hkey, hpr⟩ | e
  rotate_left
  · unfold expandAndUpdateContext at he
    rw [if_neg hne] at he
    dsimp only at he
    rw [hprev, e] at he
    exact nomatch he
  have hkd : c.keyD = ctx.keyD := by simp [EvaluationContext.keyD, hkey]
  have hasc := wf.tree_asc _ _ hlt' hh
  have htl := wf.tree_le_cws hk hh
  unfold expandAndUpdateContext at he
  rw [if_neg hne] at he
  dsimp only at he
  rw [hprev, e, bind_ok] at he
  dsimp only at he
  rw [hpr, hprev, rdInt_natCast, wf.tree_ok hpn, bind_ok, bind_ok] at he
  dsimp only at he
  rw [wf.tree_ok hh, bind_ok, hkd] at he
  obtain ⟨cws, hcws, he⟩ := bind_eq_ok.mp he
  obtain ⟨ev', hev, he⟩ := bind_eq_ok.mp he
  have hcl := subspan_count (by omega) htl hcws
  have hx := expandSeeds_costs env cws ns _ hev
  cases he
  rw [hprev, Int.toNat_natCast] at hcost ⊢
  have hce := hcost _ e
  rw [hl, hcl] at hx
  constructor
  · intro more
    unfold expandAndUpdateContextF
    rw [if_neg hne]
    dsimp only
    rw [hprev, Nat.add_assoc]
    unfold keepF
    rw [hce]
    dsimp only
    rw [hpr, hprev, rdInt_natCast, wf.tree_ok hpn]
    dsimp only [lift]
    unfold expandFromF keepF
    rw [wf.tree_ok hh]
    dsimp only [lift]
    rw [hkd, hcws]
    dsimp only
    rw [hx more]
    rfl
  · by_cases hf : ns.length * 2 ^ cws.length < 2 ^ 64
    · rw [expandSeeds_ofNodes _ _ _ hf] at hev
      cases hev
      simp only [DpfExpansion.ofNodes, List.length_map]
      rw [flatMap_length_const _ _ (by intro a; rw [List.length_map, List.length_range]), hl, hcl]
    · rw [expandSeeds_ub _ _ _ hf] at hev
      exact nomatch hev

/-- Evaluating below prefixes. -/
theorem WF.evaluateBelow_costs (wf : d.WF) {α : Type} {env : Env} {vector : Option Nat} (hp : UsesVectors env vector)
    (H : Helper α) (h : Int) (prefixes : List U128) (hne : prefixes ≠ []) (ctx : EvaluationContext)
    (m : Nat)
    (hm : ∀ ti : List U128, ti.Nodup → (∀ y, y ∈ ti ↔ ∃ x ∈ prefixes,
      x >>> d.gapAt ctx.previousHierarchyLevel.toNat = y) → ti.length = m) :
    CostsOn (d.evaluateUntilF env H h prefixes ctx) (d.evaluateUntil env H h prefixes ctx)
      (belowCalls vector m (keptDepth d.treeAt (d.treeAt ctx.previousHierarchyLevel.toNat) ctx)
        (d.treeAt ctx.previousHierarchyLevel.toNat) (d.treeAt h.toNat) (d.blocksAt h.toNat)) := by
  have e0 : belowCalls vector m (keptDepth d.treeAt (d.treeAt ctx.previousHierarchyLevel.toNat) ctx)
        (d.treeAt ctx.previousHierarchyLevel.toNat) (d.treeAt h.toNat) (d.blocksAt h.toNat) =
      0 + (0 + ((1 + walkCalls vector m (d.treeAt ctx.previousHierarchyLevel.toNat -
          keptDepth d.treeAt (d.treeAt ctx.previousHierarchyLevel.toNat) ctx) +
        (2 + ((List.range (d.treeAt h.toNat - d.treeAt ctx.previousHierarchyLevel.toNat)).map fun l =>
          2 * batches (m * 2 ^ l)).sum)) +
        ((1 + batches (m * 2 ^ (d.treeAt h.toNat - d.treeAt ctx.previousHierarchyLevel.toNat) *
          d.blocksAt h.toNat)) + 0))) := by
    unfold belowCalls; omega
  rw [e0]
  unfold evaluateUntilF evaluateUntil
  refine .keep (.lift _) fun x hx => ?_
  obtain ⟨hN, prevH, gap⟩ := x
  obtain ⟨ha, hN', hP⟩ := wf.untilArgs_of_ok hx
  subst hN' hP
  have hlev := ha.level
  have hlater := ha.later
  have hh : h.toNat < d.n := by omega
  have h0 : 0 ≤ ctx.previousHierarchyLevel := by
    refine Classical.byContradiction fun hc => hne (ha.first.mp (by omega))
  have hk : d.KeyOk ctx.keyD := by
    have hv := ha.ctx_ok
    unfold ProtoValidator.validateEvaluationContext at hv
    obtain ⟨_, _, hv⟩ := bind_eq_ok.mp hv
    obtain ⟨_, _, hv⟩ := bind_eq_ok.mp hv
    obtain ⟨_, _, hv⟩ := bind_eq_ok.mp hv
    obtain ⟨_, hv, _⟩ := bind_eq_ok.mp hv
    exact (wf.validateDpfKey_iff _).mp hv
  refine .keep (.lift _) fun y hy => ?_
  obtain ⟨ti, pm⟩ := y
  obtain ⟨ti', hd, hmem, hnd⟩ := wf.dedupPrefixes_ok
    (show ctx.previousHierarchyLevel.toNat < d.n by omega) prefixes
  rw [hd] at hy
  cases hy
  have hml := hm ti hnd hmem
  have htne : ti ≠ [] := by
    obtain ⟨x, hx⟩ := List.exists_mem_of_ne_nil _ hne
    exact List.ne_nil_of_mem ((hmem _).mpr ⟨x, hx, rfl⟩)
  subst hml
  have hcall := fun ev c he => wf.expandBelow_calls hp hh hk h0 (by omega) ti htne (ev := ev) (ctx' := c) he
  refine .thenDo (fun ev c he => (hcall ev c he).1) fun ev ctx' he => ?_
  have hlen := (hcall ev ctx' he).2
  have e : (d.finishUntil env H h.toNat gap prefixes ti (prefixes.map fun x : U128 =>
        (ti.idxOf (x >>> d.gapAt ctx.previousHierarchyLevel.toNat),
          x.toNat % 2 ^ d.gapAt ctx.previousHierarchyLevel.toNat)) ctx'.keyD ev, ctx') =
      keep (d.hashExpandedSeeds env h.toNat ev.seeds) ctx' fun hashed =>
        (d.correctUntil H h.toNat gap prefixes ti (prefixes.map fun x : U128 =>
          (ti.idxOf (x >>> d.gapAt ctx.previousHierarchyLevel.toNat),
            x.toNat % 2 ^ d.gapAt ctx.previousHierarchyLevel.toNat)) ctx'.keyD ev hashed, ctx') := by
    rw [Verif.Dpf.finishUntil_eq]
    cases d.hashExpandedSeeds env h.toNat ev.seeds <;> rfl
  dsimp only
  rw [e]
  exact .keep ((hashExpandedSeeds_costs _ _ _).cast (by rw [hlen])) fun _ _ => .done _ _

/-- The end of evaluating points whose leaves are reached. -/
theorem WF.finishAt_costs (wf : d.WF) {α : Type} {env : Env} {vector : Option Nat} (hp : UsesVectors env vector)
    (H : Helper α) {key : DpfKey} (hk : d.KeyOk key) {h : Nat} (hh : h < d.n) (points ti : List U128)
    (ns : List Node) (hl : ns.length = ti.length) (hne : ti ≠ []) :
    Costs (d.finishAtF env H key h points ti (.ofNodes ns) (d.treeAt h))
      (d.finishAt env H key h points ti (.ofNodes ns) (d.treeAt h)) (1 + batches (ti.length * d.blocksAt h)) := by
  have hpos : 0 < ti.length := List.length_pos_iff.mpr hne
  have hsl : (DpfExpansion.ofNodes ns).seeds.length = ti.length := by simp [DpfExpansion.ofNodes, hl]
  unfold finishAtF finishAt
  refine .liftThen fun stop hstop => .liftThen fun cws hcws => ?_
  rw [wf.tree_ok hh] at hstop
  cases hstop
  have hcl := subspan_count (Nat.le_refl _) (wf.tree_le_cws hk hh) hcws
  refine (Costs.bind (n := 0) (n' := 1 + batches (ti.length * d.blocksAt h))
    ((evaluateSeeds_costs hp _ _ _ (by omega)).cast (by rw [hcl]; simp [walkCalls])) fun ev hev => ?_).cast
    (Nat.zero_add _)
  have hlen : ev.seeds.length = ti.length := by
    rw [evaluateSeeds_ofNodes _ _ _ _ hl.symm (by omega)] at hev
    cases hev
    simp [DpfExpansion.ofNodes, hl]
  exact (Costs.bind (n := 1 + batches (ti.length * d.blocksAt h)) (n' := 0)
    ((hashExpandedSeeds_costs _ _ _).cast (by rw [hlen])) fun _ _ => .lift _)

/-- Evaluating points with a context. -/
theorem WF.evaluateAtCtx_costs (wf : d.WF) {α : Type} {env : Env} {vector : Option Nat} (hp : UsesVectors env vector)
    (H : Helper α) (h : Int) (points : List U128) (hne : points ≠ []) (ctx : EvaluationContext) :
    CostsOn (d.evaluateAtCtxF env H h points ctx) (d.evaluateAtCtx env H h points ctx)
      (pointCalls vector points.length (d.treeAt h.toNat - keptDepth d.treeAt (d.treeAt h.toNat) ctx)
        (d.blocksAt h.toNat) H.elementsPerBlock) := by
  have e0 : pointCalls vector points.length (d.treeAt h.toNat - keptDepth d.treeAt (d.treeAt h.toNat) ctx)
        (d.blocksAt h.toNat) H.elementsPerBlock =
      0 + ((if 1 < H.elementsPerBlock then 1 else 0) + ((1 + walkCalls vector points.length (d.treeAt h.toNat -
        keptDepth d.treeAt (d.treeAt h.toNat) ctx)) +
      (0 + ((1 + batches (points.length * d.blocksAt h.toNat)) + 0)))) := by unfold pointCalls; omega
  rw [e0]
  unfold evaluateAtCtxF evaluateAtCtx
  refine .keep (.lift _) fun hN hc => ?_
  obtain ⟨hN', hlt⟩ := checkEvaluateAt_level hc
  subst hN'
  have hk := (wf.validateDpfKey_iff _).mp (checkEvaluateAt_key hc)
  have h0 : 0 ≤ h := checkEvaluateAt_nonneg hc
  rw [if_neg hne, if_neg hne]
  have hc1 : Costs (d.treeIndicesForF H h.toNat points) (d.treeIndicesFor H h.toNat points)
      (if 1 < H.elementsPerBlock then 1 else 0) := by
    unfold treeIndicesForF treeIndicesFor
    by_cases he : 1 < H.elementsPerBlock
    · rw [if_pos he, if_pos he, if_pos he]; exact .callThen (n := 0) (.lift _)
    · rw [if_neg he, if_neg he, if_neg he]; exact .lift _
  refine .keep hc1 fun ti hti => ?_
  have htl : ti.length = points.length := by
    unfold treeIndicesFor at hti
    split at hti
    · exact mapRes_length hti
    · cases hti; rfl
  have htne : ti ≠ [] := by
    intro e; rw [e] at htl; exact hne (List.length_eq_zero_iff.mp htl.symm)
  refine .keep ((wf.computePartialEvaluations_costs hp hk h0 (by omega) ti htne true).cast (by rw [htl])) fun x hx => ?_
  obtain ⟨sel, ctx'⟩ := x
  have hpl := wf.storedLevel_lt' hx
  obtain ⟨m, hm⟩ : ∃ m : Nat, h = m := ⟨h.toNat, by omega⟩
  subst hm
  rw [Int.toNat_natCast] at *
  rcases wf.computePartialEvaluations_any env hk hpl hlt ti true with ⟨ns, c, e, hl, hkey, hpr⟩ | e
  rotate_left
  · rw [e] at hx; exact nomatch hx
  rw [e] at hx
  cases hx
  have hkd : ctx'.keyD = ctx.keyD := by simp [EvaluationContext.keyD, hkey]
  dsimp only
  refine .keep (.lift _) fun s hs => ?_
  rw [wf.tree_ok hlt] at hs
  cases hs
  rw [hkd]
  exact .keep ((wf.finishAt_costs hp H hk hlt points ti ns hl htne).cast (by rw [htl])) fun _ _ => .done _ _

theorem WF.evaluateAtCtx_levels (wf : d.WF) {α : Type} {env : Env} {H : Helper α} {h : Int} {points : List U128}
    (hne : points ≠ []) {ctx ctx' : EvaluationContext} {values : List α}
    (he : d.evaluateAtCtx env H h points ctx = (ok values, ctx')) :
    h < d.n ∧ 0 ≤ ctx.partialEvaluationsLevel ∧ ctx.partialEvaluationsLevel < d.n := by
  unfold evaluateAtCtx at he
  obtain ⟨hN, hc, he⟩ := keep_eq_ok he
  obtain ⟨hN', hlt⟩ := checkEvaluateAt_level hc
  rw [if_neg hne] at he
  obtain ⟨ti, _, he⟩ := keep_eq_ok he
  obtain ⟨x, hx, _⟩ := keep_eq_ok he
  exact ⟨by omega, wf.storedLevel_lt' hx⟩

end Dpf
end Verif
