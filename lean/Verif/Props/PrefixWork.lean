import Verif.Props.Work
import Verif.Props.ContextState
import Verif.Lemmas.PrefixWork
/-!
# C97: how much is computed for evaluating below prefixes
-/
namespace Verif
open Res Spec

/-- C97 for evaluating below prefixes: the calls depend on the number of nodes of the tree in which the prefixes lie
(prefixes in the same node are counted once), on the depth of the seeds that the context has stored, and on the level.
They depend neither on the key nor on the prefixes otherwise. -/
theorem C97_prefixes (fp : FpEnv) (params : List DpfParameters) (T : Nat → Ty) (d : Dpf) (hs : Setup fp params T d)
    (depth : Nat → Nat) (hd : IsDepth params T depth) (env : Env) (vector : Option Nat) (hp : UsesVectors env vector)
    (S : Ty) (prev h : Nat) (prefixes : List U128) (hne : prefixes ≠ []) (ctx ctx' : EvaluationContext)
    (hprev : ctx.previousHierarchyLevel = prev) (nodes : List Nat) (hnd : nodes.Nodup)
    (hnodes : ∀ y, y ∈ nodes ↔ ∃ x ∈ prefixes, x.toNat / 2 ^ (logSize params prev - depth prev) = y)
    (values : List S.den) (he : d.evaluateUntil env S.helper h prefixes ctx = (ok values, ctx')) :
    MakesCallsOn (d.evaluateUntilF env S.helper h prefixes ctx)
      (belowCalls vector nodes.length (keptDepth depth (depth prev) ctx) (depth prev) (depth h) (blocksOf d h))
      values ctx' := by
  have wf := hs.wf
  have hx : ∃ x, d.checkEvaluateUntil S.helper h prefixes ctx = ok x := by
    have he := he
    unfold Dpf.evaluateUntil at he
    cases hc : d.checkEvaluateUntil S.helper h prefixes ctx with
    | ok x => exact ⟨x, rfl⟩
    | err c => rw [hc] at he; exact nomatch he
    | ub => rw [hc] at he; exact nomatch he
    | crash => rw [hc] at he; exact nomatch he
  obtain ⟨⟨a, b, c⟩, hx⟩ := hx
  have ha := (wf.untilArgs_of_ok hx).1
  have hlev := ha.level
  have hlater := ha.later
  have hn := hs.toCreated.n_eq
  have hh : h < params.length := by omega
  have hpn : prev < params.length := by omega
  have hdh := hs.isDepth.unique hd h hh
  have hdp := hs.isDepth.unique hd prev hpn
  have hgap : d.gapAt ctx.previousHierarchyLevel.toNat = logSize params prev - depth prev := by
    rw [hprev, Int.toNat_natCast]
    unfold Dpf.gapAt
    rw [hs.toCreated.logAt_eq, hdp]
  have hm : ∀ ti : List U128, ti.Nodup → (∀ y, y ∈ ti ↔ ∃ x ∈ prefixes,
      x >>> d.gapAt ctx.previousHierarchyLevel.toNat = y) → ti.length = nodes.length := by
    intro ti htn htm
    rw [hgap] at htm
    have hp : (ti.map (·.toNat)).Perm nodes := by
      have htn' : (ti.map (·.toNat)).Nodup :=
        List.Pairwise.map _ (fun _ _ hne e => hne (BitVec.eq_of_toNat_eq e)) htn
      rw [List.perm_ext_iff_of_nodup htn' hnd]
      intro y
      rw [hnodes, List.mem_map]
      constructor
      · rintro ⟨z, hz, rfl⟩
        obtain ⟨x, hx, rfl⟩ := (htm z).mp hz
        exact ⟨x, hx, by rw [BitVec.toNat_ushiftRight, Nat.shiftRight_eq_div_pow]⟩
      · rintro ⟨x, hx, rfl⟩
        exact ⟨_, (htm _).mpr ⟨x, hx, rfl⟩, by rw [BitVec.toNat_ushiftRight, Nat.shiftRight_eq_div_pow]⟩
    rw [← hp.length_eq, List.length_map]
  have e := wf.evaluateBelow_costs hp S.helper h prefixes hne ctx nodes.length hm values ctx' he
  rw [hprev, Int.toNat_natCast, Int.toNat_natCast, hdh, hdp] at e
  have hk : keptDepth d.treeAt (depth prev) ctx = keptDepth depth (depth prev) ctx := by
    unfold keptDepth
    by_cases hpe : ctx.partialEvaluations = []
    · rw [if_neg (fun h => h.1 hpe), if_neg (fun h => h.1 hpe)]
    · have hle : ctx.partialEvaluationsLevel ≤ ctx.previousHierarchyLevel := by
        refine Classical.byContradiction fun hc => ?_
        have hv := ha.ctx_ok
        unfold ProtoValidator.validateEvaluationContext at hv
        obtain ⟨_, _, hv⟩ := bind_eq_ok.mp hv
        obtain ⟨_, _, hv⟩ := bind_eq_ok.mp hv
        obtain ⟨_, _, hv⟩ := bind_eq_ok.mp hv
        obtain ⟨_, _, hv⟩ := bind_eq_ok.mp hv
        obtain ⟨_, _, hv⟩ := bind_eq_ok.mp hv
        rw [failIf_true ⟨hpe, by omega⟩] at hv
        exact nomatch hv
      rw [hs.isDepth.unique hd _ (show ctx.partialEvaluationsLevel.toNat < params.length by omega)]
  rw [hk] at e
  exact e

/-- C97 on an example: the last level below six prefixes of the second level, in both nodes of its depth, of which the
context has stored the root. -/
example : ∃ values ctx', MakesCallsOn
    (exDpf.evaluateUntilF exEnv (Ty.uint .w8).helper 3 [1, 13, 2, 12, 0, 31] exCtx2) 16 values ctx' := by
  have h1 : (exDpf.evaluateUntil exEnv (Ty.uint .w8).helper 3 [1, 13, 2, 12, 0, 31] exCtx2).1 = _ :=
    Res.eq_ok_getD (by decide +kernel) []
  have h := C97_prefixes _ _ _ exDpf exDpf_setup _ exDepths8_eq exEnv none (fun _ _ _ _ _ => rfl) (.uint .w8) 1 3
    [1, 13, 2, 12, 0, 31] (by simp) exCtx2 _ (by decide +kernel) [0, 1] (by decide)
    (by
      intro y
      have e : logSize exParams8 1 - exDepths8 1 = 4 := by decide +kernel
      rw [e]
      simp
      omega) _ (Prod.ext h1 rfl)
  have e : belowCalls none [0, 1].length (keptDepth exDepths8 (exDepths8 1) exCtx2) (exDepths8 1) (exDepths8 3)
      (blocksOf exDpf 3) = 16 := by decide +kernel
  rw [e] at h
  exact ⟨_, _, h⟩

/-- C97 on an example: one level further, with seeds stored at depth 1, on a machine with vectors of two blocks. -/
example : ∃ values ctx', MakesCallsOn
    (exDpf.evaluateUntilF exHwyEnv (Ty.uint .w8).helper 3 [4, 5, 20, 40] exCtx3) 13 values ctx' := by
  have h1 : (exDpf.evaluateUntil exHwyEnv (Ty.uint .w8).helper 3 [4, 5, 20, 40] exCtx3).1 = _ :=
    Res.eq_ok_getD (by decide +kernel) []
  have h := C97_prefixes _ _ _ exDpf exDpf_setup _ exDepths8_eq exHwyEnv (some 2)
    ⟨by decide, fun _ _ _ _ _ => ⟨_, rfl, rfl, rfl⟩⟩ (.uint .w8) 2 3
    [4, 5, 20, 40] (by simp) exCtx3 _ (by decide +kernel) [0, 1, 2] (by decide)
    (by
      intro y
      have e : logSize exParams8 2 - exDepths8 2 = 4 := by decide +kernel
      rw [e]
      simp
      omega) _ (Prod.ext h1 rfl)
  have e : belowCalls (some 2) [0, 1, 2].length (keptDepth exDepths8 (exDepths8 2) exCtx3) (exDepths8 2) (exDepths8 3)
      (blocksOf exDpf 3) = 13 := by decide +kernel
  rw [e] at h
  exact ⟨_, _, h⟩

/-- C97 for evaluating points with a context: as without, but the walk begins where the context has stored seeds. -/
theorem C97_points_context (fp : FpEnv) (params : List DpfParameters) (T : Nat → Ty) (d : Dpf)
    (hs : Setup fp params T d) (depth : Nat → Nat) (hd : IsDepth params T depth) (env : Env) (vector : Option Nat)
    (hp : UsesVectors env vector) (S : Ty) (h : Nat) (points : List U128) (hne : points ≠ [])
    (ctx ctx' : EvaluationContext) (values : List S.den)
    (he : d.evaluateAtCtx env S.helper h points ctx = (ok values, ctx')) :
    MakesCallsOn (d.evaluateAtCtxF env S.helper h points ctx)
      (pointCalls vector points.length (depth h - keptDepth depth (depth h) ctx) (blocksOf d h) (perBlock S))
      values ctx' := by
  have e := hs.wf.evaluateAtCtx_costs hp S.helper h points hne ctx values ctx' he
  obtain ⟨hh, hpl⟩ := hs.wf.evaluateAtCtx_levels hne he
  rw [hs.toCreated.n_eq] at hh hpl
  rw [Int.toNat_natCast, perBlock_eq, hs.isDepth.unique hd h (by omega)] at e
  have hk : keptDepth d.treeAt (depth h) ctx = keptDepth depth (depth h) ctx := by
    unfold keptDepth
    rw [hs.isDepth.unique hd _ (show ctx.partialEvaluationsLevel.toNat < params.length by omega)]
  rw [hk] at e
  exact e

/-- C97 on an example: points of the last level, with the seeds that were stored at depth 1. -/
example : ∃ values ctx', MakesCallsOn
    (exDpf.evaluateAtCtxF exEnv (Ty.uint .w8).helper 3 [7, 200, 9] exCtx3) 13 values ctx' := by
  have h1 : (exDpf.evaluateAtCtx exEnv (Ty.uint .w8).helper 3 [7, 200, 9] exCtx3).1 = _ :=
    Res.eq_ok_getD (by decide +kernel) []
  have h := C97_points_context _ _ _ exDpf exDpf_setup _ exDepths8_eq exEnv none (fun _ _ _ _ _ => rfl) (.uint .w8) 3
    [7, 200, 9] (by simp) exCtx3 _ _ (Prod.ext h1 rfl)
  have e : pointCalls none [(7 : U128), 200, 9].length (exDepths8 3 - keptDepth exDepths8 (exDepths8 3) exCtx3)
      (blocksOf exDpf 3) (perBlock (.uint .w8)) = 13 := by decide +kernel
  rw [e] at h
  exact ⟨_, _, h⟩

end Verif
