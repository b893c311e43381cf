import Verif.Lemmas.AnyContext
import Verif.Props.Safety
/-!
# Property C50: malformed evaluation contexts
-/
namespace Verif
open Res Spec

/-- C50, `EvaluateUntil`: for every context whose partial_evaluations_level is a level (everything else
in it may be malformed), and if the number of blocks below a prefix fits an `int`, there is no undefined
behaviour and no abort. See C06 for the contexts that are rejected. -/
theorem C50_evaluateUntil_partial (fp : FpEnv) (params : List DpfParameters) (T : Nat → Ty) (d : Dpf)
    (hs : Setup fp params T d) (env : Env) (ctx : EvaluationContext)
    (hlevel : 0 ≤ ctx.partialEvaluationsLevel ∧ ctx.partialEvaluationsLevel < params.length)
    (S : Ty) (h : Int) (prefixes : List U128)
    (hsm : SmallExpansion params d ctx.previousHierarchyLevel.toNat h.toNat prefixes) :
    Safe (d.evaluateUntil env S.helper h prefixes ctx).1 := by
  have wf := hs.wf
  rcases wf.checkEvaluateUntil_cases S.helper h prefixes ctx with ha | he
  · obtain ⟨hN, rfl, hh, rfl⟩ := hs.until_type ha
    obtain ⟨_, _, key, hkey, hk, _⟩ := wf.validateEvaluationContext_spec ha.ctx_ok
    have hkd : ctx.keyD = key := by simp [EvaluationContext.keyD, hkey]
    rw [← hs.toCreated.n_eq] at hlevel
    exact wf.evaluateUntil_safe env (hkd ▸ hk) hlevel hh (hs.typedAt hh) ha
      (hs.toCreated.noTrunc (by simpa using hsm))
  · unfold Dpf.evaluateUntil
    rw [he]; exact .err _

/-- C50, `EvaluateAt` with a context: as for `EvaluateUntil`. -/
theorem C50_evaluateAt_partial (fp : FpEnv) (params : List DpfParameters) (T : Nat → Ty) (d : Dpf)
    (hs : Setup fp params T d) (env : Env) (ctx : EvaluationContext)
    (hlevel : 0 ≤ ctx.partialEvaluationsLevel ∧ ctx.partialEvaluationsLevel < params.length)
    (h : Int) (points : List U128) :
    Safe (d.evaluateAtCtx env (T h.toNat).helper h points ctx).1 := by
  rw [← hs.toCreated.n_eq] at hlevel
  exact hs.wf.evaluateAtCtx_safe env hlevel (fun h hh => hs.typedAt hh) h points

/-- Stored evaluations that were never computed, for a prefix twice. -/
example : Safe (exDpf.evaluateUntil exEnv (Ty.uint .w8).helper 2 [5]
      { exCtx2 with partialEvaluations := [⟨0, 17, true⟩, ⟨0, 18, true⟩] }).1 ∧
    Safe (exDpf.evaluateAtCtx exEnv (Ty.uint .w8).helper 2 [5]
      { exCtx2 with partialEvaluations := [⟨0, 17, true⟩, ⟨7, 18, true⟩], previousHierarchyLevel := -5 }).1 :=
  ⟨C50_evaluateUntil_partial exFp exParams8 _ exDpf exDpf_setup exEnv _ (by decide +kernel) _ 2 _
    (exSmall _ _ _ (by decide)),
   C50_evaluateAt_partial exFp exParams8 _ exDpf exDpf_setup exEnv _ (by decide +kernel) 2 _⟩

/-- C50 is false of the code: `hierarchy_to_tree_[ctx.partial_evaluations_level()]`
(/repo/dpf/distributed_point_function.cc:384) is read without a check. The contexts differ from ones
returned by the library in partial_evaluations_level only. -/
theorem C50_refuted : ∃ (fp : FpEnv) (params : List DpfParameters) (T : Nat → Ty) (d : Dpf) (env : Env)
    (key : DpfKey) (ctx : EvaluationContext), Setup fp params T d ∧ History d env key ctx ∧
    (d.evaluateUntil env (T 1).helper 1 [3] { ctx with partialEvaluationsLevel := 99 }).1 = ub ∧
    (d.evaluateAtCtx env (T 1).helper 1 [3] { ctx with partialEvaluationsLevel := 99 }).1 = ub ∧
    (d.evaluateUntil env (T 1).helper 1 [3]
      { ctx with partialEvaluations := [⟨0, 0, false⟩], partialEvaluationsLevel := -1 }).1 = ub := by
  have key : ∀ {α : Type} (r : Res α), (match r with
      | .ub => true
      | _ => false) = true → r = ub := by
    intro α r h; cases r <;> simp_all
  exact ⟨exFp, exParams8, fun _ => .uint .w8, exDpf, exEnv, exKey, exCtx1, exDpf_setup, exHist1,
    key _ (by decide +kernel), key _ (by decide +kernel), key _ (by decide +kernel)⟩

/-- C50: `EvaluateAt` accepts a context with parameters of another DPF and with a negative stored level
of nothing (/repo/dpf/distributed_point_function.h:922-1010 does not call ValidateEvaluationContext). -/
theorem C50_evaluateAt_refuted : ∃ (fp : FpEnv) (params : List DpfParameters) (T : Nat → Ty) (d : Dpf)
    (env : Env) (key : DpfKey) (ctx : EvaluationContext) (vals : List (T 1).den), Setup fp params T d ∧
    History d env key ctx ∧
    (d.evaluateAtCtx env (T 1).helper 1 [3]
      { ctx with parameters := [], previousHierarchyLevel := 1000 }).1 = ok vals :=
  ⟨exFp, exParams8, fun _ => .uint .w8, exDpf, exEnv, exKey, exCtx1, _, exDpf_setup, exHist1,
    Res.eq_ok_getD (by decide +kernel) []⟩

end Verif
