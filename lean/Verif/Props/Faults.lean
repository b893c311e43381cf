import Verif.Lemmas.FaultsHistory
import Verif.Props.ContextState
import Verif.Props.Mic
/-!
# C91: failures of the environment are reported and never give wrong results
-/
namespace Verif
open Res Spec

theorem FollowsOn.reportedOn {κ α : Type} {P : κ → Prop} {m : FaultyOn κ α} {x : Res α × κ} (h : FollowsOn P m x)
    (fs : Faults) : ReportedOn fs (m fs).2 x (m fs).1 := by
  obtain ⟨made, e, h⟩ := h fs
  refine ⟨made, e, ?_⟩
  rcases h with ⟨h1, h2, h3 | ⟨h3, _⟩⟩ | ⟨h1, h2, _⟩
  · exact .inl ⟨h1, .inl (Prod.ext h2 h3)⟩
  · exact .inl ⟨h1, .inr ⟨h3, h2⟩⟩
  · exact .inr ⟨h1, h2⟩

/-! ## Every failure is reported -/

/-- C91: `GenerateKeysIncremental`. -/
theorem C91_generateKeys (d : Dpf) (env : Env) (alpha : U128) (beta : List Value) (seed0 seed1 : U128) (fs : Faults) :
    Reported fs (d.generateKeysIncrementalF env alpha beta seed0 seed1 fs).2
      (d.generateKeysIncremental env alpha beta seed0 seed1)
      (d.generateKeysIncrementalF env alpha beta seed0 seed1 fs).1 :=
  Dpf.generateKeysIncremental_follows env alpha beta seed0 seed1 fs

/-- C91: `EvaluateAt` without a context. -/
theorem C91_evaluateAt (d : Dpf) (env : Env) (S : Ty) (key : DpfKey) (h : Int) (points : List U128) (fs : Faults) :
    Reported fs (d.evaluateAtF env S.helper key h points fs).2 (d.evaluateAt env S.helper key h points)
      (d.evaluateAtF env S.helper key h points fs).1 :=
  Dpf.evaluateAt_follows env S.helper key h points fs

/-- C91: `EvaluateUntil`, with the context. -/
theorem C91_evaluateUntil (d : Dpf) (env : Env) (S : Ty) (h : Int) (prefixes : List U128) (ctx : EvaluationContext)
    (fs : Faults) :
    ReportedOn fs (d.evaluateUntilF env S.helper h prefixes ctx fs).2 (d.evaluateUntil env S.helper h prefixes ctx)
      (d.evaluateUntilF env S.helper h prefixes ctx fs).1 :=
  (Dpf.evaluateUntil_follows env S.helper h prefixes ctx).reportedOn fs

/-- C91: `EvaluateNext`, with the context. -/
theorem C91_evaluateNext (d : Dpf) (env : Env) (S : Ty) (prefixes : List U128) (ctx : EvaluationContext) (fs : Faults) :
    ReportedOn fs (d.evaluateNextF env S.helper prefixes ctx fs).2 (d.evaluateNext env S.helper prefixes ctx)
      (d.evaluateNextF env S.helper prefixes ctx fs).1 := by
  unfold Dpf.evaluateNextF Dpf.evaluateNext
  by_cases hne : prefixes = []
  · rw [if_pos hne, if_pos hne]; exact C91_evaluateUntil _ _ _ _ _ _ _
  · rw [if_neg hne, if_neg hne]; exact C91_evaluateUntil _ _ _ _ _ _ _

/-- C91: `EvaluateAt` with a context. -/
theorem C91_evaluateAtCtx (d : Dpf) (env : Env) (S : Ty) (h : Int) (points : List U128) (ctx : EvaluationContext)
    (fs : Faults) :
    ReportedOn fs (d.evaluateAtCtxF env S.helper h points ctx fs).2 (d.evaluateAtCtx env S.helper h points ctx)
      (d.evaluateAtCtxF env S.helper h points ctx fs).1 :=
  (Dpf.evaluateAtCtx_follows env S.helper h points ctx).reportedOn fs

/-- C91: `EvaluateAndApply`. When it fails because of the environment, the callback has been called for the first levels
only, with the values of the run without failures: its state is that of a run in which it stops after `k` calls. -/
theorem C91_evaluateAndApply {σ : Type} (d : Dpf) (env : Env) (S : Ty) (keys : List DpfKey) (points : List U128)
    (op : σ → List S.den → Bool × σ) (s : σ) (rightshift : Int) (fs : Faults) :
    ReportedOn fs (d.evaluateAndApplyF env S.helper keys points op s rightshift fs).2
      (d.evaluateAndApply env S.helper keys points op s rightshift)
      (d.evaluateAndApplyF env S.helper keys points op s rightshift fs).1 ∧
    ((d.evaluateAndApplyF env S.helper keys points op s rightshift fs).1.2 =
        (d.evaluateAndApply env S.helper keys points op s rightshift).2 ∨
      ∃ k, (d.evaluateAndApplyF env S.helper keys points op s rightshift fs).1.2 =
        (d.evaluateAndApply env S.helper keys points (stopping k op) (s, 0) rightshift).2.1) :=
  ⟨(Dpf.evaluateAndApply_follows env S.helper keys points op s rightshift).reportedOn fs,
    (Dpf.evaluateAndApply_follows env S.helper keys points op s rightshift).object fs⟩

/-- C91: `GenerateKeys` of comparison functions. -/
theorem C91_dcf_generateKeys (c : Dcf) (env : Env) (alpha : U128) (beta : Value) (seed0 seed1 : U128) (fs : Faults) :
    Reported fs (c.generateKeysF env alpha beta seed0 seed1 fs).2 (c.generateKeys env alpha beta seed0 seed1)
      (c.generateKeysF env alpha beta seed0 seed1 fs).1 :=
  Dcf.generateKeys_follows c env alpha beta seed0 seed1 fs

/-- C91: `BatchEvaluate` and `Evaluate` of comparison functions. -/
theorem C91_dcf_evaluate (c : Dcf) (env : Env) (S : Ty) (fs : Faults) :
    (∀ (keys : List DcfKey) (points : List U128),
      Reported fs (c.batchEvaluateF env S.helper keys points fs).2 (c.batchEvaluate env S.helper keys points)
        (c.batchEvaluateF env S.helper keys points fs).1) ∧
    (∀ (keys : List DcfKey) (points : List U128) (output : List S.den),
      ReportedOn fs (c.batchEvaluateIntoF env S.helper keys points output fs).2
        (c.batchEvaluateInto env S.helper keys points output)
        (c.batchEvaluateIntoF env S.helper keys points output fs).1) ∧
    ∀ (key : DcfKey) (x : U128),
      Reported fs (c.evaluateF env S.helper key x fs).2 (c.evaluate env S.helper key x)
        (c.evaluateF env S.helper key x fs).1 :=
  ⟨fun keys points => Dcf.batchEvaluate_follows c env S.helper keys points fs,
    fun keys points output => (Dcf.batchEvaluateInto_follows c env S.helper keys points output).reportedOn fs,
    fun key x => Dcf.evaluate_follows c env S.helper key x fs⟩

/-- C91: `BatchEval` of interval containment gates. -/
theorem C91_mic_batchEval (g : Mic) (env : Env) (keys : List MicKey) (points : List U128) (fs : Faults) :
    Reported fs (g.batchEvalF env keys points fs).2 (g.batchEval env keys points) (g.batchEvalF env keys points fs).1 :=
  Mic.batchEval_follows g env keys points fs

/-! ## Results after failures -/

/-- C91, if the number of blocks below a prefix fits an `int` (as in `C03_incremental_partial`): after any calls, of which
any have failed because of the environment, a successful `EvaluateUntil` returns the values of the key. -/
theorem C91_evaluateUntil_values_partial (fp : FpEnv) (params : List DpfParameters) (T : Nat → Ty) (d : Dpf)
    (hs : Setup fp params T d) (env : Env) (key : DpfKey) (ctx : EvaluationContext)
    (hist : FaultyHistory d env key ctx) (S : Ty) (h : Int) (prefixes : List U128) (fs : Faults) (vals : List S.den)
    (hok : (d.evaluateUntilF env S.helper h prefixes ctx fs).1.1 = ok vals)
    (hsm : SmallExpansion params d ctx.previousHierarchyLevel.toNat h.toNat prefixes) :
    d.evaluateAt env S.helper key h (outputPoints params ctx.previousHierarchyLevel h prefixes) = ok vals ∧
    (ctx.previousHierarchyLevel < 0 ↔ prefixes = []) ∧ ctx.previousHierarchyLevel < h ∧
    (d.evaluateUntilF env S.helper h prefixes ctx fs).1.2.previousHierarchyLevel = h := by
  have hc := hs.wf.faultyHistory env hist
  obtain ⟨made, _, hr⟩ := C91_evaluateUntil d env S h prefixes ctx fs
  have e : (d.evaluateUntilF env S.helper h prefixes ctx fs).1 = d.evaluateUntil env S.helper h prefixes ctx := by
    rcases hr with ⟨_, h | ⟨h1, h2⟩⟩ | ⟨_, h⟩
    · exact h
    · rw [h2] at hok
      rcases h1 with h1 | h1 <;> rw [h1] at hok <;> exact nomatch hok
    · rcases h with h | h <;> rw [h] at hok <;> exact nomatch hok
  rw [e] at hok ⊢
  rcases hs.toCreated.evaluateUntil_outcomes env hc S.helper h prefixes with he | ⟨ha, hu, hp⟩
  · rw [he] at hok; simp at hok
  · obtain ⟨hN, rfl, hh, rfl⟩ := hs.until_type ha
    rw [Int.toNat_natCast] at hsm
    rw [← hs.evaluateUntil_eq env hc hh ha hu hsm]
    rw [hok] at hp
    exact ⟨hok, ha.first, ha.later, by simpa using hp⟩

/-- C91: after any calls, of which any have failed because of the environment, a successful `EvaluateAt` with the context
returns the values of the key. -/
theorem C91_evaluateAt_values (fp : FpEnv) (params : List DpfParameters) (d : Dpf) (hcr : Created fp params d)
    (env : Env) (key : DpfKey) (ctx : EvaluationContext) (hist : FaultyHistory d env key ctx) (S : Ty) (h : Int)
    (points : List U128) (fs : Faults) (vals : List S.den)
    (hok : (d.evaluateAtCtxF env S.helper h points ctx fs).1.1 = ok vals) :
    d.evaluateAt env S.helper key h points = ok vals := by
  have hc := hcr.wf.faultyHistory env hist
  obtain ⟨made, _, hr⟩ := (Dpf.evaluateAtCtx_follows (d := d) env S.helper h points ctx).reported fs
  have e : (d.evaluateAtCtx env S.helper h points ctx).1 = ok vals := by
    rcases hr with ⟨_, h⟩ | ⟨_, h⟩
    · rw [← h]; exact hok
    · rcases h with h | h <;> rw [h] at hok <;> exact nomatch hok
  rcases (hcr.wf.evaluateAtCtx_cases env hc S.helper h points).1 with h | h
  · rw [h] at e; exact nomatch e
  · rw [← h]; exact e

/-! ## Trying again -/

/-- C91: what becomes of a call of `EvaluateUntil` that reports a failure of the environment. Either the level of the
context has not changed: then every call for some of the same prefixes, in particular the same call, has the result that
it would have had before, and leaves the same context if it succeeds. Or the failure came after the expansion: then the
context is the one that the successful call would have left. -/
theorem C91_evaluateUntil_retry (fp : FpEnv) (params : List DpfParameters) (T : Nat → Ty) (d : Dpf)
    (hs : Setup fp params T d) (env : Env) (key : DpfKey) (ctx ctx' : EvaluationContext)
    (hist : FaultyHistory d env key ctx) (S : Ty) (h : Int) (prefixes : List U128) (fs : Faults) (c : Code)
    (hf : (d.evaluateUntilF env S.helper h prefixes ctx fs).1 = (err c, ctx'))
    (hx : d.evaluateUntil env S.helper h prefixes ctx ≠ (err c, ctx')) :
    (ctx'.previousHierarchyLevel = ctx.previousHierarchyLevel ∧
      ∀ (S2 : Ty) (h2 : Int) (p2 : List U128), (∀ x ∈ p2, x ∈ prefixes) →
        (d.evaluateUntil env S2.helper h2 p2 ctx').1 = (d.evaluateUntil env S2.helper h2 p2 ctx).1 ∧
        ((d.evaluateUntil env S2.helper h2 p2 ctx).1.isOk = true →
          (d.evaluateUntil env S2.helper h2 p2 ctx').2 = (d.evaluateUntil env S2.helper h2 p2 ctx).2)) ∨
    (ctx' = (d.evaluateUntil env S.helper h prefixes ctx).2 ∧ ctx'.previousHierarchyLevel = h ∧
      ctx.previousHierarchyLevel < h) := by
  have hc := hs.wf.faultyHistory env hist
  obtain ⟨made, _, hr⟩ := Dpf.evaluateUntil_follows (d := d) env S.helper h prefixes ctx fs
  rw [hf] at hr
  have hst : Dpf.UntilStops d env S.helper h prefixes ctx ctx' := by
    rcases hr with ⟨_, h1, h2 | ⟨h2, _⟩⟩ | ⟨_, _, h⟩
    · exact absurd (Prod.ext h1.symm h2.symm) hx
    · rw [← h1] at h2
      rcases h2 with h2 | h2 <;> exact nomatch h2
    · exact h
  rcases hs.wf.untilStops env hc hst with rfl | ⟨ha, _, h0, upd, ti, hmem, hu, e⟩ | ⟨ha, h1, h2⟩
  · exact .inl ⟨rfl, fun _ _ _ _ => ⟨rfl, fun _ => rfl⟩⟩
  · refine .inl ⟨by rw [e], fun S2 h2 p2 hsub => ?_⟩
    exact Dpf.evaluateUntil_again hs env hc ha.ctx_ok h0 hmem hu e S2.helper h2 p2 hsub
  · exact .inr ⟨h1, h2, ha.later⟩

/-- C91: after a call of `EvaluateAt` with a context that reports a failure of the environment, every call for the same
level and some of the points, in particular the same call, has the result that it would have had before, and leaves the
same context if it succeeds. -/
theorem C91_evaluateAt_retry (fp : FpEnv) (params : List DpfParameters) (d : Dpf) (hcr : Created fp params d)
    (env : Env) (key : DpfKey) (ctx ctx' : EvaluationContext)
    (hist : FaultyHistory d env key ctx) (S : Ty) (h : Int) (points : List U128) (fs : Faults) (c : Code)
    (hf : (d.evaluateAtCtxF env S.helper h points ctx fs).1 = (err c, ctx'))
    (hx : d.evaluateAtCtx env S.helper h points ctx ≠ (err c, ctx'))
    (p2 : List U128) (hsub : ∀ x ∈ p2, x ∈ points) :
    (d.evaluateAtCtx env S.helper h p2 ctx').1 = (d.evaluateAtCtx env S.helper h p2 ctx).1 ∧
    (p2 ≠ [] → (d.evaluateAtCtx env S.helper h p2 ctx).1.isOk = true →
      (d.evaluateAtCtx env S.helper h p2 ctx').2 = (d.evaluateAtCtx env S.helper h p2 ctx).2) := by
  have hc := hcr.wf.faultyHistory env hist
  obtain ⟨made, _, hr⟩ := Dpf.evaluateAtCtx_follows (d := d) env S.helper h points ctx fs
  rw [hf] at hr
  have hst : Dpf.AtStops d env S.helper h points ctx ctx' := by
    rcases hr with ⟨_, h1, h2 | ⟨h2, _⟩⟩ | ⟨_, _, h⟩
    · exact absurd (Prod.ext h1.symm h2.symm) hx
    · rw [← h1] at h2
      rcases h2 with h2 | h2 <;> exact nomatch h2
    · exact h
  rcases hcr.wf.atStops env hc hst with rfl | ⟨hN, ti, rfl, hh, hp, _, hti, hu, e⟩
  · exact ⟨rfl, fun _ _ => rfl⟩
  · obtain ⟨h1, h2, h3⟩ := hcr.wf.evaluateAtCtx_again env hc S.helper hh hp hti hu e p2 hsub
    exact ⟨by rw [h1, h2], h3⟩

/-- C91: but if such a call of `EvaluateAt` was for a later level and has changed the context, `EvaluateUntil` is rejected
from then on, whatever its arguments are. -/
theorem C91_stuck (fp : FpEnv) (params : List DpfParameters) (d : Dpf) (hcr : Created fp params d)
    (env : Env) (key : DpfKey) (ctx ctx' : EvaluationContext)
    (hist : FaultyHistory d env key ctx) (S : Ty) (h : Int) (points : List U128) (fs : Faults) (c : Code)
    (hf : (d.evaluateAtCtxF env S.helper h points ctx fs).1 = (err c, ctx'))
    (hx : d.evaluateAtCtx env S.helper h points ctx ≠ (err c, ctx')) (hchanged : ctx' ≠ ctx)
    (hlater : ctx.previousHierarchyLevel < h) (S' : Ty) (h' : Int) (prefixes : List U128) :
    d.evaluateUntil env S'.helper h' prefixes ctx' = (err .invalidArgument, ctx') := by
  have hc := hcr.wf.faultyHistory env hist
  obtain ⟨made, _, hr⟩ := Dpf.evaluateAtCtx_follows (d := d) env S.helper h points ctx fs
  rw [hf] at hr
  have hst : Dpf.AtStops d env S.helper h points ctx ctx' := by
    rcases hr with ⟨_, h1, h2 | ⟨h2, _⟩⟩ | ⟨_, _, h⟩
    · exact absurd (Prod.ext h1.symm h2.symm) hx
    · rw [← h1] at h2
      rcases h2 with h2 | h2 <;> exact nomatch h2
    · exact h
  rcases hcr.wf.atStops env hc hst with rfl | ⟨hN, ti, rfl, hh, hp, hne, hti, hu, e⟩
  · exact absurd rfl hchanged
  · refine C06_rejects fp params d hcr env S' h' prefixes ctx' ?_
    rw [e]
    refine .badPartials ?_ hlater
    obtain ⟨ti', h1, hl⟩ := Dpf.treeIndicesFor_cases hcr.wf S.helper hh points
    rw [hti, ok.injEq] at h1
    subst h1
    have : ti ≠ [] := by
      intro e
      rw [e] at hl
      exact hne (List.length_eq_zero_iff.mp hl.symm)
    simpa [Dpf.partialsAt] using this

/-! ## Examples -/

/-- Successful calls are calls without failures. -/
theorem Spec.FaultyHistory.until_ok {d : Dpf} {env : Env} {key : DpfKey} {ctx : EvaluationContext}
    (hist : FaultyHistory d env key ctx) (S : Ty) (h : Int) (prefixes : List U128)
    (hok : (d.evaluateUntil env S.helper h prefixes ctx).1.isOk = true) :
    FaultyHistory d env key (d.evaluateUntil env S.helper h prefixes ctx).2 := by
  obtain ⟨made, e, hr⟩ := C91_evaluateUntil d env S h prefixes ctx []
  have hm : made = [] := (List.append_eq_nil_iff.mp e.symm).1
  rcases hr with ⟨_, h1 | ⟨h1, _⟩⟩ | ⟨h1, _⟩
  · rw [← h1]; exact .evalUntil S h prefixes [] hist
  · rcases h1 with h1 | h1 <;> rw [h1] at hok <;> exact nomatch hok
  · rw [hm] at h1; simp at h1

theorem exFaulty1 : FaultyHistory exDpf exEnv exKey exCtx1 :=
  (FaultyHistory.create exCtx0_eq).until_ok (.uint .w8) 0 [] (by decide +kernel)

theorem exFaulty2 : FaultyHistory exDpf exEnv exKey exCtx2 :=
  exFaulty1.until_ok (.uint .w8) 1 [3, 0, 3] (by decide +kernel)

/-- The fifth call fails: memory for the expansion. -/
def exFail5 : Faults := [false, false, false, false, true]
/-- The twelfth call fails: hashing the expanded seeds. -/
def exFail12 : Faults := List.replicate 11 false ++ [true]

/-- The context after `EvaluateUntil` failed to allocate memory for the expansion. -/
def exFailed5 : EvaluationContext := (exDpf.evaluateUntilF exEnv (Ty.uint .w8).helper 2 [1] exCtx2 exFail5).1.2
/-- The context after `EvaluateUntil` failed to hash the expanded seeds. -/
def exFailed12 : EvaluationContext := (exDpf.evaluateUntilF exEnv (Ty.uint .w8).helper 2 [1] exCtx2 exFail12).1.2

theorem exFailed5_eq : (exDpf.evaluateUntilF exEnv (Ty.uint .w8).helper 2 [1] exCtx2 exFail5).1 =
    (err .resourceExhausted, exFailed5) := by
  have h : (match (exDpf.evaluateUntilF exEnv (Ty.uint .w8).helper 2 [1] exCtx2 exFail5).1.1 with
    | .err .resourceExhausted => true
    | _ => false) = true := by decide +kernel
  refine Prod.ext ?_ rfl
  split at h
  · assumption
  · simp at h

theorem exFailed12_eq : (exDpf.evaluateUntilF exEnv (Ty.uint .w8).helper 2 [1] exCtx2 exFail12).1 =
    (err .internal, exFailed12) := by
  have h : (match (exDpf.evaluateUntilF exEnv (Ty.uint .w8).helper 2 [1] exCtx2 exFail12).1.1 with
    | .err .internal => true
    | _ => false) = true := by decide +kernel
  refine Prod.ext ?_ rfl
  split at h
  · assumption
  · simp at h

theorem ne_of_isOk {α κ : Type} {x : Res α × κ} {c : Code} {k : κ} (h : x.1.isOk = true) : x ≠ (err c, k) := by
  rintro rfl; exact nomatch h

/-- C91 on the example: after the failed allocation the same call succeeds, with the values of the key. -/
example : ∃ vals, (exDpf.evaluateUntil exEnv (Ty.uint .w8).helper 2 [1] exFailed5).1 = ok vals ∧
    (exDpf.evaluateUntil exEnv (Ty.uint .w8).helper 2 [1] exCtx2).1 = ok vals := by
  have hok : (exDpf.evaluateUntil exEnv (Ty.uint .w8).helper 2 [1] exCtx2).1.isOk = true := by decide +kernel
  rcases C91_evaluateUntil_retry exFp exParams8 _ exDpf exDpf_setup exEnv exKey exCtx2 exFailed5 exFaulty2 (.uint .w8) 2
    [1] exFail5 _ exFailed5_eq (ne_of_isOk hok) with ⟨_, h⟩ | ⟨_, h, _⟩
  · have h := (h (.uint .w8) 2 [1] fun _ h => h).1
    have e := Res.eq_ok_getD hok []
    exact ⟨_, h.trans e, e⟩
  · exact absurd h (by decide +kernel)

/-- The values of the second attempt, by `C91_evaluateUntil_values_partial`. -/
example : ∃ vals, (exDpf.evaluateUntilF exEnv (Ty.uint .w8).helper 2 [1] exFailed5 []).1.1 = ok vals ∧
    exDpf.evaluateAt exEnv (Ty.uint .w8).helper exKey 2 [4, 5, 6, 7] = ok vals := by
  have hh : FaultyHistory exDpf exEnv exKey exFailed5 := .evalUntil (.uint .w8) 2 [1] exFail5 exFaulty2
  have e := Res.eq_ok_getD (r := (exDpf.evaluateUntilF exEnv (Ty.uint .w8).helper 2 [1] exFailed5 []).1.1)
    (by decide +kernel) []
  refine ⟨_, e, ?_⟩
  have h := (C91_evaluateUntil_values_partial exFp exParams8 _ exDpf exDpf_setup exEnv exKey exFailed5 hh (.uint .w8) 2
    [1] [] _ e (exSmall _ _ _ (by decide))).1
  rwa [show outputPoints exParams8 exFailed5.previousHierarchyLevel 2 [1] = [4, 5, 6, 7] by decide +kernel] at h

/-- It is not true that a call that reports a failure of the environment can be repeated, or leaves the context as it was:
if hashing fails, the context is at the new level already, so that the same call is rejected and the values of the level are
lost; and if the expansion fails, calls for other prefixes, accepted before, are rejected. -/
theorem C91_evaluateUntil_retry_refuted :
    FaultyHistory exDpf exEnv exKey exCtx2 ∧
    ((exDpf.evaluateUntilF exEnv (Ty.uint .w8).helper 2 [1] exCtx2 exFail12).1 = (err .internal, exFailed12) ∧
      (exDpf.evaluateUntil exEnv (Ty.uint .w8).helper 2 [1] exCtx2).1.isOk = true ∧
      exDpf.evaluateUntil exEnv (Ty.uint .w8).helper 2 [1] exFailed12 = (err .invalidArgument, exFailed12)) ∧
    ((exDpf.evaluateUntilF exEnv (Ty.uint .w8).helper 2 [1] exCtx2 exFail5).1 = (err .resourceExhausted, exFailed5) ∧
      (exDpf.evaluateUntil exEnv (Ty.uint .w8).helper 2 [20] exCtx2).1.isOk = true ∧
      (exDpf.evaluateUntil exEnv (Ty.uint .w8).helper 2 [20] exFailed5).1 = err .invalidArgument) := by
  refine ⟨exFaulty2, ⟨exFailed12_eq, by decide +kernel, ?_⟩, exFailed5_eq, by decide +kernel, ?_⟩
  · exact C06_rejects exFp exParams8 exDpf exDpf_setup.toCreated exEnv (.uint .w8) 2 [1] exFailed12
      (.notAfter (by decide +kernel))
  · have h : (match (exDpf.evaluateUntil exEnv (Ty.uint .w8).helper 2 [20] exFailed5).1 with
      | .err .invalidArgument => true
      | _ => false) = true := by decide +kernel
    split at h
    · assumption
    · simp at h

/-- The context after `EvaluateAt` failed to hash the seeds. -/
def exFailedAt : EvaluationContext :=
  (exDpf.evaluateAtCtxF exEnv (Ty.uint .w8).helper 1 [13] exCtx1 (List.replicate 6 false ++ [true])).1.2

theorem exFailedAt_eq :
    (exDpf.evaluateAtCtxF exEnv (Ty.uint .w8).helper 1 [13] exCtx1 (List.replicate 6 false ++ [true])).1 =
    (err .internal, exFailedAt) := by
  have h : (match (exDpf.evaluateAtCtxF exEnv (Ty.uint .w8).helper 1 [13] exCtx1
      (List.replicate 6 false ++ [true])).1.1 with
    | .err .internal => true
    | _ => false) = true := by decide +kernel
  refine Prod.ext ?_ rfl
  split at h
  · assumption
  · simp at h

/-- C91 on the example: after a failed call of `EvaluateAt` the same call succeeds, but `EvaluateUntil` is rejected,
although it was accepted before. -/
theorem C91_evaluateAt_stuck_refuted :
    FaultyHistory exDpf exEnv exKey exCtx1 ∧
    (exDpf.evaluateAtCtxF exEnv (Ty.uint .w8).helper 1 [13] exCtx1 (List.replicate 6 false ++ [true])).1 =
      (err .internal, exFailedAt) ∧
    (exDpf.evaluateAtCtx exEnv (Ty.uint .w8).helper 1 [13] exFailedAt).1 =
      (exDpf.evaluateAtCtx exEnv (Ty.uint .w8).helper 1 [13] exCtx1).1 ∧
    (exDpf.evaluateUntil exEnv (Ty.uint .w8).helper 1 [3] exCtx1).1.isOk = true ∧
    ∀ (S : Ty) (h : Int) (prefixes : List U128),
      exDpf.evaluateUntil exEnv S.helper h prefixes exFailedAt = (err .invalidArgument, exFailedAt) := by
  have hok : (exDpf.evaluateAtCtx exEnv (Ty.uint .w8).helper 1 [13] exCtx1).1.isOk = true := by decide +kernel
  have hch : exFailedAt ≠ exCtx1 := by
    intro h
    have h1 : exFailedAt.partialEvaluations.length = 1 := by decide +kernel
    have h2 : exCtx1.partialEvaluations.length = 0 := by decide +kernel
    rw [h, h2] at h1
    exact absurd h1 (by decide)
  refine ⟨exFaulty1, exFailedAt_eq, ?_, by decide +kernel, fun S h prefixes => ?_⟩
  · exact (C91_evaluateAt_retry exFp exParams8 exDpf exDpf_setup.toCreated exEnv exKey exCtx1 exFailedAt exFaulty1
      (.uint .w8) 1 [13] _ _ exFailedAt_eq (ne_of_isOk hok) [13] fun _ h => h).1
  · exact C91_stuck exFp exParams8 exDpf exDpf_setup.toCreated exEnv exKey exCtx1 exFailedAt exFaulty1 (.uint .w8) 1 [13]
      _ _ exFailedAt_eq (ne_of_isOk hok) hch (by decide +kernel) S h prefixes

/-- C91 on an example: key generation whose tenth call fails. -/
example : (exDpf.generateKeysIncrementalF exEnv 77 [.integer (.u64 1), .integer (.u64 2), .integer (.u64 3),
    .integer (.u64 4)] 1 2 (List.replicate 9 false ++ [true, true])).2 = [true] ∧
    ∃ c, (exDpf.generateKeysIncrementalF exEnv 77 [.integer (.u64 1), .integer (.u64 2), .integer (.u64 3),
    .integer (.u64 4)] 1 2 (List.replicate 9 false ++ [true, true])).1 = err c := by
  have e : (exDpf.generateKeysIncrementalF exEnv 77 [.integer (.u64 1), .integer (.u64 2), .integer (.u64 3),
    .integer (.u64 4)] 1 2 (List.replicate 9 false ++ [true, true])).2 = [true] := by decide +kernel
  refine ⟨e, ?_⟩
  obtain ⟨made, h, hr⟩ := C91_generateKeys exDpf exEnv 77 [.integer (.u64 1), .integer (.u64 2), .integer (.u64 3),
    .integer (.u64 4)] 1 2 (List.replicate 9 false ++ [true, true])
  rw [e] at h
  rcases hr with ⟨h1, _⟩ | ⟨_, h1 | h1⟩
  · have : made = List.replicate 9 false ++ [true] := by
      have h' : (List.replicate 9 false ++ [true]) ++ [true] = made ++ [true] := h
      exact (List.append_cancel_right h').symm
    exact absurd (by rw [this]; decide) h1
  · exact ⟨_, h1⟩
  · exact ⟨_, h1⟩

/-- C91 on the example of a gate: the second call fails. -/
example (keys : List MicKey) (hk : keys.length = 1) :
    (exMic.batchEvalF exEnv keys [5] [false, true]).1 = err .resourceExhausted := by
  match keys, hk with
  | [k], _ => rfl

/-- C91 on an example: `EvaluateAt` after the failed call. -/
example : ∃ vals, exDpf.evaluateAt exEnv (Ty.uint .w8).helper exKey 2 [5, 20] = ok vals := by
  have hh : FaultyHistory exDpf exEnv exKey exFailed5 := .evalUntil (.uint .w8) 2 [1] exFail5 exFaulty2
  have e := Res.eq_ok_getD (r := (exDpf.evaluateAtCtxF exEnv (Ty.uint .w8).helper 2 [5, 20] exFailed5 []).1.1)
    (by decide +kernel) []
  exact ⟨_, C91_evaluateAt_values exFp exParams8 exDpf exDpf_setup.toCreated exEnv exKey exFailed5 hh (.uint .w8) 2 [5, 20] [] _ e⟩

end Verif
