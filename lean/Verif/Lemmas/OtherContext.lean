import Verif.Lemmas.History
import Verif.Spec.Calls
/-!
# Contexts made by other objects
-/
namespace Verif
open Res Spec

theorem rat_abs_le (x e : Rat) : x.abs ≤ e ↔ -e ≤ x ∧ x ≤ e := by
  simp only [Rat.abs]
  split <;> grind

theorem almostEqual_iff (a b : Rat) : almostEqual (.val a) (.val b) = true ↔
    (roundDouble (a - b)).abs ≤ roundDouble (1 / 10000) := by
  rw [rat_abs_le]
  simp only [almostEqual, decide_eq_true_eq]

theorem sameType_iff {a b : ValueType} : valueTypesAreEqual a b = ok true ↔ SameType a b := by
  refine ⟨sameType_of_equal, ?_⟩
  rintro ⟨c, ha, hb⟩
  obtain ⟨r, h1, h2⟩ := valueTypesAreEqual_canon a b c c ha hb
  rw [h1, h2.mpr rfl]

/-- Comparison of a parameter of the object with one of a context. -/
theorem parametersAreEqual_iff {p q : DpfParameters} (h0 : 0 ≤ p.logDomainSize)
    (hs : ∃ a, p.securityParameter = .val a) :
    parametersAreEqual (withDefaultSecurity p) q = ok true ↔ p.logDomainSize = q.logDomainSize ∧
      SameSecurity p.logDomainSize p.securityParameter q.securityParameter ∧ SameType p.vt q.vt := by
  obtain ⟨a, ha⟩ := hs
  have hsec : (withDefaultSecurity p).securityParameter =
      .val (if a = 0 then 40 + (p.logDomainSize : Rat) else a) := by
    unfold withDefaultSecurity
    rw [ha]
    simp only [Sec.isZero, decide_eq_true_eq]
    split
    · rfl
    · exact ha
  have hvt : (withDefaultSecurity p).vt = p.vt := by
    rw [DpfParameters.vt, withDefaultSecurity_vt]; rfl
  have hne : (if a = 0 then 40 + (p.logDomainSize : Rat) else a) ≠ 0 := by
    split
    · have : (0 : Rat) ≤ (p.logDomainSize : Rat) := by exact_mod_cast h0
      grind
    · assumption
  have hsame : SameSecurity p.logDomainSize p.securityParameter q.securityParameter ↔
      (almostEqual (.val (if a = 0 then 40 + (p.logDomainSize : Rat) else a)) q.securityParameter ||
        (q.securityParameter.isZero && almostEqual (.val (if a = 0 then 40 + (p.logDomainSize : Rat) else a))
          (.val (40 + (p.logDomainSize : Rat))))) = true := by
    rw [ha]
    unfold SameSecurity
    cases hq : q.securityParameter with
    | nan => simp [almostEqual, Sec.isZero]
    | val b =>
      rw [Bool.or_eq_true, Bool.and_eq_true, almostEqual_iff, almostEqual_iff]
      simp only [Sec.isZero, decide_eq_true_eq]
      constructor
      · rintro ⟨a', b', e, e', h⟩
        cases e; cases e'
        exact h
      · intro h
        exact ⟨a, b, rfl, rfl, h⟩
  rw [hsame]
  unfold parametersAreEqual
  rw [withDefaultSecurity_log, hsec, hvt]
  simp only [getDefaultSecurityParameter, withDefaultSecurity_log]
  generalize (if a = 0 then 40 + (p.logDomainSize : Rat) else a) = own at hne
  have hz : (Sec.val own).isZero = false := by simpa [Sec.isZero] using hne
  rw [hz, Bool.false_and, Bool.or_false]
  by_cases hl : p.logDomainSize = q.logDomainSize
  · rw [if_neg (by simpa using hl)]
    cases hb : (almostEqual (.val own) q.securityParameter ||
        (q.securityParameter.isZero && almostEqual (.val own) (.val (40 + (p.logDomainSize : Rat)))))
    · simp
    · simp [sameType_iff, hl]
  · rw [if_pos (by simpa using hl)]
    simp [hl]

/-- What a context has to satisfy to pass validation. -/
theorem Spec.Created.validateEvaluationContext_iff {fp : FpEnv} {params : List DpfParameters} {d : Dpf}
    (hc : Created fp params d) (ctx : EvaluationContext) :
    d.pv.validateEvaluationContext ctx = ok () ↔ SameParameters params ctx.parameters ∧
      ∃ key, ctx.key = some key ∧ d.KeyOk key ∧ ctx.previousHierarchyLevel < (ctx.parameters.length : Int) - 1 ∧
        (ctx.partialEvaluations = [] ∨ ctx.partialEvaluationsLevel ≤ ctx.previousHierarchyLevel) := by
  have hv : ValidParams params := by
    obtain ⟨d0, Ts, h1, _⟩ := hc
    obtain ⟨hpv, _, _⟩ := createIncremental_spec h1
    exact (create_spec hpv).1
  have hlen : d.pv.parameters.length = params.length := hc.n_eq
  have hone : ∀ (i : Nat) (p q : DpfParameters), params[i]? = some p → ctx.parameters[i]? = some q →
      ((parametersAreEqual (withDefaultSecurity p) q >>= fun eq => failIf (eq = false) .invalidArgument) = ok () ↔
        p.logDomainSize = q.logDomainSize ∧
        SameSecurity p.logDomainSize p.securityParameter q.securityParameter ∧ SameType p.vt q.vt) := by
    intro i p q hp _
    have hm := List.mem_of_getElem? hp
    obtain ⟨s, hs, _⟩ := hv.security p hm
    rw [← parametersAreEqual_iff (hv.log_range p hm).1 ⟨s, hs⟩]
    constructor
    · intro h
      obtain ⟨eq, e1, e2⟩ := bind_eq_ok.mp h
      rw [failIf_eq_ok] at e2
      rwa [show eq = true by simpa using e2] at e1
    · intro h
      rw [h]; rfl
  have hall : ctx.parameters.length = params.length →
      ((∃ us, mapRes (fun (pq : DpfParameters × DpfParameters) =>
        parametersAreEqual pq.1 pq.2 >>= fun eq => failIf (eq = false) .invalidArgument)
        (d.pv.parameters.zip ctx.parameters) = ok us) ↔ SameParameters params ctx.parameters) := by
    intro hcount
    rw [mapRes_unit_eq_ok]
    constructor
    · intro h
      have key : ∀ (i : Nat) (p q : DpfParameters), params[i]? = some p → ctx.parameters[i]? = some q → _ :=
        fun i p q hp hq => (hone i p q hp hq).mp (h (withDefaultSecurity p, q) (by
          refine List.mem_of_getElem? (i := i) ?_
          rw [List.getElem?_zip_eq_some, hc.params, List.getElem?_map, hp]
          exact ⟨rfl, hq⟩))
      exact ⟨hcount, fun i p q hp hq => (key i p q hp hq).1, fun i p q hp hq => (key i p q hp hq).2.2,
        fun i p q hp hq => (key i p q hp hq).2.1⟩
    · rintro hs ⟨a, b⟩ hab
      obtain ⟨i, hi⟩ := List.getElem?_of_mem hab
      rw [List.getElem?_zip_eq_some, hc.params, List.getElem?_map] at hi
      obtain ⟨h1, h2⟩ := hi
      obtain ⟨p, hp, rfl⟩ := Option.map_eq_some_iff.mp h1
      exact (hone i p b hp h2).mpr ⟨hs.domain i p b hp h2, hs.security i p b hp h2, hs.type i p b hp h2⟩
  constructor
  · intro h
    obtain ⟨h1, _, h2⟩ := hc.wf.validateEvaluationContext_spec h
    refine ⟨?_, h2⟩
    unfold ProtoValidator.validateEvaluationContext at h
    obtain ⟨⟨⟩, _, h⟩ := bind_eq_ok.mp h
    obtain ⟨us, h2, h⟩ := bind_eq_ok.mp h
    exact (hall (by omega)).mp ⟨us, h2⟩
  · rintro ⟨hs, key, hk, hko, hprev, hpe⟩
    unfold ProtoValidator.validateEvaluationContext
    rw [failIf_false (by have := hs.count; omega), bind_ok]
    obtain ⟨us, hus⟩ := (hall hs.count).mpr hs
    rw [hus, bind_ok, failIf_false (by simp [hk]), bind_ok]
    have : ctx.keyD = key := by simp [EvaluationContext.keyD, hk]
    rw [this, (hc.wf.validateDpfKey_iff key).mpr hko, bind_ok, failIf_false (by omega), bind_ok, failIf_false (by
      rintro ⟨h1, h2⟩
      rcases hpe with h | h
      · exact h1 h
      · omega)]

/-- The parameters stored by the object itself fit. -/
theorem Spec.Created.sameParameters_self {fp : FpEnv} {params : List DpfParameters} {d : Dpf}
    (hc : Created fp params d) (ht : ∀ (i : Nat) (p : DpfParameters), params[i]? = some p → ∃ c, canon p.vt = some c) :
    SameParameters params d.pv.parameters := by
  have hv : ValidParams params := by
    obtain ⟨d0, Ts, h1, _⟩ := hc
    obtain ⟨hpv, _, _⟩ := createIncremental_spec h1
    exact (create_spec hpv).1
  have hget : ∀ (i : Nat) (p q : DpfParameters), params[i]? = some p → d.pv.parameters[i]? = some q →
      q = withDefaultSecurity p := by
    intro i p q hp hq
    rw [hc.params, List.getElem?_map, hp] at hq
    simpa using hq.symm
  refine ⟨hc.n_eq, ?_, ?_, ?_⟩
  · intro i p q hp hq
    rw [hget i p q hp hq, withDefaultSecurity_log]
  · intro i p q hp hq
    rw [hget i p q hp hq]
    obtain ⟨c, h1⟩ := ht i p hp
    refine ⟨c, h1, ?_⟩
    rwa [DpfParameters.vt, withDefaultSecurity_vt]
  · intro i p q hp hq
    rw [hget i p q hp hq]
    obtain ⟨a, ha, _⟩ := hv.security p (List.mem_of_getElem? hp)
    refine ⟨a, if a = 0 then 40 + (p.logDomainSize : Rat) else a, ha, ?_, Or.inl ?_⟩
    · unfold withDefaultSecurity
      rw [ha]
      simp only [Sec.isZero, decide_eq_true_eq]
      split
      · rfl
      · exact ha
    · rw [Rat.sub_self]; decide +kernel

theorem Spec.Created.sameParameters_own {fp : FpEnv} {params qs : List DpfParameters} {d : Dpf}
    (hc : Created fp params d) (hs : SameParameters params qs) : SameParameters params d.pv.parameters := by
  refine hc.sameParameters_self fun i p hp => ?_
  have hi : i < qs.length := by rw [hs.count]; exact (List.getElem?_eq_some_iff.mp hp).1
  obtain ⟨c, h1, _⟩ := hs.type i p _ hp (List.getElem?_eq_getElem hi)
  exact ⟨c, h1⟩

/-- The context with other parameters. -/
def EvaluationContext.withParams (ctx : EvaluationContext) (ps : List DpfParameters) : EvaluationContext :=
  { ctx with parameters := ps }

theorem Spec.Created.validate_withParams {fp : FpEnv} {params : List DpfParameters} {d : Dpf}
    (hc : Created fp params d) {ctx : EvaluationContext} (hs : SameParameters params ctx.parameters) :
    d.pv.validateEvaluationContext ctx = d.pv.validateEvaluationContext (ctx.withParams d.pv.parameters) := by
  have hi : d.pv.validateEvaluationContext ctx = ok () ↔
      d.pv.validateEvaluationContext (ctx.withParams d.pv.parameters) = ok () := by
    rw [hc.validateEvaluationContext_iff, hc.validateEvaluationContext_iff]
    have h1 := hs.count
    have h2 : d.pv.parameters.length = params.length := hc.n_eq
    simp only [EvaluationContext.withParams, hs, hc.sameParameters_own hs, h1, h2]
  rcases hc.wf.validateEvaluationContext_cases ctx with ⟨⟨⟩, h⟩ | h
  · rw [h, hi.mp h]
  · rcases hc.wf.validateEvaluationContext_cases (ctx.withParams d.pv.parameters) with ⟨⟨⟩, h'⟩ | h'
    · rw [hi.mpr h'] at h; cases h
    · rw [h, h']

namespace Dpf
variable (d : Dpf)

theorem computePartialEvaluations_withParams (env : Env) (prefixes : List U128) (h : Int) (u : Bool)
    (ctx : EvaluationContext) (ps : List DpfParameters) :
    d.computePartialEvaluations env prefixes h u (ctx.withParams ps) =
      (d.computePartialEvaluations env prefixes h u ctx >>= fun r => ok (r.1, r.2.withParams ps)) := by
  unfold computePartialEvaluations
  simp only [bind_assoc, bind_ok]
  rfl

theorem expandAndUpdateContext_withParams (env : Env) (h : Nat) (prefixes : List U128)
    (ctx : EvaluationContext) (ps : List DpfParameters) :
    d.expandAndUpdateContext env h prefixes (ctx.withParams ps) =
      (d.expandAndUpdateContext env h prefixes ctx >>= fun r => ok (r.1, r.2.withParams ps)) := by
  unfold expandAndUpdateContext
  split
  · simp only [bind_assoc, bind_ok]
    rfl
  · simp only [computePartialEvaluations_withParams, bind_assoc, bind_ok]
    rfl

theorem evaluateUntil_withParams {α : Type} (env : Env) (H : Helper α) (h : Int) (prefixes : List U128)
    (ctx : EvaluationContext) (ps : List DpfParameters)
    (hv : d.pv.validateEvaluationContext ctx = d.pv.validateEvaluationContext (ctx.withParams ps)) :
    d.evaluateUntil env H h prefixes (ctx.withParams ps) =
      ((d.evaluateUntil env H h prefixes ctx).1, (d.evaluateUntil env H h prefixes ctx).2.withParams ps) := by
  have hcheck : d.checkEvaluateUntil H h prefixes (ctx.withParams ps) = d.checkEvaluateUntil H h prefixes ctx := by
    rw [checkEvaluateUntil_unfold, checkEvaluateUntil_unfold, ← hv]
    rfl
  unfold evaluateUntil
  rw [hcheck]
  cases d.checkEvaluateUntil H h prefixes ctx <;> try rfl
  rename_i r
  obtain ⟨hN, prevH, gap⟩ := r
  dsimp only [keep]
  cases d.dedupPrefixes prevH prefixes <;> try rfl
  rename_i r
  obtain ⟨treeIndices, prefixMap⟩ := r
  dsimp only
  rw [expandAndUpdateContext_withParams]
  cases d.expandAndUpdateContext env hN treeIndices ctx <;> rfl

end Dpf

theorem Dpf.evaluateAtCtx_withParams (d : Dpf) {α : Type} (env : Env) (H : Helper α) (h : Int) (points : List U128)
    (ctx : EvaluationContext) (ps : List DpfParameters) :
    d.evaluateAtCtx env H h points (ctx.withParams ps) =
      ((d.evaluateAtCtx env H h points ctx).1, (d.evaluateAtCtx env H h points ctx).2.withParams ps) := by
  unfold evaluateAtCtx
  rw [show (ctx.withParams ps).keyD = ctx.keyD from rfl]
  cases d.checkEvaluateAt ctx.keyD h points <;> try rfl
  rename_i hN
  dsimp only [keep]
  split
  · rfl
  cases d.treeIndicesFor H hN points <;> try rfl
  rename_i ti
  dsimp only
  rw [computePartialEvaluations_withParams]
  cases d.computePartialEvaluations env ti h true ctx <;> try rfl
  rename_i r
  obtain ⟨sel, ctx'⟩ := r
  simp only [bind_ok]
  cases rd d.pv.hierarchyToTree hN <;> try rfl
  rename_i sl
  dsimp only
  rw [show (ctx'.withParams ps).keyD = ctx'.keyD from rfl]
  cases d.finishAt env H ctx'.keyD hN points ti sel sl <;> rfl

theorem Dpf.run_withParams (d : Dpf) (env : Env) (ctx : EvaluationContext) (ps : List DpfParameters)
    (hv : d.pv.validateEvaluationContext ctx = d.pv.validateEvaluationContext (ctx.withParams ps)) (c : ContextCall) :
    c.run d env (ctx.withParams ps) = ((c.run d env ctx).1, (c.run d env ctx).2.withParams ps) := by
  cases c with
  | evalUntil S h prefixes =>
    simp only [ContextCall.run, evaluateUntil_withParams d env S.helper h prefixes ctx ps hv]
  | evalNext S prefixes =>
    have : d.evaluateNext env S.helper prefixes (ctx.withParams ps) = ((d.evaluateNext env S.helper prefixes ctx).1,
        (d.evaluateNext env S.helper prefixes ctx).2.withParams ps) := by
      unfold evaluateNext
      split
      · exact evaluateUntil_withParams d env S.helper _ prefixes ctx ps hv
      · exact evaluateUntil_withParams d env S.helper _ prefixes ctx ps hv
    simp only [ContextCall.run, this]
  | evalAt S h points => simp only [ContextCall.run, evaluateAtCtx_withParams]

end Verif
