import Verif.Props.Evaluation
/-!
# C66: contexts made by other objects
-/
namespace Verif
open Res Spec

/-- C66: on a context whose parameters are the same as those of the object up to encoding and rounding, every sequence
of calls returns what it returns on the context with the parameters of the object. -/
theorem C66_same (fp : FpEnv) (params : List DpfParameters) (d : Dpf) (hc : Created fp params d) (env : Env)
    (calls : List ContextCall) (ctx : EvaluationContext) (hs : SameParameters params ctx.parameters) :
    callResults d env calls ctx = callResults d env calls { ctx with parameters := d.pv.parameters } := by
  induction calls generalizing ctx with
  | nil => rfl
  | cons c cs ih =>
    have h1 := d.run_withParams env ctx d.pv.parameters (hc.validate_withParams hs) c
    have h2 := d.run_withParams env ctx ctx.parameters rfl c
    have hp : (c.run d env ctx).2.parameters = ctx.parameters := by
      have := congrArg (fun r => r.2.parameters) h2
      exact this
    show (c.run d env ctx).1 :: callResults d env cs (c.run d env ctx).2 =
      (c.run d env (ctx.withParams d.pv.parameters)).1 ::
        callResults d env cs (c.run d env (ctx.withParams d.pv.parameters)).2
    rw [h1, ih _ (by rw [hp]; exact hs)]
    rfl

/-- C66: if any parameter of a context differs otherwise, `EvaluateUntil` and `EvaluateNext` reject the context and
leave it as it is. -/
theorem C66_differs (fp : FpEnv) (params : List DpfParameters) (d : Dpf) (hc : Created fp params d) (env : Env)
    (ctx : EvaluationContext) (hs : ¬ SameParameters params ctx.parameters) (S : Ty) (h : Int)
    (prefixes : List U128) :
    d.evaluateUntil env S.helper h prefixes ctx = (err .invalidArgument, ctx) ∧
    d.evaluateNext env S.helper prefixes ctx = (err .invalidArgument, ctx) := by
  have key : ∀ h, d.evaluateUntil env S.helper h prefixes ctx = (err .invalidArgument, ctx) := by
    intro h
    rcases hc.wf.checkEvaluateUntil_cases S.helper h prefixes ctx with ha | he
    · exact absurd ((hc.validateEvaluationContext_iff ctx).mp ha.ctx_ok).1 hs
    · unfold Dpf.evaluateUntil
      rw [he, Dpf.keep_err]
  refine ⟨key h, ?_⟩
  unfold Dpf.evaluateNext
  split
  · exact key _
  · exact key _

/-! ## Examples -/

/-- The parameters of the example with the security parameters given: the defaults 43, 45 and 49, one of them rounded,
and 0 for the third level. -/
def exParams8' : List DpfParameters :=
  (exParams8.zip [.val 43, .val (45 + 1 / 20000), .val 0, .val 49]).map fun ps => { ps.1 with securityParameter := ps.2 }

theorem exParams8_same : SameParameters exParams8 exParams8' := by
  have hlen : exParams8'.length = exParams8.length := by decide
  have key : ∀ pq ∈ exParams8.zip exParams8', pq.1.logDomainSize = pq.2.logDomainSize ∧
      pq.1.valueType = pq.2.valueType ∧ pq.1.valueType = some (.integer 8) ∧
      ∃ b : Rat, pq.1.securityParameter = .val 0 ∧ pq.2.securityParameter = .val b ∧
      ((roundDouble (40 + (pq.1.logDomainSize : Rat) - b)).abs ≤ roundDouble (1 / 10000) ∨ b = 0) := by
    intro pq hpq
    simp only [exParams8', exParams8, List.zip_cons_cons, List.zip_nil_right, List.map_cons, List.map_nil,
      List.mem_cons, List.not_mem_nil, or_false] at hpq
    rcases hpq with rfl | rfl | rfl | rfl
    · exact ⟨rfl, rfl, rfl, 43, rfl, rfl, Or.inl (by decide +kernel)⟩
    · exact ⟨rfl, rfl, rfl, 45 + 1 / 20000, rfl, rfl, Or.inl (by decide +kernel)⟩
    · exact ⟨rfl, rfl, rfl, 0, rfl, rfl, Or.inr rfl⟩
    · exact ⟨rfl, rfl, rfl, 49, rfl, rfl, Or.inl (by decide +kernel)⟩
  have hm : ∀ (i : Nat) (p q : DpfParameters), exParams8[i]? = some p → exParams8'[i]? = some q →
      (p, q) ∈ exParams8.zip exParams8' := by
    intro i p q hp hq
    refine List.mem_of_getElem? (i := i) ?_
    rw [List.getElem?_zip_eq_some]
    exact ⟨hp, hq⟩
  refine ⟨hlen, fun i p q hp hq => (key _ (hm i p q hp hq)).1, ?_, ?_⟩
  · intro i p q hp hq
    obtain ⟨_, h2, h3, _⟩ := key _ (hm i p q hp hq)
    dsimp only at h2 h3
    refine ⟨.integer 8, ?_, ?_⟩
    · rw [DpfParameters.vt, h3]; rfl
    · rw [DpfParameters.vt, ← h2, h3]; rfl
  · intro i p q hp hq
    obtain ⟨_, _, _, b, h4, h5, h6⟩ := key _ (hm i p q hp hq)
    refine ⟨0, b, h4, h5, ?_⟩
    rw [if_pos rfl]
    rcases h6 with h6 | h6
    · exact Or.inl h6
    · refine Or.inr ⟨h6, ?_⟩
      rw [Rat.sub_self]; decide +kernel

/-- C66 on the example: a sequence of calls on a context with these parameters. -/
example : callResults exDpf exEnv [.evalUntil (.uint .w8) 0 [], .evalNext (.uint .w8) [3, 0], .evalAt (.uint .w8) 2 [13]]
      { exCtx0 with parameters := exParams8' } =
    callResults exDpf exEnv [.evalUntil (.uint .w8) 0 [], .evalNext (.uint .w8) [3, 0], .evalAt (.uint .w8) 2 [13]]
      { exCtx0 with parameters := exDpf.pv.parameters } :=
  C66_same exFp exParams8 exDpf exDpf_setup.toCreated exEnv _ _ exParams8_same

/-- C66 on the example: a security parameter that differs by 1/5000 from the one in use. -/
example : exDpf.evaluateUntil exEnv (Ty.uint .w8).helper 0 []
      { exCtx0 with parameters := exParams8.map fun p => { p with securityParameter := .val (43 + 1 / 5000) } } =
    (err .invalidArgument,
      { exCtx0 with parameters := exParams8.map fun p => { p with securityParameter := .val (43 + 1 / 5000) } }) := by
  refine (C66_differs exFp exParams8 exDpf exDpf_setup.toCreated exEnv _ ?_ (.uint .w8) 0 []).1
  intro hs
  obtain ⟨a, b, h1, h2, h3⟩ := hs.security 0 _ _ rfl rfl
  cases h1; cases h2
  revert h3
  decide +kernel

end Verif
