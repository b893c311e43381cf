import Verif.Lemmas.Faults
import Verif.Lemmas.ContextState
/-! # Failing calls in code that modifies an object -/
namespace Verif
open Res Spec Faulty

/-- A run with failures follows the run without; when it ends early, `P` holds of the object. -/
def FollowsOn {κ α : Type} (P : κ → Prop) (m : FaultyOn κ α) (x : Res α × κ) : Prop :=
  ∀ fs, ∃ made : Faults, fs = made ++ (m fs).2 ∧
    ((true ∉ made ∧ (m fs).1.1 = x.1 ∧ ((m fs).1.2 = x.2 ∨ ((x.1 = ub ∨ x.1 = crash) ∧ P (m fs).1.2))) ∨
     (true ∈ made ∧ ((m fs).1.1 = err .internal ∨ (m fs).1.1 = err .resourceExhausted) ∧ P (m fs).1.2))

theorem FollowsOn.reported {κ α : Type} {P : κ → Prop} {m : FaultyOn κ α} {x : Res α × κ} (h : FollowsOn P m x)
    (fs : Faults) : Reported fs (m fs).2 x.1 (m fs).1.1 := by
  obtain ⟨made, e, h⟩ := h fs
  refine ⟨made, e, ?_⟩
  rcases h with ⟨h1, h2, _⟩ | ⟨h1, h2, _⟩
  · exact .inl ⟨h1, h2⟩
  · exact .inr ⟨h1, h2⟩

theorem FollowsOn.mono {κ α : Type} {P Q : κ → Prop} {m : FaultyOn κ α} {x : Res α × κ} (h : FollowsOn P m x)
    (hpq : ∀ c, P c → Q c) : FollowsOn Q m x := by
  intro fs
  obtain ⟨made, e, h⟩ := h fs
  refine ⟨made, e, ?_⟩
  rcases h with ⟨h1, h2, h3 | ⟨h3, h4⟩⟩ | ⟨h1, h2, h3⟩
  · exact .inl ⟨h1, h2, .inl h3⟩
  · exact .inl ⟨h1, h2, .inr ⟨h3, hpq _ h4⟩⟩
  · exact .inr ⟨h1, h2, hpq _ h3⟩

/-- The object at the end. -/
theorem FollowsOn.object {κ α : Type} {P : κ → Prop} {m : FaultyOn κ α} {x : Res α × κ} (h : FollowsOn P m x)
    (fs : Faults) : (m fs).1.2 = x.2 ∨ P (m fs).1.2 := by
  obtain ⟨_, _, h⟩ := h fs
  rcases h with ⟨_, _, h | ⟨_, h⟩⟩ | ⟨_, _, h⟩
  · exact .inl h
  · exact .inr h
  · exact .inr h

theorem FollowsOn.done {κ α : Type} {P : κ → Prop} (r : Res α) (c : κ) : FollowsOn P (endF r c) (r, c) := fun _ =>
  ⟨[], rfl, .inl ⟨by simp, rfl, .inl rfl⟩⟩

theorem FollowsOn.keep {κ α β : Type} {P : κ → Prop} {m : Faulty α} {x : Res α} {c c0 : κ} {f : α → FaultyOn κ β}
    {g : α → Res β × κ} (h : Follows m x) (hP : P c) (hc : c = c0 ∨ ∀ e, x ≠ err e)
    (hf : ∀ a, x = ok a → FollowsOn P (f a) (g a)) : FollowsOn P (keepF m c f) (Dpf.keep x c0 g) := by
  intro fs
  obtain ⟨made, e, hm⟩ := h fs
  unfold keepF
  rcases hr : m fs with ⟨r, rest⟩
  rw [hr] at e hm
  dsimp only at e hm
  rcases hm with ⟨h1, rfl⟩ | ⟨h1, rfl | rfl⟩
  · cases r with
    | ok a =>
      dsimp only [Dpf.keep]
      obtain ⟨made', e', hm'⟩ := hf a rfl rest
      refine ⟨made ++ made', by rw [e, List.append_assoc, ← e'], ?_⟩
      rcases hm' with ⟨h2, h3⟩ | ⟨h2, h3⟩
      · exact .inl ⟨by simp [h1, h2], h3⟩
      · exact .inr ⟨by simp [h2], h3⟩
    | err e0 =>
      refine ⟨made, e, .inl ⟨h1, rfl, .inl ?_⟩⟩
      rcases hc with hc | hc
      · exact hc
      · exact absurd rfl (hc e0)
    | ub => exact ⟨made, e, .inl ⟨h1, rfl, .inr ⟨.inl rfl, hP⟩⟩⟩
    | crash => exact ⟨made, e, .inl ⟨h1, rfl, .inr ⟨.inr rfl, hP⟩⟩⟩
  · exact ⟨made, e, .inr ⟨h1, .inl rfl, hP⟩⟩
  · exact ⟨made, e, .inr ⟨h1, .inr rfl, hP⟩⟩

/-- A call of the environment before the rest. -/
theorem FollowsOn.callThen {κ β : Type} {P : κ → Prop} {e : Code} (he : FaultCode e) {c : κ} {f : Unit → FaultyOn κ β}
    {x : Res β × κ} (hP : P c) (hf : FollowsOn P (f ()) x) : FollowsOn P (keepF (Faulty.call e) c f) x :=
  FollowsOn.keep (x := ok ()) (c0 := c) (g := fun _ => x) (.call he) hP (.inl rfl) (fun _ _ => hf)

/-- A function with its own modifications before the rest. -/
theorem FollowsOn.thenDo {κ α β : Type} {P : κ → Prop} {m : FaultyOn κ α} {y : Res (α × κ)} {c0 : κ}
    {f : α → κ → FaultyOn κ β} {g : α × κ → Res β × κ}
    (h : FollowsOn P m (Dpf.keep y c0 fun ac => (ok ac.1, ac.2)))
    (hf : ∀ a c, y = ok (a, c) → FollowsOn P (f a c) (g (a, c))) : FollowsOn P (thenF m f) (Dpf.keep y c0 g) := by
  intro fs
  obtain ⟨made, e, hm⟩ := h fs
  unfold thenF
  rcases hr : m fs with ⟨⟨r, c⟩, rest⟩
  rw [hr] at e hm
  dsimp only at e hm
  rcases hm with ⟨h1, rfl, h2⟩ | ⟨h1, rfl | rfl, h2⟩
  · cases y with
    | ok ac =>
      obtain ⟨a, c'⟩ := ac
      dsimp only [Dpf.keep] at h2 ⊢
      have : c = c' := by
        rcases h2 with h2 | ⟨h2 | h2, _⟩
        · exact h2
        · exact nomatch h2
        · exact nomatch h2
      subst this
      obtain ⟨made', e', hm'⟩ := hf a c rfl rest
      refine ⟨made ++ made', by rw [e, List.append_assoc, ← e'], ?_⟩
      rcases hm' with ⟨h2, h3⟩ | ⟨h2, h3⟩
      · exact .inl ⟨by simp [h1, h2], h3⟩
      · exact .inr ⟨by simp [h2], h3⟩
    | err e0 =>
      dsimp only [Dpf.keep] at h2 ⊢
      exact ⟨made, e, .inl ⟨h1, rfl, by simpa using h2⟩⟩
    | ub =>
      dsimp only [Dpf.keep] at h2 ⊢
      exact ⟨made, e, .inl ⟨h1, rfl, by simpa using h2⟩⟩
    | crash =>
      dsimp only [Dpf.keep] at h2 ⊢
      exact ⟨made, e, .inl ⟨h1, rfl, by simpa using h2⟩⟩
  · exact ⟨made, e, .inr ⟨h1, .inl rfl, h2⟩⟩
  · exact ⟨made, e, .inr ⟨h1, .inr rfl, h2⟩⟩

theorem keep_bind' {α β γ κ : Type} (x : Res α) (f : α → Res β) (c : κ) (g : β → Res γ × κ) :
    Dpf.keep (x >>= f) c g = Dpf.keep x c fun a => Dpf.keep (f a) c g := by cases x <;> rfl

/-! ### Code that reports nothing itself -/

theorem rd_ne_err {α : Type} (l : List α) (i : Nat) (c : Code) : rd l i ≠ err c := by
  unfold rd; cases l[i]? <;> exact fun h => nomatch h

theorem rdInt_ne_err {α : Type} (l : List α) (i : Int) (c : Code) : rdInt l i ≠ err c := by
  unfold rdInt
  by_cases h : i < 0
  · rw [if_pos h]; exact fun h => nomatch h
  · rw [if_neg h]; exact rd_ne_err _ _ _

theorem slice_ne_err {α : Type} (l : List α) (i n : Nat) (c : Code) : slice l i n ≠ err c := by
  unfold slice
  by_cases h : i + n ≤ l.length
  · rw [if_pos h]; exact fun h => nomatch h
  · rw [if_neg h]; exact fun h => nomatch h

theorem writeAt_ne_err {α : Type} (l : List α) (i : Nat) (v : List α) (c : Code) : writeAt l i v ≠ err c := by
  unfold writeAt
  by_cases h : i + v.length ≤ l.length
  · rw [if_pos h]; exact fun h => nomatch h
  · rw [if_neg h]; exact fun h => nomatch h

theorem subspan_ne_err {α : Type} (l : List α) (i : Nat) (n : Int) (c : Code) : Dpf.subspan l i n ≠ err c := by
  unfold Dpf.subspan
  by_cases h : i > l.length
  · rw [if_pos h]; exact fun h => nomatch h
  · rw [if_neg h]
    by_cases h : n < 0
    · rw [if_pos h]; exact fun h => nomatch h
    · rw [if_neg h]; exact fun h => nomatch h

theorem foldRes_ne_err {α σ : Type} {f : σ → α → Res σ} (h : ∀ s a c, f s a ≠ err c) :
    ∀ (l : List α) (s : σ) (c : Code), foldRes f s l ≠ err c
  | [], _, _ => fun h => nomatch h
  | a :: l, s, c => by
    rw [foldRes_cons]
    exact bind_ne_err (h s a) fun s' => foldRes_ne_err h l s' c

theorem Aes128FixedKeyHash.evaluate_ne_err (env : Env) (key : U128) (alias : Bool) {input out : List U128}
    (h : input.length = out.length) (c : Code) : Aes128FixedKeyHash.evaluate env key alias input out ≠ err c := by
  unfold evaluate
  rw [failIf_false (by simpa using h), bind_ok]
  refine foldRes_ne_err (fun s a c => ?_) _ _ _
  unfold evaluateBatch
  exact bind_ne_err (slice_ne_err _ _ _) fun _ => bind_ne_err (writeAt_ne_err _ _ _) fun _ =>
    bind_ne_err (slice_ne_err _ _ _) fun _ => writeAt_ne_err _ _ _ _

theorem mergeBatch_ne_err (cw : CorrectionWord) (left right : List U128) (control : List Bool) (start batch : Nat)
    (c : Code) : mergeBatch cw left right control start batch ≠ err c := by
  unfold mergeBatch
  refine bind_ne_err (mapRes_ne_err (fun a c => ?_) _) fun _ => fun h => nomatch h
  exact bind_ne_err (rd_ne_err _ _) fun _ => bind_ne_err (rd_ne_err _ _) fun _ =>
    bind_ne_err (rd_ne_err _ _) fun _ => fun h => nomatch h

theorem expandLevel_ne_err (env : Env) (ev : DpfExpansion) (cw : CorrectionWord) (c : Code) :
    expandLevel env ev cw ≠ err c := by
  unfold expandLevel
  refine foldRes_ne_err (fun s a c => ?_) _ _ _
  dsimp only
  cases hs : slice ev.seeds a (min (ev.seeds.length - a) Aes128FixedKeyHash.kBatchSize) with
  | err c => exact absurd hs (slice_ne_err _ _ _ _)
  | ub => exact fun h => nomatch h
  | crash => exact fun h => nomatch h
  | ok seeds =>
    have hl : seeds.length = (List.replicate (min (ev.seeds.length - a) Aes128FixedKeyHash.kBatchSize)
        (0 : U128)).length := by
      unfold slice at hs
      by_cases h : a + min (ev.seeds.length - a) Aes128FixedKeyHash.kBatchSize ≤ ev.seeds.length
      · rw [if_pos h, ok.injEq] at hs
        subst hs
        simp only [List.length_take, List.length_drop, List.length_replicate]
        omega
      · rw [if_neg h] at hs; exact nomatch hs
    rw [bind_ok]
    exact bind_ne_err (Aes128FixedKeyHash.evaluate_ne_err _ _ _ hl) fun _ =>
      bind_ne_err (Aes128FixedKeyHash.evaluate_ne_err _ _ _ hl) fun _ =>
      bind_ne_err (mergeBatch_ne_err _ _ _ _ _ _) fun _ => fun h => nomatch h

theorem expandSeeds_ne_err (env : Env) (ev : DpfExpansion) (cws : List CorrectionWord) (c : Code) :
    expandSeeds env ev cws ≠ err c := by
  unfold expandSeeds
  by_cases h : ev.controlBits.length * 2 ^ cws.length < 2 ^ 64
  · rw [if_pos h]; exact foldRes_ne_err (fun _ _ c => expandLevel_ne_err _ _ _ c) _ _ _
  · rw [if_neg h]; exact fun h => nomatch h

namespace Dpf
variable {d : Dpf}

/-- The last part of `ExpandAndUpdateContext`. -/
theorem expandFrom_follows (env : Env) {P : EvaluationContext → Prop} (h : Nat) (sel : DpfExpansion) (startLevel : Nat)
    (ctx c0 : EvaluationContext) (hP : P ctx) :
    FollowsOn P (d.expandFromF env h sel startLevel ctx)
      (keep (rd d.pv.hierarchyToTree h >>= fun stopLevel =>
        subspan ctx.keyD.correctionWords startLevel ((stopLevel : Int) - startLevel) >>= fun cws =>
        expandSeeds env sel cws >>= fun ev =>
        ok (ev, { ctx with previousHierarchyLevel := (h : Int) })) c0 fun ac => (ok ac.1, ac.2)) := by
  unfold expandFromF
  rw [keep_bind']
  refine .keep (.lift _) hP (.inr (rd_ne_err _ _)) fun stop _ => ?_
  rw [keep_bind']
  refine .keep (.lift _) hP (.inr (subspan_ne_err _ _ _)) fun cws _ => ?_
  rw [keep_bind']
  exact .keep (expandSeeds_follows _ _ _) hP (.inr (expandSeeds_ne_err _ _ _)) fun ev _ => .done _ _

theorem expandAndUpdateContext_follows (env : Env) {P : EvaluationContext → Prop} (h : Nat) (prefixes : List U128)
    (ctx : EvaluationContext) (hP : P ctx)
    (hP' : ∀ sel ctx', prefixes ≠ [] →
      d.computePartialEvaluations env prefixes ctx.previousHierarchyLevel
        (decide ((h : Int) < (d.pv.parameters.length : Int) - 1)) ctx = ok (sel, ctx') → P ctx') :
    FollowsOn P (d.expandAndUpdateContextF env h prefixes ctx)
      (keep (d.expandAndUpdateContext env h prefixes ctx) ctx fun ac => (ok ac.1, ac.2)) := by
  unfold expandAndUpdateContextF expandAndUpdateContext
  by_cases hne : prefixes = []
  · rw [if_pos hne, if_pos hne]
    exact .callThen memoryCode hP (expandFrom_follows env _ _ _ _ _ hP)
  · rw [if_neg hne, if_neg hne]
    dsimp only
    rw [keep_bind']
    refine .keep (computePartialEvaluations_follows _ _ _ _ _) hP (.inl rfl) fun sc hsc => ?_
    obtain ⟨sel, ctx'⟩ := sc
    dsimp only
    have hP'' := hP' sel ctx' hne hsc
    rw [keep_bind']
    refine .keep (.lift _) hP'' (.inr (rdInt_ne_err _ _)) fun start _ => ?_
    exact expandFrom_follows env _ _ _ _ _ hP''

/-- Where `EvaluateUntil` may stop when the environment fails: before it has changed the context, after
`ComputePartialEvaluations`, or after the expansion. -/
inductive UntilStops (d : Dpf) {α : Type} (env : Env) (H : Helper α) (h : Int) (prefixes : List U128)
    (ctx : EvaluationContext) : EvaluationContext → Prop
  | unchanged : UntilStops d env H h prefixes ctx ctx
  | stored {hN prevH gap : Nat} {ti : List U128} {pm : List (Nat × Nat)} {sel : DpfExpansion} {ctx' : EvaluationContext} :
      d.checkEvaluateUntil H h prefixes ctx = ok (hN, prevH, gap) → d.dedupPrefixes prevH prefixes = ok (ti, pm) →
      ti ≠ [] → d.computePartialEvaluations env ti ctx.previousHierarchyLevel
        (decide ((hN : Int) < (d.pv.parameters.length : Int) - 1)) ctx = ok (sel, ctx') →
      UntilStops d env H h prefixes ctx ctx'
  | expanded {hN prevH gap : Nat} {ti : List U128} {pm : List (Nat × Nat)} {ev : DpfExpansion}
      {ctx' : EvaluationContext} :
      d.checkEvaluateUntil H h prefixes ctx = ok (hN, prevH, gap) → d.dedupPrefixes prevH prefixes = ok (ti, pm) →
      d.expandAndUpdateContext env hN ti ctx = ok (ev, ctx') → UntilStops d env H h prefixes ctx ctx'

theorem finishUntil_eq {α : Type} (env : Env) (H : Helper α) (h gap : Nat) (prefixes : List U128)
    (treeIndices : List U128) (prefixMap : List (Nat × Nat)) (key : DpfKey) (ev : DpfExpansion) :
    d.finishUntil env H h gap prefixes treeIndices prefixMap key ev =
      (d.hashExpandedSeeds env h ev.seeds >>= fun hashed =>
        d.correctUntil H h gap prefixes treeIndices prefixMap key ev hashed) := rfl

theorem evaluateUntil_follows {α : Type} (env : Env) (H : Helper α) (h : Int) (prefixes : List U128)
    (ctx : EvaluationContext) :
    FollowsOn (UntilStops d env H h prefixes ctx) (d.evaluateUntilF env H h prefixes ctx)
      (d.evaluateUntil env H h prefixes ctx) := by
  unfold evaluateUntilF evaluateUntil
  refine .keep (.lift _) .unchanged (.inl rfl) fun a ha => ?_
  obtain ⟨hN, prevH, gap⟩ := a
  refine .keep (.lift _) .unchanged (.inl rfl) fun b hb => ?_
  obtain ⟨ti, pm⟩ := b
  refine .thenDo (expandAndUpdateContext_follows env _ _ _ .unchanged
    fun sel ctx' hne hsel => .stored ha hb hne hsel) fun ev ctx' he => ?_
  have hP : UntilStops d env H h prefixes ctx ctx' := .expanded ha hb he
  have e : (d.finishUntil env H hN gap prefixes ti pm ctx'.keyD ev, ctx') =
      keep (d.hashExpandedSeeds env hN ev.seeds) ctx' fun hashed =>
        (d.correctUntil H hN gap prefixes ti pm ctx'.keyD ev hashed, ctx') := by
    rw [finishUntil_eq]
    cases d.hashExpandedSeeds env hN ev.seeds <;> rfl
  dsimp only
  rw [e]
  exact .keep (hashExpandedSeeds_follows _ _ _) hP (.inl rfl) fun _ _ => .done _ _

/-- Where `EvaluateAt` may stop. -/
inductive AtStops (d : Dpf) {α : Type} (env : Env) (H : Helper α) (h : Int) (points : List U128)
    (ctx : EvaluationContext) : EvaluationContext → Prop
  | unchanged : AtStops d env H h points ctx ctx
  | stored {hN : Nat} {ti : List U128} {sel : DpfExpansion} {ctx' : EvaluationContext} :
      d.checkEvaluateAt ctx.keyD h points = ok hN → points ≠ [] → d.treeIndicesFor H hN points = ok ti →
      d.computePartialEvaluations env ti h true ctx = ok (sel, ctx') → AtStops d env H h points ctx ctx'

theorem evaluateAtCtx_follows {α : Type} (env : Env) (H : Helper α) (h : Int) (points : List U128)
    (ctx : EvaluationContext) :
    FollowsOn (AtStops d env H h points ctx) (d.evaluateAtCtxF env H h points ctx)
      (d.evaluateAtCtx env H h points ctx) := by
  unfold evaluateAtCtxF evaluateAtCtx
  refine .keep (.lift _) .unchanged (.inl rfl) fun hN ha => ?_
  by_cases hne : points = []
  · rw [if_pos hne, if_pos hne]; exact .done _ _
  rw [if_neg hne, if_neg hne]
  refine .keep (treeIndicesFor_follows _ _ _) .unchanged (.inl rfl) fun ti hti => ?_
  refine .keep (computePartialEvaluations_follows _ _ _ _ _) .unchanged (.inl rfl) fun sc hsc => ?_
  obtain ⟨sel, ctx'⟩ := sc
  have hP : AtStops d env H h points ctx ctx' := .stored ha hne hti hsc
  exact .keep (.lift _) hP (.inl rfl) fun start _ => .keep (finishAt_follows _ _ _ _ _ _ _ _) hP (.inl rfl)
    fun _ _ => .done _ _

theorem applyLoop_follows {α σ : Type} (env : Env) (H : Helper α) (keys : List DpfKey) (points : List U128)
    (rightshift : Int) (op : σ → List α → Bool × σ) : ∀ (hs : List Nat) (st : ApplyState) (s : σ),
    FollowsOn (fun s' => ∃ k, ∀ i, s' =
        (d.applyLoop env H keys points rightshift (stopping (i + k) op) hs st (s, i)).2.1)
      (d.applyLoopF env H keys points rightshift op hs st s) (d.applyLoop env H keys points rightshift op hs st s)
  | [], st, s => .done _ _
  | h :: hs, st, s => by
    unfold applyLoopF applyLoop
    refine .keep (applyLevel_follows _ _ _ _ _ _ _) ⟨0, fun i => ?_⟩ (.inl rfl) fun a ha => ?_
    · cases d.applyLevel env H keys points rightshift st h <;> simp [keep, stopping]
    · obtain ⟨st', values⟩ := a
      dsimp only
      cases hop : op s values with
      | mk b s' =>
        cases b with
        | false => exact .done _ _
        | true =>
          dsimp only
          rw [if_pos rfl, if_pos rfl]
          refine (applyLoop_follows env H keys points rightshift op hs st' s').mono fun c hc => ?_
          obtain ⟨k, hk⟩ := hc
          refine ⟨k + 1, fun i => ?_⟩
          rw [ha]
          have e : stopping (i + (k + 1)) op (s, i) values = (true, (s', i + 1)) := by
            simp [stopping, hop]
          dsimp only [keep]
          rw [e]
          dsimp only
          rw [if_pos rfl, show i + (k + 1) = i + 1 + k by omega]
          exact hk (i + 1)

theorem evaluateAndApply_follows {α σ : Type} (env : Env) (H : Helper α) (keys : List DpfKey)
    (points : List U128) (op : σ → List α → Bool × σ) (s : σ) (rightshift : Int) :
    FollowsOn (fun s' => ∃ k, s' =
        (d.evaluateAndApply env H keys points (stopping k op) (s, 0) rightshift).2.1)
      (d.evaluateAndApplyF env H keys points op s rightshift)
      (d.evaluateAndApply env H keys points op s rightshift) := by
  have h0 : ∃ k, s = (d.evaluateAndApply env H keys points (stopping k op) (s, 0) rightshift).2.1 := by
    refine ⟨0, ?_⟩
    unfold evaluateAndApply
    cases failIf (points.length ≠ keys.length) .invalidArgument <;> try rfl
    cases mapRes d.pv.validateDpfKey keys <;> try rfl
    cases rd d.pv.hierarchyToTree 0 <;> try rfl
    dsimp only [keep]
    cases List.range d.pv.parameters.length with
    | nil => rfl
    | cons h hs =>
      unfold applyLoop
      generalize d.applyLevel env H keys points rightshift _ h = r
      cases r <;> rfl
  unfold evaluateAndApplyF
  refine .keep (.lift _) h0 (.inl rfl) fun u hu => .keep (.lift _) h0 (.inl rfl) fun us hus =>
    .callThen memoryCode h0 (.keep (.lift _) h0 (.inl rfl) fun stop hstop => ?_)
  refine (applyLoop_follows env H keys points rightshift op _ _ s).mono fun c hc => ?_
  obtain ⟨k, hk⟩ := hc
  refine ⟨k, ?_⟩
  unfold evaluateAndApply
  rw [hu, hus, hstop]
  have := hk 0
  rw [Nat.zero_add] at this
  exact this

end Dpf

namespace Dcf

theorem generateKeys_follows (c : Dcf) (env : Env) (alpha : U128) (beta : Value) (seed0 seed1 : U128) :
    Follows (c.generateKeysF env alpha beta seed0 seed1) (c.generateKeys env alpha beta seed0 seed1) := by
  unfold generateKeysF generateKeys
  exact .liftThen fun _ _ => Dpf.generateKeysIncremental_follows _ _ _ _ _

theorem batchRun_follows {α : Type} (c : Dcf) (env : Env) (H : Helper α) (keys : List DcfKey)
    (points : List U128) (output : List α) (numKeys : Nat) :
    FollowsOn (fun _ => True) (c.batchRunF env H keys points output numKeys)
      (c.batchRun env H keys points output numKeys) := by
  intro fs
  have h := Dpf.evaluateAndApply_follows (d := c.dpf) env H (keys.take numKeys) points
    (accumulate H c.logDomainSize numKeys points) ⟨ok (), 0, List.replicate output.length H.zero⟩ 1 fs
  unfold batchRunF batchRun
  dsimp only
  generalize c.dpf.evaluateAndApplyF env H (keys.take numKeys) points (accumulate H c.logDomainSize numKeys points)
    ⟨ok (), 0, List.replicate output.length H.zero⟩ 1 fs = r at h ⊢
  generalize c.dpf.evaluateAndApply env H (keys.take numKeys) points (accumulate H c.logDomainSize numKeys points)
    ⟨ok (), 0, List.replicate output.length H.zero⟩ 1 = x at h ⊢
  obtain ⟨⟨r, s⟩, rest⟩ := r
  obtain ⟨x, s'⟩ := x
  obtain ⟨made, e, h⟩ := h
  refine ⟨made, e, ?_⟩
  dsimp only at h ⊢
  rcases h with ⟨h1, rfl, rfl | ⟨h2, _⟩⟩ | ⟨h1, rfl | rfl, _⟩
  · exact .inl ⟨h1, rfl, .inl rfl⟩
  · rcases h2 with rfl | rfl
    · exact .inl ⟨h1, rfl, .inr ⟨.inl rfl, trivial⟩⟩
    · exact .inl ⟨h1, rfl, .inr ⟨.inr rfl, trivial⟩⟩
  · exact .inr ⟨h1, .inl rfl, trivial⟩
  · exact .inr ⟨h1, .inr rfl, trivial⟩

theorem batchEvaluateInto_follows {α : Type} (c : Dcf) (env : Env) (H : Helper α) (keys : List DcfKey)
    (points : List U128) (output : List α) :
    FollowsOn (fun _ => True) (c.batchEvaluateIntoF env H keys points output)
      (c.batchEvaluateInto env H keys points output) := by
  unfold batchEvaluateIntoF batchEvaluateInto
  by_cases h1 : keys.length ≠ points.length
  · rw [if_pos h1, if_pos h1]; exact .done _ _
  rw [if_neg h1, if_neg h1]
  by_cases h2 : output.length ≠ keys.length
  · rw [if_pos h2, if_pos h2]; exact .done _ _
  rw [if_neg h2, if_neg h2]
  by_cases h3 : wrapInt32 keys.length < 0
  · rw [if_pos h3, if_pos h3]; exact .done _ _
  rw [if_neg h3, if_neg h3]
  exact batchRun_follows _ _ _ _ _ _ _

/-- What is made of the output afterwards. -/
theorem _root_.Verif.FollowsOn.andThen {κ α β : Type} {P : κ → Prop} {m : FaultyOn κ α} {x : Res α × κ}
    (h : FollowsOn P m x) (f : κ → Res β) :
    Follows (fun fs => ((m fs).1.1 >>= fun _ => f (m fs).1.2, (m fs).2)) (x.1 >>= fun _ => f x.2) := by
  intro fs
  obtain ⟨made, e, h⟩ := h fs
  refine ⟨made, e, ?_⟩
  dsimp only
  rcases h with ⟨h1, h2, h3 | ⟨h3, _⟩⟩ | ⟨h1, h2 | h2, _⟩
  · exact .inl ⟨h1, by rw [h2, h3]⟩
  · rw [h2]
    rcases h3 with h3 | h3
    · rw [h3]; exact .inl ⟨h1, rfl⟩
    · rw [h3]; exact .inl ⟨h1, rfl⟩
  · rw [h2]; exact .inr ⟨h1, .inl rfl⟩
  · rw [h2]; exact .inr ⟨h1, .inr rfl⟩

theorem batchEvaluate_follows {α : Type} (c : Dcf) (env : Env) (H : Helper α) (keys : List DcfKey)
    (points : List U128) : Follows (c.batchEvaluateF env H keys points) (c.batchEvaluate env H keys points) :=
  (batchEvaluateInto_follows c env H keys points _).andThen fun out => ok out

theorem evaluate_follows {α : Type} (c : Dcf) (env : Env) (H : Helper α) (key : DcfKey) (x : U128) :
    Follows (c.evaluateF env H key x) (c.evaluate env H key x) :=
  (batchEvaluateInto_follows c env H [key] [x] _).andThen fun out => rd out 0

end Dcf

theorem Mic.batchEval_follows (g : Mic) (env : Env) (keys : List MicKey) (points : List U128) :
    Follows (g.batchEvalF env keys points) (g.batchEval env keys points) := by
  unfold batchEvalF batchEval
  refine .liftThen fun _ _ => .liftThen fun _ _ => .liftThen fun _ _ => .ite (fun _ => .lift _) fun _ =>
    .callTwiceThen memoryCode (.liftThen fun _ _ => .liftThen fun _ _ =>
    .bind (Dcf.batchEvaluate_follows _ _ _ _ _) fun _ _ => .bind (Dcf.batchEvaluate_follows _ _ _ _ _) fun _ _ => .lift _)

end Verif
