import Verif.Lemmas.FaultsOn
/-! # Contexts after failing calls -/
namespace Verif
open Res Spec Faulty

namespace Dpf
variable {d : Dpf} {fp : FpEnv} {params : List DpfParameters} {T : Nat → Ty}

/-- When `ComputePartialEvaluations` succeeds. -/
theorem WF.computePartialEvaluations_of_ok (wf : d.WF) (env : Env) {key : DpfKey}
    {ctx ctx' : EvaluationContext} (hc : d.CtxOk env key ctx) {h : Int} (h0 : 0 ≤ h) (hh : h < d.n)
    {prefixes : List U128} {upd : Bool} {sel : DpfExpansion}
    (he : d.computePartialEvaluations env prefixes h upd ctx = ok (sel, ctx')) :
    d.Usable ctx (d.treeAt h.toNat) prefixes ∧
    ctx' = { ctx with
      partialEvaluations := if upd then partialsAt env key (d.treeAt h.toNat) prefixes else []
      partialEvaluationsLevel := h } := by
  by_cases hu : d.Usable ctx (d.treeAt h.toNat) prefixes
  · rw [wf.computePartialEvaluations_ok env hc h0 hh prefixes upd hu] at he
    simp only [ok.injEq, Prod.mk.injEq] at he
    exact ⟨hu, he.2.symm⟩
  · unfold Usable at hu
    simp only [not_or] at hu
    rw [wf.computePartialEvaluations_err env hc h0 hh prefixes upd hu.1 (by omega) hu.2.2] at he
    exact nomatch he

/-- A context with stored evaluations. -/
theorem CtxOk.stored {env : Env} {key : DpfKey} {ctx : EvaluationContext} (hc : d.CtxOk env key ctx) {h : Int}
    (h0 : 0 ≤ h) (hh : h < d.n) (upd : Bool) (ti : List U128) :
    d.CtxOk env key { ctx with
      partialEvaluations := if upd then partialsAt env key (d.treeAt h.toNat) ti else []
      partialEvaluationsLevel := h } := by
  refine ⟨hc.params, hc.key_eq, hc.keyOk, hc.prev, ⟨h0, hh⟩, ?_⟩
  cases upd with
  | true => exact partialsAt_ok _ _ _ _
  | false => simp

/-- A call that went past its argument checks. -/
theorem WF.untilArgs_of_ok (wf : d.WF) {α : Type} {H : Helper α} {h : Int} {prefixes : List U128}
    {ctx : EvaluationContext} {hN prevH gap : Nat} (he : d.checkEvaluateUntil H h prefixes ctx = ok (hN, prevH, gap)) :
    d.UntilArgs H.toValueType h prefixes ctx ∧ hN = h.toNat ∧ prevH = ctx.previousHierarchyLevel.toNat := by
  rcases wf.checkEvaluateUntil_cases H h prefixes ctx with ha | e
  · rw [wf.checkEvaluateUntil_ok H ha] at he
    simp only [ok.injEq, Prod.mk.injEq] at he
    exact ⟨ha, he.1.symm, he.2.1.symm⟩
  · rw [e] at he; exact nomatch he

/-- What a failing `EvaluateUntil` leaves. -/
theorem WF.untilStops (wf : d.WF) (env : Env) {key : DpfKey} {ctx ctx' : EvaluationContext}
    (hc : d.CtxOk env key ctx) {α : Type} {H : Helper α} {h : Int} {prefixes : List U128}
    (hs : UntilStops d env H h prefixes ctx ctx') :
    ctx' = ctx ∨
    (d.UntilArgs H.toValueType h prefixes ctx ∧ prefixes ≠ [] ∧ 0 ≤ ctx.previousHierarchyLevel ∧
      ∃ (upd : Bool) (ti : List U128),
        (∀ y, y ∈ ti ↔ ∃ x ∈ prefixes, x >>> d.gapAt ctx.previousHierarchyLevel.toNat = y) ∧
        d.Usable ctx (d.treeAt ctx.previousHierarchyLevel.toNat) ti ∧
        ctx' = { ctx with
          partialEvaluations :=
            if upd then partialsAt env key (d.treeAt ctx.previousHierarchyLevel.toNat) ti else []
          partialEvaluationsLevel := ctx.previousHierarchyLevel }) ∨
    (d.UntilArgs H.toValueType h prefixes ctx ∧ ctx' = (d.evaluateUntil env H h prefixes ctx).2 ∧
      ctx'.previousHierarchyLevel = h) := by
  cases hs with
  | unchanged => exact .inl rfl
  | @stored hN prevH gap ti pm sel _ h1 h2 h3 h4 =>
    right; left
    obtain ⟨ha, rfl, rfl⟩ := wf.untilArgs_of_ok h1
    have hne : prefixes ≠ [] := by
      rintro rfl
      rw [show d.dedupPrefixes ctx.previousHierarchyLevel.toNat [] = ok ([], []) from rfl] at h2
      simp only [ok.injEq, Prod.mk.injEq] at h2
      exact h3 h2.1.symm
    have h0 : 0 ≤ ctx.previousHierarchyLevel := by
      have := ha.first
      have : ¬ ctx.previousHierarchyLevel < 0 := fun e => hne (this.mp e)
      omega
    have hlt : ctx.previousHierarchyLevel < d.n := hc.prev.2
    obtain ⟨ti', hd, hmem, _⟩ := wf.dedupPrefixes_ok (h := ctx.previousHierarchyLevel.toNat) (by omega) prefixes
    rw [hd] at h2
    simp only [ok.injEq, Prod.mk.injEq] at h2
    obtain ⟨rfl, rfl⟩ := h2
    obtain ⟨hu, e⟩ := wf.computePartialEvaluations_of_ok env hc h0 hlt h4
    exact ⟨ha, hne, h0, _, ti', hmem, hu, e⟩
  | @expanded hN prevH gap ti pm ev _ h1 h2 h3 =>
    right; right
    obtain ⟨ha, rfl, rfl⟩ := wf.untilArgs_of_ok h1
    refine ⟨ha, ?_, ?_⟩
    · unfold evaluateUntil
      rw [h1, keep_ok]
      dsimp only
      rw [h2, keep_ok]
      dsimp only
      rw [h3, keep_ok]
    · have hl := ha.level
      have last : ∀ (sel : DpfExpansion) (c : EvaluationContext) (start : Nat),
          (rd d.pv.hierarchyToTree h.toNat >>= fun stopLevel =>
            subspan c.keyD.correctionWords start ((stopLevel : Int) - start) >>= fun cws =>
            expandSeeds env sel cws >>= fun ev =>
            ok (ev, { c with previousHierarchyLevel := (h.toNat : Int) })) = ok (ev, ctx') →
          ctx'.previousHierarchyLevel = h := by
        intro sel c start h3
        obtain ⟨_, _, h3⟩ := bind_eq_ok.mp h3
        obtain ⟨_, _, h3⟩ := bind_eq_ok.mp h3
        obtain ⟨_, _, h3⟩ := bind_eq_ok.mp h3
        simp only [ok.injEq, Prod.mk.injEq] at h3
        rw [← h3.2]
        dsimp only
        omega
      unfold expandAndUpdateContext at h3
      by_cases hti : ti = []
      · rw [if_pos hti, bind_ok] at h3
        exact last _ _ _ h3
      · rw [if_neg hti] at h3
        dsimp only at h3
        obtain ⟨_, _, h3⟩ := bind_eq_ok.mp h3
        obtain ⟨_, _, h3⟩ := bind_eq_ok.mp h3
        exact last _ _ _ h3

theorem WF.untilStops_ctxOk (wf : d.WF) (env : Env) {key : DpfKey} {ctx ctx' : EvaluationContext}
    (hc : d.CtxOk env key ctx) {α : Type} {H : Helper α} {h : Int} {prefixes : List U128}
    (hs : UntilStops d env H h prefixes ctx ctx') : d.CtxOk env key ctx' := by
  rcases wf.untilStops env hc hs with rfl | ⟨_, _, h0, upd, ti, _, _, rfl⟩ | ⟨_, rfl, _⟩
  · exact hc
  · exact hc.stored h0 hc.prev.2 upd ti
  · exact wf.evaluateUntil_ctxOk env hc H h prefixes

/-- What a failing `EvaluateAt` leaves. -/
theorem WF.atStops (wf : d.WF) (env : Env) {key : DpfKey} {ctx ctx' : EvaluationContext}
    (hc : d.CtxOk env key ctx) {α : Type} {H : Helper α} {h : Int} {points : List U128}
    (hs : AtStops d env H h points ctx ctx') :
    ctx' = ctx ∨
    ∃ (hN : Nat) (ti : List U128), h = hN ∧ hN < d.n ∧ (∀ x ∈ points, x.toNat < 2 ^ d.logAt hN) ∧ points ≠ [] ∧
      d.treeIndicesFor H hN points = ok ti ∧ d.Usable ctx (d.treeAt hN) ti ∧
      ctx' = { ctx with
          partialEvaluations := partialsAt env key (d.treeAt hN) ti
          partialEvaluationsLevel := h } := by
  cases hs with
  | unchanged => exact .inl rfl
  | @stored hN ti sel _ h1 h2 h3 h4 =>
    right
    rw [hc.keyD] at h1
    rcases wf.checkEvaluateAt_cases key h points with ⟨hN', rfl, hh, hk, hp⟩ | e
    · rw [wf.checkEvaluateAt_ok hk hh hp] at h1
      simp only [ok.injEq] at h1
      subst h1
      obtain ⟨hu, e⟩ := wf.computePartialEvaluations_of_ok env hc (by omega) (by omega) h4
      rw [Int.toNat_natCast] at hu e
      exact ⟨hN', ti, rfl, hh, hp, h2, h3, hu, e⟩
    · rw [e] at h1; exact nomatch h1

theorem WF.atStops_ctxOk (wf : d.WF) (env : Env) {key : DpfKey} {ctx ctx' : EvaluationContext}
    (hc : d.CtxOk env key ctx) {α : Type} {H : Helper α} {h : Int} {points : List U128}
    (hs : AtStops d env H h points ctx ctx') : d.CtxOk env key ctx' := by
  rcases wf.atStops env hc hs with rfl | ⟨hN, ti, rfl, hh, _, _, _, _, rfl⟩
  · exact hc
  · have := hc.stored (h := (hN : Int)) (by omega) (by omega) true ti
    rwa [Int.toNat_natCast] at this

theorem WF.evaluateUntilF_ctxOk (wf : d.WF) (env : Env) {key : DpfKey} {ctx : EvaluationContext}
    (hc : d.CtxOk env key ctx) {α : Type} (H : Helper α) (h : Int) (prefixes : List U128) (fs : Faults) :
    d.CtxOk env key (d.evaluateUntilF env H h prefixes ctx fs).1.2 := by
  rcases (evaluateUntil_follows (d := d) env H h prefixes ctx).object fs with e | hs
  · rw [e]; exact wf.evaluateUntil_ctxOk env hc H h prefixes
  · exact wf.untilStops_ctxOk env hc hs

/-- Contexts after any calls, with failures. -/
theorem WF.faultyHistory (wf : d.WF) (env : Env) {key : DpfKey} {ctx : EvaluationContext}
    (h : FaultyHistory d env key ctx) : d.CtxOk env key ctx := by
  induction h with
  | create h => exact (wf.create_ctxOk env h).2
  | evalUntil S h p fs _ ih => exact wf.evaluateUntilF_ctxOk env ih S.helper h p fs
  | evalNext S p fs _ ih =>
    unfold evaluateNextF
    split <;> exact wf.evaluateUntilF_ctxOk env ih S.helper _ p fs
  | @evalAt ctx S h p fs _ ih =>
    rcases (evaluateAtCtx_follows (d := d) env S.helper h p ctx).object fs with e | hs
    · rw [e]; exact (wf.evaluateAtCtx_cases env ih S.helper h p).2
    · exact wf.atStops_ctxOk env ih hs

/-- Stored evaluations of the tree indices themselves are usable. -/
theorem usable_self {env : Env} {key : DpfKey} {ctx : EvaluationContext} {h : Int} {ti ti2 : List U128} {upd : Bool}
    (hpe : ctx.partialEvaluations = if upd then partialsAt env key (d.treeAt h.toNat) ti else [])
    (hpel : ctx.partialEvaluationsLevel = h) (hsub : ∀ y ∈ ti2, y ∈ ti) : d.Usable ctx (d.treeAt h.toNat) ti2 := by
  unfold Usable
  rw [hpe, hpel]
  cases upd with
  | false => exact .inl (by simp)
  | true =>
    refine .inr (.inr fun x hx => ?_)
    rw [Nat.sub_self]
    refine ⟨_, by rw [if_pos rfl]; exact List.mem_map.mpr ⟨x, hsub x hx, rfl⟩, ?_⟩
    simp

theorem Usable.subset {ctx : EvaluationContext} {t : Nat} {ti ti2 : List U128} (hu : d.Usable ctx t ti)
    (hsub : ∀ y ∈ ti2, y ∈ ti) : d.Usable ctx t ti2 := by
  rcases hu with h | h | h
  · exact .inl h
  · exact .inr (.inl h)
  · exact .inr (.inr fun x hx => h x (hsub x hx))

/-- `EvaluateUntil` for some of the prefixes does the same before and after `ComputePartialEvaluations`. -/
theorem evaluateUntil_again (s : Setup fp params T d) (env : Env) {key : DpfKey} {ctx ctx' : EvaluationContext}
    (hc : d.CtxOk env key ctx) (hvalid : d.pv.validateEvaluationContext ctx = ok ())
    {prefixes : List U128} {upd : Bool} {ti : List U128} (h0 : 0 ≤ ctx.previousHierarchyLevel)
    (hmem : ∀ y, y ∈ ti ↔ ∃ x ∈ prefixes, x >>> d.gapAt ctx.previousHierarchyLevel.toNat = y)
    (hu : d.Usable ctx (d.treeAt ctx.previousHierarchyLevel.toNat) ti)
    (e : ctx' = { ctx with
      partialEvaluations := if upd then partialsAt env key (d.treeAt ctx.previousHierarchyLevel.toNat) ti else []
      partialEvaluationsLevel := ctx.previousHierarchyLevel })
    {α : Type} (H : Helper α) (h2 : Int) (p2 : List U128) (hsub : ∀ x ∈ p2, x ∈ prefixes) :
    (d.evaluateUntil env H h2 p2 ctx').1 = (d.evaluateUntil env H h2 p2 ctx).1 ∧
    ((d.evaluateUntil env H h2 p2 ctx).1.isOk = true →
      (d.evaluateUntil env H h2 p2 ctx').2 = (d.evaluateUntil env H h2 p2 ctx).2) := by
  have wf := s.wf
  have hc' : d.CtxOk env key ctx' := by rw [e]; exact hc.stored h0 hc.prev.2 upd ti
  have hpl : ctx'.previousHierarchyLevel = ctx.previousHierarchyLevel := by rw [e]
  have hvalid' : d.pv.validateEvaluationContext ctx' = ok () := by
    obtain ⟨hl, _, _, _, _, hlt, _⟩ := wf.validateEvaluationContext_spec hvalid
    refine s.validateEvaluationContext_ok hc'.params hc'.key_eq hc'.keyOk ?_ (.inr ?_)
    · rw [hpl]; unfold n; omega
    · rw [e]; exact Int.le_refl _
  have hlog : d.prevLog ctx' = d.prevLog ctx := by unfold prevLog; rw [hpl]
  have hiff : d.UntilArgs H.toValueType h2 p2 ctx' ↔ d.UntilArgs H.toValueType h2 p2 ctx := by
    constructor
    · intro ha
      exact ⟨hvalid, ha.level, ha.type, hpl ▸ ha.later, hpl ▸ ha.first, hlog ▸ ha.range, hlog ▸ ha.gap, hlog ▸ ha.size⟩
    · intro ha
      exact ⟨hvalid', ha.level, ha.type, hpl.symm ▸ ha.later, hpl.symm ▸ ha.first, hlog.symm ▸ ha.range,
        hlog.symm ▸ ha.gap, hlog.symm ▸ ha.size⟩
  by_cases ha : d.UntilArgs H.toValueType h2 p2 ctx
  rotate_left
  · have e1 : d.evaluateUntil env H h2 p2 ctx = (err .invalidArgument, ctx) := by
      unfold evaluateUntil
      rw [(wf.checkEvaluateUntil_cases H h2 p2 ctx).resolve_left ha, keep_err]
    have e2 : d.evaluateUntil env H h2 p2 ctx' = (err .invalidArgument, ctx') := by
      unfold evaluateUntil
      rw [(wf.checkEvaluateUntil_cases H h2 p2 ctx').resolve_left (fun h => ha (hiff.mp h)), keep_err]
    rw [e1, e2]
    exact ⟨rfl, fun h => nomatch h⟩
  have ha' := hiff.mpr ha
  obtain ⟨hN, rfl⟩ : ∃ hN : Nat, h2 = hN := ⟨h2.toNat, by have := ha.level; omega⟩
  have hh : hN < d.n := by have := ha.level; omega
  obtain ⟨prev, hprev⟩ : ∃ prev : Nat, ctx.previousHierarchyLevel = prev := ⟨_, (Int.toNat_of_nonneg h0).symm⟩
  rw [hprev] at hpl
  have hlt : prev < hN := by have := ha.later; omega
  have hne : p2 ≠ [] := fun h => by have := ha.first.mpr h; omega
  obtain ⟨ti2, hd, hmem2, _⟩ := wf.dedupPrefixes_ok (h := prev) (by omega) p2
  have htne : ti2 ≠ [] := by
    obtain ⟨x, hx⟩ := List.exists_mem_of_ne_nil _ hne
    exact List.ne_nil_of_mem ((hmem2 _).mpr ⟨x, hx, rfl⟩)
  rw [hprev, Int.toNat_natCast] at hmem hu e
  have hsub2 : ∀ y ∈ ti2, y ∈ ti := by
    intro y hy
    obtain ⟨x, hx, rfl⟩ := (hmem2 y).mp hy
    exact (hmem _).mpr ⟨x, hsub x hx, rfl⟩
  have hu2 : d.Usable ctx (d.treeAt prev) ti2 := hu.subset hsub2
  have hu2' : d.Usable ctx' (d.treeAt prev) ti2 := by
    have := usable_self (d := d) (env := env) (key := key) (ctx := ctx') (h := (prev : Int)) (ti := ti) (upd := upd)
      (by rw [e, Int.toNat_natCast]) (by rw [e]) hsub2
    rwa [Int.toNat_natCast] at this
  unfold evaluateUntil
  rw [wf.checkEvaluateUntil_ok H ha, wf.checkEvaluateUntil_ok H ha', keep_ok, keep_ok]
  dsimp only
  rw [hprev, hpl, Int.toNat_natCast, Int.toNat_natCast, hd, keep_ok, keep_ok]
  dsimp only
  rw [wf.expand_next env hc hh hprev hlt htne hu2, wf.expand_next env hc' hh hpl hlt htne hu2', hlog]
  by_cases hfit : ti2.length * 2 ^ (d.treeAt hN - d.treeAt prev) < 2 ^ 64
  · rw [if_pos hfit, if_pos hfit, keep_ok, keep_ok, e]
    exact ⟨rfl, fun _ => rfl⟩
  · rw [if_neg hfit, if_neg hfit]
    exact ⟨rfl, fun h => nomatch h⟩

/-- `EvaluateAt` for some of the points does the same before and after `ComputePartialEvaluations`. -/
theorem WF.evaluateAtCtx_again (wf : d.WF) (env : Env) {key : DpfKey} {ctx ctx' : EvaluationContext}
    (hc : d.CtxOk env key ctx) {α : Type} (H : Helper α) {h : Nat} (hh : h < d.n) {points ti : List U128}
    (hp : ∀ x ∈ points, x.toNat < 2 ^ d.logAt h) (hti : d.treeIndicesFor H h points = ok ti)
    (hu : d.Usable ctx (d.treeAt h) ti)
    (e : ctx' = { ctx with
      partialEvaluations := partialsAt env key (d.treeAt h) ti
      partialEvaluationsLevel := (h : Int) })
    (p2 : List U128) (hsub : ∀ x ∈ p2, x ∈ points) :
    (d.evaluateAtCtx env H h p2 ctx').1 = d.evaluateAt env H key h p2 ∧
    (d.evaluateAtCtx env H h p2 ctx).1 = d.evaluateAt env H key h p2 ∧
    (p2 ≠ [] → (d.evaluateAtCtx env H h p2 ctx).1.isOk = true →
      (d.evaluateAtCtx env H h p2 ctx').2 = (d.evaluateAtCtx env H h p2 ctx).2) := by
  have hc' : d.CtxOk env key ctx' := by
    have := hc.stored (h := (h : Int)) (by omega) (by omega) true ti
    rw [Int.toNat_natCast] at this
    rw [e]; exact this
  by_cases hne : p2 = []
  · subst hne
    obtain ⟨e1, e2⟩ := wf.evaluateAtCtx_empty env hc H hh
    obtain ⟨e3, _⟩ := wf.evaluateAtCtx_empty env hc' H hh
    rw [e1, e2, e3]
    exact ⟨rfl, rfl, fun h => absurd rfl h⟩
  have hmap : ∀ p : List U128, ∃ f : U128 → U128, (∀ p : List U128, d.treeIndicesFor H h p = ok (p.map f)) := by
    intro _
    unfold treeIndicesFor
    by_cases hb : H.elementsPerBlock > 1
    · refine ⟨fun x => x >>> d.gapAt h, fun p => ?_⟩
      rw [if_pos hb, mapRes_eq_ok_map (g := fun x : U128 => x >>> d.gapAt h) (fun x _ => wf.domainToTreeIndex_ok hh x)]
    · exact ⟨id, fun p => by rw [if_neg hb, List.map_id]⟩
  obtain ⟨f, hf⟩ := hmap []
  rw [hf, ok.injEq] at hti
  subst hti
  have hsub2 : ∀ y ∈ p2.map f, y ∈ points.map f := by
    intro y hy
    obtain ⟨x, hx, rfl⟩ := List.mem_map.mp hy
    exact List.mem_map.mpr ⟨x, hsub x hx, rfl⟩
  have hu2' : d.Usable ctx' (d.treeAt h) (p2.map f) := by
    have := usable_self (d := d) (env := env) (key := key) (ctx := ctx') (h := (h : Int)) (ti := points.map f)
      (upd := true) (by rw [e, Int.toNat_natCast, if_pos rfl]) (by rw [e]) hsub2
    rwa [Int.toNat_natCast] at this
  have hp2 : ∀ x ∈ p2, x.toNat < 2 ^ d.logAt h := fun x hx => hp x (hsub x hx)
  rw [wf.evaluateAtCtx_ok env hc H hh hp2 hne (hf p2) (hu.subset hsub2),
    wf.evaluateAtCtx_ok env hc' H hh hp2 hne (hf p2) hu2']
  refine ⟨rfl, rfl, fun _ hok => ?_⟩
  dsimp only at hok ⊢
  cases hr : d.evaluateAt env H key h p2 with
  | ok v => rw [e]
  | err c => rw [hr] at hok; exact nomatch hok
  | ub => rw [hr] at hok; exact nomatch hok
  | crash => rw [hr] at hok; exact nomatch hok

end Dpf
end Verif
