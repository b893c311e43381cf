import Verif.Spec.ContextState
import Verif.Lemmas.AtCtx
import Verif.Lemmas.History
import Verif.Lemmas.Textbook
import Verif.Lemmas.Communication
/-! What contexts hold. -/
namespace Verif
open Res Spec Wire

theorem bind_ne_err {α β : Type} {r : Res α} {f : α → Res β} {c : Code} (h1 : ∀ c, r ≠ err c)
    (h2 : ∀ a, f a ≠ err c) : r >>= f ≠ err c := by
  cases r with
  | ok a => rw [bind_ok]; exact h2 a
  | err c => exact absurd rfl (h1 c)
  | ub => exact fun h => nomatch h
  | crash => exact fun h => nomatch h

theorem mapRes_ne_err {α β : Type} {f : α → Res β} (h : ∀ a c, f a ≠ err c) : ∀ (l : List α) c, mapRes f l ≠ err c := by
  intro l
  induction l with
  | nil => exact fun c h => nomatch h
  | cons a l ih =>
    intro c
    unfold mapRes
    cases ha : f a with
    | ok b =>
      cases hl : mapRes f l with
      | err c' => exact absurd hl (ih c')
      | _ => exact fun e => nomatch e
    | err c' => exact absurd ha (h a c')
    | _ => exact fun e => nomatch e

namespace Dpf
variable {fp : FpEnv} {params : List DpfParameters} {T : Nat → Ty} {d : Dpf} {depth : Nat → Nat}

theorem readable_getValueCorrection (hs : Setup fp params T d) (hd : IsDepth params T depth) {key : DpfKey}
    (hk : d.KeyOk key) (hr : ReadableKey params T depth key) {h : Nat} (hh : h < d.n) :
    ∃ corr, d.getValueCorrectionAsArray (T h).helper key h = ok corr := by
  have hh' : h < params.length := by rw [← hs.toCreated.n_eq]; exact hh
  obtain ⟨corr, hc⟩ := hr h hh'
  refine ⟨corr, ?_⟩
  rw [Dpf.getValueCorrection_unfold, Dpf.valueCorrectionOf_eq hs hd (Dpf.hasShape_of_keyOk hs hd hk).words hh', bind_ok]
  exact Dpf.valuesToArray_iff.mpr hc

/-- Blocks are tree indices. -/
theorem blockOf_eq (hs : Setup fp params T d) (hd : IsDepth params T depth) {h : Nat} (hh : h < d.n) (x : U128) :
    blockOf params depth h x = (x >>> d.gapAt h).toNat := by
  rw [blockOf, Dpf.shr_toNat, hs.toCreated.gapAt_eq, depth_eq hs hd (by rw [← hs.toCreated.n_eq]; exact hh)]
  rfl

/-- Stored evaluations of tree indices. -/
theorem holds_partialsAt (hs : Setup fp params T d) (hd : IsDepth params T depth) (env : Env) {key : DpfKey}
    {ctx : EvaluationContext} (hc : d.CtxOk env key ctx) (level : Int) {h : Nat} (hh : h < d.n) (ti : List U128) :
    Holds env.aes depth ctx.parameters key level h (ti.map (·.toNat))
      { ctx with
        partialEvaluations := partialsAt env key (d.treeAt h) ti
        partialEvaluationsLevel := h
        previousHierarchyLevel := level } := by
  refine ⟨rfl, hc.key_eq, rfl, fun _ => rfl, by simp [partialsAt], ?_⟩
  intro i y e hy he
  rw [List.getElem?_map] at hy
  dsimp only [partialsAt] at he
  rw [List.getElem?_map] at he
  cases hx : ti[i]? with
  | none => rw [hx] at hy; simp at hy
  | some x =>
    rw [hx] at hy he
    simp only [Option.map_some, Option.some.injEq] at hy he
    subst hy he
    rw [depth_eq hs hd (by rw [← hs.toCreated.n_eq]; exact hh), keyNode_eq]
    exact ⟨rfl, rfl, rfl⟩

/-- A first call of `EvaluateUntil`. -/
theorem WF.evaluateUntil_first_ctx (wf : d.WF) (env : Env) {key : DpfKey} {ctx : EvaluationContext}
    (hc : d.CtxOk env key ctx) {α : Type} (H : Helper α) {h : Nat} (hh : h < d.n)
    (ha : d.UntilArgs H.toValueType h [] ctx) :
    (d.evaluateUntil env H h [] ctx).2 = { ctx with previousHierarchyLevel := h } ∧ ctx.partialEvaluations = [] := by
  constructor
  · unfold evaluateUntil
    rw [wf.checkEvaluateUntil_ok H ha, keep_ok]
    dsimp only
    rw [show d.dedupPrefixes ctx.previousHierarchyLevel.toNat [] = ok ([], []) from rfl, keep_ok]
    dsimp only
    rw [Int.toNat_natCast, wf.expand_first env hc hh (wf.treeAt_first ha), keep_ok]
  · obtain ⟨_, _, _, _, _, _, h⟩ := wf.validateEvaluationContext_spec ha.ctx_ok
    rcases h with h | h
    · exact h
    · have := hc.pel
      have := ha.first.mpr rfl
      omega

end Dpf

theorem putPartial_length (e : PartialEvaluation) : (putRecord (inner 4 (putPartial e))).length ≤ 52 := by
  have h1 := inner_length_short (i := 1) (by decide) (block_length_le e.prefix) (by decide)
  have h2 := inner_length_short (i := 2) (by decide) (block_length_le e.seed) (by decide)
  have h3 := bool_length_le (i := 3) (by decide) e.controlBit
  refine inner_length_short (by decide) (L := 50) ?_ (by decide)
  unfold putPartial
  rw [wire_append, List.length_append, wire_cons, List.length_append, wire_single_length]
  omega

theorem signed_lt (x : Int) : signed x < 2 ^ 64 := by
  unfold signed
  omega

end Verif
