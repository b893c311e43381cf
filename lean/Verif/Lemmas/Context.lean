import Verif.Lemmas.Setup
/-! The invariant of evaluation contexts, and `ComputePartialEvaluations`, `ExpandAndUpdateContext` under
it. -/
namespace Verif
open Res Spec

namespace Dpf
variable {d : Dpf}

/-- The stored evaluation `pe` is the node of the tree at depth `t` along its prefix. -/
def PartialOk (env : Env) (key : DpfKey) (t : Nat) (pe : PartialEvaluation) : Prop :=
  nodeAt env key t pe.prefix.toNat = ⟨pe.seed, pe.controlBit⟩

/-- What holds of every context that was created and used with this DPF. -/
structure CtxOk (d : Dpf) (env : Env) (key : DpfKey) (ctx : EvaluationContext) : Prop where
  params : ctx.parameters = d.pv.parameters
  key_eq : ctx.key = some key
  keyOk : d.KeyOk key
  prev : -1 ≤ ctx.previousHierarchyLevel ∧ ctx.previousHierarchyLevel < d.n
  pel : 0 ≤ ctx.partialEvaluationsLevel ∧ ctx.partialEvaluationsLevel < d.n
  partials : ∀ pe ∈ ctx.partialEvaluations,
    PartialOk env key (d.treeAt ctx.partialEvaluationsLevel.toNat) pe

theorem CtxOk.keyD {env : Env} {key : DpfKey} {ctx : EvaluationContext} (hc : d.CtxOk env key ctx) :
    ctx.keyD = key := by simp [EvaluationContext.keyD, hc.key_eq]

theorem rdInt_nat {α : Type} {l : List α} {i : Int} (h : 0 ≤ i) : rdInt l i = rd l i.toNat := by
  rw [rdInt, if_neg (by omega)]

theorem WF.treeInt_ok (wf : d.WF) {h : Int} (h0 : 0 ≤ h) (hh : h < d.n) :
    rdInt d.pv.hierarchyToTree h = ok (d.treeAt h.toNat) := by
  rw [rdInt_nat h0, wf.tree_ok (by omega)]

/-- The map of stored evaluations: all stored prefixes with their nodes. -/
theorem partialsMap_ok {env : Env} {key : DpfKey} {t : Nat} {pes : List PartialEvaluation}
    (h : ∀ pe ∈ pes, PartialOk env key t pe) :
    ∃ m, partialsMap pes = ok m ∧ ∀ y : U128,
      m.lookup y = if ∃ pe ∈ pes, pe.prefix = y then
        some ((nodeAt env key t y.toNat).seed, (nodeAt env key t y.toNat).ctrl) else none := by
  suffices ∀ (pes pes0 : List PartialEvaluation) (m0 : List (U128 × (U128 × Bool))),
      (∀ pe ∈ pes, PartialOk env key t pe) →
      (∀ y : U128, m0.lookup y = if ∃ pe ∈ pes0, pe.prefix = y then
        some ((nodeAt env key t y.toNat).seed, (nodeAt env key t y.toNat).ctrl) else none) →
      ∃ m, foldRes (fun m (pe : PartialEvaluation) =>
        match m.lookup pe.prefix with
        | some v => if v = (pe.seed, pe.controlBit) then ok m else err .invalidArgument
        | none => ok (m ++ [(pe.prefix, (pe.seed, pe.controlBit))])) m0 pes = ok m ∧ ∀ y : U128,
        m.lookup y = if ∃ pe ∈ pes0 ++ pes, pe.prefix = y then
          some ((nodeAt env key t y.toNat).seed, (nodeAt env key t y.toNat).ctrl) else none by
    obtain ⟨m, h1, h2⟩ := this pes [] [] h (by simp)
    exact ⟨m, h1, by simpa using h2⟩
  intro pes
  induction pes with
  | nil => intro pes0 m0 _ h0; exact ⟨m0, rfl, by simpa using h0⟩
  | cons pe pes ih =>
    intro pes0 m0 hp h0
    have hpe := hp pe (by simp)
    rw [PartialOk] at hpe
    have happ : pes0 ++ pe :: pes = (pes0 ++ [pe]) ++ pes := by simp
    rw [foldRes_cons]
    by_cases hex : ∃ q ∈ pes0, q.prefix = pe.prefix
    · have hl := h0 pe.prefix
      rw [if_pos hex] at hl
      rw [hl]
      dsimp only
      rw [hpe, if_pos rfl, bind_ok, happ]
      refine ih (pes0 ++ [pe]) m0 (fun q hq => hp q (by simp [hq])) ?_
      intro y
      rw [h0 y]
      have : (∃ q ∈ pes0 ++ [pe], q.prefix = y) ↔ ∃ q ∈ pes0, q.prefix = y := by
        constructor
        · rintro ⟨q, hq, rfl⟩
          simp only [List.mem_append, List.mem_singleton] at hq
          rcases hq with hq | rfl
          · exact ⟨q, hq, rfl⟩
          · exact hex
        · rintro ⟨q, hq, e⟩
          exact ⟨q, by simp [hq], e⟩
      simp only [this]
    · have hl := h0 pe.prefix
      rw [if_neg hex] at hl
      rw [hl]
      dsimp only
      rw [bind_ok, happ]
      refine ih (pes0 ++ [pe]) _ (fun q hq => hp q (by simp [hq])) ?_
      intro y
      rw [List.lookup_append, h0 y]
      by_cases hy : ∃ q ∈ pes0, q.prefix = y
      · obtain ⟨q, hq, e⟩ := hy
        rw [if_pos ⟨q, hq, e⟩, if_pos ⟨q, by simp [hq], e⟩]; rfl
      · rw [if_neg hy, Option.none_or, List.lookup_cons]
        by_cases e : y = pe.prefix
        · subst e
          rw [if_pos ⟨pe, by simp, rfl⟩, hpe]
          simp
        · rw [if_neg]
          · rw [beq_false_of_ne e]; rfl
          · rintro ⟨q, hq, e'⟩
            simp only [List.mem_append, List.mem_singleton] at hq
            rcases hq with hq | rfl
            · exact hy ⟨q, hq, e'⟩
            · exact e e'.symm

/-- Every prefix of depth `t` extends a stored prefix of depth `s`. -/
def Covered (pes : List PartialEvaluation) (prefixes : List U128) (gap : Nat) : Prop :=
  ∀ x ∈ prefixes, ∃ pe ∈ pes, pe.prefix = x >>> gap

theorem mapRes_err {α β : Type} {f : α → Res β} {l : List α} {c : Code}
    (h : ∀ a ∈ l, (∃ b, f a = ok b) ∨ f a = err c) (he : ∃ a ∈ l, f a = err c) :
    mapRes f l = err c := by
  induction l with
  | nil => simp at he
  | cons a l ih =>
    rw [mapRes_cons]
    rcases h a (by simp) with ⟨b, hb⟩ | hb
    · rw [hb, bind_ok]
      obtain ⟨a', ha', he'⟩ := he
      rw [ih (fun a ha => h a (by simp [ha]))]
      · rfl
      · simp only [List.mem_cons] at ha'
        rcases ha' with rfl | ha'
        · rw [hb] at he'; exact absurd he' (by simp)
        · exact ⟨a', ha', he'⟩
    · rw [hb]; rfl

theorem selectPartial_eq {env : Env} {key : DpfKey} {t gap : Nat} {pes : List PartialEvaluation}
    {m : List (U128 × (U128 × Bool))}
    (hm : ∀ y : U128, m.lookup y = if ∃ pe ∈ pes, pe.prefix = y then
        some ((nodeAt env key t y.toNat).seed, (nodeAt env key t y.toNat).ctrl) else none)
    (x : U128) : selectPartial m (gap : Int) x =
      if ∃ pe ∈ pes, pe.prefix = x >>> gap then
        ok ((nodeAt env key t (x >>> gap).toNat).seed, (nodeAt env key t (x >>> gap).toNat).ctrl)
      else err .invalidArgument := by
  have hs : (if (gap : Int) < 128 then shr128 x gap else ok 0) = ok (x >>> gap) := by
    split
    · rw [shr128_ok (by omega)]
    · congr 1
      apply BitVec.eq_of_toNat_eq
      rw [shr_toNat, Nat.div_eq_of_lt]; rfl
      exact Nat.lt_of_lt_of_le x.isLt (Nat.pow_le_pow_right (by decide) (by omega))
  have : selectPartial m (gap : Int) x =
      ((if (gap : Int) < 128 then shr128 x gap else ok 0) >>= fun prev =>
        match m.lookup prev with
        | some v => ok v
        | none => err .invalidArgument) := by
    unfold selectPartial; split <;> rfl
  rw [this, hs, bind_ok, hm]
  by_cases e : ∃ pe ∈ pes, pe.prefix = x >>> gap
  · rw [if_pos e, if_pos e]
  · rw [if_neg e, if_neg e]

/-- The stored evaluations that `ComputePartialEvaluations` writes. -/
def partialsAt (env : Env) (key : DpfKey) (t : Nat) (prefixes : List U128) : List PartialEvaluation :=
  prefixes.map fun x => ⟨x, (nodeAt env key t x.toNat).seed, (nodeAt env key t x.toNat).ctrl⟩

theorem partialsAt_ok (env : Env) (key : DpfKey) (t : Nat) (prefixes : List U128) :
    ∀ pe ∈ partialsAt env key t prefixes, PartialOk env key t pe := by
  intro pe hpe
  simp only [partialsAt, List.mem_map] at hpe
  obtain ⟨x, _, rfl⟩ := hpe
  rfl

theorem WF.tree_le_cws (wf : d.WF) {key : DpfKey} (hk : d.KeyOk key) {h : Nat} (hh : h < d.n) :
    d.treeAt h ≤ key.correctionWords.length := by
  have := hk.len
  have := wf.tree_lt_needed hh
  omega

/-- `ComputePartialEvaluations` when all prefixes extend stored ones, or nothing is stored at or above
the level. -/
theorem WF.computePartialEvaluations_ok (wf : d.WF) (env : Env) {key : DpfKey}
    {ctx : EvaluationContext} (hc : d.CtxOk env key ctx) {h : Int} (h0 : 0 ≤ h) (hh : h < d.n)
    (prefixes : List U128) (upd : Bool)
    (hcov : ctx.partialEvaluations = [] ∨
      d.treeAt h.toNat < d.treeAt ctx.partialEvaluationsLevel.toNat ∨
      Covered ctx.partialEvaluations prefixes
        (d.treeAt h.toNat - d.treeAt ctx.partialEvaluationsLevel.toNat)) :
    d.computePartialEvaluations env prefixes h upd ctx =
      ok (.ofNodes (prefixes.map fun x => nodeAt env key (d.treeAt h.toNat) x.toNat),
        { ctx with
          partialEvaluations := if upd then partialsAt env key (d.treeAt h.toNat) prefixes else []
          partialEvaluationsLevel := h }) := by
  have hkd := hc.keyD
  unfold computePartialEvaluations
  rw [wf.treeInt_ok hc.pel.1 hc.pel.2, bind_ok, wf.treeInt_ok h0 hh, bind_ok]
  have htl := wf.tree_le_cws hc.keyOk (h := h.toNat) (by omega)
  have hsl := wf.tree_le_cws hc.keyOk (h := ctx.partialEvaluationsLevel.toNat)
    (by have := hc.pel; omega)
  have hint := fun s => wf.take_int (α := CorrectionWord) h.toNat s
  generalize d.treeAt h.toNat = t at *
  generalize hs : d.treeAt ctx.partialEvaluationsLevel.toNat = s at *
  have hstart : ∃ s0, s0 ≤ t ∧ startPartials prefixes s t ctx =
      ok (.ofNodes (prefixes.map fun x : U128 => nodeAt env key s0 (x.toNat / 2 ^ (t - s0))), s0) := by
    unfold startPartials
    split
    · rename_i hc'
      refine ⟨s, hc'.2, ?_⟩
      obtain ⟨m, h1, h2⟩ := partialsMap_ok (env := env) (key := key) (t := s)
        (by have := hc.partials; rw [hs] at this; exact this)
      rw [h1, bind_ok, show ((t : Int) - s) = ((t - s : Nat) : Int) by omega,
        mapRes_eq_ok_map (g := fun x : U128 => ((nodeAt env key s (x >>> (t - s)).toNat).seed,
          (nodeAt env key s (x >>> (t - s)).toNat).ctrl))]
      · rw [bind_ok]
        simp only [List.map_map, DpfExpansion.ofNodes]
        congr 1
        simp only [Prod.mk.injEq, DpfExpansion.mk.injEq, and_true]
        constructor <;> (apply List.map_congr_left; intro x _; simp only [Function.comp]; rw [shr_toNat])
      · intro x hx
        rw [selectPartial_eq h2 x, if_pos]
        rcases hcov with e | e | e
        · exact absurd e hc'.1
        · omega
        · exact e x hx
    · refine ⟨0, by omega, ?_⟩
      rw [hkd]
      simp only [DpfExpansion.ofNodes, List.map_map]
      congr 1
      simp only [Prod.mk.injEq, DpfExpansion.mk.injEq, and_true]
      constructor <;> apply List.ext_getElem <;> simp [nodeAt, walk, root]
  obtain ⟨s0, hs0, hst⟩ := hstart
  rw [hst, bind_ok]
  dsimp only
  rw [hkd, subspan_ok _ (by omega) hs0, bind_ok, evaluateSeeds_ofNodes _ _ _ _ (by simp) 
    (hint s0 _), bind_ok]
  have hnodes : List.zipWith (fun n (x : U128) => walk (dpfPrg env)
      ((key.correctionWords.drop s0).take (t - s0)) x.toNat n)
      (prefixes.map fun x : U128 => nodeAt env key s0 (x.toNat / 2 ^ (t - s0))) prefixes =
      prefixes.map fun x : U128 => nodeAt env key t x.toNat := by
    rw [List.zipWith_map_left, List.zipWith_self]
    apply List.map_congr_left
    intro x _
    rw [nodeAt, walk_split _ _ hs0 htl]; rfl
  rw [hnodes]
  congr 3
  have : List.zipWith (fun x (sc : U128 × Bool) => PartialEvaluation.mk x sc.1 sc.2) prefixes
      ((DpfExpansion.ofNodes (prefixes.map fun x : U128 => nodeAt env key t x.toNat)).seeds.zip
        (DpfExpansion.ofNodes (prefixes.map fun x : U128 => nodeAt env key t x.toNat)).controlBits) =
      partialsAt env key t prefixes := by
    unfold partialsAt
    apply List.ext_getElem
    · simp [DpfExpansion.ofNodes]
    · intro i h1 h2
      simp [DpfExpansion.ofNodes]
  rw [this]

/-- `ComputePartialEvaluations` when some prefix does not extend a stored one. -/
theorem WF.computePartialEvaluations_err (wf : d.WF) (env : Env) {key : DpfKey}
    {ctx : EvaluationContext} (hc : d.CtxOk env key ctx) {h : Int} (h0 : 0 ≤ h) (hh : h < d.n)
    (prefixes : List U128) (upd : Bool) (hne : ctx.partialEvaluations ≠ [])
    (hle : d.treeAt ctx.partialEvaluationsLevel.toNat ≤ d.treeAt h.toNat)
    (hcov : ¬ Covered ctx.partialEvaluations prefixes
        (d.treeAt h.toNat - d.treeAt ctx.partialEvaluationsLevel.toNat)) :
    d.computePartialEvaluations env prefixes h upd ctx = err .invalidArgument := by
  unfold computePartialEvaluations
  rw [wf.treeInt_ok hc.pel.1 hc.pel.2, bind_ok, wf.treeInt_ok h0 hh, bind_ok]
  generalize d.treeAt h.toNat = t at *
  generalize hs : d.treeAt ctx.partialEvaluationsLevel.toNat = s at *
  have : startPartials prefixes s t ctx = err .invalidArgument := by
    unfold startPartials
    rw [if_pos ⟨hne, hle⟩]
    obtain ⟨m, h1, h2⟩ := partialsMap_ok (env := env) (key := key) (t := s)
      (by have := hc.partials; rw [hs] at this; exact this)
    rw [h1, bind_ok, show ((t : Int) - s) = ((t - s : Nat) : Int) by omega, mapRes_err]
    · rfl
    · intro x _
      rw [selectPartial_eq h2 x]
      split
      · exact Or.inl ⟨_, rfl⟩
      · exact Or.inr rfl
    · unfold Covered at hcov
      simp only [Classical.not_forall] at hcov
      obtain ⟨x, hx, hn⟩ := hcov
      exact ⟨x, hx, by rw [selectPartial_eq h2 x, if_neg hn]⟩
  rw [this]; rfl

end Dpf
end Verif
