import Verif.Lemmas.Until
import Verif.Lemmas.KeyGenErrors
/-! Argument checks of `EvaluateUntil`. -/
namespace Verif
open Res Spec

theorem parametersAreEqual_cases (a b : DpfParameters) : OkOrInvalid (parametersAreEqual a b) := by
  unfold parametersAreEqual
  split
  · exact .ok _
  · split
    · exact .ok _
    · exact valueTypesAreEqual_cases _ _

namespace Dpf
variable {d : Dpf}

theorem WF.validateEvaluationContext_cases (wf : d.WF) (ctx : EvaluationContext) :
    OkOrInvalid (d.pv.validateEvaluationContext ctx) := by
  unfold ProtoValidator.validateEvaluationContext
  refine (OkOrInvalid.failIf _).bind fun _ _ => OkOrInvalid.bind ?_ fun _ _ =>
    (OkOrInvalid.failIf _).bind fun _ _ => OkOrInvalid.bind ?_ fun _ _ =>
    (OkOrInvalid.failIf _).bind fun _ _ => OkOrInvalid.failIf _
  · apply OkOrInvalid.mapRes_unit
    intro pq _
    exact (parametersAreEqual_cases _ _).bind fun _ _ => OkOrInvalid.failIf _
  · rcases wf.validateDpfKey_cases ctx.keyD with h | h
    · exact Or.inl ⟨_, h⟩
    · exact Or.inr h

/-- Log domain size of the previous level; 0 if there is none. -/
def prevLog (d : Dpf) (ctx : EvaluationContext) : Nat :=
  if ctx.previousHierarchyLevel < 0 then 0 else d.logAt ctx.previousHierarchyLevel.toNat

/-- Arguments that `EvaluateUntil` accepts. -/
structure UntilArgs (d : Dpf) (vt : ValueType) (h : Int) (prefixes : List U128)
    (ctx : EvaluationContext) : Prop where
  ctx_ok : d.pv.validateEvaluationContext ctx = ok ()
  level : 0 ≤ h ∧ h < d.n
  type : ∀ p, d.pv.parameters[h.toNat]? = some p → valueTypesAreEqual vt p.vt = ok true
  later : ctx.previousHierarchyLevel < h
  first : ctx.previousHierarchyLevel < 0 ↔ prefixes = []
  range : ∀ x ∈ prefixes, x.toNat < 2 ^ d.prevLog ctx
  gap : d.logAt h.toNat - d.prevLog ctx < 63
  size : prefixes.length * 2 ^ (d.logAt h.toNat - d.prevLog ctx) ≤ 2 ^ 63 - 1

theorem checkEvaluateUntil_unfold {α : Type} (H : Helper α) (h : Int) (prefixes : List U128)
    (ctx : EvaluationContext) : d.checkEvaluateUntil H h prefixes ctx =
    (d.pv.validateEvaluationContext ctx >>= fun _ =>
     failIf (h < 0 ∨ h ≥ (d.pv.parameters.length : Int)) .invalidArgument >>= fun _ =>
     d.param h.toNat >>= fun p =>
     valueTypesAreEqual H.toValueType p.vt >>= fun eq =>
     failIf (eq = false) .invalidArgument >>= fun _ =>
     failIf (h ≤ ctx.previousHierarchyLevel) .invalidArgument >>= fun _ =>
     failIf (decide (ctx.previousHierarchyLevel < 0) ≠ decide (prefixes = [])) .invalidArgument >>=
      fun _ =>
     (if prefixes = [] then ok (0 : Int)
      else rdInt d.pv.parameters ctx.previousHierarchyLevel >>= fun pp =>
        mapRes (fun x => if pp.logDomainSize < 128 then
          shl128 1 pp.logDomainSize >>= fun bound => failIf (x ≥ bound) .invalidArgument
          else ok ()) prefixes >>= fun _ => ok pp.logDomainSize) >>= fun prevLog =>
     failIf (p.logDomainSize - prevLog ≥ 63) .invalidArgument >>= fun _ =>
     if p.logDomainSize - prevLog < 0 then ub else
     failIf (prefixes.length * 2 ^ (p.logDomainSize - prevLog).toNat > 2 ^ 63 - 1)
      .invalidArgument >>= fun _ =>
     ok (h.toNat, ctx.previousHierarchyLevel.toNat, (p.logDomainSize - prevLog).toNat)) := by
  unfold checkEvaluateUntil
  split
  · rfl
  · dsimp only
    simp only [bind_assoc]

theorem WF.rangeCheck (wf : d.WF) {h : Nat} (prefixes : List U128) :
    let r := mapRes (fun x : U128 => if (d.logAt h : Int) < 128 then
      shl128 1 (d.logAt h) >>= fun bound => failIf (x ≥ bound) .invalidArgument else ok ()) prefixes
    OkOrInvalid r ∧ ((∃ us, r = ok us) ↔ ∀ x ∈ prefixes, x.toNat < 2 ^ d.logAt h) := by
  have hl := wf.log_le h
  have key : ∀ x : U128, OkOrInvalid (if (d.logAt h : Int) < 128 then
      shl128 1 (d.logAt h) >>= fun bound => failIf (x ≥ bound) .invalidArgument else ok ()) ∧
      ((if (d.logAt h : Int) < 128 then
      shl128 1 (d.logAt h) >>= fun bound => failIf (x ≥ bound) .invalidArgument else ok ()) = ok () ↔
        x.toNat < 2 ^ d.logAt h) := by
    intro x
    split
    · rename_i hlt
      rw [shl128_ok (by omega), bind_ok]
      refine ⟨OkOrInvalid.failIf _, ?_⟩
      rw [failIf_eq_ok, bound_iff (by omega)]; omega
    · refine ⟨.ok _, ?_⟩
      have : d.logAt h = 128 := by omega
      rw [this]
      exact ⟨fun _ => x.isLt, fun _ => rfl⟩
  intro r
  refine ⟨OkOrInvalid.mapRes_unit fun x _ => (key x).1, ?_⟩
  rw [mapRes_unit_eq_ok]
  exact ⟨fun h' x hx => (key x).2.mp (h' x hx), fun h' x hx => (key x).2.mpr (h' x hx)⟩

theorem WF.checkEvaluateUntil_ok (wf : d.WF) {α : Type} (H : Helper α) {h : Int}
    {prefixes : List U128} {ctx : EvaluationContext} (ha : d.UntilArgs H.toValueType h prefixes ctx) :
    d.checkEvaluateUntil H h prefixes ctx =
      ok (h.toNat, ctx.previousHierarchyLevel.toNat, d.logAt h.toNat - d.prevLog ctx) := by
  rw [checkEvaluateUntil_unfold]
  obtain ⟨p, hp, hp'⟩ := wf.param_ok (h := h.toNat) (by have := ha.level; omega)
  have hle : d.prevLog ctx ≤ d.logAt h.toNat := by
    unfold prevLog
    split
    · omega
    · exact Nat.le_of_lt <| wf.log_asc _ _ (by have := ha.later; omega) (by have := ha.level; omega)
  rw [ha.ctx_ok, bind_ok, failIf_false (by have := ha.level; unfold n at this; omega), bind_ok, hp,
    bind_ok, ha.type p hp', bind_ok, failIf_false (by decide), bind_ok,
    failIf_false (by have := ha.later; omega), bind_ok,
    failIf_false (by have := ha.first; simp [this]), bind_ok, wf.log_eq _ _ hp']
  have hprev : (if prefixes = [] then ok (0 : Int)
      else rdInt d.pv.parameters ctx.previousHierarchyLevel >>= fun pp =>
        mapRes (fun x => if pp.logDomainSize < 128 then
          shl128 1 pp.logDomainSize >>= fun bound => failIf (x ≥ bound) .invalidArgument
          else ok ()) prefixes >>= fun _ => ok pp.logDomainSize) = ok (d.prevLog ctx : Int) := by
    split
    · rename_i he
      unfold prevLog
      rw [if_pos (ha.first.mpr he)]; rfl
    · rename_i he
      have hn : ¬ ctx.previousHierarchyLevel < 0 := fun e => he (ha.first.mp e)
      have hr := ha.range
      unfold prevLog at hr ⊢
      rw [if_neg hn] at hr ⊢
      obtain ⟨q, hq, hq'⟩ := wf.param_ok (h := ctx.previousHierarchyLevel.toNat)
        (by have := ha.level; have := ha.later; omega)
      rw [rdInt_nat (by omega), rd_eq_ok.mpr hq', bind_ok, wf.log_eq _ _ hq']
      obtain ⟨us, hus⟩ := (wf.rangeCheck (h := ctx.previousHierarchyLevel.toNat) prefixes).2.mpr hr
      rw [hus]; rfl
  have hg := ha.gap
  have hsz := ha.size
  rw [hprev, bind_ok, failIf_false (by omega), bind_ok, if_neg (by omega),
    show ((d.logAt h.toNat : Int) - d.prevLog ctx).toNat = d.logAt h.toNat - d.prevLog ctx by omega,
    failIf_false (by omega), bind_ok]

theorem WF.checkEvaluateUntil_cases (wf : d.WF) {α : Type} (H : Helper α) (h : Int)
    (prefixes : List U128) (ctx : EvaluationContext) :
    d.UntilArgs H.toValueType h prefixes ctx ∨
      d.checkEvaluateUntil H h prefixes ctx = err .invalidArgument := by
  rw [checkEvaluateUntil_unfold]
  rcases wf.validateEvaluationContext_cases ctx with ⟨⟨⟩, hctx⟩ | hctx
  rotate_left
  · right; rw [hctx]; rfl
  rw [hctx, bind_ok]
  by_cases hlev : h < 0 ∨ h ≥ (d.pv.parameters.length : Int)
  · right; rw [failIf_true hlev]; rfl
  have hlev' : 0 ≤ h ∧ h < d.n := by unfold n; omega
  obtain ⟨p, hp, hp'⟩ := wf.param_ok (h := h.toNat) (by omega)
  rw [failIf_false hlev, bind_ok, hp, bind_ok]
  rcases valueTypesAreEqual_cases H.toValueType p.vt with ⟨eq, heq⟩ | heq
  rotate_left
  · right; rw [heq]; rfl
  rw [heq, bind_ok]
  cases eq
  · right; rfl
  rw [failIf_false (by decide), bind_ok]
  by_cases hlater : h ≤ ctx.previousHierarchyLevel
  · right; rw [failIf_true hlater]; rfl
  rw [failIf_false hlater, bind_ok]
  by_cases hfirst : ctx.previousHierarchyLevel < 0 ↔ prefixes = []
  rotate_left
  · right
    rw [failIf_true (by simpa using hfirst)]; rfl
  rw [failIf_false (by simpa using hfirst), bind_ok, wf.log_eq _ _ hp']
  have hle : d.prevLog ctx ≤ d.logAt h.toNat := by
    unfold prevLog
    split
    · omega
    · exact Nat.le_of_lt <| wf.log_asc _ _ (by omega) (by omega)
  have hprev : (∀ x ∈ prefixes, x.toNat < 2 ^ d.prevLog ctx) ∧ (if prefixes = [] then ok (0 : Int)
      else rdInt d.pv.parameters ctx.previousHierarchyLevel >>= fun pp =>
        mapRes (fun x => if pp.logDomainSize < 128 then
          shl128 1 pp.logDomainSize >>= fun bound => failIf (x ≥ bound) .invalidArgument
          else ok ()) prefixes >>= fun _ => ok pp.logDomainSize) = ok (d.prevLog ctx : Int) ∨
      (if prefixes = [] then ok (0 : Int)
      else rdInt d.pv.parameters ctx.previousHierarchyLevel >>= fun pp =>
        mapRes (fun x => if pp.logDomainSize < 128 then
          shl128 1 pp.logDomainSize >>= fun bound => failIf (x ≥ bound) .invalidArgument
          else ok ()) prefixes >>= fun _ => ok pp.logDomainSize) = err .invalidArgument := by
    by_cases he : prefixes = []
    · left
      unfold prevLog
      rw [if_pos (hfirst.mpr he), if_pos he]
      exact ⟨by simp [he], rfl⟩
    · rw [if_neg he]
      have hn : ¬ ctx.previousHierarchyLevel < 0 := fun e => he (hfirst.mp e)
      unfold prevLog
      rw [if_neg hn]
      obtain ⟨q, hq, hq'⟩ := wf.param_ok (h := ctx.previousHierarchyLevel.toNat) (by omega)
      rw [rdInt_nat (by omega), rd_eq_ok.mpr hq', bind_ok, wf.log_eq _ _ hq']
      obtain ⟨h1, h2⟩ := wf.rangeCheck (h := ctx.previousHierarchyLevel.toNat) prefixes
      rcases h1 with ⟨us, hus⟩ | hus
      · left
        exact ⟨h2.mp ⟨us, hus⟩, by rw [hus]; rfl⟩
      · right; rw [hus]; rfl
  rcases hprev with ⟨hr, hprev⟩ | hprev
  rotate_left
  · right; rw [hprev]; rfl
  rw [hprev, bind_ok]
  by_cases hgap : (d.logAt h.toNat : Int) - d.prevLog ctx ≥ 63
  · right; rw [failIf_true hgap]; rfl
  rw [failIf_false hgap, bind_ok, if_neg (by omega),
    show ((d.logAt h.toNat : Int) - d.prevLog ctx).toNat = d.logAt h.toNat - d.prevLog ctx by omega]
  by_cases hsz : prefixes.length * 2 ^ (d.logAt h.toNat - d.prevLog ctx) > 2 ^ 63 - 1
  · right; rw [failIf_true hsz]; rfl
  left
  refine ⟨hctx, hlev', ?_, by omega, hfirst, hr, by omega, by omega⟩
  intro q hq
  rw [hp'] at hq
  simp only [Option.some.injEq] at hq
  subst hq
  exact heq

/-! ### De-duplication of tree indices -/

/-- Unique tree indices and the position of each prefix. -/
theorem WF.dedupPrefixes_ok (wf : d.WF) {h : Nat} (hh : h < d.n) (prefixes : List U128) :
    ∃ ti : List U128, d.dedupPrefixes h prefixes =
        ok (ti, prefixes.map fun x : U128 => (ti.idxOf (x >>> d.gapAt h), x.toNat % 2 ^ d.gapAt h)) ∧
      (∀ y, y ∈ ti ↔ ∃ x ∈ prefixes, x >>> d.gapAt h = y) ∧ ti.Nodup := by
  unfold dedupPrefixes
  suffices ∀ (xs ps : List U128) (ti : List U128),
      (∀ y, y ∈ ti ↔ ∃ x ∈ ps, x >>> d.gapAt h = y) → ti.Nodup →
      ∃ ti' : List U128, foldRes (fun (st : List U128 × List (Nat × Nat)) x =>
        d.domainToTreeIndex x h >>= fun t => d.domainToBlockIndex x h >>= fun b =>
        match st.1.idxOf? t with
        | some i => ok (st.1, st.2 ++ [(i, b)])
        | none => ok (st.1 ++ [t], st.2 ++ [(st.1.length, b)]))
        (ti, ps.map fun x : U128 => (ti.idxOf (x >>> d.gapAt h), x.toNat % 2 ^ d.gapAt h)) xs =
        ok (ti', (ps ++ xs).map fun x : U128 =>
          (ti'.idxOf (x >>> d.gapAt h), x.toNat % 2 ^ d.gapAt h)) ∧
      (∀ y, y ∈ ti' ↔ ∃ x ∈ ps ++ xs, x >>> d.gapAt h = y) ∧ ti'.Nodup by
    obtain ⟨ti, h1, h2, h3⟩ := this prefixes [] [] (by simp) List.nodup_nil
    exact ⟨ti, h1, h2, h3⟩
  intro xs
  induction xs with
  | nil => intro ps ti h1 h2; exact ⟨ti, by simp, by simpa using h1, h2⟩
  | cons x xs ih =>
    intro ps ti h1 h2
    rw [foldRes_cons, wf.domainToTreeIndex_ok hh, bind_ok, wf.domainToBlockIndex_ok hh, bind_ok]
    dsimp only
    have happ : ps ++ x :: xs = (ps ++ [x]) ++ xs := by simp
    rw [happ]
    by_cases hm : x >>> d.gapAt h ∈ ti
    · have : ti.idxOf? (x >>> d.gapAt h) = some (ti.idxOf (x >>> d.gapAt h)) := by
        rw [List.idxOf?_eq_some_iff]
        refine ⟨List.idxOf_lt_length_of_mem hm, ?_, ?_⟩
        · exact List.getElem_idxOf _
        · intro j hj
          intro e
          have := List.not_of_lt_findIdx hj
          simp [e] at this
      rw [this]
      dsimp only
      rw [bind_ok]
      have e : (ps.map fun x : U128 => (ti.idxOf (x >>> d.gapAt h), x.toNat % 2 ^ d.gapAt h)) ++
          [(ti.idxOf (x >>> d.gapAt h), x.toNat % 2 ^ d.gapAt h)] =
          (ps ++ [x]).map fun x : U128 => (ti.idxOf (x >>> d.gapAt h), x.toNat % 2 ^ d.gapAt h) := by
        simp
      rw [e]
      refine ih (ps ++ [x]) ti ?_ h2
      intro y
      rw [h1]
      constructor
      · rintro ⟨z, hz, e⟩; exact ⟨z, by simp [hz], e⟩
      · rintro ⟨z, hz, e'⟩
        simp only [List.mem_append, List.mem_singleton] at hz
        rcases hz with hz | rfl
        · exact ⟨z, hz, e'⟩
        · rw [← e']; exact (h1 _).mp hm
    · have : ti.idxOf? (x >>> d.gapAt h) = none := by rw [List.idxOf?_eq_none_iff]; exact hm
      rw [this]
      dsimp only
      rw [bind_ok]
      have e : (ps.map fun x : U128 => (ti.idxOf (x >>> d.gapAt h), x.toNat % 2 ^ d.gapAt h)) ++
          [(ti.length, x.toNat % 2 ^ d.gapAt h)] =
          (ps ++ [x]).map fun y : U128 =>
            ((ti ++ [x >>> d.gapAt h]).idxOf (y >>> d.gapAt h), y.toNat % 2 ^ d.gapAt h) := by
        rw [List.map_append]
        congr 1
        · apply List.map_congr_left
          intro z hz
          rw [List.idxOf_append, if_pos ((h1 _).mpr ⟨z, hz, rfl⟩)]
        · simp [List.idxOf_append, hm]
      rw [e]
      refine ih (ps ++ [x]) (ti ++ [x >>> d.gapAt h]) ?_ ?_
      · intro y
        simp only [List.mem_append, List.mem_singleton, h1]
        constructor
        · rintro (⟨z, hz, e⟩ | rfl)
          · exact ⟨z, Or.inl hz, e⟩
          · exact ⟨x, Or.inr rfl, rfl⟩
        · rintro ⟨z, hz | rfl, e'⟩
          · exact Or.inl ⟨z, hz, e'⟩
          · exact Or.inr e'.symm
      · rw [List.nodup_append]
        refine ⟨h2, by simp, ?_⟩
        intro a ha b hb
        simp only [List.mem_singleton] at hb
        rintro rfl
        exact hm (hb ▸ ha)

end Dpf
end Verif
