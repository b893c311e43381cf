import Verif.Lemmas.AtCtx
import Verif.Lemmas.Setup
/-! Evaluation with a context in the terms of the specification. -/
namespace Verif
open Res Spec

theorem Spec.Created.treeAt_eq (d : Dpf) (h : Nat) : d.treeAt h = treeDepth d h := rfl

variable {fp : FpEnv} {params : List DpfParameters} {T : Nat → Ty} {d : Dpf}

theorem Spec.Created.gapAt_eq (hc : Created fp params d) (h : Nat) :
    d.gapAt h = logSize params h - treeDepth d h := by
  rw [Dpf.gapAt, hc.logAt_eq]; rfl

theorem Spec.Created.noTrunc (hc : Created fp params d) {prev h : Nat} {prefixes : List U128}
    (hs : SmallExpansion params d prev h prefixes) : d.NoTrunc prev h prefixes := by
  rcases hs with hs | hs
  · exact Or.inl hs
  · refine Or.inr ⟨hs.1, ?_⟩
    replace hs := hs.2
    cases prefixes with
    | nil => exact ⟨0, by simp⟩
    | cons y ys =>
      refine ⟨y >>> d.gapAt prev, ?_⟩
      intro x hx
      apply BitVec.eq_of_toNat_eq
      rw [Dpf.shr_toNat, Dpf.shr_toNat, hc.gapAt_eq]
      exact hs x hx y (by simp)

theorem Spec.Setup.type_eq (s : Setup fp params T d) {S : Ty} {h : Nat} (hh : h < d.n)
    (ht : ∀ p, d.pv.parameters[h]? = some p → valueTypesAreEqual S.helper.toValueType p.vt = ok true) :
    S = T h := by
  have hp := List.getElem?_eq_getElem (show h < d.pv.parameters.length from hh)
  have h1 := ht _ hp
  rw [(s.typedAt hh).vt _ hp] at h1
  exact Ty.eq_of_equal _ _ h1

/-- The points returned by an accepted call are inside the level. -/
theorem Spec.Created.outputPoints_lt (hc : Created fp params d) {ctx : EvaluationContext} {h : Nat}
    (hh : h < d.n) {prefixes : List U128} {vt : ValueType} (ha : d.UntilArgs vt h prefixes ctx) :
    ∀ x ∈ outputPoints params ctx.previousHierarchyLevel h prefixes, x.toNat < 2 ^ d.logAt h := by
  have wf := hc.wf
  have hle := wf.log_le h
  have h128 : 2 ^ d.logAt h ≤ 2 ^ 128 := Nat.pow_le_pow_right (by decide) hle
  unfold outputPoints
  split
  · intro x hx
    simp only [allPoints, Int.toNat_natCast, List.mem_map, List.mem_range] at hx
    obtain ⟨k, hk, rfl⟩ := hx
    rw [← hc.logAt_eq] at hk
    rw [BitVec.toNat_ofNat, Nat.mod_eq_of_lt (by omega)]
    exact hk
  · rename_i hneg
    intro x hx
    simp only [List.mem_flatMap, extensions, Int.toNat_natCast, List.mem_map, List.mem_range] at hx
    obtain ⟨y, hy, k, hk, rfl⟩ := hx
    rw [← hc.logAt_eq, ← hc.logAt_eq] at hk ⊢
    have hr := ha.range y hy
    unfold Dpf.prevLog at hr
    rw [if_neg hneg] at hr
    have hasc := wf.log_asc _ h (by have := ha.later; omega : ctx.previousHierarchyLevel.toNat < h) hh
    generalize d.logAt ctx.previousHierarchyLevel.toNat = l at *
    have hb : y.toNat * 2 ^ (d.logAt h - l) + k < 2 ^ d.logAt h := by
      have h1 : (y.toNat + 1) * 2 ^ (d.logAt h - l) ≤ 2 ^ l * 2 ^ (d.logAt h - l) :=
        Nat.mul_le_mul_right _ hr
      rw [← Nat.pow_add, show l + (d.logAt h - l) = d.logAt h by omega, Nat.add_mul] at h1
      omega
    rw [BitVec.toNat_ofNat, Nat.mod_eq_of_lt (by omega)]
    exact hb

theorem outputPoints_ne_nil (params : List DpfParameters) {prev h : Int} {prefixes : List U128}
    (hf : prev < 0 ↔ prefixes = []) : outputPoints params prev h prefixes ≠ [] := by
  unfold outputPoints
  split
  · have := Nat.two_pow_pos (logSize params h.toNat)
    simp [allPoints, ← List.length_eq_zero_iff]
  · rename_i hn
    cases prefixes with
    | nil => exact absurd (hf.mpr rfl) hn
    | cons x xs => simp [extensions, ← List.length_eq_zero_iff]

/-- The result of `EvaluateUntil` if the arguments are accepted. -/
theorem Spec.Setup.evaluateUntil_eq (s : Setup fp params T d) (env : Env) {key : DpfKey}
    {ctx : EvaluationContext} (hc : d.CtxOk env key ctx) {h : Nat} (hh : h < d.n)
    {prefixes : List U128} (ha : d.UntilArgs (T h).helper.toValueType h prefixes ctx)
    (hu : prefixes ≠ [] → d.Usable ctx (d.treeAt ctx.previousHierarchyLevel.toNat)
      (prefixes.map fun x : U128 => x >>> d.gapAt ctx.previousHierarchyLevel.toNat))
    (hsm : SmallExpansion params d ctx.previousHierarchyLevel.toNat h prefixes) :
    (d.evaluateUntil env (T h).helper h prefixes ctx).1 = d.evaluateAt env (T h).helper key h
      (outputPoints params ctx.previousHierarchyLevel h prefixes) := by
  have wf := s.wf
  have ht := s.typedAt hh
  have hcr := s.toCreated
  have h128 : 2 ^ d.logAt h ≤ 2 ^ 128 := Nat.pow_le_pow_right (by decide) (wf.log_le h)
  rw [wf.evaluateAt_ok env hc.keyOk hh ht (hcr.outputPoints_lt hh ha),
    if_neg (outputPoints_ne_nil params ha.first)]
  by_cases hne : prefixes = []
  · subst hne
    have hneg := ha.first.mpr rfl
    rw [wf.evaluateUntil_first env hc hh ht ha]
    dsimp only
    congr 1
    funext corr
    unfold outputPoints allPoints
    rw [if_pos hneg, List.map_map, Int.toNat_natCast, ← hcr.logAt_eq]
    congr 1
    apply List.map_congr_left
    intro x hx
    rw [List.mem_range] at hx
    simp only [Function.comp]
    rw [BitVec.toNat_ofNat, Nat.mod_eq_of_lt (by omega)]
  · have hneg : ¬ ctx.previousHierarchyLevel < 0 := fun e => hne (ha.first.mp e)
    have hp : ctx.previousHierarchyLevel = (ctx.previousHierarchyLevel.toNat : Int) := by omega
    rw [wf.evaluateUntil_next env hc hh hp ht hne ha (hu hne) (hcr.noTrunc hsm)]
    congr 1
    funext corr
    have hpt := hcr.outputPoints_lt hh ha
    unfold outputPoints at hpt ⊢
    rw [if_neg hneg] at hpt ⊢
    rw [List.map_flatMap]
    congr 1
    rw [List.flatMap_def, List.flatMap_def]
    congr 1
    apply List.map_congr_left
    intro x hx
    unfold extensions at hpt ⊢
    rw [List.map_map, Int.toNat_natCast, hcr.logAt_eq, hcr.logAt_eq]
    apply List.map_congr_left
    intro k hk
    simp only [Function.comp]
    congr 1
    have hr := ha.range x hx
    unfold Dpf.prevLog at hr
    rw [if_neg hneg] at hr
    have hasc := wf.log_asc _ h (by have := ha.later; omega : ctx.previousHierarchyLevel.toNat < h) hh
    rw [List.mem_range] at hk
    rw [← hcr.logAt_eq, ← hcr.logAt_eq] at hk ⊢
    generalize d.logAt ctx.previousHierarchyLevel.toNat = l at *
    have hb : x.toNat * 2 ^ (d.logAt h - l) + k < 2 ^ d.logAt h := by
      have h1 : (x.toNat + 1) * 2 ^ (d.logAt h - l) ≤ 2 ^ l * 2 ^ (d.logAt h - l) :=
        Nat.mul_le_mul_right _ hr
      rw [← Nat.pow_add, show l + (d.logAt h - l) = d.logAt h by omega, Nat.add_mul] at h1
      omega
    rw [BitVec.toNat_ofNat, Nat.mod_eq_of_lt (by omega)]

theorem Dpf.Usable.congr {ctx : EvaluationContext} {t g : Nat} {ti prefixes : List U128}
    (hm : ∀ y, y ∈ ti ↔ ∃ x ∈ prefixes, x >>> g = y) :
    d.Usable ctx t ti ↔ d.Usable ctx t (prefixes.map fun x : U128 => x >>> g) := by
  unfold Dpf.Usable Dpf.Covered
  simp only [List.mem_map, hm]

/-- What `EvaluateUntil` does on contexts of any history: it rejects the call and leaves the context
alone, or the arguments are fine and the new level is recorded (or the size of the expansion wraps). -/
theorem Spec.Created.evaluateUntil_outcomes (s : Created fp params d) (env : Env) {key : DpfKey}
    {ctx : EvaluationContext} (hc : d.CtxOk env key ctx) {α : Type} (H : Helper α) (h : Int)
    (prefixes : List U128) :
    d.evaluateUntil env H h prefixes ctx = (err .invalidArgument, ctx) ∨
    (d.UntilArgs H.toValueType h prefixes ctx ∧
      (prefixes ≠ [] → d.Usable ctx (d.treeAt ctx.previousHierarchyLevel.toNat)
        (prefixes.map fun x : U128 => x >>> d.gapAt ctx.previousHierarchyLevel.toNat)) ∧
      ((d.evaluateUntil env H h prefixes ctx).2.previousHierarchyLevel = h ∨
        (d.evaluateUntil env H h prefixes ctx).1 = ub)) := by
  have wf := s.wf
  rcases wf.checkEvaluateUntil_cases H h prefixes ctx with ha | he
  rotate_left
  · left
    unfold Dpf.evaluateUntil
    rw [he, Dpf.keep_err]
  obtain ⟨hN, rfl⟩ : ∃ hN : Nat, h = hN := ⟨h.toNat, by have := ha.level; omega⟩
  have hh : hN < d.n := by have := ha.level; omega
  by_cases hne : prefixes = []
  · subst hne
    right
    refine ⟨ha, by simp, Or.inl ?_⟩
    unfold Dpf.evaluateUntil
    rw [wf.checkEvaluateUntil_ok H ha, Dpf.keep_ok]
    dsimp only
    rw [show d.dedupPrefixes ctx.previousHierarchyLevel.toNat [] = ok ([], []) from rfl, Dpf.keep_ok]
    dsimp only
    rw [Int.toNat_natCast, wf.expand_first env hc hh (wf.treeAt_first ha), Dpf.keep_ok]
  · have hprev : ¬ ctx.previousHierarchyLevel < 0 := fun e => hne (ha.first.mp e)
    have hlater := ha.later
    have hp : ctx.previousHierarchyLevel = (ctx.previousHierarchyLevel.toNat : Int) := by omega
    obtain ⟨ti, hm, _, h1, h2⟩ := wf.evaluateUntil_ctx env hc H hh hp hne ha
    rw [Dpf.Usable.congr hm] at h1 h2
    by_cases hu : d.Usable ctx (d.treeAt ctx.previousHierarchyLevel.toNat)
        (prefixes.map fun x : U128 => x >>> d.gapAt ctx.previousHierarchyLevel.toNat)
    · right
      refine ⟨ha, fun _ => hu, ?_⟩
      rcases h1 hu with ⟨_, e⟩ | ⟨_, e⟩
      · right; rw [e]
      · left; rw [e]
    · left; exact h2 hu

/-- The level and the type of a call that was not rejected. -/
theorem Spec.Setup.until_type (s : Setup fp params T d) {S : Ty} {h : Int} {prefixes : List U128}
    {ctx : EvaluationContext} (ha : d.UntilArgs S.helper.toValueType h prefixes ctx) :
    ∃ hN : Nat, h = hN ∧ hN < d.n ∧ S = T hN := by
  obtain ⟨hN, rfl⟩ : ∃ hN : Nat, h = hN := ⟨h.toNat, by have := ha.level; omega⟩
  have hh : hN < d.n := by have := ha.level; omega
  exact ⟨hN, rfl, hh, s.type_eq hh (by have := ha.type; rwa [Int.toNat_natCast] at this)⟩

/-- Arguments are fine on a context of the DPF's own. -/
theorem Spec.Setup.untilArgs (s : Setup fp params T d) {env : Env} {key : DpfKey}
    {ctx : EvaluationContext} (hc : d.CtxOk env key ctx) {h : Nat} (hh : h < d.n)
    {prefixes : List U128} (hlater : ctx.previousHierarchyLevel < h)
    (hfirst : ctx.previousHierarchyLevel < 0 ↔ prefixes = [])
    (hrange : ∀ x ∈ prefixes, x.toNat < 2 ^ d.prevLog ctx)
    (hgap : d.logAt h - d.prevLog ctx < 63)
    (hsize : prefixes.length * 2 ^ (d.logAt h - d.prevLog ctx) ≤ 2 ^ 63 - 1)
    (hpe : ctx.partialEvaluations = [] ∨
      ctx.partialEvaluationsLevel ≤ ctx.previousHierarchyLevel) :
    d.UntilArgs (T h).helper.toValueType h prefixes ctx := by
  refine ⟨s.validateEvaluationContext_ok hc.params hc.key_eq hc.keyOk (by omega) hpe,
    ⟨by omega, by omega⟩, ?_, hlater, hfirst, hrange, by rwa [Int.toNat_natCast],
    by rwa [Int.toNat_natCast]⟩
  intro p hp
  rw [Int.toNat_natCast] at hp
  rw [(s.typedAt hh).vt p hp]
  exact Ty.valueTypesAreEqual_self _

theorem sameType_of_equal {a b : ValueType} (h : valueTypesAreEqual a b = ok true) : SameType a b := by
  obtain ⟨ha, hb⟩ := canon_of_equal a b h
  obtain ⟨x, hx⟩ := Option.isSome_iff_exists.mp ha
  obtain ⟨y, hy⟩ := Option.isSome_iff_exists.mp hb
  obtain ⟨r, h1, h2⟩ := valueTypesAreEqual_canon a b x y hx hy
  rw [h] at h1
  simp only [ok.injEq] at h1
  have := h2.mp h1.symm
  exact ⟨x, hx, by rw [hy, this]⟩

theorem parametersAreEqual_spec {p q : DpfParameters} (h : parametersAreEqual p q = ok true) :
    p.logDomainSize = q.logDomainSize ∧ SameType p.vt q.vt := by
  unfold parametersAreEqual at h
  split at h
  · simp at h
  · rename_i h1
    split at h
    · simp at h
    · exact ⟨by simpa using h1, sameType_of_equal h⟩

/-- What a context that passes validation satisfies. -/
theorem Dpf.WF.validateEvaluationContext_spec (wf : d.WF) {ctx : EvaluationContext}
    (h : d.pv.validateEvaluationContext ctx = ok ()) :
    ctx.parameters.length = d.pv.parameters.length ∧
    (∀ (i : Nat) (p q : DpfParameters), d.pv.parameters[i]? = some p → ctx.parameters[i]? = some q →
      p.logDomainSize = q.logDomainSize ∧ SameType p.vt q.vt) ∧
    ∃ key, ctx.key = some key ∧ d.KeyOk key ∧
      ctx.previousHierarchyLevel < (ctx.parameters.length : Int) - 1 ∧
      (ctx.partialEvaluations = [] ∨ ctx.partialEvaluationsLevel ≤ ctx.previousHierarchyLevel) := by
  unfold ProtoValidator.validateEvaluationContext at h
  obtain ⟨⟨⟩, h1, h⟩ := bind_eq_ok.mp h
  obtain ⟨us, h2, h⟩ := bind_eq_ok.mp h
  obtain ⟨⟨⟩, h3, h⟩ := bind_eq_ok.mp h
  obtain ⟨⟨⟩, h4, h⟩ := bind_eq_ok.mp h
  obtain ⟨⟨⟩, h5, h6⟩ := bind_eq_ok.mp h
  rw [failIf_eq_ok] at h1 h3 h5 h6
  have h2 := mapRes_unit_eq_ok.mp ⟨us, h2⟩
  refine ⟨by simpa using h1, ?_, ?_⟩
  · intro i p q hp hq
    have hm : (p, q) ∈ d.pv.parameters.zip ctx.parameters := by
      refine List.mem_of_getElem? (i := i) ?_
      rw [List.getElem?_zip_eq_some]
      exact ⟨hp, hq⟩
    have := h2 _ hm
    dsimp only at this
    obtain ⟨eq, e1, e2⟩ := bind_eq_ok.mp this
    rw [failIf_eq_ok] at e2
    rw [show eq = true by simpa using e2] at e1
    exact parametersAreEqual_spec e1
  · obtain ⟨key, hk⟩ := Option.ne_none_iff_exists'.mp h3
    have hkd : ctx.keyD = key := by simp [EvaluationContext.keyD, hk]
    rw [hkd] at h4
    refine ⟨key, hk, (wf.validateDpfKey_iff key).mp h4, by omega, ?_⟩
    by_cases e : ctx.partialEvaluations = []
    · exact Or.inl e
    · right
      have : ¬ ctx.partialEvaluationsLevel > ctx.previousHierarchyLevel := fun h => h6 ⟨e, h⟩
      omega

/-- The block of an extension. -/
theorem Spec.Created.block_of_extension (hc : Created fp params d) {prev h : Nat} (hlt : prev < h)
    (hh : h < d.n) {x y : U128} (hxy : prefixOf params prev h x = y) :
    (x >>> d.gapAt h) >>> (d.treeAt h - d.treeAt prev) = y >>> d.gapAt prev := by
  subst hxy
  have wf := hc.wf
  have h1 := wf.tree_le h
  have h2 := wf.tree_le prev
  have h3 := wf.log_asc prev h hlt hh
  have h4 := wf.tree_asc prev h hlt hh
  unfold prefixOf
  rw [← hc.logAt_eq, ← hc.logAt_eq, ← BitVec.shiftRight_add, ← BitVec.shiftRight_add]
  congr 1
  unfold Dpf.gapAt
  omega

theorem prefixOf_extension (hc : Created fp params d) {prev h : Nat} (hlt : prev < h)
    (hh : h < d.n) {x y : U128} (hy : y.toNat < 2 ^ d.logAt prev)
    (hm : x ∈ extensions params prev h y) : prefixOf params prev h x = y := by
  have wf := hc.wf
  unfold extensions at hm
  unfold prefixOf
  simp only [List.mem_map, List.mem_range] at hm
  obtain ⟨k, hk, rfl⟩ := hm
  rw [← hc.logAt_eq, ← hc.logAt_eq] at hk ⊢
  have h128 : 2 ^ d.logAt h ≤ 2 ^ 128 := Nat.pow_le_pow_right (by decide) (wf.log_le h)
  have hasc := wf.log_asc prev h hlt hh
  generalize d.logAt prev = l at *
  have hb : y.toNat * 2 ^ (d.logAt h - l) + k < 2 ^ d.logAt h := by
    have h1 : (y.toNat + 1) * 2 ^ (d.logAt h - l) ≤ 2 ^ l * 2 ^ (d.logAt h - l) :=
      Nat.mul_le_mul_right _ hy
    rw [← Nat.pow_add, show l + (d.logAt h - l) = d.logAt h by omega, Nat.add_mul] at h1
    omega
  apply BitVec.eq_of_toNat_eq
  rw [Dpf.shr_toNat, BitVec.toNat_ofNat, Nat.mod_eq_of_lt (by omega), Nat.add_comm,
    Nat.add_mul_div_right _ _ (Nat.two_pow_pos _), Nat.div_eq_of_lt hk, Nat.zero_add]

/-- The context after a successful call. -/
theorem Spec.Created.evaluateUntil_stored (s : Created fp params d) (env : Env) {key : DpfKey}
    {ctx ctx1 : EvaluationContext} (hc : d.CtxOk env key ctx) {S : Ty} {h1 : Nat} (hh : h1 + 1 < d.n)
    {prefixes : List U128} {vals : List S.den}
    (hok : d.evaluateUntil env S.helper h1 prefixes ctx = (ok vals, ctx1)) :
    (ctx1.previousHierarchyLevel = h1 ∧ ctx.previousHierarchyLevel < h1) ∧
    ((prefixes = [] ∧ ctx1.partialEvaluations = []) ∨
     (prefixes ≠ [] ∧ 0 ≤ ctx.previousHierarchyLevel ∧
      ctx1.partialEvaluationsLevel = (ctx.previousHierarchyLevel.toNat : Int) ∧
      (∀ x ∈ prefixes, x.toNat < 2 ^ d.logAt ctx.previousHierarchyLevel.toNat) ∧
      ∀ y, (∃ pe ∈ ctx1.partialEvaluations, pe.prefix = y) ↔
        ∃ x ∈ prefixes, x >>> d.gapAt ctx.previousHierarchyLevel.toNat = y)) := by
  have wf := s.wf
  rcases s.evaluateUntil_outcomes env hc S.helper h1 prefixes with he | ⟨ha, hu, hp⟩
  · rw [he] at hok; simp at hok
  refine ⟨⟨by rw [hok] at hp; simpa using hp, ha.later⟩, ?_⟩
  by_cases hne : prefixes = []
  · left
    refine ⟨hne, ?_⟩
    subst hne
    have hneg := ha.first.mpr rfl
    have e : (d.evaluateUntil env S.helper h1 [] ctx).2 =
        { ctx with previousHierarchyLevel := h1 } := by
      unfold Dpf.evaluateUntil
      rw [wf.checkEvaluateUntil_ok S.helper ha, Dpf.keep_ok]
      dsimp only
      rw [show d.dedupPrefixes ctx.previousHierarchyLevel.toNat [] = ok ([], []) from rfl, Dpf.keep_ok]
      dsimp only
      rw [Int.toNat_natCast, wf.expand_first env hc (by omega) (wf.treeAt_first ha), Dpf.keep_ok]
    rw [hok] at e
    dsimp only at e
    rw [e]
    dsimp only
    obtain ⟨_, _, _, _, _, _, h⟩ := wf.validateEvaluationContext_spec ha.ctx_ok
    rcases h with h | h
    · exact h
    · have := hc.pel; omega
  · right
    have hneg : ¬ ctx.previousHierarchyLevel < 0 := fun e => hne (ha.first.mp e)
    obtain ⟨ti, hm, _, h2, h3⟩ := wf.evaluateUntil_ctx env hc S.helper (by omega)
      (prev := ctx.previousHierarchyLevel.toNat) (by omega) hne ha
    have h2 := h2 ((Dpf.Usable.congr hm).mpr (hu hne))
    rw [hok] at h2
    dsimp only at h2
    replace h2 := (h2.resolve_left (by simp)).2
    have hr := ha.range
    unfold Dpf.prevLog at hr
    rw [if_neg hneg] at hr
    refine ⟨hne, by omega, by rw [h2], hr, ?_⟩
    intro y
    rw [← hm, h2]
    dsimp only
    rw [if_pos (by rw [decide_eq_true_eq]; unfold Dpf.n at hh; omega)]
    unfold Dpf.partialsAt
    constructor
    · rintro ⟨pe, hpe, rfl⟩
      obtain ⟨a, ha, rfl⟩ := List.mem_map.mp hpe
      exact ha
    · intro hy
      exact ⟨_, List.mem_map.mpr ⟨y, hy, rfl⟩, rfl⟩

end Verif
