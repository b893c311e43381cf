import Verif.Lemmas.UntilArgs
/-! Results and contexts of `EvaluateUntil` and `EvaluateAt` with a context. -/
namespace Verif
open Res Spec

namespace Dpf
variable {d : Dpf}

@[simp] theorem keep_ok {α β κ : Type} (a : α) (c : κ) (f : α → Res β × κ) : keep (ok a) c f = f a := rfl
@[simp] theorem keep_err {α β κ : Type} (e : Code) (c : κ) (f : α → Res β × κ) :
    keep (err e) c f = (err e, c) := rfl

/-- Does every prefix (tree index at depth `t`) extend a stored one, or is nothing stored above? -/
def Usable (d : Dpf) (ctx : EvaluationContext) (t : Nat) (treeIndices : List U128) : Prop :=
  ctx.partialEvaluations = [] ∨ t < d.treeAt ctx.partialEvaluationsLevel.toNat ∨
    Covered ctx.partialEvaluations treeIndices (t - d.treeAt ctx.partialEvaluationsLevel.toNat)

/-- Values at all points of a level. -/
theorem blockValues_all (wf : d.WF) (env : Env) (T : Ty) (key : DpfKey) (h : Nat) (corr : List T.den) :
    d.blockValues env T key h corr (List.range (2 ^ d.treeAt h)) =
      (List.range (2 ^ d.logAt h)).map fun x => d.share env T key h corr x := by
  unfold blockValues
  have hl := wf.tree_le h
  rw [flatMap_range_map]
  rw [show 2 ^ d.treeAt h * 2 ^ d.gapAt h = 2 ^ d.logAt h by
    rw [← Nat.pow_add]; congr 1; unfold gapAt; omega]
  apply List.map_congr_left
  intro q _
  rw [Nat.div_add_mod']

theorem WF.treeAt_first (wf : d.WF) {h : Nat} {vt : ValueType} {ctx : EvaluationContext}
    (ha : d.UntilArgs vt h [] ctx) : d.treeAt h < 64 := by
  have h1 := wf.tree_le h
  have h2 := ha.gap
  unfold prevLog at h2
  rw [if_pos (ha.first.mpr rfl), Int.toNat_natCast] at h2
  omega

theorem WF.evaluateUntil_first (wf : d.WF) (env : Env) {key : DpfKey} {ctx : EvaluationContext}
    (hc : d.CtxOk env key ctx) {h : Nat} (hh : h < d.n) {T : Ty} (ht : d.TypedAt h T)
    (ha : d.UntilArgs T.helper.toValueType h [] ctx) :
    d.evaluateUntil env T.helper h [] ctx =
      (d.getValueCorrectionAsArray T.helper key h >>= fun corr =>
        ok ((List.range (2 ^ d.logAt h)).map fun x => d.share env T key h corr x),
       { ctx with previousHierarchyLevel := h }) := by
  unfold evaluateUntil
  rw [wf.checkEvaluateUntil_ok T.helper ha, keep_ok]
  dsimp only
  rw [show d.dedupPrefixes ctx.previousHierarchyLevel.toNat [] = ok ([], []) from rfl, keep_ok]
  dsimp only
  rw [Int.toNat_natCast, wf.expand_first env hc hh (wf.treeAt_first ha), keep_ok]
  dsimp only
  have hkd : (EvaluationContext.mk ctx.parameters ctx.key (h : Int) ctx.partialEvaluations
      ctx.partialEvaluationsLevel).keyD = key := by simp [EvaluationContext.keyD, hc.key_eq]
  rw [hkd, wf.finishUntil_eq env hh ht]
  congr 1
  congr 1
  funext corr
  rw [if_pos rfl, blockValues_all wf]

/-- Values below a list of tree indices, block by block. -/
theorem blockValues_tree (env : Env) (T : Ty) (key : DpfKey) (h m : Nat) (corr : List T.den)
    (ti : List U128) :
    d.blockValues env T key h corr (ti.flatMap fun x => (List.range (2 ^ m)).map fun s =>
      x.toNat * 2 ^ m + s) =
    ti.flatMap fun x => (List.range (2 ^ m * 2 ^ d.gapAt h)).map fun q =>
      d.share env T key h corr (x.toNat * (2 ^ m * 2 ^ d.gapAt h) + q) := by
  unfold blockValues
  rw [List.flatMap_assoc]
  congr 1
  funext x
  rw [List.flatMap_map, flatMap_range_map]
  apply List.map_congr_left
  intro q _
  congr 1
  have := Nat.div_add_mod' q (2 ^ d.gapAt h)
  rw [Nat.add_mul, Nat.mul_assoc]; omega

/-- The slice of the values below the unique tree indices that belongs to one prefix. -/
theorem slice_prefix (env : Env) (T : Ty) (key : DpfKey) {h : Nat} {corr : List T.den}
    {ti : List U128} {g0 m g gap : Nat} (hsum : m + g = g0 + gap) {x : U128}
    (hx : x >>> g0 ∈ ti) :
    slice (ti.flatMap fun y => (List.range (2 ^ m * 2 ^ g)).map fun q =>
        d.share env T key h corr (y.toNat * (2 ^ m * 2 ^ g) + q))
      (ti.idxOf (x >>> g0) * (2 ^ m * 2 ^ g) + x.toNat % 2 ^ g0 * 2 ^ gap) (2 ^ gap) =
    ok ((List.range (2 ^ gap)).map fun k => d.share env T key h corr (x.toNat * 2 ^ gap + k)) := by
  have hpow : 2 ^ m * 2 ^ g = 2 ^ g0 * 2 ^ gap := by rw [← Nat.pow_add, ← Nat.pow_add, hsum]
  have hmod := Nat.mod_lt x.toNat (Nat.two_pow_pos g0)
  have hoff : x.toNat % 2 ^ g0 * 2 ^ gap + 2 ^ gap ≤ 2 ^ m * 2 ^ g := by
    rw [hpow]
    have := Nat.mul_le_mul_right (2 ^ gap) (show x.toNat % 2 ^ g0 + 1 ≤ 2 ^ g0 from hmod)
    rw [Nat.add_mul] at this; omega
  rw [slice_flatMap_off ti _ (k := 2 ^ m * 2 ^ g) (by simp) (List.idxOf_lt_length_of_mem hx) hoff]
  congr 1
  apply List.ext_getElem
  · simp; omega
  · intro k h1 h2
    simp only [List.getElem_take, List.getElem_drop, List.getElem_map, List.getElem_range]
    rw [List.getElem_idxOf, shr_toNat, hpow, ← Nat.add_assoc, ← Nat.mul_assoc, ← Nat.add_mul,
      Nat.div_add_mod']

/-- No truncation of `blocks_per_tree_prefix` (an `int`), or its value is irrelevant; and none of the size of the
buffers of `ExpandSeeds`. -/
def NoTrunc (d : Dpf) (prev h : Nat) (prefixes : List U128) : Prop :=
  (d.treeAt h - d.treeAt prev < 31 ∧ prefixes.length * 2 ^ (d.treeAt h - d.treeAt prev) < 2 ^ 64) ∨
  (d.treeAt h - d.treeAt prev < 64 ∧ ∃ y, ∀ x ∈ prefixes, x >>> d.gapAt prev = y)

/-- The blocks below the blocks of the prefixes can be counted in 64 bits. -/
def Fits (d : Dpf) (prev h : Nat) (prefixes : List U128) : Prop :=
  ∀ ti : List U128, ti.Nodup → (∀ y ∈ ti, ∃ x ∈ prefixes, x >>> d.gapAt prev = y) →
    ti.length * 2 ^ (d.treeAt h - d.treeAt prev) < 2 ^ 64

theorem Fits.of_length {prev h : Nat} {prefixes : List U128}
    (hl : prefixes.length * 2 ^ (d.treeAt h - d.treeAt prev) < 2 ^ 64) : d.Fits prev h prefixes := by
  intro ti hnd hm
  have hle : ti.length ≤ prefixes.length := by
    have := List.Nodup.length_le_of_subset (l₂ := prefixes.map fun x : U128 => x >>> d.gapAt prev) hnd (by
      intro y hy
      obtain ⟨x, hx, rfl⟩ := hm y hy
      exact List.mem_map_of_mem hx)
    simpa using this
  exact Nat.lt_of_le_of_lt (Nat.mul_le_mul_right _ hle) hl

theorem NoTrunc.fits {prev h : Nat} {prefixes : List U128} (hn : d.NoTrunc prev h prefixes) :
    d.Fits prev h prefixes := by
  rcases hn with hn | ⟨hn, y, hy⟩
  · exact .of_length hn.2
  · intro ti hnd hm
    have hle : ti.length ≤ [y].length := by
      apply List.Nodup.length_le_of_subset hnd
      intro z hz
      obtain ⟨x, hx, rfl⟩ := hm z hz
      rw [hy x hx]; simp
    have h1 := Nat.pow_lt_pow_right (a := 2) (by decide) hn
    have h2 := Nat.mul_le_mul_right (2 ^ (d.treeAt h - d.treeAt prev)) hle
    simp only [List.length_singleton, Nat.one_mul] at h2
    omega

/-- The result of a later call, with the truncation of `blocks_per_tree_prefix`. -/
theorem WF.evaluateUntil_raw (wf : d.WF) (env : Env) {key : DpfKey} {ctx : EvaluationContext}
    (hc : d.CtxOk env key ctx) {h prev : Nat} (hh : h < d.n)
    (hprev : ctx.previousHierarchyLevel = prev) {T : Ty} (ht : d.TypedAt h T)
    {prefixes : List U128} (hne : prefixes ≠ [])
    (ha : d.UntilArgs T.helper.toValueType h prefixes ctx)
    (hcov : d.Usable ctx (d.treeAt prev) (prefixes.map fun x : U128 => x >>> d.gapAt prev))
    (hfit : d.Fits prev h prefixes) :
    ∃ ti : List U128, (∀ y, y ∈ ti ↔ ∃ x ∈ prefixes, x >>> d.gapAt prev = y) ∧ ti.Nodup ∧
    (d.evaluateUntil env T.helper h prefixes ctx).1 =
      (d.getValueCorrectionAsArray T.helper key h >>= fun corr =>
        mapRes (fun x : U128 =>
          if (ti.idxOf (x >>> d.gapAt prev) : Int) *
              ((2 ^ (d.treeAt h - d.treeAt prev) : Nat) : Int).bmod (2 ^ 32) * 2 ^ d.gapAt h +
              (x.toNat % 2 ^ d.gapAt prev : Nat) * 2 ^ (d.logAt h - d.logAt prev) < 0 then ub
          else slice (ti.flatMap fun y => (List.range (2 ^ (d.treeAt h - d.treeAt prev) *
              2 ^ d.gapAt h)).map fun q => d.share env T key h corr
                (y.toNat * (2 ^ (d.treeAt h - d.treeAt prev) * 2 ^ d.gapAt h) + q))
            ((ti.idxOf (x >>> d.gapAt prev) : Int) *
              ((2 ^ (d.treeAt h - d.treeAt prev) : Nat) : Int).bmod (2 ^ 32) * 2 ^ d.gapAt h +
              (x.toNat % 2 ^ d.gapAt prev : Nat) * 2 ^ (d.logAt h - d.logAt prev)).toNat
            (2 ^ (d.logAt h - d.logAt prev))) prefixes >>= fun parts => ok parts.flatten) := by
  have hlt : prev < h := by have := ha.later; omega
  have hpl : d.prevLog ctx = d.logAt prev := by
    unfold prevLog; rw [hprev, if_neg (by omega)]; rfl
  unfold evaluateUntil
  rw [wf.checkEvaluateUntil_ok T.helper ha, keep_ok, hpl]
  dsimp only
  rw [hprev, Int.toNat_natCast, Int.toNat_natCast]
  obtain ⟨ti, hd, hmem, hnd⟩ := wf.dedupPrefixes_ok (h := prev) (by omega) prefixes
  refine ⟨ti, hmem, hnd, ?_⟩
  rw [hd, keep_ok]
  dsimp only
  have htne : ti ≠ [] := by
    obtain ⟨x, hx⟩ := List.exists_mem_of_ne_nil _ hne
    exact List.ne_nil_of_mem ((hmem _).mpr ⟨x, hx, rfl⟩)
  have hcov' : d.Usable ctx (d.treeAt prev) ti := by
    rcases hcov with h1 | h1 | h1
    · exact Or.inl h1
    · exact Or.inr (Or.inl h1)
    · refine Or.inr (Or.inr ?_)
      intro y hy
      obtain ⟨x, hx, rfl⟩ := (hmem y).mp hy
      exact h1 _ (List.mem_map_of_mem hx)
  rw [wf.expand_next env hc hh hprev hlt htne hcov',
    if_pos (hfit ti hnd fun y hy => (hmem y).mp hy), keep_ok]
  dsimp only
  have hkd : ∀ a b, (EvaluationContext.mk ctx.parameters ctx.key (h : Int) a b).keyD = key := by
    intro a b; simp [EvaluationContext.keyD, hc.key_eq]
  have e : (ti.flatMap fun x => (List.range (2 ^ (d.treeAt h - d.treeAt prev))).map fun s =>
        nodeAt env key (d.treeAt h) (x.toNat * 2 ^ (d.treeAt h - d.treeAt prev) + s)) =
      (ti.flatMap fun x => (List.range (2 ^ (d.treeAt h - d.treeAt prev))).map fun s =>
        x.toNat * 2 ^ (d.treeAt h - d.treeAt prev) + s).map fun y => nodeAt env key (d.treeAt h) y := by
    rw [List.map_flatMap]
    congr 1
    funext x
    rw [List.map_map]; rfl
  rw [hkd, e, wf.finishUntil_eq env hh ht]
  congr 1
  funext corr
  rw [if_neg hne, blockValues_tree]
  have hlen : (ti.flatMap fun x => (List.range (2 ^ (d.treeAt h - d.treeAt prev))).map fun s =>
        x.toNat * 2 ^ (d.treeAt h - d.treeAt prev) + s).length / ti.length =
      2 ^ (d.treeAt h - d.treeAt prev) := by
    rw [flatMap_length_const _ _ (k := 2 ^ (d.treeAt h - d.treeAt prev)) (by simp),
      Nat.mul_div_cancel_left _ (by have := List.length_pos_iff.mpr htne; omega)]
  rw [hlen, mapRes_map]

theorem WF.evaluateUntil_next (wf : d.WF) (env : Env) {key : DpfKey} {ctx : EvaluationContext}
    (hc : d.CtxOk env key ctx) {h prev : Nat} (hh : h < d.n)
    (hprev : ctx.previousHierarchyLevel = prev) {T : Ty} (ht : d.TypedAt h T)
    {prefixes : List U128} (hne : prefixes ≠ [])
    (ha : d.UntilArgs T.helper.toValueType h prefixes ctx)
    (hcov : d.Usable ctx (d.treeAt prev) (prefixes.map fun x : U128 => x >>> d.gapAt prev))
    (htr : d.NoTrunc prev h prefixes) :
    (d.evaluateUntil env T.helper h prefixes ctx).1 =
      (d.getValueCorrectionAsArray T.helper key h >>= fun corr =>
        ok (prefixes.flatMap fun x => (List.range (2 ^ (d.logAt h - d.logAt prev))).map fun k =>
          d.share env T key h corr (x.toNat * 2 ^ (d.logAt h - d.logAt prev) + k))) := by
  have hlt : prev < h := by have := ha.later; omega
  obtain ⟨ti, hmem, hnd, e⟩ := wf.evaluateUntil_raw env hc hh hprev ht hne ha hcov htr.fits
  rw [e]
  have hasc := wf.tree_asc prev h hlt hh
  have hlasc := wf.log_asc prev h hlt hh
  congr 1
  funext corr
  have hsum : d.treeAt h - d.treeAt prev + d.gapAt h = d.gapAt prev + (d.logAt h - d.logAt prev) := by
    have := wf.tree_le h
    have := wf.tree_le prev
    unfold gapAt; omega
  rw [mapRes_eq_ok_map (g := fun x => (List.range (2 ^ (d.logAt h - d.logAt prev))).map fun k =>
    d.share env T key h corr (x.toNat * 2 ^ (d.logAt h - d.logAt prev) + k)), bind_ok, List.flatMap_def]
  intro x hx
  have hxm : x >>> d.gapAt prev ∈ ti := (hmem _).mpr ⟨x, hx, rfl⟩
  have hstart : (ti.idxOf (x >>> d.gapAt prev) : Int) *
      ((2 ^ (d.treeAt h - d.treeAt prev) : Nat) : Int).bmod (2 ^ 32) * 2 ^ d.gapAt h +
      (x.toNat % 2 ^ d.gapAt prev : Nat) * 2 ^ (d.logAt h - d.logAt prev) =
      ((ti.idxOf (x >>> d.gapAt prev) * (2 ^ (d.treeAt h - d.treeAt prev) * 2 ^ d.gapAt h) +
        x.toNat % 2 ^ d.gapAt prev * 2 ^ (d.logAt h - d.logAt prev) : Nat) : Int) := by
    have hz : (ti.idxOf (x >>> d.gapAt prev) : Int) *
      ((2 ^ (d.treeAt h - d.treeAt prev) : Nat) : Int).bmod (2 ^ 32) =
      (ti.idxOf (x >>> d.gapAt prev) : Int) * ((2 ^ (d.treeAt h - d.treeAt prev) : Nat) : Int) := by
      rcases htr with ⟨htr, _⟩ | ⟨_, y, hy⟩
      · rw [Int.bmod_eq_of_le]
        · have := Int.natCast_nonneg (2 ^ (d.treeAt h - d.treeAt prev)); omega
        · have : 2 ^ (d.treeAt h - d.treeAt prev) ≤ 2 ^ 30 := Nat.pow_le_pow_right (by decide) (by omega)
          omega
      · have hall : ∀ z ∈ ti, z = y := by
          intro z hz
          obtain ⟨w, hw, rfl⟩ := (hmem z).mp hz
          exact hy w hw
        have : ti.idxOf (x >>> d.gapAt prev) = 0 := by
          cases ti with
          | nil => rfl
          | cons a l =>
            have h1 := hall a (by simp)
            have h2 := hall _ hxm
            rw [h2, ← h1]; simp
        rw [this]; simp
    rw [hz]
    simp only [Int.natCast_add, Int.natCast_mul, Int.natCast_pow, Int.cast_ofNat_Int, Int.mul_assoc]
  rw [hstart, if_neg (by omega), Int.toNat_natCast]
  exact slice_prefix env T key hsum hxm

/-- The context after a call that got past the argument checks, unless the size of the expansion wraps. -/
theorem WF.evaluateUntil_ctx (wf : d.WF) (env : Env) {key : DpfKey} {ctx : EvaluationContext}
    (hc : d.CtxOk env key ctx) {α : Type} (H : Helper α) {h prev : Nat} (hh : h < d.n)
    (hprev : ctx.previousHierarchyLevel = prev)
    {prefixes : List U128} (hne : prefixes ≠ [])
    (ha : d.UntilArgs H.toValueType h prefixes ctx) :
    ∃ ti : List U128, (∀ y, y ∈ ti ↔ ∃ x ∈ prefixes, x >>> d.gapAt prev = y) ∧ ti.Nodup ∧
    (d.Usable ctx (d.treeAt prev) ti →
      ¬ d.Fits prev h prefixes ∧ d.evaluateUntil env H h prefixes ctx = (ub, ctx) ∨
      d.Fits prev h prefixes ∧ (d.evaluateUntil env H h prefixes ctx).2 = { ctx with
          partialEvaluations := if decide ((h : Int) < (d.pv.parameters.length : Int) - 1) then
            partialsAt env key (d.treeAt prev) ti else []
          partialEvaluationsLevel := prev
          previousHierarchyLevel := h }) ∧
    (¬ d.Usable ctx (d.treeAt prev) ti →
      d.evaluateUntil env H h prefixes ctx = (err .invalidArgument, ctx)) := by
  have hlt : prev < h := by have := ha.later; omega
  obtain ⟨ti, hd, hmem, hnd⟩ := wf.dedupPrefixes_ok (h := prev) (by omega) prefixes
  have htne : ti ≠ [] := by
    obtain ⟨x, hx⟩ := List.exists_mem_of_ne_nil _ hne
    exact List.ne_nil_of_mem ((hmem _).mpr ⟨x, hx, rfl⟩)
  refine ⟨ti, hmem, hnd, ?_, ?_⟩
  · intro hu
    unfold evaluateUntil
    rw [wf.checkEvaluateUntil_ok H ha, keep_ok]
    dsimp only
    rw [hprev, Int.toNat_natCast, Int.toNat_natCast, hd, keep_ok]
    dsimp only
    rw [wf.expand_next env hc hh hprev hlt htne hu]
    by_cases hfit : ti.length * 2 ^ (d.treeAt h - d.treeAt prev) < 2 ^ 64
    · rw [if_pos hfit, keep_ok]
      refine Or.inr ⟨fun ti' hnd' hm' => ?_, rfl⟩
      have hle := List.Nodup.length_le_of_subset (l₂ := ti) hnd' fun y hy => (hmem y).mpr (hm' y hy)
      exact Nat.lt_of_le_of_lt (Nat.mul_le_mul_right _ hle) hfit
    · rw [if_neg hfit]
      exact Or.inl ⟨fun hf => hfit (hf ti hnd fun y hy => (hmem y).mp hy), rfl⟩
  · intro hu
    unfold evaluateUntil
    rw [wf.checkEvaluateUntil_ok H ha, keep_ok]
    dsimp only
    rw [hprev, Int.toNat_natCast, Int.toNat_natCast, hd, keep_ok]
    dsimp only
    unfold Usable at hu
    simp only [not_or] at hu
    have : d.expandAndUpdateContext env h ti ctx = err .invalidArgument := by
      unfold expandAndUpdateContext
      rw [if_neg htne]
      dsimp only
      rw [wf.computePartialEvaluations_err env hc (h := ctx.previousHierarchyLevel) (by omega)
        (by omega) ti _ hu.1 (by rw [hprev, Int.toNat_natCast]; omega)
        (by rw [hprev, Int.toNat_natCast]; exact hu.2.2)]
      rfl
    rw [this, keep_err]

/-- `EvaluateUntil` keeps the invariant of contexts, whatever the arguments. -/
theorem WF.evaluateUntil_ctxOk (wf : d.WF) (env : Env) {key : DpfKey} {ctx : EvaluationContext}
    (hc : d.CtxOk env key ctx) {α : Type} (H : Helper α) (h : Int) (prefixes : List U128) :
    d.CtxOk env key (d.evaluateUntil env H h prefixes ctx).2 := by
  rcases wf.checkEvaluateUntil_cases H h prefixes ctx with ha | he
  rotate_left
  · unfold evaluateUntil
    rw [he, keep_err]; exact hc
  obtain ⟨hN, rfl⟩ : ∃ hN : Nat, h = hN := ⟨h.toNat, by have := ha.level; omega⟩
  have hh : hN < d.n := by have := ha.level; omega
  by_cases hne : prefixes = []
  · subst hne
    have e : (d.evaluateUntil env H hN [] ctx).2 = { ctx with previousHierarchyLevel := hN } := by
      unfold evaluateUntil
      rw [wf.checkEvaluateUntil_ok H ha, keep_ok]
      dsimp only
      rw [show d.dedupPrefixes ctx.previousHierarchyLevel.toNat [] = ok ([], []) from rfl, keep_ok]
      dsimp only
      rw [Int.toNat_natCast, wf.expand_first env hc hh (wf.treeAt_first ha), keep_ok]
    rw [e]
    exact ⟨hc.params, hc.key_eq, hc.keyOk, ⟨by dsimp only; omega, by dsimp only; omega⟩, hc.pel,
      hc.partials⟩
  · have hprev : ¬ ctx.previousHierarchyLevel < 0 := fun e => hne (ha.first.mp e)
    have hlater := ha.later
    obtain ⟨prev, hp⟩ : ∃ prev : Nat, ctx.previousHierarchyLevel = prev :=
      ⟨ctx.previousHierarchyLevel.toNat, by omega⟩
    obtain ⟨ti, _, _, h1, h2⟩ := wf.evaluateUntil_ctx env hc H hh hp hne ha
    by_cases hu : d.Usable ctx (d.treeAt prev) ti
    · rcases h1 hu with ⟨_, e⟩ | ⟨_, e⟩
      · rw [e]; exact hc
      rw [e]
      refine ⟨hc.params, hc.key_eq, hc.keyOk, ⟨by dsimp only; omega, by dsimp only; omega⟩,
        ⟨by dsimp only; omega, by dsimp only; omega⟩, ?_⟩
      intro pe hpe
      dsimp only at hpe ⊢
      rw [Int.toNat_natCast]
      split at hpe
      · exact partialsAt_ok _ _ _ _ pe hpe
      · simp at hpe
    · rw [h2 hu]; exact hc

/-! ### EvaluateAt with a context -/

theorem WF.checkEvaluateAt_cases (wf : d.WF) (key : DpfKey) (h : Int) (points : List U128) :
    (∃ hN : Nat, h = hN ∧ hN < d.n ∧ d.KeyOk key ∧ (∀ x ∈ points, x.toNat < 2 ^ d.logAt hN)) ∨
      d.checkEvaluateAt key h points = err .invalidArgument := by
  by_cases h0 : h < 0
  · right; unfold checkEvaluateAt; rw [failIf_true h0]; rfl
  by_cases h1 : h ≥ (d.pv.parameters.length : Int)
  · right; unfold checkEvaluateAt; rw [failIf_false h0, bind_ok, failIf_true h1]; rfl
  obtain ⟨hN, rfl⟩ : ∃ hN : Nat, h = hN := ⟨h.toNat, by omega⟩
  have hh : hN < d.n := by unfold n; omega
  obtain ⟨p, hp1, hp2⟩ := wf.param_ok hh
  have hle := wf.log_le hN
  have hpts : OkOrInvalid (d.checkEvaluateAt key hN points) := by
    unfold checkEvaluateAt
    rw [failIf_false h0, bind_ok, failIf_false h1, bind_ok]
    simp only [Int.toNat_natCast]
    rw [hp1, bind_ok, wf.log_eq hN p hp2]
    have hkey : OkOrInvalid (d.pv.validateDpfKey key) := by
      rcases wf.validateDpfKey_cases key with h | h
      · exact Or.inl ⟨_, h⟩
      · exact Or.inr h
    split
    · rw [shl128_ok (by omega), bind_ok, bind_ok]
      exact (OkOrInvalid.mapRes_unit fun _ _ => OkOrInvalid.failIf _).bind fun _ _ =>
        hkey.bind fun _ _ => .ok _
    · rw [bind_ok]
      exact (OkOrInvalid.mapRes_unit fun _ _ => OkOrInvalid.failIf _).bind fun _ _ =>
        hkey.bind fun _ _ => .ok _
  by_cases hk : d.KeyOk key
  · by_cases hp : ∀ x ∈ points, x.toNat < 2 ^ d.logAt hN
    · exact Or.inl ⟨hN, rfl, hh, hk, hp⟩
    · right
      rcases hpts with ⟨r, hr⟩ | hr
      · exfalso
        apply hp
        unfold checkEvaluateAt at hr
        rw [failIf_false h0, bind_ok, failIf_false h1, bind_ok] at hr
        simp only [Int.toNat_natCast] at hr
        rw [hp1, bind_ok, wf.log_eq hN p hp2] at hr
        split at hr
        · rename_i hlt
          rw [shl128_ok (by omega), bind_ok, bind_ok] at hr
          obtain ⟨us, hus, _⟩ := bind_eq_ok.mp hr
          intro x hx
          have := mapRes_unit_eq_ok.mp ⟨us, hus⟩ x hx
          rw [failIf_eq_ok] at this
          have e : ((1#128 <<< d.logAt hN) - 1#128).toNat = 2 ^ d.logAt hN - 1 := by
            have h1 : 2 ^ d.logAt hN ≤ 2 ^ 127 := Nat.pow_le_pow_right (by decide) (by omega)
            have h2 : 0 < 2 ^ d.logAt hN := Nat.two_pow_pos _
            rw [BitVec.toNat_sub, BitVec.toNat_shiftLeft, Nat.shiftLeft_eq]
            simp only [BitVec.toNat_ofNat]
            omega
          have h3 : ¬ ((1#128 <<< d.logAt hN) - 1#128).toNat < x.toNat := by
            intro hlt; exact this (BitVec.lt_def.mpr hlt)
          have := Nat.two_pow_pos (d.logAt hN)
          omega
        · rename_i hlt
          intro x _
          have : d.logAt hN = 128 := by omega
          rw [this]; exact x.isLt
      · exact hr
  · right
    rcases hpts with ⟨r, hr⟩ | hr
    · exfalso
      apply hk
      rw [← wf.validateDpfKey_iff]
      unfold checkEvaluateAt at hr
      rw [failIf_false h0, bind_ok, failIf_false h1, bind_ok] at hr
      simp only [Int.toNat_natCast] at hr
      rw [hp1, bind_ok] at hr
      split at hr
      · obtain ⟨_, _, hr⟩ := bind_eq_ok.mp hr
        obtain ⟨_, _, hr⟩ := bind_eq_ok.mp hr
        obtain ⟨_, _, hr⟩ := bind_eq_ok.mp hr
        obtain ⟨_, hr, _⟩ := bind_eq_ok.mp hr
        exact hr
      · obtain ⟨_, _, hr⟩ := bind_eq_ok.mp hr
        obtain ⟨_, _, hr⟩ := bind_eq_ok.mp hr
        obtain ⟨_, hr, _⟩ := bind_eq_ok.mp hr
        exact hr
    · exact hr

end Dpf
end Verif
