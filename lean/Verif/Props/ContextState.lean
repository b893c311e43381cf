import Verif.Lemmas.ContextState
import Verif.Props.Textbook
import Verif.Props.Network
/-!
# C88, C89: what failing calls do to evaluation contexts, and what contexts hold
-/
namespace Verif
open Res Spec Wire

/-- C88: the value corrections of generated keys can be read. -/
theorem C88_generated (fp : FpEnv) (params : List DpfParameters) (T : Nat → Ty) (d : Dpf)
    (hs : Setup fp params T d) (env : Env) (depth : Nat → Nat) (hd : IsDepth params T depth) (alpha : U128)
    (halpha : alpha.toNat < 2 ^ lastLogSize params) (beta : List Value) (b : (h : Nat) → (T h).den)
    (hb : BetasRepresent params T beta b) (seed0 seed1 : U128) (k0 k1 : DpfKey)
    (hk : d.generateKeysIncremental env alpha beta seed0 seed1 = ok (k0, k1)) :
    ReadableKey params T depth k0 ∧ ReadableKey params T depth k1 := by
  obtain ⟨k0', k1', hk', h⟩ := C01_point_function_partial fp params T d hs env alpha halpha beta b hb seed0 seed1
  rw [hk] at hk'
  simp only [ok.injEq, Prod.mk.injEq] at hk'
  obtain ⟨rfl, rfl⟩ := hk'
  have key : ∀ k, (∀ h < params.length, ∃ v, d.evaluateAt env (T h).helper k h [0] = ok v) →
      ReadableKey params T depth k := by
    intro k hv h hh
    have e := C69_evaluateAt_exact fp params T d hs env depth hd k h [0]
    rw [Int.toNat_natCast] at e
    by_cases hev : EvaluableAt params T depth k h [0]
    · have := hev.values (by simp)
      rwa [Int.toNat_natCast] at this
    · obtain ⟨v, hv⟩ := hv h hh
      rw [e.2 hev] at hv
      exact nomatch hv
  have hp : ∀ h, ∀ x ∈ [(0 : U128)], x.toNat < 2 ^ logSize params h := by
    intro h x hx
    rw [List.mem_singleton.mp hx]
    exact Nat.two_pow_pos _
  constructor
  · exact key _ fun h' hh => by
      obtain ⟨v0, v1, h0, h1, _⟩ := h h' hh [0] (hp h')
      exact ⟨v0, h0⟩
  · exact key _ fun h' hh => by
      obtain ⟨v0, v1, h0, h1, _⟩ := h h' hh [0] (hp h')
      exact ⟨v1, h1⟩

/-- C88: a call of `EvaluateUntil` that returns an error leaves the context as it was. -/
theorem C88_evaluateUntil (fp : FpEnv) (params : List DpfParameters) (T : Nat → Ty) (d : Dpf)
    (hs : Setup fp params T d) (env : Env) (depth : Nat → Nat) (hd : IsDepth params T depth) (key : DpfKey)
    (hr : ReadableKey params T depth key) (ctx ctx' : EvaluationContext) (hist : History d env key ctx) (S : Ty)
    (h : Int) (prefixes : List U128) (c : Code)
    (he : d.evaluateUntil env S.helper h prefixes ctx = (err c, ctx')) : c = .invalidArgument ∧ ctx' = ctx := by
  have hcr := hs.toCreated
  have wf := hs.wf
  have hc := wf.history env hist
  rcases hcr.evaluateUntil_outcomes env hc S.helper h prefixes with e | ⟨ha, hu, _⟩
  · rw [e] at he
    simp only [Prod.mk.injEq, err.injEq] at he
    exact ⟨he.1.symm, he.2.symm⟩
  exfalso
  obtain ⟨hN, rfl, hh, rfl⟩ := hs.until_type ha
  obtain ⟨corr, hcorr⟩ := Dpf.readable_getValueCorrection hs hd hc.keyOk hr hh
  by_cases hne : prefixes = []
  · subst hne
    rw [wf.evaluateUntil_first env hc hh (hs.typedAt hh) ha, hcorr] at he
    simp at he
  · have hprev : ctx.previousHierarchyLevel = (ctx.previousHierarchyLevel.toNat : Int) := by
      have : ¬ ctx.previousHierarchyLevel < 0 := fun e => hne (ha.first.mp e)
      omega
    obtain ⟨ti, hm, _, h2, _⟩ := wf.evaluateUntil_ctx env hc (T hN).helper hh hprev hne ha
    rcases h2 ((Dpf.Usable.congr hm).mpr (hu hne)) with ⟨_, e⟩ | ⟨hf, _⟩
    · rw [e] at he; simp at he
    obtain ⟨ti, _, _, e⟩ := wf.evaluateUntil_raw env hc hh hprev (hs.typedAt hh) hne ha (hu hne) hf
    rw [he, hcorr, bind_ok] at e
    dsimp only at e
    refine bind_ne_err (fun c => mapRes_ne_err (fun x c => ?_) _ c) (fun (parts : List (List (T hN).den)) (e : ok parts.flatten = err c) => nomatch e) e.symm
    split
    · exact fun e => nomatch e
    · unfold slice
      split <;> exact fun e => nomatch e

/-- C88: the same for `EvaluateNext`. -/
theorem C88_evaluateNext (fp : FpEnv) (params : List DpfParameters) (T : Nat → Ty) (d : Dpf)
    (hs : Setup fp params T d) (env : Env) (depth : Nat → Nat) (hd : IsDepth params T depth) (key : DpfKey)
    (hr : ReadableKey params T depth key) (ctx ctx' : EvaluationContext) (hist : History d env key ctx) (S : Ty)
    (prefixes : List U128) (c : Code)
    (he : d.evaluateNext env S.helper prefixes ctx = (err c, ctx')) : c = .invalidArgument ∧ ctx' = ctx := by
  unfold Dpf.evaluateNext at he
  split at he <;> exact C88_evaluateUntil fp params T d hs env depth hd key hr ctx ctx' hist S _ _ c he

/-- C88: a call of `EvaluateAt` with a context and the type of the level that returns an error leaves the context as it
was. -/
theorem C88_evaluateAt_partial (fp : FpEnv) (params : List DpfParameters) (T : Nat → Ty) (d : Dpf)
    (hs : Setup fp params T d) (env : Env) (depth : Nat → Nat) (hd : IsDepth params T depth) (key : DpfKey)
    (hr : ReadableKey params T depth key) (ctx ctx' : EvaluationContext) (hist : History d env key ctx)
    (h : Int) (points : List U128) (c : Code)
    (he : d.evaluateAtCtx env (T h.toNat).helper h points ctx = (err c, ctx')) : c = .invalidArgument ∧ ctx' = ctx := by
  have wf := hs.wf
  have hc := wf.history env hist
  rcases wf.checkEvaluateAt_cases key h points with ⟨hN, rfl, hh, hk, hp⟩ | e
  rotate_left
  · have : d.evaluateAtCtx env (T h.toNat).helper h points ctx = (err .invalidArgument, ctx) := by
      unfold Dpf.evaluateAtCtx
      rw [hc.keyD, e, Dpf.keep_err]
    rw [this] at he
    simp only [Prod.mk.injEq, err.injEq] at he
    exact ⟨he.1.symm, he.2.symm⟩
  rw [Int.toNat_natCast] at he
  by_cases hne : points = []
  · subst hne
    rw [(wf.evaluateAtCtx_empty env hc _ hh).1] at he
    simp at he
  have hti := wf.treeIndicesFor_ok hh (hs.typedAt hh) points
  by_cases hu : d.Usable ctx (d.treeAt hN) (points.map fun x : U128 => x >>> d.gapAt hN)
  · exfalso
    obtain ⟨corr, hcorr⟩ := Dpf.readable_getValueCorrection hs hd hc.keyOk hr hh
    rw [wf.evaluateAtCtx_ok env hc _ hh hp hne hti hu, wf.evaluateAt_ok env hk hh (hs.typedAt hh) hp, if_neg hne, hcorr,
      bind_ok] at he
    simp at he
  · rw [wf.evaluateAtCtx_uncovered env hc _ hh hp hne hti hu] at he
    simp only [Prod.mk.injEq, err.injEq] at he
    exact ⟨he.1.symm, he.2.symm⟩

/-- C88: if `EvaluateAt` fails for a level after the one evaluated before, with any type, and did change the context,
then `EvaluateUntil` fails from then on, whatever its arguments are. -/
theorem C88_stuck (fp : FpEnv) (params : List DpfParameters) (d : Dpf) (hcr : Created fp params d)
    (env : Env) (key : DpfKey) (ctx ctx' : EvaluationContext) (hist : History d env key ctx) (S : Ty)
    (h : Int) (points : List U128) (c : Code) (he : d.evaluateAtCtx env S.helper h points ctx = (err c, ctx'))
    (hchanged : ctx' ≠ ctx) (hlater : ctx.previousHierarchyLevel < h) (S' : Ty) (h' : Int) (prefixes : List U128) :
    d.evaluateUntil env S'.helper h' prefixes ctx' = (err .invalidArgument, ctx') := by
  have wf := hcr.wf
  have hc := wf.history env hist
  refine C06_rejects fp params d hcr env S' h' prefixes ctx' ?_
  rcases wf.checkEvaluateAt_cases key h points with ⟨hN, rfl, hh, hk, hp⟩ | e
  rotate_left
  · exfalso
    have : d.evaluateAtCtx env S.helper h points ctx = (err .invalidArgument, ctx) := by
      unfold Dpf.evaluateAtCtx
      rw [hc.keyD, e, Dpf.keep_err]
    rw [this] at he
    simp only [Prod.mk.injEq, err.injEq] at he
    exact hchanged he.2.symm
  by_cases hne : points = []
  · subst hne
    rw [(wf.evaluateAtCtx_empty env hc _ hh).1] at he
    simp at he
  obtain ⟨ti, hti, hl⟩ := Dpf.treeIndicesFor_cases wf S.helper hh points
  by_cases hu : d.Usable ctx (d.treeAt hN) ti
  · rw [wf.evaluateAtCtx_ok env hc _ hh hp hne hti hu] at he
    simp only [Prod.mk.injEq] at he
    obtain ⟨e1, rfl⟩ := he
    rw [e1]
    refine .badPartials ?_ hlater
    have : ti ≠ [] := by
      intro e
      rw [e] at hl
      exact hne (List.length_eq_zero_iff.mp hl.symm)
    simpa [Dpf.partialsAt] using this
  · exfalso
    rw [wf.evaluateAtCtx_uncovered env hc _ hh hp hne hti hu] at he
    simp only [Prod.mk.injEq, err.injEq] at he
    exact hchanged he.2.symm

/-- The context after a call of `EvaluateAt` with the wrong type, 16 bits instead of 8. -/
def exStuck : EvaluationContext := (exDpf.evaluateAtCtx exEnv (Ty.uint .w16).helper 1 [13] exCtx1).2

theorem exStuck_eq : exDpf.evaluateAtCtx exEnv (Ty.uint .w16).helper 1 [13] exCtx1 = (err .invalidArgument, exStuck) := by
  have h : (match (exDpf.evaluateAtCtx exEnv (Ty.uint .w16).helper 1 [13] exCtx1).1 with
    | .err .invalidArgument => true
    | _ => false) = true := by decide +kernel
  refine Prod.ext ?_ rfl
  split at h
  · assumption
  · simp at h

/-- C88 is not true for `EvaluateAt` with a type other than that of the level: the call fails, but afterwards the context
is not accepted by `EvaluateUntil` any more, which accepted it before. -/
theorem C88_evaluateAt_refuted :
    History exDpf exEnv exKey exCtx1 ∧
    exDpf.evaluateAtCtx exEnv (Ty.uint .w16).helper 1 [13] exCtx1 = (err .invalidArgument, exStuck) ∧ exStuck ≠ exCtx1 ∧
    (exDpf.evaluateUntil exEnv (Ty.uint .w8).helper 1 [3] exCtx1).1.isOk = true ∧
    ∀ (S : Ty) (h : Int) (prefixes : List U128),
      exDpf.evaluateUntil exEnv S.helper h prefixes exStuck = (err .invalidArgument, exStuck) := by
  have hch : exStuck ≠ exCtx1 := by
    intro h
    have h1 : exStuck.partialEvaluations.length = 1 := by decide +kernel
    have h2 : exCtx1.partialEvaluations.length = 0 := by decide +kernel
    rw [h, h2] at h1
    exact absurd h1 (by decide)
  exact ⟨exHist1, exStuck_eq, hch, by decide +kernel, fun S h prefixes =>
    C88_stuck exFp exParams8 exDpf exDpf_setup.toCreated exEnv exKey exCtx1 exStuck exHist1 (.uint .w16) 1 [13] _
      exStuck_eq hch (by decide +kernel) S h prefixes⟩

/-- After evaluating the third level below 1. -/
def exCtx3 : EvaluationContext := (exDpf.evaluateUntil exEnv (Ty.uint .w8).helper 2 [1] exCtx2).2

/-- The depths of the levels of the example. -/
def exDepths8 (h : Nat) : Nat := [0, 1, 3, 5].getD h 0

theorem exDepths8_eq : IsDepth exParams8 (fun _ => .uint .w8) exDepths8 := by unfold IsDepth; decide +kernel

/-- A key with value corrections of the first level that no call can read. -/
def exUnreadable : DpfKey :=
  { exKey with correctionWords := exKey.correctionWords.map fun w => { w with valueCorrection := [.notSet] } }

/-- C88 is not true for keys that no call of `GenerateKeys` returns: with value corrections that are accepted but cannot
be read, `EvaluateUntil` fails and advances the context nevertheless. -/
theorem C88_evaluateUntil_refuted : ∃ ctx, History exDpf exEnv exUnreadable ctx ∧
    ctx.previousHierarchyLevel = -1 ∧
    (∃ c, (exDpf.evaluateUntil exEnv (Ty.uint .w8).helper 0 [] ctx).1 = err c) ∧
    (exDpf.evaluateUntil exEnv (Ty.uint .w8).helper 0 [] ctx).2.previousHierarchyLevel = 0 := by
  have h := Res.eq_ok_getD (r := exDpf.createEvaluationContext exUnreadable) (by decide +kernel) ⟨[], none, 0, [], 0⟩
  refine ⟨_, .create h, by decide +kernel, ?_, by decide +kernel⟩
  have h : (match (exDpf.evaluateUntil exEnv (Ty.uint .w8).helper 0 []
      ((exDpf.createEvaluationContext exUnreadable).getD ⟨[], none, 0, [], 0⟩)).1 with
    | .err _ => true
    | _ => false) = true := by decide +kernel
  split at h
  · exact ⟨_, ‹_›⟩
  · simp at h

theorem exReadable : ReadableKey exParams8 (fun _ => .uint .w8) exDepths8 exKey := by
  have h := Res.eq_ok_getD (r := exDpf.generateKeysIncremental exEnv 77 [.integer (.u64 1), .integer (.u64 2),
    .integer (.u64 3), .integer (.u64 4)] 1 2) (by decide +kernel) (DpfKey.default, DpfKey.default)
  exact (C88_generated exFp exParams8 _ exDpf exDpf_setup exEnv exDepths8 exDepths8_eq 77 (by decide) _
    (fun h => BitVec.ofNat 8 (h + 1)) (by
      refine ⟨rfl, ?_⟩
      intro h v hv
      match h, hv with
      | 0, hv => simp at hv; subst hv; exact ⟨_, rfl, rfl⟩
      | 1, hv => simp at hv; subst hv; exact ⟨_, rfl, rfl⟩
      | 2, hv => simp at hv; subst hv; exact ⟨_, rfl, rfl⟩
      | 3, hv => simp at hv; subst hv; exact ⟨_, rfl, rfl⟩
      | h + 4, hv => simp at hv) 1 2 _ _ h).1

/-- C88 on an example: a prefix outside of the domain. -/
example : (exDpf.evaluateUntil exEnv (Ty.uint .w8).helper 1 [8] exCtx1).2 = exCtx1 := by
  have h : (match (exDpf.evaluateUntil exEnv (Ty.uint .w8).helper 1 [8] exCtx1).1 with
    | .err _ => true
    | _ => false) = true := by decide +kernel
  split at h
  · rename_i c hc
    exact (C88_evaluateUntil exFp exParams8 _ exDpf exDpf_setup exEnv exDepths8 exDepths8_eq exKey exReadable exCtx1 _
      exHist1 (.uint .w8) 1 [8] c (Prod.ext hc rfl)).2
  · simp at h

/-- The same for `EvaluateNext`, and for `EvaluateAt` with a point below none of the prefixes evaluated before. -/
example : (exDpf.evaluateNext exEnv (Ty.uint .w8).helper [] exCtx1).2 = exCtx1 ∧
    (exDpf.evaluateAtCtx exEnv (Ty.uint .w8).helper 3 [300] exCtx3).2 = exCtx3 := by
  have h : (match (exDpf.evaluateNext exEnv (Ty.uint .w8).helper [] exCtx1).1 with
    | .err _ => true
    | _ => false) = true := by decide +kernel
  have h' : (match (exDpf.evaluateAtCtx exEnv (Ty.uint .w8).helper 3 [300] exCtx3).1 with
    | .err _ => true
    | _ => false) = true := by decide +kernel
  constructor
  · split at h
    · rename_i c hc
      exact (C88_evaluateNext exFp exParams8 _ exDpf exDpf_setup exEnv exDepths8 exDepths8_eq exKey exReadable exCtx1 _
        exHist1 (.uint .w8) [] c (Prod.ext hc rfl)).2
    · simp at h
  · split at h'
    · rename_i c hc
      exact (C88_evaluateAt_partial exFp exParams8 _ exDpf exDpf_setup exEnv exDepths8 exDepths8_eq exKey exReadable exCtx3 _
        (.evalUntil (.uint .w8) 2 [1] exHist2) 3 [300] c (Prod.ext hc rfl)).2
    · simp at h'

/-! ## Contents -/

/-- C89: a new context holds the key and no evaluations. -/
theorem C89_create (fp : FpEnv) (params : List DpfParameters) (T : Nat → Ty) (d : Dpf)
    (hs : Setup fp params T d) (env : Env) (depth : Nat → Nat) (key : DpfKey) (ctx : EvaluationContext)
    (h : d.createEvaluationContext key = ok ctx) : Holds env.aes depth d.pv.parameters key (-1) 0 [] ctx := by
  obtain ⟨rfl, _⟩ := hs.wf.create_ctxOk env h
  exact ⟨rfl, rfl, rfl, fun _ => rfl, rfl, by simp⟩

/-- C89: after a successful call of `EvaluateUntil` the context holds the level, and the nodes at the level evaluated
before of the blocks of the prefixes, each once; none after a call without prefixes or for the last level. -/
theorem C89_evaluateUntil (fp : FpEnv) (params : List DpfParameters) (T : Nat → Ty) (d : Dpf)
    (hs : Setup fp params T d) (env : Env) (depth : Nat → Nat) (hd : IsDepth params T depth) (key : DpfKey)
    (ctx ctx' : EvaluationContext) (hist : History d env key ctx) (S : Ty) (h : Int) (prefixes : List U128)
    (vals : List S.den) (hok : d.evaluateUntil env S.helper h prefixes ctx = (ok vals, ctx')) :
    ∃ blocks : List Nat, Holds env.aes depth ctx.parameters key h ctx.previousHierarchyLevel.toNat blocks ctx' ∧
      blocks.Nodup ∧ blocks.length ≤ prefixes.length ∧
      (prefixes = [] ∨ h + 1 = params.length → blocks = []) ∧
      (h + 1 < params.length → ∀ y, y ∈ blocks ↔
        ∃ x ∈ prefixes, blockOf params depth ctx.previousHierarchyLevel.toNat x = y) := by
  have hcr := hs.toCreated
  have wf := hs.wf
  have hc := wf.history env hist
  rcases hcr.evaluateUntil_outcomes env hc S.helper h prefixes with e | ⟨ha, hu, _⟩
  · rw [e] at hok; simp at hok
  obtain ⟨hN, rfl, hh, rfl⟩ := hs.until_type ha
  have hn := hcr.n_eq
  by_cases hne : prefixes = []
  · subst hne
    obtain ⟨e1, e2⟩ := wf.evaluateUntil_first_ctx env hc (T hN).helper hh ha
    rw [hok] at e1
    dsimp only at e1
    subst e1
    exact ⟨[], ⟨rfl, hc.key_eq, rfl, fun h => absurd rfl h, by dsimp only; rw [e2]; rfl, by simp⟩, by simp, by simp, fun _ => rfl, by simp⟩
  have hprev : ctx.previousHierarchyLevel = (ctx.previousHierarchyLevel.toNat : Int) := by
    have : ¬ ctx.previousHierarchyLevel < 0 := fun e => hne (ha.first.mp e)
    omega
  have hlater := ha.later
  obtain ⟨ti, hm, hnd, h2, _⟩ := wf.evaluateUntil_ctx env hc (T hN).helper hh hprev hne ha
  rcases h2 ((Dpf.Usable.congr hm).mpr (hu hne)) with ⟨_, e⟩ | ⟨_, e⟩
  · rw [e] at hok; simp at hok
  rw [hok] at e
  dsimp only at e
  have hlen : d.pv.parameters.length = params.length := hn
  by_cases hlast : hN + 1 = params.length
  · rw [if_neg (by rw [decide_eq_true_eq]; omega)] at e
    subst e
    exact ⟨[], ⟨rfl, hc.key_eq, rfl, fun h => absurd rfl h, rfl, by simp⟩, by simp, by simp, fun _ => rfl,
      fun h => by omega⟩
  · rw [if_pos (by rw [decide_eq_true_eq]; omega)] at e
    subst e
    refine ⟨ti.map (·.toNat), Dpf.holds_partialsAt hs hd env hc hN (by omega) ti, ?_, ?_, ?_, ?_⟩
    · rw [List.nodup_iff_pairwise_ne, List.pairwise_map]
      exact (List.nodup_iff_pairwise_ne.mp hnd).imp fun h e => h (BitVec.eq_of_toNat_eq e)
    · rw [List.length_map]
      have := List.Nodup.length_le_of_subset
        (l₂ := prefixes.map fun x : U128 => x >>> d.gapAt ctx.previousHierarchyLevel.toNat) hnd (by
          intro y hy
          obtain ⟨x, hx, rfl⟩ := (hm y).mp hy
          exact List.mem_map.mpr ⟨x, hx, rfl⟩)
      rwa [List.length_map] at this
    · rintro (e | e)
      · exact absurd e hne
      · omega
    · intro _ y
      simp only [List.mem_map]
      constructor
      · rintro ⟨z, hz, rfl⟩
        obtain ⟨x, hx, rfl⟩ := (hm z).mp hz
        exact ⟨x, hx, Dpf.blockOf_eq hs hd (by omega) x⟩
      · rintro ⟨x, hx, rfl⟩
        exact ⟨_, (hm _).mpr ⟨x, hx, rfl⟩, (Dpf.blockOf_eq hs hd (by omega) x).symm⟩

/-- C89: after a successful call of `EvaluateAt` with a context, the context holds the level and the nodes of the points at
this level, one for each point; a call without points leaves the context as it was. -/
theorem C89_evaluateAt (fp : FpEnv) (params : List DpfParameters) (T : Nat → Ty) (d : Dpf)
    (hs : Setup fp params T d) (env : Env) (depth : Nat → Nat) (hd : IsDepth params T depth) (key : DpfKey)
    (ctx ctx' : EvaluationContext) (hist : History d env key ctx) (h : Nat) (points : List U128)
    (vals : List (T h).den) (hok : d.evaluateAtCtx env (T h).helper h points ctx = (ok vals, ctx')) :
    (points = [] → ctx' = ctx) ∧
    (points ≠ [] → Holds env.aes depth ctx.parameters key h h (points.map (blockOf params depth h)) ctx') := by
  have wf := hs.wf
  have hc := wf.history env hist
  rcases wf.checkEvaluateAt_cases key h points with ⟨hN, e, hh, hk, hp⟩ | e
  rotate_left
  · exfalso
    have : d.evaluateAtCtx env (T h).helper h points ctx = (err .invalidArgument, ctx) := by
      unfold Dpf.evaluateAtCtx
      rw [hc.keyD, e, Dpf.keep_err]
    rw [this] at hok
    simp at hok
  obtain rfl : h = hN := by omega
  constructor
  · rintro rfl
    rw [(wf.evaluateAtCtx_empty env hc _ hh).1] at hok
    simp only [Prod.mk.injEq] at hok
    exact hok.2.symm
  intro hne
  have hti := wf.treeIndicesFor_ok hh (hs.typedAt hh) points
  by_cases hu : d.Usable ctx (d.treeAt h) (points.map fun x : U128 => x >>> d.gapAt h)
  · rw [wf.evaluateAtCtx_ok env hc _ hh hp hne hti hu] at hok
    simp only [Prod.mk.injEq] at hok
    obtain ⟨e1, rfl⟩ := hok
    rw [e1]
    have := Dpf.holds_partialsAt hs hd env hc h hh (points.map fun x : U128 => x >>> d.gapAt h)
    rw [List.map_map, show ((fun x : U128 => x.toNat) ∘ fun x : U128 => x >>> d.gapAt h) = blockOf params depth h from
      funext fun x => (Dpf.blockOf_eq hs hd hh x).symm] at this
    exact this
  · rw [wf.evaluateAtCtx_uncovered env hc _ hh hp hne hti hu] at hok
    simp at hok

/-- C89: the size of a context that is sent: 52 bytes for every stored evaluation more than the new context of the key,
and at most 11 bytes for the level of these. -/
theorem C89_size (fp : FpEnv) (params : List DpfParameters) (T : Nat → Ty) (d : Dpf) (hs : Setup fp params T d)
    (env : Env) (key : DpfKey) (ctx0 ctx : EvaluationContext) (h0 : d.createEvaluationContext key = ok ctx0)
    (hist : History d env key ctx) (bits : DoubleBits) :
    (wire (putContext bits ctx)).length ≤
      (wire (putContext bits ctx0)).length + 11 + 52 * ctx.partialEvaluations.length := by
  have wf := hs.wf
  have hc := wf.history env hist
  obtain ⟨rfl, _⟩ := wf.create_ctxOk env h0
  have h1 : (wire (ctx.partialEvaluations.map fun e => inner 4 (putPartial e))).length ≤
      52 * ctx.partialEvaluations.length := by
    have := wire_length_bound (rs := ctx.partialEvaluations.map fun e => inner 4 (putPartial e)) (L := 52) (by
      intro r hr
      obtain ⟨e, _, rfl⟩ := List.mem_map.mp hr
      exact putPartial_length e)
    rw [List.length_map] at this
    omega
  have h2 := number_length_le (i := 3) (by decide) (signed_lt ctx.previousHierarchyLevel)
  have h3 := number_length_le (i := 5) (by decide) (signed_lt ctx.partialEvaluationsLevel)
  have h4 : (wire (number 3 (signed (-1)))).length = 11 := by decide +kernel
  have hp : ctx.parameters = d.pv.parameters := hc.params
  unfold putContext
  simp only [wire_append, List.length_append, hc.key_eq, hp, h4]
  omega

/-- C89 on an example: after the second level below the prefixes 3, 0 and 3, which are in one block, there is one stored
evaluation, the root. -/
example : Holds exEnv.aes exDepths8 exCtx1.parameters exKey 1 0 [0] exCtx2 ∧
    (wire (putContext exDouble8 exCtx2)).length ≤ (wire (putContext exDouble8 exCtx0)).length + 63 := by
  have h : (exDpf.evaluateUntil exEnv (Ty.uint .w8).helper 1 [3, 0, 3] exCtx1).1.isOk = true := by decide +kernel
  obtain ⟨blocks, h1, h2, _, _, h3⟩ := C89_evaluateUntil exFp exParams8 _ exDpf exDpf_setup exEnv exDepths8 exDepths8_eq exKey
    exCtx1 exCtx2 exHist1 (.uint .w8) 1 [3, 0, 3] _ (Prod.ext (Res.eq_ok_getD h []) rfl)
  have e : exCtx1.previousHierarchyLevel.toNat = 0 := by decide +kernel
  have hl : exCtx2.partialEvaluations.length = 1 := by decide +kernel
  rw [e] at h1 h3
  have hb : blocks = [0] := by
    have h4 := h1.count
    rw [hl] at h4
    obtain ⟨y, rfl⟩ := List.length_eq_one_iff.mp h4.symm
    obtain ⟨x, hx, hy⟩ := (h3 (by decide) y).mp (by simp)
    have : blockOf exParams8 exDepths8 0 x = 0 := by
      simp only [List.mem_cons, List.not_mem_nil, or_false] at hx
      rcases hx with rfl | rfl | rfl <;> decide
    rw [← hy, this]
  rw [hb] at h1
  refine ⟨h1, ?_⟩
  have := C89_size exFp exParams8 _ exDpf exDpf_setup exEnv exKey exCtx0 exCtx2 exCtx0_eq exHist2 exDouble8
  rw [hl] at this
  omega

/-- C89 on an example: the points 20, 21 and 3 of the second level are in the blocks 1, 1 and 0. -/
example : Holds exEnv.aes exDepths8 exCtx1.parameters exKey 1 1 [1, 1, 0]
    (exDpf.evaluateAtCtx exEnv (Ty.uint .w8).helper 1 [20, 21, 3] exCtx1).2 := by
  have h : (exDpf.evaluateAtCtx exEnv (Ty.uint .w8).helper 1 [20, 21, 3] exCtx1).1.isOk = true := by decide +kernel
  exact (C89_evaluateAt exFp exParams8 _ exDpf exDpf_setup exEnv exDepths8 exDepths8_eq exKey exCtx1 _ exHist1 1 [20, 21, 3] _
    (Prod.ext (Res.eq_ok_getD h []) rfl)).2 (by decide)

/-- C89 on the context before the first call. -/
example : Holds exEnv.aes exDepths8 exDpf.pv.parameters exKey (-1) 0 [] exCtx0 :=
  C89_create exFp exParams8 _ exDpf exDpf_setup exEnv exDepths8 exKey exCtx0 exCtx0_eq

end Verif
