import Verif.Lemmas.Safe
import Verif.Props.Apply
/-!
# Property C49: no undefined behaviour in honest use
-/
namespace Verif
open Res Spec

/-- C49, creation: for any parameters without empty tuples and with fewer than 2^23 integers in each
type, `CreateIncremental` returns a DPF or an error. -/
theorem C49_create (fp : FpEnv) (params : List DpfParameters)
    (hne : ∀ p ∈ params, ∀ t, p.valueType = some t → NoEmptyTuple t ∧ leaves t < 2 ^ 23) :
    Safe (Dpf.createIncremental fp params) := by
  apply createIncremental_safe
  · intro p hp
    unfold DpfParameters.vt
    cases h : p.valueType with
    | none => simp [NoEmptyTuple]
    | some t => exact (hne p hp t h).1
  · intro p hp
    unfold DpfParameters.vt
    cases h : p.valueType with
    | none => simp [leaves]
    | some t => exact (hne p hp t h).2

/-- C49 on an example with tuples. -/
example : Safe (Dpf.createIncremental exFp
    [⟨5, some (.tuple [.integer 8, .tuple [.intModN 64 (.u64 97), .intModN 64 (.u64 97)]]), .val 0⟩]) :=
  C49_create _ _ (by
    intro p hp t ht
    simp only [List.mem_singleton] at hp
    subst hp
    simp only [Option.some.injEq] at ht
    subst ht
    simp [NoEmptyTuple, NoEmptyTuples, leaves, leavesAll])

/-- With an empty tuple the logarithm of zero is converted to `int`. -/
theorem C49_create_refuted : ∃ (fp : FpEnv) (params : List DpfParameters),
    Dpf.createIncremental fp params = ub :=
  ⟨exFp, [⟨5, some (.tuple []), .val 0⟩], by
    have h : (match Dpf.createIncremental exFp [⟨5, some (.tuple []), .val 0⟩] with
      | .ub => true
      | _ => false) = true := by decide +kernel
    split at h <;> simp_all⟩

/-- C49, key generation: for all arguments, keys or an error. -/
theorem C49_keygen (fp : FpEnv) (params : List DpfParameters) (T : Nat → Ty) (d : Dpf)
    (hs : Setup fp params T d) (env : Env) (alpha : U128) (beta : List Value) (seed0 seed1 : U128) :
    Safe (d.generateKeysIncremental env alpha beta seed0 seed1) := by
  have h := C19_registered fp params T d hs env alpha beta seed0 seed1
  by_cases c : alpha.toNat < 2 ^ lastLogSize params ∧ ∃ b, BetasRepresent params T beta b
  · obtain ⟨k0, k1, e⟩ := h.1.mpr c
    rw [e]; exact .ok _
  · rw [h.2.mpr c]; exact .err _

/-- C49, `EvaluateAt`: for every key (also malformed ones), level and points, with the type of the
level. -/
theorem C49_evaluateAt (fp : FpEnv) (params : List DpfParameters) (T : Nat → Ty) (d : Dpf)
    (hs : Setup fp params T d) (env : Env) (key : DpfKey) (h : Int) (points : List U128) :
    Safe (d.evaluateAt env (T h.toNat).helper key h points) := by
  rcases C09_safe fp params T d hs env key h points with ⟨v, e, _⟩ | e
  · rw [e]; exact .ok _
  · rw [e]; exact .err _

/-- C49, `EvaluateAt` on a context with any history. -/
theorem C49_evaluateAtCtx (fp : FpEnv) (params : List DpfParameters) (T : Nat → Ty) (d : Dpf)
    (hs : Setup fp params T d) (env : Env) (key : DpfKey) (ctx : EvaluationContext)
    (hist : History d env key ctx) (h : Int) (points : List U128) :
    Safe (d.evaluateAtCtx env (T h.toNat).helper h points ctx).1 := by
  rcases C08_context_agrees fp params d hs.toCreated env key ctx hist (T h.toNat) h points with e | e
  · rw [e]; exact .err _
  · rw [e]; exact C49_evaluateAt fp params T d hs env key h points

/-- C49, `EvaluateUntil` on a context with any history, for all levels, prefixes and types, except that
the number of blocks below a prefix must fit an `int` and that of all blocks 64 bits. Otherwise the claim is false
(`C49_evaluateUntil_refuted`, `C49_expansion_refuted`). -/
theorem C49_evaluateUntil_partial (fp : FpEnv) (params : List DpfParameters) (T : Nat → Ty) (d : Dpf)
    (hs : Setup fp params T d) (env : Env) (key : DpfKey) (ctx : EvaluationContext)
    (hist : History d env key ctx) (S : Ty) (h : Int) (prefixes : List U128)
    (hsm : SmallExpansion params d ctx.previousHierarchyLevel.toNat h.toNat prefixes) :
    Safe (d.evaluateUntil env S.helper h prefixes ctx).1 := by
  have hc := hs.wf.history env hist
  rcases hs.toCreated.evaluateUntil_outcomes env hc S.helper h prefixes with e | ⟨ha, hu, _⟩
  · rw [e]; exact .err _
  · obtain ⟨hN, rfl, hh, rfl⟩ := hs.until_type ha
    rw [hs.evaluateUntil_eq env hc hh ha hu (by simpa using hsm)]
    have := C49_evaluateAt fp params T d hs env key hN
      (outputPoints params ctx.previousHierarchyLevel hN prefixes)
    rwa [Int.toNat_natCast] at this

/-- C49, `EvaluateNext`, with the same restriction. -/
theorem C49_evaluateNext_partial (fp : FpEnv) (params : List DpfParameters) (T : Nat → Ty) (d : Dpf)
    (hs : Setup fp params T d) (env : Env) (key : DpfKey) (ctx : EvaluationContext)
    (hist : History d env key ctx) (S : Ty) (prefixes : List U128)
    (hsm : SmallExpansion params d ctx.previousHierarchyLevel.toNat
      (ctx.previousHierarchyLevel + 1).toNat prefixes) :
    Safe (d.evaluateNext env S.helper prefixes ctx).1 := by
  unfold Dpf.evaluateNext
  split
  · rename_i e
    subst e
    exact C49_evaluateUntil_partial fp params T d hs env key ctx hist S 0 []
      (Or.inr ⟨by
        have hc := hs.wf.history env hist
        have h1 := hc.prev
        have : d.treeAt 0 ≤ d.treeAt ctx.previousHierarchyLevel.toNat := by
          rcases Nat.eq_zero_or_pos ctx.previousHierarchyLevel.toNat with h0 | h0
          · rw [h0]; exact Nat.le_refl _
          · exact Nat.le_of_lt (hs.wf.tree_asc 0 _ h0 (by omega))
        show d.treeAt (0 : Int).toNat - d.treeAt ctx.previousHierarchyLevel.toNat < 64
        rw [Int.toNat_zero]
        omega, by simp⟩)
  · exact C49_evaluateUntil_partial fp params T d hs env key ctx hist S _ prefixes hsm

/-- C49 on the example: the next level with arbitrary prefixes. -/
example (S : Ty) (prefixes : List U128) (hl : prefixes.length < 2 ^ 32) :
    Safe (exDpf.evaluateNext exEnv S.helper prefixes exCtx2).1 :=
  C49_evaluateNext_partial exFp exParams8 _ exDpf exDpf_setup exEnv exKey exCtx2 exHist2 S prefixes
    (exSmall _ _ _ (by decide +kernel) hl)

theorem runCallback_safe {α σ : Type} (op : σ → List α → Bool × σ) :
    (l : List (Res (List α))) → (∀ r ∈ l, Safe r) → (s : σ) → Safe (runCallback op l s).1
  | [], _, s => .ok _
  | .ok v :: rest, hl, s => by
    rw [runCallback]
    split
    · exact runCallback_safe op rest (fun r hr => hl r (by simp [hr])) _
    · exact .ok _
  | .err c :: rest, _, s => .err c
  | .ub :: rest, hl, _ => absurd rfl (hl .ub (by simp)).1
  | .crash :: rest, hl, _ => absurd rfl (hl .crash (by simp)).2

theorem applyLoop_safe {fp : FpEnv} {params : List DpfParameters} {T : Ty} {d : Dpf}
    (hs : Setup fp params (fun _ => T) d) (env : Env) {keys : List DpfKey} {points : List U128}
    (hlen : points.length = keys.length) (hk : ∀ k ∈ keys, d.KeyOk k) (r : Nat)
    (hr : r + d.logAt (d.n - 1) < 2 ^ 31) {σ : Type} (op : σ → List T.den → Bool × σ) (m : Nat) :
    ∀ (h : Nat) (ns : List Node) (stop : Nat) (s : σ), h + m = d.n → ns.length = keys.length →
      0 < h ∨ stop = d.treeAt h →
      Safe (d.applyLoop env T.helper keys points (r : Int) op (List.range' h m) ⟨.ofNodes ns, stop⟩ s).1 := by
  have wf := hs.wf
  induction m with
  | zero => intros; exact .ok _
  | succ m ih =>
    intro h ns stop s hm hnl hstop
    rw [List.range'_succ]
    unfold Dpf.applyLoop
    rcases wf.applyLevel_cases env hlen hk (by omega) (hs.typedAt (by omega)) r hr hnl hstop with e | ⟨ns', hl', e⟩
    · rw [e]; exact .err _
    · rw [e, Dpf.keep_bind]
      have hv : Safe (mapRes (fun j => d.getValueCorrectionAsArray T.helper (keys.getD j DpfKey.default) h >>=
          fun corr => ok (d.nodeShare env T (keys.getD j DpfKey.default) h corr (ns'.getD j ⟨0, false⟩)
            ((points.getD j 0).toNat / 2 ^ (r + d.logAt (d.n - 1) - d.logAt h)))) (List.range keys.length)) := by
        apply mapRes_safe
        intro j hj
        simp only [List.mem_range] at hj
        have hkj : keys.getD j DpfKey.default ∈ keys := by simp [List.getD, hj]
        exact (OkOrInvalid.safe (wf.getValueCorrection_cases (hk _ hkj) (by omega) T)).bind fun _ _ => .ok _
      revert hv
      generalize mapRes _ _ = vs
      intro hv
      cases vs with
      | ok values =>
        rw [Dpf.keep_ok]
        dsimp only
        split
        · exact ih (h + 1) ns' (d.treeAt h) _ (by omega) hl' (Or.inl (by omega))
        · exact .ok _
      | err c => exact .err c
      | ub => exact absurd rfl hv.1
      | crash => exact absurd rfl hv.2

/-- C49, `EvaluateAndApply`: for all keys (also malformed), any number of them, points and callbacks that
return. Missing: shifts next to the largest `int`, for which the code has undefined behaviour (`C10_shift`), and
negative ones. -/
theorem C49_apply_partial (fp : FpEnv) (params : List DpfParameters) (T : Ty) (d : Dpf)
    (hs : Setup fp params (fun _ => T) d) (env : Env) (keys : List DpfKey) (points : List U128)
    (r : Nat) (hr : r + lastLogSize params < 2 ^ 31) {σ : Type} (op : σ → List T.den → Bool × σ) (s : σ) :
    Safe (d.evaluateAndApply env T.helper keys points op s (r : Int)).1 := by
  have wf := hs.wf
  by_cases hlen : points.length = keys.length
  rotate_left
  · unfold Dpf.evaluateAndApply
    rw [failIf_true hlen]; exact .err _
  by_cases hk : ∀ k ∈ keys, d.KeyOk k
  · rw [wf.evaluateAndApply_loop env hlen hk T.helper r r]
    exact applyLoop_safe hs env hlen hk r (by rw [hs.toCreated.lastLog]; exact hr) op d.n 0 _ _ s (by omega)
      (by simp [Dpf.applyNodes]) (Or.inr rfl)
  · unfold Dpf.evaluateAndApply
    rw [failIf_false (by simpa using hlen), Dpf.keep_ok]
    have hv : ∀ k, OkOrInvalid (d.pv.validateDpfKey k) := fun k =>
      (wf.validateDpfKey_cases k).imp (fun h => ⟨_, h⟩) id
    have hm : OkOrInvalid (mapRes d.pv.validateDpfKey keys) :=
      OkOrInvalid.mapRes_unit fun k _ => hv k
    rcases hm with ⟨us, e⟩ | e
    · exfalso
      apply hk
      intro k hkk
      exact (wf.validateDpfKey_iff k).mp (mapRes_unit_eq_ok.mp ⟨us, e⟩ k hkk)
    · rw [e]; exact .err _

/-- C49 on the example: arbitrary keys and points. -/
example (keys : List DpfKey) (points : List U128) : Safe (exDpf.evaluateAndApply exEnv (Ty.uint .w8).helper keys points
    (fun (n : Nat) _ => (true, n + 1)) 0 ((3 : Nat) : Int)).1 :=
  C49_apply_partial exFp exParams8 (.uint .w8) exDpf exDpf_setup exEnv keys points 3 (by decide) _ _

/-- Two levels of 128-bit integers with 2 and 2^32 elements. -/
def exParams32 : List DpfParameters :=
  [⟨1, some (Ty.uint .w128).helper.toValueType, .val 0⟩,
   ⟨32, some (Ty.uint .w128).helper.toValueType, .val 0⟩]

/-- Their DPF. -/
def exDpf32 : Dpf := (Dpf.createIncremental exFp exParams32).getD ⟨⟨[], 0, [], []⟩, [], []⟩

theorem exDpf32_setup : Setup exFp exParams32 (fun _ => .uint .w128) exDpf32 :=
  Setup.of_flat (Ts := []) (Res.eq_ok_getD (by decide +kernel) ⟨⟨[], 0, [], []⟩, [], []⟩)
    (by
      intro h p hp
      match h, hp with
      | 0, hp => simp [exParams32] at hp; rw [← hp]
      | 1, hp => simp [exParams32] at hp; rw [← hp]
      | h + 2, hp => simp [exParams32] at hp)
    (fun _ _ => Or.inr ⟨.w128, rfl⟩) (fun _ _ => Or.inl rfl)

/-- A generated key. -/
def exKey32 : DpfKey :=
  ((exDpf32.generateKeysIncremental exEnv 77 [.integer (.u64 1), .integer (.u64 2)]
    1 2).getD (DpfKey.default, DpfKey.default)).1

/-- Its context. -/
def exCtx32 : EvaluationContext := (exDpf32.createEvaluationContext exKey32).getD ⟨[], none, 0, [], 0⟩

/-- After the first level. -/
def exCtx32' : EvaluationContext :=
  (exDpf32.evaluateUntil exEnv (Ty.uint .w128).helper 0 [] exCtx32).2

theorem exHist32 : History exDpf32 exEnv exKey32 exCtx32' :=
  .evalUntil (.uint .w128) 0 [] (.create (Res.eq_ok_getD (by decide +kernel) ⟨[], none, 0, [], 0⟩))

set_option maxRecDepth 8000 in
/-- C49 for `EvaluateUntil` without the restriction is false of the code: with 2^31 blocks below each of
two prefixes, `blocks_per_tree_prefix` (an `int`, /repo/dpf/distributed_point_function.h:885-887) is
negative and the outputs are read before the start of the vector. -/
theorem C49_evaluateUntil_refuted : ∃ (fp : FpEnv) (params : List DpfParameters) (T : Nat → Ty) (d : Dpf)
    (env : Env) (key : DpfKey) (ctx : EvaluationContext), Setup fp params T d ∧ History d env key ctx ∧
    (d.evaluateUntil env (T 1).helper (1 : Nat) [0, 1] ctx).1 = ub := by
  refine ⟨exFp, exParams32, fun _ => .uint .w128, exDpf32, exEnv, exKey32, exCtx32', exDpf32_setup,
    exHist32, ?_⟩
  have hs := exDpf32_setup
  have hc := hs.wf.history exEnv exHist32
  have hp : exCtx32'.previousHierarchyLevel = (0 : Nat) := by decide +kernel
  have hn : exDpf32.n = 2 := by decide +kernel
  have hl1 : exDpf32.logAt 1 = 32 := by decide +kernel
  have hl0 : exDpf32.logAt 0 = 1 := by decide +kernel
  have ht1 : exDpf32.treeAt 1 = 32 := by decide +kernel
  have ht0 : exDpf32.treeAt 0 = 1 := by decide +kernel
  have hg0 : exDpf32.gapAt 0 = 0 := by decide +kernel
  have hg1 : exDpf32.gapAt 1 = 0 := by decide +kernel
  have hpl : exDpf32.prevLog exCtx32' = 1 := by decide +kernel
  have hpe : exCtx32'.partialEvaluations = [] := by decide +kernel
  have ha : exDpf32.UntilArgs (Ty.uint .w128).helper.toValueType (1 : Nat) [0, 1] exCtx32' := by
    refine hs.untilArgs hc (h := 1) (by omega) (by omega) (by rw [hp]; simp) ?_ ?_ ?_ (Or.inl hpe)
    · intro x hx
      rw [hpl]
      simp only [List.mem_cons, List.not_mem_nil, or_false] at hx
      rcases hx with rfl | rfl <;> decide
    · rw [hpl, hl1]; decide
    · rw [hpl, hl1]; decide
  obtain ⟨ti, hmem, hnd, he⟩ := hs.wf.evaluateUntil_raw exEnv hc (h := 1) (prev := 0) (by omega) hp
    (T := .uint .w128) (hs.typedAt (by omega)) (by simp) ha (Or.inl hpe)
    (.of_length (by rw [ht1, ht0]; decide))
  have hcorr := Res.eq_ok_getD (r := exDpf32.getValueCorrectionAsArray (Ty.uint .w128).helper exKey32
    (1 : Nat)) (by decide +kernel) []
  generalize (exDpf32.getValueCorrectionAsArray (Ty.uint .w128).helper exKey32 (1 : Nat)).getD [] = corr
    at hcorr
  have hneg : ((2 ^ (32 - 1) : Nat) : Int).bmod (2 ^ 32) < 0 := by decide
  rw [hcorr, bind_ok, ht1, ht0, hg0, hg1, hl1, hl0] at he
  generalize ((2 ^ (32 - 1) : Nat) : Int).bmod (2 ^ 32) = c at he hneg
  have hlen : 2 ^ 31 ≤ (ti.flatMap fun y => (List.range (2 ^ (32 - 1) * 2 ^ 0)).map fun q =>
      exDpf32.share exEnv (.uint .w128) exKey32 1 corr
        (y.toNat * (2 ^ (32 - 1) * 2 ^ 0) + q)).length := by
    cases ti with
    | nil => exact absurd ((hmem 0).mpr ⟨0, by simp, by simp⟩) (by simp)
    | cons y ys =>
      rw [List.flatMap_cons, List.length_append, List.length_map, List.length_range]
      omega
  generalize (ti.flatMap fun y => (List.range (2 ^ (32 - 1) * 2 ^ 0)).map fun q =>
      exDpf32.share exEnv (.uint .w128) exKey32 1 corr
        (y.toNat * (2 ^ (32 - 1) * 2 ^ 0) + q)) = L at he hlen
  have hsl : ∀ x : U128, (if (ti.idxOf (x >>> 0) : Int) * c * 2 ^ 0 +
        (x.toNat % 2 ^ 0 : Nat) * 2 ^ (32 - 1) < 0 then ub
      else slice L ((ti.idxOf (x >>> 0) : Int) * c * 2 ^ 0 +
        (x.toNat % 2 ^ 0 : Nat) * 2 ^ (32 - 1)).toNat (2 ^ (32 - 1))) =
      if ti.idxOf (x >>> 0) = 0 then ok (L.take (2 ^ 31)) else ub := by
    intro x
    have e : ((ti.idxOf (x >>> 0) : Int) * c * (2 : Int) ^ 0 +
        (x.toNat % 2 ^ 0 : Nat) * (2 : Int) ^ (32 - 1)) = (ti.idxOf (x >>> 0) : Int) * c := by
      rw [Nat.pow_zero, Nat.mod_one]; simp
    rw [e]
    by_cases h0 : ti.idxOf (x >>> 0) = 0
    · rw [h0, Int.natCast_zero, Int.zero_mul, if_neg (by decide), if_pos rfl]
      unfold slice
      rw [if_pos (by simpa using hlen)]
      rfl
    · rw [if_pos (Int.mul_neg_of_pos_of_neg (by omega) hneg), if_neg h0]
  have h01 : ¬ (ti.idxOf ((0 : U128) >>> 0) = 0 ∧ ti.idxOf ((1 : U128) >>> 0) = 0) := by
    rintro ⟨e0, e1⟩
    have m0 : (0 : U128) >>> 0 ∈ ti := (hmem _).mpr ⟨0, by simp, by rw [hg0]⟩
    have m1 : (1 : U128) >>> 0 ∈ ti := (hmem _).mpr ⟨1, by simp, by rw [hg0]⟩
    have g0 := List.getElem_idxOf (List.idxOf_lt_length_iff.mpr m0)
    have g1 := List.getElem_idxOf (List.idxOf_lt_length_iff.mpr m1)
    simp only [e0] at g0
    simp only [e1] at g1
    rw [g0] at g1
    exact absurd g1 (by decide)
  refine he.trans ?_
  rw [mapRes_congr (fun x _ => hsl x), mapRes_cons, mapRes_cons]
  by_cases h0 : ti.idxOf ((0 : U128) >>> 0) = 0
  · have h1 : ti.idxOf ((1 : U128) >>> 0) ≠ 0 := fun h1 => h01 ⟨h0, h1⟩
    rw [if_pos h0, if_neg h1, bind_ok, bind_ub, bind_ub, bind_ub]
  · rw [if_neg h0, bind_ub, bind_ub]

/-- 16 bytes, all in one block, and then 2^64 integers of 128 bits. -/
def exParams64 : List DpfParameters :=
  [⟨4, some (Ty.uint .w8).helper.toValueType, .val 0⟩,
   ⟨64, some (Ty.uint .w128).helper.toValueType, .val 0⟩]

/-- The types of the two levels. -/
def exTypes64 : Nat → Ty
  | 0 => .uint .w8
  | _ => .uint .w128

/-- Their DPF. -/
def exDpf64 : Dpf := (Dpf.createIncremental exFp exParams64).getD ⟨⟨[], 0, [], []⟩, [], []⟩

theorem exDpf64_setup : Setup exFp exParams64 exTypes64 exDpf64 :=
  Setup.of_flat (Ts := []) (Res.eq_ok_getD (by decide +kernel) ⟨⟨[], 0, [], []⟩, [], []⟩)
    (by
      intro h p hp
      match h, hp with
      | 0, hp => simp [exParams64] at hp; rw [← hp]; rfl
      | 1, hp => simp [exParams64] at hp; rw [← hp]; rfl
      | h + 2, hp => simp [exParams64] at hp)
    (fun h _ => Or.inr (by
      match h with
      | 0 => exact ⟨.w8, rfl⟩
      | h + 1 => exact ⟨.w128, rfl⟩))
    (fun h _ => Or.inl (by
      match h with
      | 0 => rfl
      | h + 1 => rfl))

/-- Generated keys. -/
def exKeys64 : DpfKey × DpfKey :=
  (exDpf64.generateKeysIncremental exEnv 77 [.integer (.u64 1), .integer (.u64 2)]
    1 2).getD (DpfKey.default, DpfKey.default)

/-- The context of the first key. -/
def exCtx64 : EvaluationContext := (exDpf64.createEvaluationContext exKeys64.1).getD ⟨[], none, 0, [], 0⟩

/-- After the first level. -/
def exCtx64' : EvaluationContext :=
  (exDpf64.evaluateUntil exEnv (Ty.uint .w8).helper 0 [] exCtx64).2

theorem exHist64 : History exDpf64 exEnv exKeys64.1 exCtx64' :=
  .evalUntil (.uint .w8) 0 [] (.create (Res.eq_ok_getD (by decide +kernel) ⟨[], none, 0, [], 0⟩))

/-- C49 for `EvaluateUntil` is false of the code in another way: the limits on the gap (62 bits) and on the number of
outputs (2^63) are for prefixes, but whole blocks are expanded. With 2^60 outputs below the only prefix there are 2^64
below its block, the size of the buffers (/repo/dpf/distributed_point_function.cc:303-306) wraps to 0, and seeds are
written to them. The key is a generated one, and there is nothing wrong with the call. -/
theorem C49_expansion_refuted : ∃ (fp : FpEnv) (params : List DpfParameters) (T : Nat → Ty) (d : Dpf)
    (env : Env) (keys : DpfKey × DpfKey) (ctx : EvaluationContext), Setup fp params T d ∧
    (∃ alpha beta seed0 seed1, d.generateKeysIncremental env alpha beta seed0 seed1 = ok keys) ∧
    History d env keys.1 ctx ∧ ¬ BadCall params d (T 1).helper.toValueType 1 [0] ctx ∧
    (d.evaluateUntil env (T 1).helper 1 [0] ctx).1 = ub := by
  have hub : (exDpf64.evaluateUntil exEnv (exTypes64 1).helper 1 [0] exCtx64').1 = ub := by
    have h : (match (exDpf64.evaluateUntil exEnv (exTypes64 1).helper 1 [0] exCtx64').1 with
      | .ub => true
      | _ => false) = true := by decide +kernel
    split at h <;> simp_all
  refine ⟨exFp, exParams64, exTypes64, exDpf64, exEnv, exKeys64, exCtx64', exDpf64_setup,
    ⟨77, [.integer (.u64 1), .integer (.u64 2)], 1, 2, Res.eq_ok_getD (by decide +kernel) _⟩, exHist64, ?_, hub⟩
  intro hbad
  rw [C06_rejects exFp exParams64 exDpf64 exDpf64_setup.toCreated exEnv (exTypes64 1) 1 [0] exCtx64' hbad] at hub
  simp at hub

/-- The restriction of `C49_evaluateUntil_partial` holds on the example. -/
example : Safe (exDpf.evaluateUntil exEnv (Ty.uint .w8).helper 1 [3, 0, 3] exCtx1).1 :=
  C49_evaluateUntil_partial exFp exParams8 _ exDpf exDpf_setup exEnv exKey exCtx1 exHist1 _ 1 _
    (exSmall _ _ _ (by decide))

/-- Malformed arguments, on the example. -/
example : Safe (exDpf.generateKeysIncremental exEnv 1000000 [] 1 2) ∧
    Safe (exDpf.evaluateAt exEnv (Ty.uint .w8).helper DpfKey.default (-3) [7]) ∧
    Safe (exDpf.evaluateAtCtx exEnv (Ty.uint .w8).helper 77 [7] exCtx2).1 :=
  ⟨C49_keygen exFp exParams8 _ exDpf exDpf_setup exEnv _ _ _ _,
   C49_evaluateAt exFp exParams8 _ exDpf exDpf_setup exEnv _ _ _,
   C49_evaluateAtCtx exFp exParams8 _ exDpf exDpf_setup exEnv exKey _ exHist2 _ _⟩

end Verif
