import Verif.Lemmas.OtherContext
import Verif.Lemmas.History
import Verif.Props.PointFunction
/-!
# C02 - C09: evaluation with contexts
-/
namespace Verif
open Res Spec

/-! ## A DPF and calls used in the examples -/

/-- Some permutation in place of AES. -/
def exEnv : Env := { aes := fun k x => k ^^^ (x * 5 + 3) }

/-- Four levels of bytes with domains of 2^3, 2^5, 2^7, 2^9 elements, 16 to a block. -/
def exParams8 : List DpfParameters :=
  [⟨3, some (Ty.uint .w8).helper.toValueType, .val 0⟩,
   ⟨5, some (Ty.uint .w8).helper.toValueType, .val 0⟩,
   ⟨7, some (Ty.uint .w8).helper.toValueType, .val 0⟩,
   ⟨9, some (Ty.uint .w8).helper.toValueType, .val 0⟩]

/-- The value of a result, or a default. -/
def Res.getD {α : Type} (r : Res α) (a : α) : α :=
  match r with
  | .ok x => x
  | _ => a

theorem Res.eq_ok_getD {α : Type} {r : Res α} (h : r.isOk = true) (a : α) : r = ok (r.getD a) := by
  cases r <;> simp [Res.isOk, Res.getD] at h ⊢

/-- The DPF of the examples. -/
def exDpf : Dpf := (Dpf.createIncremental exFp exParams8).getD ⟨⟨[], 0, [], []⟩, [], []⟩

theorem exDpf_eq : Dpf.createIncremental exFp exParams8 = ok exDpf :=
  Res.eq_ok_getD (by decide +kernel) _

theorem exDpf_setup : Setup exFp exParams8 (fun _ => .uint .w8) exDpf :=
  Setup.of_flat (Ts := []) exDpf_eq
    (by
      intro h p hp
      match h, hp with
      | 0, hp => simp [exParams8] at hp; rw [← hp]
      | 1, hp => simp [exParams8] at hp; rw [← hp]
      | 2, hp => simp [exParams8] at hp; rw [← hp]
      | 3, hp => simp [exParams8] at hp; rw [← hp]
      | h + 4, hp => simp [exParams8] at hp)
    (fun _ _ => Or.inr ⟨.w8, rfl⟩) (fun _ _ => Or.inl rfl)

/-- A generated key. -/
def exKey : DpfKey :=
  ((exDpf.generateKeysIncremental exEnv 77 [.integer (.u64 1), .integer (.u64 2), .integer (.u64 3),
    .integer (.u64 4)] 1 2).getD (DpfKey.default, DpfKey.default)).1

/-- Its context. -/
def exCtx0 : EvaluationContext := (exDpf.createEvaluationContext exKey).getD ⟨[], none, 0, [], 0⟩
/-- After evaluating the first level. -/
def exCtx1 : EvaluationContext := (exDpf.evaluateUntil exEnv (Ty.uint .w8).helper 0 [] exCtx0).2
/-- After evaluating the second level below 3 and 0. -/
def exCtx2 : EvaluationContext :=
  (exDpf.evaluateUntil exEnv (Ty.uint .w8).helper 1 [3, 0, 3] exCtx1).2

theorem exCtx0_eq : exDpf.createEvaluationContext exKey = ok exCtx0 :=
  Res.eq_ok_getD (by decide +kernel) _
theorem exHist0 : History exDpf exEnv exKey exCtx0 := .create exCtx0_eq
theorem exHist1 : History exDpf exEnv exKey exCtx1 := .evalUntil (.uint .w8) 0 [] exHist0
theorem exHist2 : History exDpf exEnv exKey exCtx2 := .evalUntil (.uint .w8) 1 [3, 0, 3] exHist1

theorem exSmall (prev h : Nat) (prefixes : List U128) (hh : h < 4)
    (hl : prefixes.length < 2 ^ 32 := by decide) :
    SmallExpansion exParams8 exDpf prev h prefixes := by
  left
  have h1 : exDpf.pv.hierarchyToTree = [0, 1, 3, 5] := by decide +kernel
  have h2 : treeDepth exDpf h - treeDepth exDpf prev ≤ 5 := by
    unfold treeDepth
    rw [h1]
    match h, hh with
    | 0, _ => exact Nat.le_trans (Nat.sub_le _ _) (by decide)
    | 1, _ => exact Nat.le_trans (Nat.sub_le _ _) (by decide)
    | 2, _ => exact Nat.le_trans (Nat.sub_le _ _) (by decide)
    | 3, _ => exact Nat.le_trans (Nat.sub_le _ _) (by decide)
  have h3 := Nat.mul_le_mul_left prefixes.length (Nat.pow_le_pow_right (n := 2) (by decide) h2)
  omega

/-! ## C02 -/

/-- C02: the first call on a fresh context gives the `EvaluateAt` values at all points of the level, in
order. `key` is any key from which a context can be made. -/
theorem C02_full_domain (fp : FpEnv) (params : List DpfParameters) (T : Nat → Ty) (d : Dpf)
    (hs : Setup fp params T d) (env : Env) (key : DpfKey) (ctx : EvaluationContext)
    (hctx : d.createEvaluationContext key = ok ctx) (h : Nat) (hh : h < params.length)
    (hlog : logSize params h < 63) :
    (d.evaluateUntil env (T h).helper h [] ctx).1 =
      d.evaluateAt env (T h).helper key h (allPoints params h) ∧
    ∀ vals, (d.evaluateUntil env (T h).helper h [] ctx).1 = ok vals →
      vals.length = 2 ^ logSize params h := by
  have hc := hs.toCreated
  have wf := hs.wf
  have hh' : h < d.n := by rw [hc.n_eq]; exact hh
  obtain ⟨rfl, hok⟩ := wf.create_ctxOk env hctx
  have hp0 : Dpf.prevLog d ⟨d.pv.parameters, some key, -1, [], 0⟩ = 0 := rfl
  have ha := hs.untilArgs hok hh' (prefixes := []) (by dsimp only; omega) (by simp) (by simp)
    (by rw [hp0, hc.logAt_eq]; omega) (by rw [hp0]; simp) (Or.inl rfl)
  have e := hs.evaluateUntil_eq env hok hh' ha (by simp)
    (Or.inr ⟨Nat.lt_of_le_of_lt (Nat.sub_le _ _) (wf.treeAt_first ha), by simp⟩)
  refine ⟨e, ?_⟩
  intro vals hv
  rw [wf.evaluateUntil_first env hok hh' (hs.typedAt hh') ha] at hv
  dsimp only at hv
  obtain ⟨corr, _, h2⟩ := bind_eq_ok.mp hv
  simp only [ok.injEq] at h2
  rw [← h2, ← hc.logAt_eq]; simp

/-- C02 for `EvaluateNext`. -/
theorem C02_next (fp : FpEnv) (params : List DpfParameters) (T : Nat → Ty) (d : Dpf)
    (hs : Setup fp params T d) (env : Env) (key : DpfKey) (ctx : EvaluationContext)
    (hctx : d.createEvaluationContext key = ok ctx) (hlog : logSize params 0 < 63) :
    (d.evaluateNext env (T 0).helper [] ctx).1 =
      d.evaluateAt env (T 0).helper key 0 (allPoints params 0) := by
  have hpos : 0 < params.length := by rw [← hs.toCreated.n_eq]; exact hs.wf.pos
  exact (C02_full_domain fp params T d hs env key ctx hctx 0 hpos hlog).1

/-- C02 for `EvaluateNext` on the example. -/
example : (exDpf.evaluateNext exEnv (Ty.uint .w8).helper [] exCtx0).1 =
    exDpf.evaluateAt exEnv (Ty.uint .w8).helper exKey 0 (allPoints exParams8 0) :=
  C02_next exFp exParams8 _ exDpf exDpf_setup exEnv exKey exCtx0 exCtx0_eq (by decide)

/-- C02 on the example: 32 values at the second level. -/
example : ∃ vals, (exDpf.evaluateUntil exEnv (Ty.uint .w8).helper (1 : Nat) [] exCtx0).1 = ok vals ∧
    exDpf.evaluateAt exEnv (Ty.uint .w8).helper exKey (1 : Nat) (allPoints exParams8 1) = ok vals ∧
    vals.length = 32 := by
  obtain ⟨h1, h2⟩ := C02_full_domain exFp exParams8 _ exDpf exDpf_setup exEnv exKey exCtx0 exCtx0_eq 1
    (by decide) (by decide)
  have h3 := Res.eq_ok_getD (r := (exDpf.evaluateUntil exEnv (Ty.uint .w8).helper (1 : Nat) []
    exCtx0).1) (by decide +kernel) []
  exact ⟨_, h3, h1 ▸ h3, h2 _ h3⟩

/-! ## C03 -/

/-- C03, if the number of blocks below a prefix fits an `int` (`SmallExpansion`): every successful
`EvaluateUntil` call on a context with an arbitrary history returns the `EvaluateAt` values at all
extensions of the prefixes, and records the level. Missing: calls with 2^31 or more blocks below a
prefix, where the claim is false (`C03_refuted`), and 2^64 or more in all (`C49_expansion_refuted`). -/
theorem C03_incremental_partial (fp : FpEnv) (params : List DpfParameters) (T : Nat → Ty) (d : Dpf)
    (hs : Setup fp params T d) (env : Env) (key : DpfKey) (ctx : EvaluationContext)
    (hist : History d env key ctx) (S : Ty) (h : Int) (prefixes : List U128) (vals : List S.den)
    (hok : (d.evaluateUntil env S.helper h prefixes ctx).1 = ok vals)
    (hsm : SmallExpansion params d ctx.previousHierarchyLevel.toNat h.toNat prefixes) :
    d.evaluateAt env S.helper key h (outputPoints params ctx.previousHierarchyLevel h prefixes) =
      ok vals ∧
    (ctx.previousHierarchyLevel < 0 ↔ prefixes = []) ∧ ctx.previousHierarchyLevel < h ∧
    (d.evaluateUntil env S.helper h prefixes ctx).2.previousHierarchyLevel = h := by
  have hc := hs.wf.history env hist
  rcases hs.toCreated.evaluateUntil_outcomes env hc S.helper h prefixes with he | ⟨ha, hu, hp⟩
  · rw [he] at hok; simp at hok
  · obtain ⟨hN, rfl, hh, rfl⟩ := hs.until_type ha
    rw [Int.toNat_natCast] at hsm
    rw [← hs.evaluateUntil_eq env hc hh ha hu hsm]
    rw [hok] at hp
    exact ⟨hok, ha.first, ha.later, by simpa using hp⟩

/-- C03 on the example: unsorted and repeated prefixes in a second call. -/
example : ∃ vals, (exDpf.evaluateUntil exEnv (Ty.uint .w8).helper 1 [3, 0, 3] exCtx1).1 = ok vals ∧
    exDpf.evaluateAt exEnv (Ty.uint .w8).helper exKey 1 [12, 13, 14, 15, 0, 1, 2, 3, 12, 13, 14, 15] =
      ok vals := by
  have h := Res.eq_ok_getD (r := (exDpf.evaluateUntil exEnv (Ty.uint .w8).helper 1 [3, 0, 3]
    exCtx1).1) (by decide +kernel) []
  refine ⟨_, h, ?_⟩
  have := (C03_incremental_partial exFp exParams8 _ exDpf exDpf_setup exEnv exKey exCtx1 exHist1 _ 1 _ _ h
    (exSmall _ _ _ (by decide))).1
  have e : outputPoints exParams8 exCtx1.previousHierarchyLevel 1 [3, 0, 3] =
      [12, 13, 14, 15, 0, 1, 2, 3, 12, 13, 14, 15] := by decide +kernel
  rwa [e] at this

/-- Two levels of 128-bit integers with 2 and 2^33 elements. -/
def exParams33 : List DpfParameters :=
  [⟨1, some (Ty.uint .w128).helper.toValueType, .val 0⟩,
   ⟨33, some (Ty.uint .w128).helper.toValueType, .val 0⟩]

/-- Their DPF. -/
def exDpf33 : Dpf := (Dpf.createIncremental exFp exParams33).getD ⟨⟨[], 0, [], []⟩, [], []⟩

theorem exDpf33_setup : Setup exFp exParams33 (fun _ => .uint .w128) exDpf33 :=
  Setup.of_flat (Ts := []) (Res.eq_ok_getD (by decide +kernel) ⟨⟨[], 0, [], []⟩, [], []⟩)
    (by
      intro h p hp
      match h, hp with
      | 0, hp => simp [exParams33] at hp; rw [← hp]
      | 1, hp => simp [exParams33] at hp; rw [← hp]
      | h + 2, hp => simp [exParams33] at hp)
    (fun _ _ => Or.inr ⟨.w128, rfl⟩) (fun _ _ => Or.inl rfl)

/-- A key. -/
def exKey33 : DpfKey :=
  ((exDpf33.generateKeysIncremental exEnv 77 [.integer (.u64 1), .integer (.u64 2)]
    1 2).getD (DpfKey.default, DpfKey.default)).1

/-- Its context. -/
def exCtx33 : EvaluationContext := (exDpf33.createEvaluationContext exKey33).getD ⟨[], none, 0, [], 0⟩

/-- After the first level. -/
def exCtx33' : EvaluationContext :=
  (exDpf33.evaluateUntil exEnv (Ty.uint .w128).helper 0 [] exCtx33).2

theorem exHist33 : History exDpf33 exEnv exKey33 exCtx33' :=
  .evalUntil (.uint .w128) 0 [] (.create (Res.eq_ok_getD (by decide +kernel) ⟨[], none, 0, [], 0⟩))

/-- C03 without the restriction is false of the code: with 2^32 blocks below each of two prefixes,
`blocks_per_tree_prefix` (an `int`, /repo/dpf/distributed_point_function.h:885-887) is 0 and the outputs
of one prefix are returned for both. -/
theorem C03_refuted : ∃ (fp : FpEnv) (params : List DpfParameters) (T : Nat → Ty) (d : Dpf) (env : Env)
    (key : DpfKey) (ctx : EvaluationContext) (vals : List (T 1).den), Setup fp params T d ∧
    History d env key ctx ∧ ctx.previousHierarchyLevel = 0 ∧
    (d.evaluateUntil env (T 1).helper (1 : Nat) [0, 1] ctx).1 = ok vals ∧
    d.evaluateAt env (T 1).helper key (1 : Nat) (outputPoints params 0 (1 : Nat) [0, 1]) ≠ ok vals := by
  have hs := exDpf33_setup
  have hc := hs.wf.history exEnv exHist33
  have hp : exCtx33'.previousHierarchyLevel = (0 : Nat) := by decide +kernel
  have hn : exDpf33.n = 2 := by decide +kernel
  have hl1 : exDpf33.logAt 1 = 33 := by decide +kernel
  have hl0 : exDpf33.logAt 0 = 1 := by decide +kernel
  have ht1 : exDpf33.treeAt 1 = 33 := by decide +kernel
  have ht0 : exDpf33.treeAt 0 = 1 := by decide +kernel
  have hg0 : exDpf33.gapAt 0 = 0 := by decide +kernel
  have hg1 : exDpf33.gapAt 1 = 0 := by decide +kernel
  have hpl : exDpf33.prevLog exCtx33' = 1 := by decide +kernel
  have hpe : exCtx33'.partialEvaluations = [] := by decide +kernel
  have ha : exDpf33.UntilArgs (Ty.uint .w128).helper.toValueType (1 : Nat) [0, 1] exCtx33' := by
    refine hs.untilArgs hc (h := 1) (by omega) (by omega) (by rw [hp]; simp) ?_ ?_ ?_ (Or.inl hpe)
    · intro x hx
      rw [hpl]
      simp only [List.mem_cons, List.not_mem_nil, or_false] at hx
      rcases hx with rfl | rfl <;> decide
    · rw [hpl, hl1]; decide
    · rw [hpl, hl1]; decide
  obtain ⟨ti, hmem, hnd, he⟩ := hs.wf.evaluateUntil_raw exEnv hc (h := 1) (prev := 0) (by omega) hp
    (T := .uint .w128) (hs.typedAt (by omega)) (by simp) ha (Or.inl hpe)
    (.of_length (by rw [ht1, ht0]; decide))
  have hcorr := Res.eq_ok_getD (r := exDpf33.getValueCorrectionAsArray (Ty.uint .w128).helper exKey33
    (1 : Nat)) (by decide +kernel) []
  generalize (exDpf33.getValueCorrectionAsArray (Ty.uint .w128).helper exKey33 (1 : Nat)).getD [] = corr
    at hcorr
  rw [hcorr, bind_ok, ht1, ht0, hg0, hg1, hl1, hl0,
    show ((2 ^ (33 - 1) : Nat) : Int).bmod (2 ^ 32) = 0 by decide] at he
  -- both slices start at 0
  have hlen : 2 ^ 32 ≤ (ti.flatMap fun y => (List.range (2 ^ (33 - 1) * 2 ^ 0)).map fun q =>
      exDpf33.share exEnv (.uint .w128) exKey33 1 corr
        (y.toNat * (2 ^ (33 - 1) * 2 ^ 0) + q)).length := by
    cases ti with
    | nil => exact absurd ((hmem 0).mpr ⟨0, by simp, by simp⟩) (by simp)
    | cons y ys =>
      rw [List.flatMap_cons, List.length_append, List.length_map, List.length_range]
      omega
  generalize (ti.flatMap fun y => (List.range (2 ^ (33 - 1) * 2 ^ 0)).map fun q =>
      exDpf33.share exEnv (.uint .w128) exKey33 1 corr
        (y.toNat * (2 ^ (33 - 1) * 2 ^ 0) + q)) = L at he hlen
  have hsl : ∀ x : U128, (if (ti.idxOf (x >>> 0) : Int) * 0 * 2 ^ 0 +
        (x.toNat % 2 ^ 0 : Nat) * 2 ^ (33 - 1) < 0 then ub
      else slice L ((ti.idxOf (x >>> 0) : Int) * 0 * 2 ^ 0 +
        (x.toNat % 2 ^ 0 : Nat) * 2 ^ (33 - 1)).toNat (2 ^ (33 - 1))) = ok (L.take (2 ^ 32)) := by
    intro x
    have e : ((ti.idxOf (x >>> 0) : Int) * 0 * 2 ^ 0 + (x.toNat % 2 ^ 0 : Nat) * 2 ^ (33 - 1)) = 0 := by
      rw [Nat.pow_zero, Nat.mod_one]; simp
    rw [e, if_neg (by decide)]
    unfold slice
    rw [if_pos (by simpa using hlen)]
    rfl
  simp only [mapRes, hsl, bind_ok, List.flatten_cons, List.flatten_nil, List.append_nil] at he
  refine ⟨exFp, exParams33, fun _ => .uint .w128, exDpf33, exEnv, exKey33, exCtx33', _, hs, exHist33, hp,
    he, ?_⟩
  intro h
  have hpts : ∀ x ∈ outputPoints exParams33 0 (1 : Nat) [0, 1], x.toNat < 2 ^ exDpf33.logAt 1 := by
    have := hs.toCreated.outputPoints_lt (h := 1) (by omega) ha
    rwa [hp] at this
  rw [hs.wf.evaluateAt_ok exEnv hc.keyOk (h := 1) (by omega) (T := .uint .w128) (hs.typedAt (by omega)) hpts,
    if_neg (outputPoints_ne_nil _ (by simp)), hcorr, bind_ok] at h
  have hA : ∀ y : U128, (extensions exParams33 0 1 y).length = 2 ^ 32 := by
    intro y
    have e : logSize exParams33 1 - logSize exParams33 0 = 32 := by decide
    rw [extensions, e, List.length_map, List.length_range]
  have hO : outputPoints exParams33 0 (1 : Nat) [0, 1] =
      extensions exParams33 0 1 0 ++ extensions exParams33 0 1 1 := by
    unfold outputPoints
    rw [if_neg (by decide), List.flatMap_cons, List.flatMap_cons, List.flatMap_nil, List.append_nil,
      Int.toNat_natCast, Int.toNat_zero]
  rw [hO, List.map_append, ok.injEq] at h
  have hsplit := List.append_inj h (by rw [List.length_map, hA, List.length_take]; omega)
  have h0 := congrArg (fun l => l[0]?) (hsplit.1.trans hsplit.2.symm)
  have hz : ∀ y : U128, (extensions exParams33 0 1 y)[0]? = some (BitVec.ofNat 128 (y.toNat * 2 ^ 32)) := by
    intro y
    have e : logSize exParams33 1 - logSize exParams33 0 = 32 := by decide
    rw [extensions, e, List.getElem?_map, List.getElem?_range (by decide), Option.map_some,
      Nat.add_zero]
  simp only [List.getElem?_map, hz, Option.map_some, Option.some.injEq] at h0
  -- but the values at 0 and 2^32 are different
  have hev : ∀ x : U128, x.toNat < 2 ^ 33 →
      exDpf33.evaluateAt exEnv (Ty.uint .w128).helper exKey33 (1 : Nat) [x] =
        ok [exDpf33.share exEnv (.uint .w128) exKey33 1 corr x.toNat] := by
    intro x hx
    rw [hs.wf.evaluateAt_ok exEnv hc.keyOk (h := 1) (by omega) (T := .uint .w128) (hs.typedAt (by omega))
      (by intro y hy; simp only [List.mem_singleton] at hy; subst hy; rwa [hl1]), if_neg (by simp), hcorr,
      bind_ok]
    rfl
  have hdiff : exDpf33.evaluateAt exEnv (Ty.uint .w128).helper exKey33 (1 : Nat)
      [BitVec.ofNat 128 ((0 : U128).toNat * 2 ^ 32)] ≠
      exDpf33.evaluateAt exEnv (Ty.uint .w128).helper exKey33 (1 : Nat)
      [BitVec.ofNat 128 ((1 : U128).toNat * 2 ^ 32)] := by
    intro e
    have e' := congrArg (fun r : Res (List (BitVec 128)) => r.getD []) e
    revert e'
    show (Res.getD (α := List (BitVec 128)) _ _ = Res.getD (α := List (BitVec 128)) _ _) → False
    decide +kernel
  apply hdiff
  rw [hev _ (by decide), hev _ (by decide), h0]

/-! ## C04 -/

/-- C04 (with the restriction of C03): two successful calls at the same level, on contexts of one key
with different histories, that ask for the same points return the same values. -/
theorem C04_history_independent_partial (fp : FpEnv) (params : List DpfParameters) (T : Nat → Ty)
    (d : Dpf) (hs : Setup fp params T d) (env : Env) (key : DpfKey) (ctx ctx' : EvaluationContext)
    (hist : History d env key ctx) (hist' : History d env key ctx') (S : Ty) (h : Int)
    (prefixes prefixes' : List U128)
    (hpts : outputPoints params ctx.previousHierarchyLevel h prefixes =
      outputPoints params ctx'.previousHierarchyLevel h prefixes')
    (hsm : SmallExpansion params d ctx.previousHierarchyLevel.toNat h.toNat prefixes)
    (hsm' : SmallExpansion params d ctx'.previousHierarchyLevel.toNat h.toNat prefixes')
    (vals vals' : List S.den)
    (hok : (d.evaluateUntil env S.helper h prefixes ctx).1 = ok vals)
    (hok' : (d.evaluateUntil env S.helper h prefixes' ctx').1 = ok vals') : vals = vals' := by
  have h1 := (C03_incremental_partial fp params T d hs env key ctx hist S h prefixes vals hok hsm).1
  have h2 := (C03_incremental_partial fp params T d hs env key ctx' hist' S h prefixes' vals' hok' hsm').1
  rw [hpts, h2] at h1
  simp only [ok.injEq] at h1
  exact h1.symm

/-- C04 on the example: the last level below 12 of the second level, and below all points of the first
level of which 12 is an extension, give the same points in both orders of calls. -/
example : ∃ (vals vals' : List (BitVec 8)),
    (exDpf.evaluateUntil exEnv (Ty.uint .w8).helper 2 [12, 13, 14, 15] exCtx2).1 = ok vals ∧
    (exDpf.evaluateUntil exEnv (Ty.uint .w8).helper 2 [3] exCtx1).1 = ok vals' ∧ vals = vals' := by
  have h := Res.eq_ok_getD (r := (exDpf.evaluateUntil exEnv (Ty.uint .w8).helper 2 [12, 13, 14, 15]
    exCtx2).1) (by decide +kernel) []
  have h' := Res.eq_ok_getD (r := (exDpf.evaluateUntil exEnv (Ty.uint .w8).helper 2 [3]
    exCtx1).1) (by decide +kernel) []
  exact ⟨_, _, h, h', C04_history_independent_partial exFp exParams8 _ exDpf exDpf_setup exEnv exKey exCtx2
    exCtx1 exHist2 exHist1 (.uint .w8) 2 _ _ (by decide +kernel) (exSmall _ _ _ (by decide))
    (exSmall _ _ _ (by decide)) _ _ h h'⟩

/-! ## C05 -/

/-- C05 (with the restriction of C03): for a given context and level there is one block of outputs for
every prefix; a successful call returns the blocks of its prefixes in the given order. -/
theorem C05_prefix_order_partial (fp : FpEnv) (params : List DpfParameters) (T : Nat → Ty)
    (d : Dpf) (hs : Setup fp params T d) (env : Env) (key : DpfKey) (ctx : EvaluationContext)
    (hist : History d env key ctx) (S : Ty) (h : Int) :
    ∃ block : U128 → List S.den,
      (∀ x, (block x).length =
        2 ^ (logSize params h.toNat - logSize params ctx.previousHierarchyLevel.toNat)) ∧
      ∀ prefixes vals, prefixes ≠ [] →
        SmallExpansion params d ctx.previousHierarchyLevel.toNat h.toNat prefixes →
        (d.evaluateUntil env S.helper h prefixes ctx).1 = ok vals → vals = prefixes.flatMap block := by
  have hc := hs.wf.history env hist
  have wf := hs.wf
  have hcr := hs.toCreated
  refine ⟨fun x => match d.getValueCorrectionAsArray S.helper key h.toNat with
    | .ok corr => (List.range (2 ^ (logSize params h.toNat -
        logSize params ctx.previousHierarchyLevel.toNat))).map fun k => d.share env S key h.toNat corr
          (x.toNat * 2 ^ (logSize params h.toNat -
            logSize params ctx.previousHierarchyLevel.toNat) + k)
    | _ => List.replicate (2 ^ (logSize params h.toNat -
        logSize params ctx.previousHierarchyLevel.toNat)) S.helper.zero, ?_, ?_⟩
  · intro x
    dsimp only
    split <;> simp
  · intro prefixes vals hne hsm hok
    rcases hcr.evaluateUntil_outcomes env hc S.helper h prefixes with he | ⟨ha, hu, hp⟩
    · rw [he] at hok; simp at hok
    · obtain ⟨hN, rfl, hh, rfl⟩ := hs.until_type ha
      rw [Int.toNat_natCast] at hsm ⊢
      have hneg : ¬ ctx.previousHierarchyLevel < 0 := fun e => hne (ha.first.mp e)
      rw [wf.evaluateUntil_next env hc hh (prev := ctx.previousHierarchyLevel.toNat) (by omega)
        (hs.typedAt hh) hne ha (hu hne) (hcr.noTrunc hsm)] at hok
      obtain ⟨corr, h1, h2⟩ := bind_eq_ok.mp hok
      simp only [ok.injEq] at h2
      rw [h1, ← h2, hcr.logAt_eq, hcr.logAt_eq]

/-- C05: dropping, permuting or repeating prefixes of a successful call does not make it fail (as long
as there is a prefix left and the output is not longer). -/
theorem C05_subset_accepted_partial (fp : FpEnv) (params : List DpfParameters) (T : Nat → Ty)
    (d : Dpf) (hs : Setup fp params T d) (env : Env) (key : DpfKey) (ctx : EvaluationContext)
    (hist : History d env key ctx) (S : Ty) (h : Int) (prefixes prefixes' : List U128)
    (hsub : ∀ x ∈ prefixes', x ∈ prefixes) (hne : prefixes' ≠ [])
    (hlen : prefixes'.length * 2 ^ (logSize params h.toNat -
      logSize params ctx.previousHierarchyLevel.toNat) < 2 ^ 63)
    (hsm : SmallExpansion params d ctx.previousHierarchyLevel.toNat h.toNat prefixes)
    (hsm' : SmallExpansion params d ctx.previousHierarchyLevel.toNat h.toNat prefixes')
    (vals : List S.den) (hok : (d.evaluateUntil env S.helper h prefixes ctx).1 = ok vals) :
    ∃ vals', (d.evaluateUntil env S.helper h prefixes' ctx).1 = ok vals' := by
  have hc := hs.wf.history env hist
  have wf := hs.wf
  have hcr := hs.toCreated
  have hne0 : prefixes ≠ [] := by
    obtain ⟨x, hx⟩ := List.exists_mem_of_ne_nil _ hne
    exact List.ne_nil_of_mem (hsub x hx)
  rcases hcr.evaluateUntil_outcomes env hc S.helper h prefixes with he | ⟨ha, hu, hp⟩
  · rw [he] at hok; simp at hok
  · obtain ⟨hN, rfl, hh, rfl⟩ := hs.until_type ha
    rw [Int.toNat_natCast] at hsm hsm' hlen
    have hneg : ¬ ctx.previousHierarchyLevel < 0 := fun e => hne0 (ha.first.mp e)
    have hpl : d.prevLog ctx = logSize params ctx.previousHierarchyLevel.toNat := by
      unfold Dpf.prevLog
      rw [if_neg hneg, hcr.logAt_eq]
    have ha' : d.UntilArgs (T hN).helper.toValueType hN prefixes' ctx := by
      refine ⟨ha.ctx_ok, ha.level, ha.type, ha.later, ?_, fun x hx => ha.range x (hsub x hx), ha.gap, ?_⟩
      · simp [hne, hneg]
      · rw [hpl, Int.toNat_natCast, hcr.logAt_eq]; omega
    have hu' : d.Usable ctx (d.treeAt ctx.previousHierarchyLevel.toNat)
        (prefixes'.map fun x : U128 => x >>> d.gapAt ctx.previousHierarchyLevel.toNat) := by
      rcases hu hne0 with h1 | h1 | h1
      · exact Or.inl h1
      · exact Or.inr (Or.inl h1)
      · refine Or.inr (Or.inr ?_)
        intro y hy
        obtain ⟨x, hx, rfl⟩ := List.mem_map.mp hy
        exact h1 _ (List.mem_map.mpr ⟨x, hsub x hx, rfl⟩)
    have hpp : ctx.previousHierarchyLevel = (ctx.previousHierarchyLevel.toNat : Int) := by omega
    rw [wf.evaluateUntil_next env hc hh hpp (hs.typedAt hh) hne0 ha (hu hne0) (hcr.noTrunc hsm)] at hok
    rw [wf.evaluateUntil_next env hc hh hpp (hs.typedAt hh) hne ha' hu' (hcr.noTrunc hsm')]
    obtain ⟨corr, h1, h2⟩ := bind_eq_ok.mp hok
    rw [h1, bind_ok]
    exact ⟨_, rfl⟩

/-- C05 on the example: the same block twice, with another one in between. -/
example : ∃ block : U128 → List (Ty.uint .w8).den,
    (exDpf.evaluateUntil exEnv (Ty.uint .w8).helper 1 [3, 0, 3] exCtx1).1 =
      ok (block 3 ++ block 0 ++ block 3) := by
  obtain ⟨block, _, h⟩ := C05_prefix_order_partial exFp exParams8 _ exDpf exDpf_setup exEnv exKey exCtx1
    exHist1 (.uint .w8) 1
  have h1 := Res.eq_ok_getD (r := (exDpf.evaluateUntil exEnv (Ty.uint .w8).helper 1 [3, 0, 3]
    exCtx1).1) (by decide +kernel) []
  refine ⟨block, ?_⟩
  have := h _ _ (by simp) (exSmall _ _ _ (by decide)) h1
  rw [h1, this]
  show ok (block 3 ++ (block 0 ++ (block 3 ++ []))) = _
  rw [List.append_nil, List.append_assoc]

/-- C05 on the example: fewer prefixes in another order. -/
example : ∃ vals', (exDpf.evaluateUntil exEnv (Ty.uint .w8).helper 1 [0, 3] exCtx1).1 = ok vals' :=
  C05_subset_accepted_partial exFp exParams8 _ exDpf exDpf_setup exEnv exKey exCtx1 exHist1 (.uint .w8) 1
    [3, 0, 3] [0, 3] (by simp) (by simp) (by decide +kernel) (exSmall _ _ _ (by decide)) (exSmall _ _ _ (by decide)) _
    (Res.eq_ok_getD (by decide +kernel) [])

/-! ## C06 -/

/-- C06: every bad call is rejected with INVALID_ARGUMENT and leaves the context as it was, for every
created DPF and every context message, also one that no call ever returned. -/
theorem C06_rejects (fp : FpEnv) (params : List DpfParameters) (d : Dpf) (hc : Created fp params d)
    (env : Env) (S : Ty) (h : Int) (prefixes : List U128) (ctx : EvaluationContext)
    (hbad : BadCall params d S.helper.toValueType h prefixes ctx) :
    d.evaluateUntil env S.helper h prefixes ctx = (err .invalidArgument, ctx) := by
  have wf := hc.wf
  have hlen : d.pv.parameters.length = params.length := hc.n_eq
  rcases wf.checkEvaluateUntil_cases S.helper h prefixes ctx with ha | he
  rotate_left
  · unfold Dpf.evaluateUntil
    rw [he, Dpf.keep_err]
  exfalso
  obtain ⟨hcount, hparams, key, hkey, hkok, hprev, hpe⟩ := wf.validateEvaluationContext_spec ha.ctx_ok
  have hlev := ha.level
  rw [hc.n_eq] at hlev
  have hpl : d.prevLog ctx = previousLogSize params ctx := by
    unfold Dpf.prevLog previousLogSize
    rw [hc.logAt_eq]
  cases hbad with
  | otherCount h => exact h (by rw [hcount, hlen])
  | otherParameters i p q hp hq hne =>
    have hp' : d.pv.parameters[i]? = some (withDefaultSecurity p) := by
      rw [hc.params, List.getElem?_map, hp]; rfl
    obtain ⟨h1, h2⟩ := hparams i _ _ hp' hq
    rw [withDefaultSecurity_log] at h1
    rw [DpfParameters.vt, withDefaultSecurity_vt] at h2
    rcases hne with h | h
    · exact h h1
    · exact h h2
  | otherSecurity i p q hp hq hne =>
    exact hne (((hc.validateEvaluationContext_iff ctx).mp ha.ctx_ok).1.security i p q hp hq)
  | noKey h => rw [h] at hkey; simp at hkey
  | badKey k h1 h2 =>
    rw [h1] at hkey
    simp only [Option.some.injEq] at hkey
    subst hkey
    exact h2 ((wf.wellFormedKey_iff k).mpr hkok)
  | exhausted h => omega
  | badPartials h1 h2 =>
    rcases hpe with h | h
    · exact h1 h
    · omega
  | level h => omega
  | notAfter h => have := ha.later; omega
  | type p hp hne =>
    have hp' : d.pv.parameters[h.toNat]? = some (withDefaultSecurity p) := by
      rw [hc.params, List.getElem?_map, hp]; rfl
    have := ha.type _ hp'
    rw [DpfParameters.vt, withDefaultSecurity_vt] at this
    exact hne (sameType_of_equal this)
  | prefixes h => exact h ha.first
  | outside x hx h0 hle =>
    have := ha.range x hx
    rw [hpl] at this; omega
  | gap h =>
    have := ha.gap
    rw [hpl, hc.logAt_eq] at this; omega
  | size h =>
    have := ha.size
    rw [hpl, hc.logAt_eq] at this; omega

/-- C06 on the example: prefix 8 is outside the first level; level 1 with another type; level 0 again. -/
example : exDpf.evaluateUntil exEnv (Ty.uint .w8).helper 1 [3, 8] exCtx1 =
      (err .invalidArgument, exCtx1) ∧
    exDpf.evaluateUntil exEnv (Ty.xorWrapper .w8).helper 1 [3] exCtx1 =
      (err .invalidArgument, exCtx1) ∧
    exDpf.evaluateUntil exEnv (Ty.uint .w8).helper 0 [3] exCtx1 = (err .invalidArgument, exCtx1) := by
  have hc := exDpf_setup.toCreated
  refine ⟨?_, ?_, ?_⟩
  · refine C06_rejects exFp exParams8 exDpf hc exEnv (.uint .w8) 1 [3, 8] exCtx1
      (.outside 8 (by simp) ?_ ?_)
    · decide +kernel
    · decide +kernel
  · refine C06_rejects exFp exParams8 exDpf hc exEnv (.xorWrapper .w8) 1 [3] exCtx1
      (.type ⟨5, some (Ty.uint .w8).helper.toValueType, .val 0⟩ rfl ?_)
    rintro ⟨c, h1, h2⟩
    have h1 : some (Canon.xorWrapper 8) = some c := h1
    have h2 : some (Canon.integer 8) = some c := h2
    rw [← h1] at h2
    simp at h2
  · refine C06_rejects exFp exParams8 exDpf hc exEnv (.uint .w8) 0 [3] exCtx1 (.notAfter ?_)
    decide +kernel

/-! ## C07 -/

/-- C07 (with the restriction of C03): after a successful call, a call at a later level whose prefixes
extend prefixes of that call succeeds. Other conditions are those of C06; `hkey`: the key has usable
output corrections at the level, as every generated key has. -/
theorem C07_accepts_partial (fp : FpEnv) (params : List DpfParameters) (T : Nat → Ty)
    (d : Dpf) (hs : Setup fp params T d) (env : Env) (key : DpfKey) (ctx ctx1 : EvaluationContext)
    (hist : History d env key ctx) (S : Ty) (h1 : Nat) (prefixes1 : List U128) (vals1 : List S.den)
    (hok : d.evaluateUntil env S.helper h1 prefixes1 ctx = (ok vals1, ctx1))
    (h2 : Nat) (h12 : h1 < h2) (hh2 : h2 < params.length) (prefixes2 : List U128)
    (hne : prefixes2 ≠ []) (hrange : ∀ x ∈ prefixes2, x.toNat < 2 ^ logSize params h1)
    (hgap : logSize params h2 - logSize params h1 < 63)
    (hsize : prefixes2.length * 2 ^ (logSize params h2 - logSize params h1) < 2 ^ 63)
    (hext : prefixes1 = [] ∨ ∀ x ∈ prefixes2, ∃ y ∈ prefixes1,
      x ∈ extensions params ctx.previousHierarchyLevel.toNat h1 y)
    (hsm : SmallExpansion params d h1 h2 prefixes2)
    (hkey : ∃ v, d.evaluateAt env (T h2).helper key h2 [0] = ok v) :
    ∃ vals2 ctx2, d.evaluateUntil env (T h2).helper h2 prefixes2 ctx1 = (ok vals2, ctx2) := by
  have hc := hs.wf.history env hist
  have wf := hs.wf
  have hcr := hs.toCreated
  have hh2' : h2 < d.n := by rw [hcr.n_eq]; exact hh2
  obtain ⟨hprev, hcases⟩ := hcr.evaluateUntil_stored env hc (by omega : h1 + 1 < d.n) hok
  have hc1 : d.CtxOk env key ctx1 := by
    have := wf.evaluateUntil_ctxOk env hc S.helper h1 prefixes1
    rwa [hok] at this
  have hpe1 : ctx1.partialEvaluations = [] ∨
      ctx1.partialEvaluationsLevel ≤ ctx1.previousHierarchyLevel := by
    rcases hcases with ⟨_, h⟩ | ⟨_, _, h, _⟩
    · exact Or.inl h
    · right; rw [h, hprev.1]; omega
  have hpl : d.prevLog ctx1 = logSize params h1 := by
    unfold Dpf.prevLog
    rw [hprev.1, if_neg (by omega), Int.toNat_natCast, hcr.logAt_eq]
  have ha := hs.untilArgs hc1 hh2' (prefixes := prefixes2) (by omega)
    (by rw [hprev.1]; simp [hne]) (by rw [hpl]; exact hrange)
    (by rw [hpl, hcr.logAt_eq]; exact hgap) (by rw [hpl, hcr.logAt_eq]; omega) hpe1
  have hpn : ctx1.previousHierarchyLevel.toNat = h1 := by rw [hprev.1, Int.toNat_natCast]
  have hu : prefixes2 ≠ [] → d.Usable ctx1 (d.treeAt ctx1.previousHierarchyLevel.toNat)
      (prefixes2.map fun x : U128 => x >>> d.gapAt ctx1.previousHierarchyLevel.toNat) := by
    intro _
    rw [hpn]
    rcases hcases with ⟨_, h⟩ | ⟨hne1, hneg, h, hr, hm⟩
    · exact Or.inl h
    · refine Or.inr (Or.inr ?_)
      intro z hz
      obtain ⟨x, hx, rfl⟩ := List.mem_map.mp hz
      rcases hext with he | he
      · exact absurd he hne1
      · obtain ⟨y, hy, hxy⟩ := he x hx
        obtain ⟨pe, hpe, e⟩ := (hm (y >>> d.gapAt ctx.previousHierarchyLevel.toNat)).mpr ⟨y, hy, rfl⟩
        refine ⟨pe, hpe, ?_⟩
        rw [e, h, Int.toNat_natCast]
        exact (hcr.block_of_extension (by omega) (by omega) (prefixOf_extension hcr (by omega) (by omega)
          (hr y hy) hxy)).symm
  have e := hs.evaluateUntil_eq env hc1 hh2' ha hu (by rw [hpn]; exact hsm)
  obtain ⟨v, hv⟩ := hkey
  rw [wf.evaluateAt_ok env hc.keyOk hh2' (hs.typedAt hh2') (by
    intro x hx
    simp only [List.mem_singleton] at hx
    subst hx
    exact Nat.two_pow_pos _), if_neg (by simp)] at hv
  obtain ⟨corr, hcorr, _⟩ := bind_eq_ok.mp hv
  rw [wf.evaluateAt_ok env hc.keyOk hh2' (hs.typedAt hh2') (hcr.outputPoints_lt hh2' ha),
    if_neg (outputPoints_ne_nil params ha.first), hcorr, bind_ok] at e
  exact ⟨_, _, Prod.ext e rfl⟩

/-- C07 at block granularity: a call at a later level whose prefixes extend points in the blocks of earlier prefixes
succeeds (with the restriction of C03). -/
theorem C07_accepts_block_partial (fp : FpEnv) (params : List DpfParameters) (T : Nat → Ty)
    (d : Dpf) (hs : Setup fp params T d) (env : Env) (key : DpfKey) (ctx ctx1 : EvaluationContext)
    (hist : History d env key ctx) (S : Ty) (h1 : Nat) (prefixes1 : List U128) (vals1 : List S.den)
    (hok : d.evaluateUntil env S.helper h1 prefixes1 ctx = (ok vals1, ctx1))
    (h2 : Nat) (h12 : h1 < h2) (hh2 : h2 < params.length) (prefixes2 : List U128)
    (hne : prefixes2 ≠ []) (hrange : ∀ x ∈ prefixes2, x.toNat < 2 ^ logSize params h1)
    (hgap : logSize params h2 - logSize params h1 < 63)
    (hsize : prefixes2.length * 2 ^ (logSize params h2 - logSize params h1) < 2 ^ 63)
    (hext : prefixes1 = [] ∨ ∀ x ∈ prefixes2, ∃ y ∈ prefixes1,
      SameBlock params d ctx.previousHierarchyLevel.toNat (prefixOf params ctx.previousHierarchyLevel.toNat h1 x) y)
    (hsm : SmallExpansion params d h1 h2 prefixes2)
    (hkey : ∃ v, d.evaluateAt env (T h2).helper key h2 [0] = ok v) :
    ∃ vals2 ctx2, d.evaluateUntil env (T h2).helper h2 prefixes2 ctx1 = (ok vals2, ctx2) := by
  have hc := hs.wf.history env hist
  have wf := hs.wf
  have hcr := hs.toCreated
  have hh2' : h2 < d.n := by rw [hcr.n_eq]; exact hh2
  obtain ⟨hprev, hcases⟩ := hcr.evaluateUntil_stored env hc (by omega : h1 + 1 < d.n) hok
  have hc1 : d.CtxOk env key ctx1 := by
    have := wf.evaluateUntil_ctxOk env hc S.helper h1 prefixes1
    rwa [hok] at this
  have hpe1 : ctx1.partialEvaluations = [] ∨
      ctx1.partialEvaluationsLevel ≤ ctx1.previousHierarchyLevel := by
    rcases hcases with ⟨_, h⟩ | ⟨_, _, h, _⟩
    · exact Or.inl h
    · right; rw [h, hprev.1]; omega
  have hpl : d.prevLog ctx1 = logSize params h1 := by
    unfold Dpf.prevLog
    rw [hprev.1, if_neg (by omega), Int.toNat_natCast, hcr.logAt_eq]
  have ha := hs.untilArgs hc1 hh2' (prefixes := prefixes2) (by omega)
    (by rw [hprev.1]; simp [hne]) (by rw [hpl]; exact hrange)
    (by rw [hpl, hcr.logAt_eq]; exact hgap) (by rw [hpl, hcr.logAt_eq]; omega) hpe1
  have hpn : ctx1.previousHierarchyLevel.toNat = h1 := by rw [hprev.1, Int.toNat_natCast]
  have hu : prefixes2 ≠ [] → d.Usable ctx1 (d.treeAt ctx1.previousHierarchyLevel.toNat)
      (prefixes2.map fun x : U128 => x >>> d.gapAt ctx1.previousHierarchyLevel.toNat) := by
    intro _
    rw [hpn]
    rcases hcases with ⟨_, h⟩ | ⟨hne1, hneg, h, hr, hm⟩
    · exact Or.inl h
    · refine Or.inr (Or.inr ?_)
      intro z hz
      obtain ⟨x, hx, rfl⟩ := List.mem_map.mp hz
      rcases hext with he | he
      · exact absurd he hne1
      · obtain ⟨y, hy, hxy⟩ := he x hx
        obtain ⟨pe, hpe, e⟩ := (hm (y >>> d.gapAt ctx.previousHierarchyLevel.toNat)).mpr ⟨y, hy, rfl⟩
        refine ⟨pe, hpe, ?_⟩
        rw [e, h, Int.toNat_natCast, hcr.block_of_extension (by omega) (by omega) rfl]
        unfold SameBlock at hxy
        rw [← hcr.gapAt_eq, ← Dpf.shr_toNat, ← Dpf.shr_toNat] at hxy
        exact (BitVec.eq_of_toNat_eq hxy).symm
  have e := hs.evaluateUntil_eq env hc1 hh2' ha hu (by rw [hpn]; exact hsm)
  obtain ⟨v, hv⟩ := hkey
  rw [wf.evaluateAt_ok env hc.keyOk hh2' (hs.typedAt hh2') (by
    intro x hx
    simp only [List.mem_singleton] at hx
    subst hx
    exact Nat.two_pow_pos _), if_neg (by simp)] at hv
  obtain ⟨corr, hcorr, _⟩ := bind_eq_ok.mp hv
  rw [wf.evaluateAt_ok env hc.keyOk hh2' (hs.typedAt hh2') (hcr.outputPoints_lt hh2' ha),
    if_neg (outputPoints_ne_nil params ha.first), hcorr, bind_ok] at e
  exact ⟨_, _, Prod.ext e rfl⟩

/-- C07 on the example: 4 extends 1 of the first level, which lies in the block of 0. -/
example : ∃ vals2 ctx2, exDpf.evaluateUntil exEnv (Ty.uint .w8).helper (2 : Nat) [4] exCtx2 = (ok vals2, ctx2) := by
  have h1 := Res.eq_ok_getD (r := (exDpf.evaluateUntil exEnv (Ty.uint .w8).helper (1 : Nat) [3, 0, 3]
    exCtx1).1) (by decide +kernel) []
  refine C07_accepts_block_partial exFp exParams8 _ exDpf exDpf_setup exEnv exKey exCtx1 exCtx2 exHist1
    (.uint .w8) 1 [3, 0, 3] _ (Prod.ext h1 rfl) 2 (by decide) (by decide) [4] (by simp) ?_ (by decide)
    (by decide) (Or.inr ?_) (exSmall _ _ _ (by decide)) ⟨_, Res.eq_ok_getD (by decide +kernel) []⟩
  · intro x hx
    simp only [List.mem_singleton] at hx
    subst hx; decide
  · intro x hx
    simp only [List.mem_singleton] at hx
    subst hx
    refine ⟨0, by simp, ?_⟩
    unfold SameBlock
    decide +kernel

/-- C07: after a successful call with prefixes, a call with a prefix that extends nothing in the blocks
of the earlier prefixes is rejected and leaves the context as it was. Missing: prefixes that are not
extensions but lie in the block of an earlier prefix; they are accepted (`C07_refuted`). -/
theorem C07_rejects_partial (fp : FpEnv) (params : List DpfParameters)
    (d : Dpf) (hcr : Created fp params d) (env : Env) (key : DpfKey) (ctx ctx1 : EvaluationContext)
    (hist : History d env key ctx) (S : Ty) (h1 : Nat) (prefixes1 : List U128) (vals1 : List S.den)
    (hne1 : prefixes1 ≠ [])
    (hok : d.evaluateUntil env S.helper h1 prefixes1 ctx = (ok vals1, ctx1))
    (S2 : Ty) (h2 : Int) (prefixes2 : List U128) (x : U128) (hx : x ∈ prefixes2)
    (hext : ∀ y ∈ prefixes1, ¬ SameBlock params d ctx.previousHierarchyLevel.toNat
      (prefixOf params ctx.previousHierarchyLevel.toNat h1 x) y) :
    d.evaluateUntil env S2.helper h2 prefixes2 ctx1 = (err .invalidArgument, ctx1) := by
  have wf := hcr.wf
  have hc := wf.history env hist
  have hc1 : d.CtxOk env key ctx1 := by
    have := wf.evaluateUntil_ctxOk env hc S.helper h1 prefixes1
    rwa [hok] at this
  rcases hcr.evaluateUntil_outcomes env hc1 S2.helper h2 prefixes2 with he | ⟨ha, hu, _⟩
  · exact he
  exfalso
  have hlt : h1 + 1 < d.n := by
    have hp1 : ctx1.previousHierarchyLevel = h1 := by
      rcases hcr.evaluateUntil_outcomes env hc S.helper h1 prefixes1 with he | ⟨_, _, e⟩
      · rw [hok] at he; simp at he
      · rw [hok] at e; simpa using e
    have := ha.later
    have := ha.level
    omega
  obtain ⟨hprev, hcases⟩ := hcr.evaluateUntil_stored env hc hlt hok
  have hpn : ctx1.previousHierarchyLevel.toNat = h1 := by rw [hprev.1, Int.toNat_natCast]
  rcases hcases with ⟨h, _⟩ | ⟨_, hneg, h, hr, hm⟩
  · exact hne1 h
  · rw [hpn] at hu
    rcases hu (List.ne_nil_of_mem hx) with h3 | h3 | h3
    · obtain ⟨y, hy⟩ := List.exists_mem_of_ne_nil _ hne1
      obtain ⟨pe, hpe, _⟩ := (hm (y >>> d.gapAt ctx.previousHierarchyLevel.toNat)).mpr ⟨y, hy, rfl⟩
      rw [h3] at hpe; simp at hpe
    · rw [h, Int.toNat_natCast] at h3
      have := wf.tree_asc ctx.previousHierarchyLevel.toNat h1 (by omega) (by omega)
      omega
    · obtain ⟨pe, hpe, e⟩ := h3 _ (List.mem_map.mpr ⟨x, hx, rfl⟩)
      obtain ⟨y, hy, e'⟩ := (hm pe.prefix).mp ⟨pe, hpe, rfl⟩
      apply hext y hy
      unfold SameBlock
      rw [← hcr.gapAt_eq, ← Dpf.shr_toNat, ← Dpf.shr_toNat, e', e, h, Int.toNat_natCast]
      rw [hcr.block_of_extension (by omega) (by omega) rfl]

/-- C07, exactly what the code does (with the restriction of C03): a call that is not bad for another reason (C06) is
accepted iff the first call was the one without prefixes or every prefix extends a point in the block of an earlier prefix;
otherwise it is rejected and leaves the context as it was. -/
theorem C07_exact_partial (fp : FpEnv) (params : List DpfParameters) (T : Nat → Ty)
    (d : Dpf) (hs : Setup fp params T d) (env : Env) (key : DpfKey) (ctx ctx1 : EvaluationContext)
    (hist : History d env key ctx) (S : Ty) (h1 : Nat) (prefixes1 : List U128) (vals1 : List S.den)
    (hok : d.evaluateUntil env S.helper h1 prefixes1 ctx = (ok vals1, ctx1))
    (h2 : Nat) (h12 : h1 < h2) (hh2 : h2 < params.length) (prefixes2 : List U128)
    (hne : prefixes2 ≠ []) (hrange : ∀ x ∈ prefixes2, x.toNat < 2 ^ logSize params h1)
    (hgap : logSize params h2 - logSize params h1 < 63)
    (hsize : prefixes2.length * 2 ^ (logSize params h2 - logSize params h1) < 2 ^ 63)
    (hsm : SmallExpansion params d h1 h2 prefixes2)
    (hkey : ∃ v, d.evaluateAt env (T h2).helper key h2 [0] = ok v) :
    ((∃ vals2 ctx2, d.evaluateUntil env (T h2).helper h2 prefixes2 ctx1 = (ok vals2, ctx2)) ↔
      prefixes1 = [] ∨ ∀ x ∈ prefixes2, ∃ y ∈ prefixes1, SameBlock params d ctx.previousHierarchyLevel.toNat
        (prefixOf params ctx.previousHierarchyLevel.toNat h1 x) y) ∧
    (d.evaluateUntil env (T h2).helper h2 prefixes2 ctx1 = (err .invalidArgument, ctx1) ↔
      ¬ (prefixes1 = [] ∨ ∀ x ∈ prefixes2, ∃ y ∈ prefixes1, SameBlock params d ctx.previousHierarchyLevel.toNat
        (prefixOf params ctx.previousHierarchyLevel.toNat h1 x) y)) := by
  have hyes := fun hext => C07_accepts_block_partial fp params T d hs env key ctx ctx1 hist S h1 prefixes1 vals1 hok h2 h12
    hh2 prefixes2 hne hrange hgap hsize hext hsm hkey
  have hno : ¬ (prefixes1 = [] ∨ ∀ x ∈ prefixes2, ∃ y ∈ prefixes1, SameBlock params d
      ctx.previousHierarchyLevel.toNat (prefixOf params ctx.previousHierarchyLevel.toNat h1 x) y) →
      d.evaluateUntil env (T h2).helper h2 prefixes2 ctx1 = (err .invalidArgument, ctx1) := by
    intro hn
    have hne1 : prefixes1 ≠ [] := fun e => hn (Or.inl e)
    have : ∃ x ∈ prefixes2, ∀ y ∈ prefixes1, ¬ SameBlock params d ctx.previousHierarchyLevel.toNat
        (prefixOf params ctx.previousHierarchyLevel.toNat h1 x) y := by
      apply Classical.byContradiction
      intro hno
      refine hn (Or.inr fun x hx => Classical.byContradiction fun hxy => hno ⟨x, hx, fun y hy hb => hxy ⟨y, hy, hb⟩⟩)
    obtain ⟨x, hx, hxy⟩ := this
    exact C07_rejects_partial fp params d hs.toCreated env key ctx ctx1 hist S h1 prefixes1 vals1 hne1 hok (T h2) h2
      prefixes2 x hx hxy
  refine ⟨⟨?_, hyes⟩, ⟨?_, hno⟩⟩
  · rintro ⟨v, c, e⟩
    apply Classical.byContradiction
    intro hn
    rw [hno hn] at e
    simp at e
  · intro e hy
    obtain ⟨v, c, e'⟩ := hyes hy
    rw [e] at e'
    simp at e'

/-- C07, second half, exactly: if outputs of the earlier level are not packed into blocks, a call with
a prefix that extends no earlier prefix is rejected. -/
theorem C07_rejects_unpacked (fp : FpEnv) (params : List DpfParameters)
    (d : Dpf) (hcr : Created fp params d) (env : Env) (key : DpfKey) (ctx ctx1 : EvaluationContext)
    (hist : History d env key ctx) (S : Ty) (h1 : Nat) (prefixes1 : List U128) (vals1 : List S.den)
    (hne1 : prefixes1 ≠ [])
    (hok : d.evaluateUntil env S.helper h1 prefixes1 ctx = (ok vals1, ctx1))
    (hpacked : treeDepth d ctx.previousHierarchyLevel.toNat =
      logSize params ctx.previousHierarchyLevel.toNat)
    (S2 : Ty) (h2 : Int) (prefixes2 : List U128) (x : U128) (hx : x ∈ prefixes2)
    (hext : prefixOf params ctx.previousHierarchyLevel.toNat h1 x ∉ prefixes1) :
    d.evaluateUntil env S2.helper h2 prefixes2 ctx1 = (err .invalidArgument, ctx1) := by
  refine C07_rejects_partial fp params d hcr env key ctx ctx1 hist S h1 prefixes1 vals1 hne1 hok S2 h2
    prefixes2 x hx ?_
  intro y hy e
  unfold SameBlock at e
  rw [hpacked, Nat.sub_self] at e
  simp only [Nat.pow_zero, Nat.div_one] at e
  rw [BitVec.eq_of_toNat_eq e] at hext
  exact hext hy

/-- Three levels of 128-bit integers, one per block. -/
def exParamsUnpacked : List DpfParameters := [1, 2, 3].map fun n => ⟨n, some (Ty.uint .w128).helper.toValueType, .val 0⟩
def exDpfUnpacked : Dpf := (Dpf.createIncremental exFp exParamsUnpacked).getD ⟨⟨[], 0, [], []⟩, [], []⟩
def exKeyUnpacked : DpfKey :=
  ((exDpfUnpacked.generateKeysIncremental exEnv 5 [.integer (.u64 1), .integer (.u64 2), .integer (.u64 3)] 1 2).getD
    (DpfKey.default, DpfKey.default)).1
def exCtxUnpacked : EvaluationContext :=
  (exDpfUnpacked.evaluateUntil exEnv (Ty.uint .w128).helper 0 []
    ((exDpfUnpacked.createEvaluationContext exKeyUnpacked).getD ⟨[], none, 0, [], 0⟩)).2
def exCtxUnpacked' : EvaluationContext :=
  (exDpfUnpacked.evaluateUntil exEnv (Ty.uint .w128).helper (1 : Nat) [0] exCtxUnpacked).2

/-- C07 on this DPF: after a call for the prefix 0 nothing below 1 is accepted. -/
example : exDpfUnpacked.evaluateUntil exEnv (Ty.uint .w128).helper 2 [1, 2] exCtxUnpacked' =
    (err .invalidArgument, exCtxUnpacked') := by
  have hc : Created exFp exParamsUnpacked exDpfUnpacked := ⟨_, [], Res.eq_ok_getD (by decide +kernel) _, rfl⟩
  have h1 := Res.eq_ok_getD (r := (exDpfUnpacked.evaluateUntil exEnv (Ty.uint .w128).helper (1 : Nat) [0]
    exCtxUnpacked).1) (by decide +kernel) []
  refine C07_rejects_unpacked exFp exParamsUnpacked exDpfUnpacked hc exEnv exKeyUnpacked exCtxUnpacked exCtxUnpacked'
    (.evalUntil (.uint .w128) 0 [] (.create (Res.eq_ok_getD (by decide +kernel) _))) (.uint .w128) 1 [0] _ (by simp)
    (Prod.ext h1 rfl) (by decide +kernel) (.uint .w128) 2 [1, 2] 2 (by simp) (by decide +kernel)

/-- The second half of C07 is false of the code for packed outputs: after a call with prefixes 3 and 0
only, prefix 4 of the next level (it extends 1) is accepted, because 0, 1 and 3 are in one block
(/repo/dpf/distributed_point_function.cc:418-433 looks up tree indices). -/
theorem C07_refuted : ∃ (fp : FpEnv) (params : List DpfParameters) (T : Nat → Ty) (d : Dpf) (env : Env)
    (key : DpfKey) (ctx ctx1 ctx2 : EvaluationContext) (vals1 : List (T 1).den)
    (vals2 : List (T 2).den), Setup fp params T d ∧ History d env key ctx ∧
    ctx.previousHierarchyLevel = 0 ∧
    d.evaluateUntil env (T 1).helper (1 : Nat) [3, 0, 3] ctx = (ok vals1, ctx1) ∧
    prefixOf params 0 1 4 ∉ ([3, 0, 3] : List U128) ∧
    d.evaluateUntil env (T 2).helper (2 : Nat) [4] ctx1 = (ok vals2, ctx2) := by
  have h1 := Res.eq_ok_getD (r := (exDpf.evaluateUntil exEnv (Ty.uint .w8).helper (1 : Nat) [3, 0, 3]
    exCtx1).1) (by decide +kernel) []
  have h2 := Res.eq_ok_getD (r := (exDpf.evaluateUntil exEnv (Ty.uint .w8).helper (2 : Nat) [4]
    exCtx2).1) (by decide +kernel) []
  exact ⟨exFp, exParams8, fun _ => .uint .w8, exDpf, exEnv, exKey, exCtx1, exCtx2, _, _, _, exDpf_setup,
    exHist1, by decide +kernel, Prod.ext h1 rfl, by decide +kernel, Prod.ext h2 rfl⟩

/-- C07 on the example: 13 extends 3, so it is accepted after a call with 3; 16 extends nothing in the
block of an earlier prefix one level further down, so it is rejected. -/
example : ∃ vals2 ctx2, exDpf.evaluateUntil exEnv (Ty.uint .w8).helper (2 : Nat) [13] exCtx2 =
    (ok vals2, ctx2) := by
  have h1 := Res.eq_ok_getD (r := (exDpf.evaluateUntil exEnv (Ty.uint .w8).helper (1 : Nat) [3, 0, 3]
    exCtx1).1) (by decide +kernel) []
  refine C07_accepts_partial exFp exParams8 _ exDpf exDpf_setup exEnv exKey exCtx1 exCtx2 exHist1
    (.uint .w8) 1 [3, 0, 3] _ (Prod.ext h1 rfl) 2 (by decide) (by decide) [13] (by simp) ?_ (by decide)
    (by decide) (Or.inr ?_) (exSmall _ _ _ (by decide)) ⟨_, Res.eq_ok_getD (by decide +kernel) []⟩
  · intro x hx
    simp only [List.mem_singleton] at hx
    subst hx; decide
  · intro x hx
    simp only [List.mem_singleton] at hx
    subst hx
    exact ⟨3, by simp, by decide +kernel⟩

/-- C07 on the example: 4 extends 1, which is no earlier prefix but lies in the block of 0 and 3; it is accepted. -/
example : ∃ vals2 ctx2, exDpf.evaluateUntil exEnv (Ty.uint .w8).helper (2 : Nat) [4] exCtx2 =
    (ok vals2, ctx2) := by
  have h1 := Res.eq_ok_getD (r := (exDpf.evaluateUntil exEnv (Ty.uint .w8).helper (1 : Nat) [3, 0, 3]
    exCtx1).1) (by decide +kernel) []
  refine (C07_exact_partial exFp exParams8 _ exDpf exDpf_setup exEnv exKey exCtx1 exCtx2 exHist1
    (.uint .w8) 1 [3, 0, 3] _ (Prod.ext h1 rfl) 2 (by decide) (by decide) [4] (by simp) ?_ (by decide)
    (by decide) (exSmall _ _ _ (by decide)) ⟨_, Res.eq_ok_getD (by decide +kernel) []⟩).1.mpr (Or.inr ?_)
  · intro x hx
    simp only [List.mem_singleton] at hx
    subst hx; decide
  · intro x hx
    simp only [List.mem_singleton] at hx
    subst hx
    refine ⟨0, by simp, ?_⟩
    unfold SameBlock
    decide +kernel

/-- C07 on the example, rejection: after the second level in full and the third below 5, the last level
below 64, which extends 16 of the second level; 16 is in another block than 5. -/
example : exDpf.evaluateUntil exEnv (Ty.uint .w8).helper 3 [20, 64]
      (exDpf.evaluateUntil exEnv (Ty.uint .w8).helper 2 [5]
        (exDpf.evaluateUntil exEnv (Ty.uint .w8).helper 1 [] exCtx0).2).2 =
      (err .invalidArgument, (exDpf.evaluateUntil exEnv (Ty.uint .w8).helper 2 [5]
        (exDpf.evaluateUntil exEnv (Ty.uint .w8).helper 1 [] exCtx0).2).2) := by
  have h1 := Res.eq_ok_getD (r := (exDpf.evaluateUntil exEnv (Ty.uint .w8).helper (2 : Nat) [5]
    (exDpf.evaluateUntil exEnv (Ty.uint .w8).helper 1 [] exCtx0).2).1) (by decide +kernel) []
  refine C07_rejects_partial exFp exParams8 exDpf exDpf_setup.toCreated exEnv exKey _ _
    (.evalUntil (.uint .w8) 1 [] exHist0) (.uint .w8) 2 [5] _ (by simp) (Prod.ext h1 rfl) (.uint .w8) 3
    [20, 64] 64 (by simp) ?_
  intro y hy
  simp only [List.mem_singleton] at hy
  subst hy
  unfold SameBlock
  decide +kernel

/-! ## C08 -/

/-- C08: whatever was called on the context before, `EvaluateAt` on it either rejects the call and
leaves the context as it was, or returns what `EvaluateAt` on the key returns. The output type is
arbitrary. (That later calls are correct is C03 and this theorem for the history with this call.) -/
theorem C08_context_agrees (fp : FpEnv) (params : List DpfParameters) (d : Dpf)
    (hcr : Created fp params d) (env : Env) (key : DpfKey) (ctx : EvaluationContext)
    (hist : History d env key ctx) (S : Ty) (h : Int) (points : List U128) :
    d.evaluateAtCtx env S.helper h points ctx = (err .invalidArgument, ctx) ∨
    (d.evaluateAtCtx env S.helper h points ctx).1 = d.evaluateAt env S.helper key h points :=
  (hcr.wf.evaluateAtCtx_cases env (hcr.wf.history env hist) S.helper h points).1

/-- C08: a call is never rejected without reason: if nothing is stored in the context, or only for
levels deeper in the tree, or every point extends the block of a stored prefix, the answer is that of
`EvaluateAt` on the key. -/
theorem C08_accepts (fp : FpEnv) (params : List DpfParameters) (T : Nat → Ty) (d : Dpf)
    (hs : Setup fp params T d) (env : Env) (key : DpfKey) (ctx : EvaluationContext)
    (hist : History d env key ctx) (h : Nat) (points : List U128)
    (hst : ctx.partialEvaluations = [] ∨
      treeDepth d h < treeDepth d ctx.partialEvaluationsLevel.toNat ∨
      ∀ x ∈ points, ∃ pe ∈ ctx.partialEvaluations, pe.prefix.toNat =
        x.toNat / 2 ^ (logSize params h - treeDepth d ctx.partialEvaluationsLevel.toNat)) :
    (d.evaluateAtCtx env (T h).helper h points ctx).1 = d.evaluateAt env (T h).helper key h points := by
  have wf := hs.wf
  have hcr := hs.toCreated
  have hc := wf.history env hist
  rcases wf.checkEvaluateAt_cases key h points with ⟨hN, he, hh, _, hp⟩ | he
  rotate_left
  · have h1 : d.evaluateAtCtx env (T h).helper h points ctx = (err .invalidArgument, ctx) := by
      unfold Dpf.evaluateAtCtx
      rw [hc.keyD, he, Dpf.keep_err]
    have h2 : d.evaluateAt env (T h).helper key h points = err .invalidArgument := by
      unfold Dpf.evaluateAt
      rw [he]; rfl
    rw [h1, h2]
  have : hN = h := by omega
  subst this
  by_cases hne : points = []
  · subst hne
    obtain ⟨h1, h2⟩ := wf.evaluateAtCtx_empty env hc (T hN).helper hh
    rw [h1, h2]
  have hti := wf.treeIndicesFor_ok hh (hs.typedAt hh) points
  rw [wf.evaluateAtCtx_ok env hc (T hN).helper hh hp hne hti ?_]
  by_cases hlt : d.treeAt hN < d.treeAt ctx.partialEvaluationsLevel.toNat
  · exact Or.inr (Or.inl hlt)
  · rcases hst with h1 | h1 | h1
    · exact Or.inl h1
    · exact Or.inr (Or.inl h1)
    · refine Or.inr (Or.inr ?_)
      intro z hz
      obtain ⟨x, hx, rfl⟩ := List.mem_map.mp hz
      obtain ⟨pe, hpe, e⟩ := h1 x hx
      refine ⟨pe, hpe, ?_⟩
      apply BitVec.eq_of_toNat_eq
      rw [e, ← BitVec.shiftRight_add, Dpf.shr_toNat, ← hcr.logAt_eq]
      congr 2
      have := wf.tree_le hN
      unfold Dpf.gapAt
      unfold Dpf.treeAt at *
      unfold treeDepth
      omega

/-- C08 on the example: the points 60 and 3 of the third level lie below stored seeds. -/
example : (exDpf.evaluateAtCtx exEnv (Ty.uint .w8).helper (2 : Nat) [60, 3] exCtx2).1 =
    exDpf.evaluateAt exEnv (Ty.uint .w8).helper exKey (2 : Nat) [60, 3] := by
  refine C08_accepts exFp exParams8 (fun _ => .uint .w8) exDpf exDpf_setup exEnv exKey exCtx2 exHist2 2 [60, 3]
    (Or.inr (Or.inr ?_))
  intro x hx
  simp only [List.mem_cons, List.not_mem_nil, or_false] at hx
  have h : ∀ v : Nat, v ∈ [60, 3].map (fun x => x / 2 ^ (logSize exParams8 2 - treeDepth exDpf
      exCtx2.partialEvaluationsLevel.toNat)) → v ∈ exCtx2.partialEvaluations.map fun pe => pe.prefix.toNat := by
    decide +kernel
  have := h _ (List.mem_map.mpr ⟨x.toNat, by rcases hx with rfl | rfl <;> simp, rfl⟩)
  obtain ⟨pe, h1, h2⟩ := List.mem_map.mp this
  exact ⟨pe, h1, h2⟩

/-- C08 on the example: the last level, from the second, and a point of a level above the stored ones. -/
example : ∃ vals vals', (exDpf.evaluateAtCtx exEnv (Ty.uint .w8).helper 2 [60, 3, 60] exCtx2).1 = ok vals ∧
    exDpf.evaluateAt exEnv (Ty.uint .w8).helper exKey 2 [60, 3, 60] = ok vals ∧
    (exDpf.evaluateAtCtx exEnv (Ty.uint .w8).helper 0 [6] exCtx2).1 = ok vals' ∧
    exDpf.evaluateAt exEnv (Ty.uint .w8).helper exKey 0 [6] = ok vals' := by
  have hc := exDpf_setup.toCreated
  have h1 := Res.eq_ok_getD (r := (exDpf.evaluateAtCtx exEnv (Ty.uint .w8).helper 2 [60, 3, 60]
    exCtx2).1) (by decide +kernel) []
  have h2 := Res.eq_ok_getD (r := (exDpf.evaluateAtCtx exEnv (Ty.uint .w8).helper 0 [6]
    exCtx2).1) (by decide +kernel) []
  refine ⟨_, _, h1, ?_, h2, ?_⟩
  · rcases C08_context_agrees exFp exParams8 exDpf hc exEnv exKey exCtx2 exHist2 (.uint .w8) 2 [60, 3, 60]
      with e | e
    · rw [e] at h1; simp at h1
    · rw [← e]; exact h1
  · rcases C08_context_agrees exFp exParams8 exDpf hc exEnv exKey exCtx2 exHist2 (.uint .w8) 0 [6]
      with e | e
    · rw [e] at h2; simp at h2
    · rw [← e]; exact h2

/-! ## C09 -/

/-- C09: bad arguments of `EvaluateAt` are rejected with INVALID_ARGUMENT, for every key message. -/
theorem C09_rejects (fp : FpEnv) (params : List DpfParameters) (d : Dpf)
    (hcr : Created fp params d) (env : Env) (S : Ty) (key : DpfKey) (h : Int) (points : List U128)
    (hbad : h < 0 ∨ (params.length : Int) ≤ h ∨ (∃ x ∈ points, 2 ^ logSize params h.toNat ≤ x.toNat) ∨
      ¬ WellFormedKey d key) :
    d.evaluateAt env S.helper key h points = err .invalidArgument := by
  have wf := hcr.wf
  rcases wf.checkEvaluateAt_cases key h points with ⟨hN, rfl, hh, hk, hp⟩ | he
  rotate_left
  · unfold Dpf.evaluateAt
    rw [he]; rfl
  exfalso
  rw [hcr.n_eq] at hh
  rcases hbad with h1 | h1 | ⟨x, hx, h1⟩ | h1
  · omega
  · omega
  · have := hp x hx
    rw [Int.toNat_natCast, ← hcr.logAt_eq] at h1
    omega
  · exact h1 ((wf.wellFormedKey_iff key).mpr hk)

/-- C09: no points, no values. -/
theorem C09_empty (fp : FpEnv) (params : List DpfParameters) (d : Dpf)
    (hcr : Created fp params d) (env : Env) (S : Ty) (key : DpfKey) (hkey : WellFormedKey d key)
    (h : Nat) (hh : h < params.length) : d.evaluateAt env S.helper key h [] = ok [] := by
  have wf := hcr.wf
  unfold Dpf.evaluateAt
  rw [wf.checkEvaluateAt_ok ((wf.wellFormedKey_iff key).mp hkey) (by rw [hcr.n_eq]; exact hh) (by simp),
    bind_ok, if_pos rfl]

/-- C09: with the level's type, `EvaluateAt` returns values or INVALID_ARGUMENT for every key message
(generated or not), level and list of points; it never runs into undefined behaviour or an abort. A
successful call returns one value per point. -/
theorem C09_safe (fp : FpEnv) (params : List DpfParameters) (T : Nat → Ty) (d : Dpf)
    (hs : Setup fp params T d) (env : Env) (key : DpfKey) (h : Int) (points : List U128) :
    (∃ vals, d.evaluateAt env (T h.toNat).helper key h points = ok vals ∧
      vals.length = points.length) ∨
    d.evaluateAt env (T h.toNat).helper key h points = err .invalidArgument := by
  have wf := hs.wf
  rcases wf.checkEvaluateAt_cases key h points with ⟨hN, rfl, hh, hk, hp⟩ | he
  rotate_left
  · right
    unfold Dpf.evaluateAt
    rw [he]; rfl
  rw [Int.toNat_natCast, wf.evaluateAt_ok env hk hh (hs.typedAt hh) hp]
  split
  · rename_i e
    subst e
    exact Or.inl ⟨[], rfl, rfl⟩
  · rcases wf.getValueCorrection_cases hk hh (T hN) with ⟨corr, hc⟩ | hc
    · left
      rw [hc, bind_ok]
      exact ⟨_, rfl, by simp⟩
    · right; rw [hc]; rfl

/-- C09 on the example: an arbitrary key, at a level that does not exist and at one that does. -/
example (key : DpfKey) : exDpf.evaluateAt exEnv (Ty.uint .w8).helper key 7 [5] ≠ ub ∧
    exDpf.evaluateAt exEnv (Ty.uint .w8).helper key 1 [5, 200] ≠ crash := by
  constructor
  · rcases C09_safe exFp exParams8 (fun _ => .uint .w8) exDpf exDpf_setup exEnv key 7 [5] with ⟨v, h, _⟩ | h <;>
      rw [h] <;> simp
  · rcases C09_safe exFp exParams8 (fun _ => .uint .w8) exDpf exDpf_setup exEnv key 1 [5, 200] with ⟨v, h, _⟩ | h <;>
      rw [h] <;> simp

/-- C09 on the example: point 32 is outside the second level; an empty key is malformed. -/
example : exDpf.evaluateAt exEnv (Ty.uint .w8).helper exKey 1 [5, 32] = err .invalidArgument ∧
    exDpf.evaluateAt exEnv (Ty.uint .w8).helper DpfKey.default 1 [5] = err .invalidArgument ∧
    WellFormedKey exDpf exKey := by
  have hc := exDpf_setup.toCreated
  refine ⟨C09_rejects exFp exParams8 exDpf hc exEnv (.uint .w8) exKey 1 _
      (Or.inr (Or.inr (Or.inl ⟨32, by simp, by decide⟩))),
    C09_rejects exFp exParams8 exDpf hc exEnv (.uint .w8) _ 1 _
      (Or.inr (Or.inr (Or.inr fun h => h.seed rfl))), ?_⟩
  exact (hc.wf.wellFormedKey_iff exKey).mpr (hc.wf.history exEnv exHist0).keyOk

/-- C09 on the example: no points, no values. -/
example : exDpf.evaluateAt exEnv (Ty.xorWrapper .w16).helper exKey (2 : Nat) [] = ok [] := by
  have hc := exDpf_setup.toCreated
  exact C09_empty exFp exParams8 exDpf hc exEnv (.xorWrapper .w16) exKey
    ((hc.wf.wellFormedKey_iff exKey).mpr (hc.wf.history exEnv exHist0).keyOk) 2 (by decide)

end Verif
