import Verif.Lemmas.OtherType
import Verif.Props.Dcf
import Verif.Props.Safety
/-!
# C84: evaluating a key as another type

`EvaluateUntil<T>` compares `T` with the value type of the level (C06). `EvaluateAt<T>`, `EvaluateAndApply<T>` and
`DistributedComparisonFunction::Evaluate<T>` do not; what they notice is that the value corrections of the key do not
have the form or the number of values of `T`.
-/
namespace Verif
open Res Spec

/-- C84, `EvaluateAt`: a key that evaluates as `T` is rejected, at all points, as any type of another form or with
another number of elements in a block. -/
theorem C84_evaluateAt_partial (fp : FpEnv) (params : List DpfParameters) (d : Dpf) (hd : Created fp params d)
    (env : Env) (T S : Ty) (key : DpfKey) (h : Int) (points points' : List U128) (vals : List T.den)
    (hne : points ≠ []) (hv : d.evaluateAt env T.helper key h points = ok vals)
    (hS : formOf S ≠ formOf T ∨ perBlock S ≠ perBlock T) (hne' : points' ≠ []) :
    d.evaluateAt env S.helper key h points' = err .invalidArgument := by
  have wf := hd.wf
  obtain ⟨hN, rfl, hh, hk, corr, hc⟩ := wf.evaluateAt_corr hne hv
  have hc' := wf.getValueCorrection_other hk hh hc hS
  rcases wf.checkEvaluateAt_cases key hN points' with ⟨hN', e, _, _, hp⟩ | he
  · obtain rfl : hN = hN' := by omega
    exact wf.evaluateAt_undecodable env hk hh hc' hne' hp
  · unfold Dpf.evaluateAt
    rw [he]; rfl

/-- C84 for keys of unsigned integers and of XOR-shared integers: every other type is rejected. -/
theorem C84_integers (fp : FpEnv) (params : List DpfParameters) (d : Dpf) (hd : Created fp params d)
    (env : Env) (T S : Ty) (w : Width) (hT : T = .uint w ∨ T = .xorWrapper w) (hS : S ≠ T) (key : DpfKey) (h : Int)
    (points points' : List U128) (vals : List T.den)
    (hne : points ≠ []) (hv : d.evaluateAt env T.helper key h points = ok vals) (hne' : points' ≠ []) :
    d.evaluateAt env S.helper key h points' = err .invalidArgument := by
  refine C84_evaluateAt_partial fp params d hd env T S key h points points' vals hne hv ?_ hne'
  by_cases hf : formOf S = formOf T
  · refine Or.inr fun hp => hS ?_
    rcases hT with rfl | rfl
    · exact eq_uint hf hp
    · exact eq_xorWrapper hf hp
  · exact Or.inl hf

/-- C84 with a context: the same for `EvaluateAt` with a context that holds the key. -/
theorem C84_context_partial (fp : FpEnv) (params : List DpfParameters) (d : Dpf) (hd : Created fp params d)
    (env : Env) (T S : Ty) (key : DpfKey) (ctx : EvaluationContext) (hc : History d env key ctx) (h : Int)
    (points points' : List U128) (vals : List T.den)
    (hne : points ≠ []) (hv : d.evaluateAt env T.helper key h points = ok vals)
    (hS : formOf S ≠ formOf T ∨ perBlock S ≠ perBlock T) (hne' : points' ≠ []) :
    (d.evaluateAtCtx env S.helper h points' ctx).1 = err .invalidArgument := by
  have wf := hd.wf
  have hctx := wf.history env hc
  obtain ⟨hN, rfl, hh, hk, corr, hcorr⟩ := wf.evaluateAt_corr hne hv
  exact wf.evaluateAtCtx_undecodable env hctx.pel
    (by rw [hctx.keyD]; exact wf.getValueCorrection_other hk hh hcorr hS) hne'

/-- C84, all other types: the call never reads out of bounds. It gives values, INVALID_ARGUMENT, or it aborts, and this
only if the type needs more pseudorandom bytes than reserved for the level. -/
theorem C84_outcomes (fp : FpEnv) (params : List DpfParameters) (T : Nat → Ty) (d : Dpf)
    (hs : Setup fp params T d) (env : Env) (S : Ty) (key : DpfKey) (h : Nat)
    (points points' : List U128) (vals : List (T h).den)
    (hne : points ≠ []) (hv : d.evaluateAt env (T h).helper key h points = ok vals) :
    (∃ ys, d.evaluateAt env S.helper key h points' = ok ys) ∨
    d.evaluateAt env S.helper key h points' = err .invalidArgument ∨
    (d.evaluateAt env S.helper key h points' = crash ∧
      ∃ k, d.blocksNeeded[h]? = some k ∧ (T h).bytesRead ≤ 16 * k ∧ 16 * k < S.bytesRead) := by
  have wf := hs.wf
  obtain ⟨hN, e, hh, hk, corr, hc⟩ := wf.evaluateAt_corr hne hv
  obtain rfl : h = hN := by omega
  rcases wf.checkEvaluateAt_cases key h points' with ⟨hN', e, _, _, hp⟩ | he
  rotate_left
  · right; left
    unfold Dpf.evaluateAt
    rw [he]; rfl
  obtain rfl : h = hN' := by omega
  by_cases hne' : points' = []
  · left
    refine ⟨[], ?_⟩
    unfold Dpf.evaluateAt
    rw [wf.checkEvaluateAt_ok hk hh hp, bind_ok, if_pos hne']
  rcases wf.getValueCorrection_cases hk hh S with ⟨c, hcS⟩ | hcS
  rotate_left
  · exact Or.inr (Or.inl (wf.evaluateAt_undecodable env hk hh hcS hne' hp))
  have hpb : perBlock S = perBlock (T h) := by
    have h1 := hc
    have h2 := hcS
    rw [Dpf.getValueCorrection_unfold] at h1 h2
    obtain ⟨vs, e1, h1⟩ := bind_eq_ok.mp h1
    rw [e1, bind_ok] at h2
    exact (valuesToArray_both h1 h2).2
  have ht := hs.typedAt hh
  by_cases hb : 16 * d.blocksAt h < S.bytesRead
  · refine Or.inr (Or.inr ⟨wf.evaluateAt_short env hk hh hcS hb hne' hp, d.blocksAt h, ?_, ht.fits, hb⟩)
    have hlt : h < d.blocksNeeded.length := by rw [wf.len_blocks]; exact hh
    rw [Dpf.blocksAt, List.getElem?_eq_getElem hlt, getD_eq_getElem _ _ _ hlt]
  · left
    have hz : d.SizedAt h S := ⟨by omega, by
      have := ht.elems
      rw [perBlock_eq] at this ⊢
      rw [hpb]; exact this⟩
    rw [wf.evaluateAt_sized env hk hh hz hp, if_neg hne', hcS, bind_ok]
    exact ⟨_, rfl⟩

/-- C84, `EvaluateAndApply`: if the first key evaluates as `T` at the first level, then as a type `S` of another form
or with another number of elements the call fails and never invokes the callback. It aborts instead of returning an
error only if the type needs more pseudorandom bytes than reserved for the level. -/
theorem C84_apply_partial (fp : FpEnv) (params : List DpfParameters) (d : Dpf) (hd : Created fp params d)
    (env : Env) (T S : Ty) (key : DpfKey) (keys : List DpfKey) (points points' : List U128) (vals : List T.den)
    (hne : points ≠ []) (hv : d.evaluateAt env T.helper key 0 points = ok vals)
    (hS : formOf S ≠ formOf T ∨ perBlock S ≠ perBlock T) (r : Nat) (hr : r + lastLogSize params < 2 ^ 31)
    {σ : Type} (op : σ → List S.den → Bool × σ) (s : σ) :
    d.evaluateAndApply env S.helper (key :: keys) points' op s (r : Int) = (err .invalidArgument, s) ∨
    ((∃ k, d.blocksNeeded[0]? = some k ∧ 16 * k < S.bytesRead) ∧
      d.evaluateAndApply env S.helper (key :: keys) points' op s (r : Int) = (crash, s)) := by
  have wf := hd.wf
  obtain ⟨hN, e, hh, hk, corr, hc⟩ := wf.evaluateAt_corr hne hv
  obtain rfl : hN = 0 := by omega
  rcases wf.evaluateAndApply_undecodable env (keys := keys) (points := points')
    (wf.getValueCorrection_other hk hh hc hS) r (by rw [hd.lastLog]; exact hr) op s with h | ⟨hb, h⟩
  · exact Or.inl h
  · refine Or.inr ⟨⟨d.blocksAt 0, ?_, hb⟩, h⟩
    have hlt : 0 < d.blocksNeeded.length := by rw [wf.len_blocks]; exact hh
    rw [Dpf.blocksAt, List.getElem?_eq_getElem hlt, getD_eq_getElem _ _ _ hlt]

/-- C84, DCF: the same for `Evaluate` of a distributed comparison function. -/
theorem C84_dcf_partial (fp : FpEnv) (p : DpfParameters) (T S : Ty) (c : Dcf) (hs : DcfSetup fp p T c) (env : Env)
    (key : DcfKey) (x x' : U128) (v : T.den) (hv : c.evaluate env T.helper key x = ok v)
    (hS : formOf S ≠ formOf T ∨ perBlock S ≠ perBlock T) :
    c.evaluate env S.helper key x' = err .invalidArgument ∨
    ((∃ k ∈ c.dpf.blocksNeeded, 16 * k < S.bytesRead) ∧ c.evaluate env S.helper key x' = crash) := by
  obtain ⟨hk, corr, hc⟩ := hs.evaluate_corr hv
  have wf := hs.setup.wf
  have hpos := wf.pos
  have hlog := hs.log_le
  have hlp := hs.log_pos
  have hr : 1 + c.dpf.logAt (c.dpf.n - 1) < 2 ^ 31 := by
    rw [hs.n_eq, hs.logAt_eq (by omega)]; omega
  have h := wf.evaluateAndApply_undecodable env (keys := []) (points := [x'])
    (wf.getValueCorrection_other hk hpos hc hS) 1 hr
    (Dcf.accumulate S.helper c.logDomainSize 1 [x']) ⟨ok (), 0, [S.helper.zero]⟩
  generalize hg : c.dpf.evaluateAndApply env S.helper [key] [x'] (Dcf.accumulate S.helper c.logDomainSize 1 [x'])
    ⟨ok (), 0, [S.helper.zero]⟩ ((1 : Nat) : Int) = g at h
  have e : c.evaluate env S.helper key x' = ((g.1 >>= fun _ => g.2.status) >>= fun _ => rd g.2.output 0) := by
    rw [← hg]
    unfold Dcf.evaluate Dcf.batchEvaluateInto
    dsimp only
    have h3 : ¬ (((1 : Nat) : Int) < 0) := by omega
    rw [if_neg (by simp), if_neg (by simp), List.length_singleton, wrapInt32_nat (by decide), if_neg h3, Int.toNat_natCast]
    rfl
  rcases h with h | ⟨hb, h⟩
  · left
    rw [e, h]; rfl
  · right
    refine ⟨⟨c.dpf.blocksAt 0, ?_, hb⟩, by rw [e, h]; rfl⟩
    have hlt : 0 < c.dpf.blocksNeeded.length := by rw [wf.len_blocks]; exact hpos
    rw [Dpf.blocksAt, getD_eq_getElem _ _ _ hlt]
    exact List.getElem_mem _

/-! ## Examples -/

/-- One level of 2^5 elements with this type. -/
def exOtherParams (T : Ty) (log : Int) : List DpfParameters := [⟨log, some T.helper.toValueType, .val 0⟩]
/-- Its DPF. -/
def exOtherDpf (T : Ty) (log : Int) : Dpf :=
  ((Dpf.createIncremental exFp (exOtherParams T log)).getD ⟨⟨[], 0, [], []⟩, [], []⟩).registerAll [T]
/-- Generated keys. -/
def exOtherKeys (T : Ty) (log : Int) (beta : Value) : DpfKey × DpfKey :=
  ((exOtherDpf T log).generateKeysIncremental exEnv 3 [beta] 1 2).getD (DpfKey.default, DpfKey.default)

theorem exOther_setup (T : Ty) (log : Int) (hc : ∃ d, Dpf.createIncremental exFp (exOtherParams T log) = ok d)
    (hflat : T.flat = true ∨ T.noMod = true) :
    Setup exFp (exOtherParams T log) (fun _ => T) (exOtherDpf T log) := by
  obtain ⟨d, hd⟩ := hc
  refine Setup.of_flat (Ts := [T]) (d0 := (Dpf.createIncremental exFp (exOtherParams T log)).getD
    ⟨⟨[], 0, [], []⟩, [], []⟩) (by rw [hd]; rfl) ?_ (fun _ _ => Or.inl (by simp)) (fun _ _ => hflat)
  intro h p hp
  match h, hp with
  | 0, hp => simp [exOtherParams] at hp; rw [← hp]
  | h + 1, hp => simp [exOtherParams] at hp

/-- C84 on an example: keys of bytes, evaluated as 16-bit integers. -/
example : ∃ vals, (exOtherDpf (.uint .w8) 5).evaluateAt exEnv (Ty.uint .w8).helper
      (exOtherKeys (.uint .w8) 5 (.integer (.u64 7))).1 (0 : Int) [3] = ok vals ∧
    (exOtherDpf (.uint .w8) 5).evaluateAt exEnv (Ty.uint .w16).helper
      (exOtherKeys (.uint .w8) 5 (.integer (.u64 7))).1 (0 : Int) [3, 4] = err .invalidArgument := by
  have hs := exOther_setup (.uint .w8) 5 ⟨_, Res.eq_ok_getD (by decide +kernel) ⟨⟨[], 0, [], []⟩, [], []⟩⟩ (Or.inl rfl)
  have hv := Res.eq_ok_getD (r := (exOtherDpf (.uint .w8) 5).evaluateAt exEnv (Ty.uint .w8).helper
      (exOtherKeys (.uint .w8) 5 (.integer (.u64 7))).1 (0 : Int) [3]) (by decide +kernel) []
  exact ⟨_, hv, C84_integers exFp _ _ hs.toCreated exEnv (.uint .w8) (.uint .w16) .w8 (Or.inl rfl) (by simp) _ 0 [3]
    [3, 4] _ (by simp) hv (by simp)⟩

/-- C84 for `EvaluateAndApply` and both outcomes: as a pair of bytes, which fits into the reserved bytes, and as a pair of
128-bit integers, which does not. -/
example : ∃ vals, (exOtherDpf (.uint .w128) 5).evaluateAt exEnv (Ty.uint .w128).helper
      (exOtherKeys (.uint .w128) 5 (.integer (.u64 7))).1 (0 : Int) [3] = ok vals ∧
    ((exOtherDpf (.uint .w128) 5).evaluateAndApply exEnv (Ty.tuple (.cons (.uint .w8) (.one (.uint .w8)))).helper
      [(exOtherKeys (.uint .w128) 5 (.integer (.u64 7))).1] [3] (fun n _ => (true, n + 1)) 0 0) =
        (err .invalidArgument, 0) ∧
    ((exOtherDpf (.uint .w128) 5).evaluateAndApply exEnv (Ty.tuple (.cons (.uint .w128) (.one (.uint .w128)))).helper
      [(exOtherKeys (.uint .w128) 5 (.integer (.u64 7))).1] [3] (fun n _ => (true, n + 1)) 0 0) = (crash, 0) := by
  have hs := exOther_setup (.uint .w128) 5 ⟨_, Res.eq_ok_getD (by decide +kernel) ⟨⟨[], 0, [], []⟩, [], []⟩⟩
    (Or.inl rfl)
  have hv := Res.eq_ok_getD (r := (exOtherDpf (.uint .w128) 5).evaluateAt exEnv (Ty.uint .w128).helper
      (exOtherKeys (.uint .w128) 5 (.integer (.u64 7))).1 (0 : Int) [3]) (by decide +kernel) []
  have hb : (exOtherDpf (.uint .w128) 5).blocksNeeded = [1] := by decide +kernel
  have h1 := C84_apply_partial exFp _ _ hs.toCreated exEnv (.uint .w128) (.tuple (.cons (.uint .w8) (.one (.uint .w8))))
    _ [] [3] [3] _ (by simp) hv (Or.inl (by simp [formOf])) 0 (by decide) (fun n _ => (true, n + 1)) 0
  refine ⟨_, hv, ?_, ?_⟩
  · rcases h1 with h | ⟨⟨k, hk, h⟩, _⟩
    · exact h
    · rw [hb] at hk
      simp at hk
      subst hk
      exact absurd h (by decide)
  · have h : (match (exOtherDpf (.uint .w128) 5).evaluateAndApply exEnv
        (Ty.tuple (.cons (.uint .w128) (.one (.uint .w128)))).helper
        [(exOtherKeys (.uint .w128) 5 (.integer (.u64 7))).1] [3] (fun n _ => (true, n + 1)) 0 0 with
      | (.crash, 0) => true
      | _ => false) = true := by decide +kernel
    split at h <;> simp_all

/-- C84 for a DCF of pairs of a byte and a number mod 11: its keys are rejected as integers. -/
example : ∃ k0 k1 v, exDcf.generateKeys exEnv 37 (.tuple [.integer (.u64 7), .intModN (.u64 10)]) 1 2 = ok (k0, k1) ∧
    exDcf.evaluate exEnv exDcfTy.helper k0 36 = ok v ∧
    exDcf.evaluate exEnv (Ty.uint .w8).helper k0 36 = err .invalidArgument := by
  obtain ⟨k0, k1, hk, h⟩ := C27_comparison_partial exFp exDcfParams exDcfTy rfl exDcf exDcf_setup exEnv 37
    (by decide) (.tuple [.integer (.u64 7), .intModN (.u64 10)]) (7#8, ⟨10#32, by decide⟩)
    ⟨_, rfl, _, _, rfl, ⟨_, rfl, rfl⟩, _, rfl, _, rfl, rfl⟩ 1 2
  obtain ⟨v0, v1, h0, h1, hs⟩ := h 36 (by decide)
  refine ⟨k0, k1, v0, hk, h0, ?_⟩
  rcases C84_dcf_partial exFp exDcfParams exDcfTy (.uint .w8) exDcf exDcf_setup exEnv k0 36 36 v0 h0
    (Or.inl (by simp [formOf, exDcfTy])) with h | ⟨⟨k, hk, hb⟩, _⟩
  · exact h
  · have h1 : ∀ k ∈ exDcf.dpf.blocksNeeded, 1 ≤ k := by decide +kernel
    have h2 := h1 k hk
    have h3 : (Ty.uint .w8).bytesRead = 16 := by decide
    omega

/-! ## What is not noticed -/

/-- Numbers modulo 11 and modulo 13. -/
def exMod11 : Ty := .intModN .w32 11#128 (by decide) (by decide)
@[inherit_doc exMod11] def exMod13 : Ty := .intModN .w32 13#128 (by decide) (by decide)

theorem Res.eq_ok_single {α : Type} {r : Res (List α)} (h : (r.getD []).length = 1) (a : α) :
    r = ok [(r.getD []).headD a] := by
  cases r with
  | ok l => match l, h with
    | [x], _ => rfl
  | err c => simp [Res.getD] at h
  | ub => simp [Res.getD] at h
  | crash => simp [Res.getD] at h

/-- C84 is false of the code for another modulus: the keys of 5 modulo 11 evaluate modulo 13, at alpha, to shares of
another number. -/
theorem C84_modulus_refuted : ∃ (fp : FpEnv) (params : List DpfParameters) (d : Dpf) (env : Env)
    (k0 k1 : DpfKey) (v0 v1 : exMod13.den), Setup fp params (fun _ => exMod11) d ∧
    d.generateKeysIncremental env 3 [.intModN (.u64 5)] 1 2 = ok (k0, k1) ∧
    d.evaluateAt env exMod13.helper k0 0 [3] = ok [v0] ∧ d.evaluateAt env exMod13.helper k1 0 [3] = ok [v1] ∧
    (exMod13.helper.add v0 v1).1.toNat ≠ 5 := by
  refine ⟨exFp, exOtherParams exMod11 5, exOtherDpf exMod11 5, exEnv, (exOtherKeys exMod11 5 (.intModN (.u64 5))).1,
    (exOtherKeys exMod11 5 (.intModN (.u64 5))).2,
    (((exOtherDpf exMod11 5).evaluateAt exEnv exMod13.helper (exOtherKeys exMod11 5 (.intModN (.u64 5))).1 0
      [3]).getD []).headD exMod13.helper.zero,
    (((exOtherDpf exMod11 5).evaluateAt exEnv exMod13.helper (exOtherKeys exMod11 5 (.intModN (.u64 5))).2 0
      [3]).getD []).headD exMod13.helper.zero, ?_, ?_, ?_, ?_, ?_⟩
  · exact exOther_setup exMod11 5 ⟨_, Res.eq_ok_getD (by decide +kernel) ⟨⟨[], 0, [], []⟩, [], []⟩⟩ (Or.inl rfl)
  · exact Res.eq_ok_getD (by decide +kernel) (DpfKey.default, DpfKey.default)
  · exact Res.eq_ok_single (by decide +kernel) _
  · exact Res.eq_ok_single (by decide +kernel) _
  · decide +kernel

/-- Three 64-bit integers, and two 128-bit integers with a 64-bit integer between. -/
def exTriple : Ty := .tuple (.cons (.uint .w64) (.cons (.uint .w64) (.one (.uint .w64))))
@[inherit_doc exTriple] def exTriple' : Ty := .tuple (.cons (.uint .w128) (.cons (.uint .w64) (.one (.uint .w128))))

/-- C84 is false of the code for tuples of wider integers: `EvaluateAt` aborts. -/
theorem C84_abort_refuted : ∃ (fp : FpEnv) (params : List DpfParameters) (d : Dpf) (env : Env)
    (k0 k1 : DpfKey), Setup fp params (fun _ => exTriple) d ∧
    d.generateKeysIncremental env 3 [.tuple [.integer (.u64 5), .integer (.u64 6), .integer (.u64 7)]] 1 2 =
      ok (k0, k1) ∧ d.evaluateAt env exTriple'.helper k0 0 [3] = crash := by
  refine ⟨exFp, exOtherParams exTriple 5, exOtherDpf exTriple 5, exEnv,
    (exOtherKeys exTriple 5 (.tuple [.integer (.u64 5), .integer (.u64 6), .integer (.u64 7)])).1,
    (exOtherKeys exTriple 5 (.tuple [.integer (.u64 5), .integer (.u64 6), .integer (.u64 7)])).2, ?_, ?_, ?_⟩
  · exact exOther_setup exTriple 5 ⟨_, Res.eq_ok_getD (by decide +kernel) ⟨⟨[], 0, [], []⟩, [], []⟩⟩ (Or.inl rfl)
  · exact Res.eq_ok_getD (by decide +kernel) (DpfKey.default, DpfKey.default)
  · have h : (match (exOtherDpf exTriple 5).evaluateAt exEnv exTriple'.helper
        (exOtherKeys exTriple 5 (.tuple [.integer (.u64 5), .integer (.u64 6), .integer (.u64 7)])).1 0 [3] with
      | .crash => true
      | _ => false) = true := by decide +kernel
    split at h <;> simp_all

/-- C84 is false of the code for keys of another DPF: a DPF of bytes on 2^5 points accepts a key of a DPF of 64-bit
integers on 2^2 points, which has the same number of correction words. Evaluating it as 64-bit integers reads
beyond the elements of a block. -/
theorem C84_key_refuted : ∃ (fp : FpEnv) (params params' : List DpfParameters) (d d' : Dpf) (env : Env)
    (k0 k1 : DpfKey), Setup fp params (fun _ => .uint .w8) d ∧ Setup fp params' (fun _ => .uint .w64) d' ∧
    d'.generateKeysIncremental env 3 [.integer (.u64 7)] 1 2 = ok (k0, k1) ∧
    d.evaluateAt env (Ty.uint .w64).helper k0 0 [31] = ub := by
  refine ⟨exFp, exOtherParams (.uint .w8) 5, exOtherParams (.uint .w64) 2, exOtherDpf (.uint .w8) 5,
    exOtherDpf (.uint .w64) 2, exEnv, (exOtherKeys (.uint .w64) 2 (.integer (.u64 7))).1,
    (exOtherKeys (.uint .w64) 2 (.integer (.u64 7))).2, ?_, ?_, ?_, ?_⟩
  · exact exOther_setup _ 5 ⟨_, Res.eq_ok_getD (by decide +kernel) ⟨⟨[], 0, [], []⟩, [], []⟩⟩ (Or.inl rfl)
  · exact exOther_setup _ 2 ⟨_, Res.eq_ok_getD (by decide +kernel) ⟨⟨[], 0, [], []⟩, [], []⟩⟩ (Or.inl rfl)
  · exact Res.eq_ok_getD (by decide +kernel) (DpfKey.default, DpfKey.default)
  · have h : (match (exOtherDpf (.uint .w8) 5).evaluateAt exEnv (Ty.uint .w64).helper
        (exOtherKeys (.uint .w64) 2 (.integer (.u64 7))).1 0 [31] with
      | .ub => true
      | _ => false) = true := by decide +kernel
    split at h <;> simp_all

/-- C84 on examples: `EvaluateAt` with and without a context, and what can happen with another type. -/
example : (exOtherDpf (.uint .w8) 5).evaluateAt exEnv (Ty.uint .w64).helper
    (exOtherKeys (.uint .w8) 5 (.integer (.u64 7))).1 (0 : Nat) [3, 4] = err .invalidArgument ∧
    (∀ ctx, History (exOtherDpf (.uint .w8) 5) exEnv (exOtherKeys (.uint .w8) 5 (.integer (.u64 7))).1 ctx →
      ((exOtherDpf (.uint .w8) 5).evaluateAtCtx exEnv (Ty.uint .w64).helper (0 : Nat) [3, 4] ctx).1 = err .invalidArgument) ∧
    ((∃ ys, (exOtherDpf (.uint .w8) 5).evaluateAt exEnv exTriple.helper
        (exOtherKeys (.uint .w8) 5 (.integer (.u64 7))).1 (0 : Nat) [3, 4] = ok ys) ∨
      (exOtherDpf (.uint .w8) 5).evaluateAt exEnv exTriple.helper
        (exOtherKeys (.uint .w8) 5 (.integer (.u64 7))).1 (0 : Nat) [3, 4] = err .invalidArgument ∨
      (exOtherDpf (.uint .w8) 5).evaluateAt exEnv exTriple.helper
        (exOtherKeys (.uint .w8) 5 (.integer (.u64 7))).1 (0 : Nat) [3, 4] = crash) := by
  have hs := exOther_setup (.uint .w8) 5 ⟨_, Res.eq_ok_getD (by decide +kernel) ⟨⟨[], 0, [], []⟩, [], []⟩⟩ (Or.inl rfl)
  have hv := Res.eq_ok_getD (r := (exOtherDpf (.uint .w8) 5).evaluateAt exEnv (Ty.uint .w8).helper
      (exOtherKeys (.uint .w8) 5 (.integer (.u64 7))).1 (0 : Nat) [3]) (by decide +kernel) []
  refine ⟨C84_evaluateAt_partial exFp _ _ hs.toCreated exEnv (.uint .w8) (.uint .w64) _ _ [3] [3, 4] _ (by simp) hv
      (.inr (by decide +kernel)) (by simp),
    fun ctx hc => C84_context_partial exFp _ _ hs.toCreated exEnv (.uint .w8) (.uint .w64) _ ctx hc _ [3] [3, 4] _ (by simp) hv
      (.inr (by decide +kernel)) (by simp), ?_⟩
  rcases C84_outcomes exFp _ _ _ hs exEnv exTriple _ 0 [3] [3, 4] _ (by simp) hv with h | h | h
  · exact .inl h
  · exact .inr (.inl h)
  · exact .inr (.inr h.1)

end Verif
