import Verif.Props.Work
import Verif.Props.Mic
import Verif.Props.Apply
/-!
# C97: how much is computed for many keys, comparison functions and gates
-/
namespace Verif
open Res Spec

/-- C97 for `EvaluateAndApply` with a callback that does not stop it: the calls depend on the number of keys. -/
theorem C97_evaluateAndApply (fp : FpEnv) (params : List DpfParameters) (T : Nat → Ty) (d : Dpf)
    (hs : Setup fp params T d) (depth : Nat → Nat) (hd : IsDepth params T depth) (env : Env) (vector : Option Nat)
    (hp : UsesVectors env vector) (S : Ty) {σ : Type} (keys : List DpfKey) (hne : keys ≠ []) (points : List U128)
    (op : σ → List S.den → Bool × σ) (hop : ∀ s values, (op s values).1 = true) (s s' : σ) (r : Nat)
    (he : d.evaluateAndApply env S.helper keys points op s r = (ok (), s')) :
    MakesCallsOn (d.evaluateAndApplyF env S.helper keys points op s r)
      (applyCalls vector keys.length params.length depth (blocksOf d)) () s' := by
  have h := hs.wf.evaluateAndApply_costs hp S.helper hne r op (fun _ => True)
    (fun s v e => by rw [hop s v] at e; exact nomatch e) s s' trivial he
  rw [hs.toCreated.n_eq] at h
  rw [applyCalls_congr (fun h hh => (hs.isDepth.unique hd h hh).symm) (fun _ _ => rfl)]
  exact h

/-- C97 on an example: three keys at four levels. -/
example : ∃ values, MakesCallsOn (exDpf.evaluateAndApplyF exEnv (Ty.uint .w8).helper [exKey, exKey, exKey] [400, 35, 7]
      (fun s v => (true, s ++ [v])) [] 0) 22 () values := by
  obtain ⟨s', h1⟩ : ∃ s', exDpf.evaluateAndApply exEnv (Ty.uint .w8).helper [exKey, exKey, exKey] [400, 35, 7]
      (fun s v => (true, s ++ [v])) [] ((0 : Nat) : Int) = (ok (), s') := ⟨_, eq_pair (by decide +kernel)⟩
  have c := C97_evaluateAndApply _ _ _ _ exDpf_setup _ exDepths8_eq exEnv none (fun _ _ _ _ _ => rfl)
    (.uint .w8) [exKey, exKey, exKey] (by simp) [400, 35, 7] (fun s v => (true, s ++ [v])) (fun _ _ => rfl) [] s' 0 h1
  have e : applyCalls none [exKey, exKey, exKey].length exParams8.length exDepths8 (blocksOf exDpf) = 22 := by
    decide +kernel
  rw [e] at c
  exact ⟨_, c⟩

/-- C97 on an example: the same with vectors of two blocks. -/
example : ∃ values, MakesCallsOn (exDpf.evaluateAndApplyF exHwyEnv (Ty.uint .w8).helper [exKey, exKey, exKey]
      [400, 35, 7] (fun s v => (true, s ++ [v])) [] 0) 21 () values := by
  obtain ⟨s', h1⟩ : ∃ s', exDpf.evaluateAndApply exHwyEnv (Ty.uint .w8).helper [exKey, exKey, exKey] [400, 35, 7]
      (fun s v => (true, s ++ [v])) [] ((0 : Nat) : Int) = (ok (), s') := ⟨_, eq_pair (by decide +kernel)⟩
  have c := C97_evaluateAndApply _ _ _ _ exDpf_setup _ exDepths8_eq exHwyEnv (some 2)
    ⟨by decide, fun _ _ _ _ _ => ⟨_, rfl, rfl, rfl⟩⟩
    (.uint .w8) [exKey, exKey, exKey] (by simp) [400, 35, 7] (fun s v => (true, s ++ [v])) (fun _ _ => rfl) [] s' 0 h1
  have e : applyCalls (some 2) [exKey, exKey, exKey].length exParams8.length exDepths8 (blocksOf exDpf) = 21 := by
    decide +kernel
  rw [e] at c
  exact ⟨_, c⟩

/-- C97 for evaluating comparison functions: the calls depend on the number of keys, and not on the keys or the
points. -/
theorem C97_dcf_batchEvaluate (fp : FpEnv) (p : DpfParameters) (T : Ty) (c : Dcf) (hs : DcfSetup fp p T c) (env : Env)
    (vector : Option Nat) (hp : UsesVectors env vector) (S : Ty) (keys : List DcfKey) (hne : keys ≠ [])
    (points : List U128) (values : List S.den) (he : c.batchEvaluate env S.helper keys points = ok values) :
    MakesCalls (c.batchEvaluateF env S.helper keys points)
      (applyCalls vector keys.length p.logDomainSize.toNat (fun h => h) (blocksOf c.dpf)) values := by
  have h := Dcf.batchEvaluate_costs hs.setup.wf hp S.helper hne points values he
  have hn : c.dpf.n = p.logDomainSize.toNat := by rw [hs.setup.toCreated.n_eq, Dcf.dpfParameters_length]
  rw [hn, applyCalls_congr (fun h hh => hs.treeAt_eq hh) (fun _ _ => rfl)] at h
  exact h

@[inherit_doc C97_dcf_batchEvaluate]
theorem C97_dcf_evaluate (fp : FpEnv) (p : DpfParameters) (T : Ty) (c : Dcf) (hs : DcfSetup fp p T c) (env : Env)
    (vector : Option Nat) (hp : UsesVectors env vector) (S : Ty) (key : DcfKey) (x : U128) (value : S.den)
    (he : c.evaluate env S.helper key x = ok value) :
    MakesCalls (c.evaluateF env S.helper key x)
      (applyCalls vector 1 p.logDomainSize.toNat (fun h => h) (blocksOf c.dpf)) value := by
  have h := Dcf.evaluate_costs hs.setup.wf hp S.helper key x value he
  have hn : c.dpf.n = p.logDomainSize.toNat := by rw [hs.setup.toCreated.n_eq, Dcf.dpfParameters_length]
  rw [hn, applyCalls_congr (fun h hh => hs.treeAt_eq hh) (fun _ _ => rfl)] at h
  exact h

/-- C97 on an example: the shares of one party at two points. -/
example : ∃ k0 k1 v w, exDcf.generateKeys exEnv 37 (.tuple [.integer (.u64 7), .intModN (.u64 10)]) 1 2 = ok (k0, k1) ∧
    MakesCalls (exDcf.evaluateF exEnv exDcfTy.helper k0 36) 28 v ∧
    MakesCalls (exDcf.evaluateF exEnv exDcfTy.helper k0 52) 28 w := by
  obtain ⟨k0, k1, hk, h⟩ := C27_comparison_partial exFp exDcfParams exDcfTy rfl exDcf exDcf_setup exEnv 37
    (by decide) (.tuple [.integer (.u64 7), .intModN (.u64 10)]) (7#8, ⟨10#32, by decide⟩)
    ⟨_, rfl, _, _, rfl, ⟨_, rfl, rfl⟩, _, rfl, _, rfl, rfl⟩ 1 2
  obtain ⟨v, _, hv, _⟩ := h 36 (by decide)
  obtain ⟨w, _, hw, _⟩ := h 52 (by decide)
  have e : applyCalls none 1 exDcfParams.logDomainSize.toNat (fun h => h) (blocksOf exDcf.dpf) = 28 := by decide +kernel
  have c1 := C97_dcf_evaluate _ _ _ _ exDcf_setup exEnv none (fun _ _ _ _ _ => rfl) exDcfTy k0 36 v hv
  have c2 := C97_dcf_evaluate _ _ _ _ exDcf_setup exEnv none (fun _ _ _ _ _ => rfl) exDcfTy k0 52 w hw
  rw [e] at c1 c2
  exact ⟨k0, k1, v, w, hk, c1, c2⟩

/-- C97 for evaluating gates: two arrays, and a comparison function for each bound of each interval and each key. The
calls do not depend on the keys, the inputs, or the bounds. -/
theorem C97_mic_batchEval (fp : FpEnv) (params : MicParameters) (g : Mic) (hs : MicSetup fp params g) (env : Env)
    (vector : Option Nat) (hp : UsesVectors env vector) (keys : List MicKey) (hne : keys ≠ [])
    (hi : params.intervals ≠ []) (points : List U128) (values : List U128)
    (he : g.batchEval env keys points = ok values) :
    MakesCalls (g.batchEvalF env keys points)
      (2 + 2 * applyCalls vector (keys.length * params.intervals.length) params.logGroupSize.toNat (fun h => h)
        (fun _ => 1)) values := by
  have hd := hs.dcfSetup
  have hn : g.dcf.dpf.n = params.logGroupSize.toNat := by
    rw [hd.setup.toCreated.n_eq, Dcf.dpfParameters_length]; rfl
  have hblocks : ∀ h < params.logGroupSize.toNat, g.dcf.dpf.blocksAt h = 1 := by
    intro h hh
    obtain ⟨d0, Ts, hc, e, _⟩ := hd.setup.created
    obtain ⟨_, h1, _⟩ := createIncremental_spec hc
    obtain ⟨h2, h3⟩ := mapRes_eq_ok.mp h1
    have hl : h < (Dcf.dpfParameters (Mic.dcfParams params)).length := by
      rw [Dcf.dpfParameters_length]; exact hh
    have h4 := h3 h hl (by omega)
    unfold Dpf.blocksAt
    rw [e, (d0.registerAll_pv Ts).2, getD_eq_getElem _ _ _ (by omega)]
    rw [(Dcf.dpfParameters_get (List.getElem?_eq_getElem hl)).2] at h4
    exact (ok.inj (show ok 1 = ok _ from h4)).symm
  have h := Mic.batchEval_costs hd.setup.wf hp hne (by rw [hs.params_eq]; exact hi) points values he
  have htree : ∀ h < params.logGroupSize.toNat, g.dcf.dpf.treeAt h = h := fun h hh => hd.treeAt_eq hh
  rw [hn, applyCalls_congr htree hblocks, hs.params_eq] at h
  exact h

/-- C97 on an example: a gate with two intervals, evaluated by one party. -/
example : ∃ k0 k1 g' ys, exMic.gen exEnv 60 [5, 63] 1 2 (fun i => BitVec.ofNat 128 i) = (ok (k0, k1), g') ∧
    MakesCalls (g'.batchEvalF exEnv [k0] [6]) 58 ys := by
  obtain ⟨k0, k1, g', hg, hs, h⟩ := C30_containment_partial exFp exMicParams exMic exMic_setup
    (show (2 : Nat) < 2 ^ 31 by decide) exEnv 60 (by decide) [5, 63] rfl (by
      intro r hr
      simp only [List.mem_cons, List.not_mem_nil, or_false] at hr
      rcases hr with rfl | rfl <;> decide) 1 2 (fun i => BitVec.ofNat 128 i)
  obtain ⟨ys0, ys1, h0, _⟩ := h 10 6 (by decide) (by decide)
  have c := C97_mic_batchEval _ _ _ hs exEnv none (fun _ _ _ _ _ => rfl) [k0] (by simp) (by decide) [6] ys0 h0
  have e : 2 + 2 * applyCalls none ([k0].length * exMicParams.intervals.length) exMicParams.logGroupSize.toNat
      (fun h => h) (fun _ => 1) = 58 := by
    rw [List.length_singleton]; decide +kernel
  rw [e] at c
  exact ⟨k0, k1, g', ys0, hg, c⟩

end Verif
