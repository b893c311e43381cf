import Verif.Lemmas.KeySpan
import Verif.Props.Mic
/-!
# C86: keys by value and by pointer
-/
namespace Verif
open Res Spec

/-- C86, `EvaluateAndApply`: for a span that refers to `keys`, by value or by pointer, the call does the same as for the
list of keys, for every callback that does not write to the evaluation points. -/
theorem C86_apply {α σ : Type} (d : Dpf) (env : Env) (H : Helper α) (span : KeySpan DpfKey) (keys : List DpfKey)
    (hk : Refers span keys) (points : σ → List U128) (op : σ → List α → Bool × σ)
    (ho : ∀ s v, points (op s v).2 = points s) (s : σ) (r : Int) :
    d.evaluateAndApplySpan env H span points op s r = d.evaluateAndApply env H keys (points s) op s r := by
  unfold Dpf.evaluateAndApplySpan Dpf.evaluateAndApply
  rw [refers_size hk, validateSpan_refers d hk]
  congr 1
  funext _
  cases mapRes d.pv.validateDpfKey keys with
  | ok us =>
    simp only [bind_ok, Dpf.keep]
    cases rd d.pv.hierarchyToTree 0 <;> try rfl
    exact applyLoopReading_eq d env H keys points r op ho _ _ _
  | err => rfl
  | ub => rfl
  | crash => rfl

theorem dcf_span {α : Type} (c : Dcf) (env : Env) (H : Helper α) (span : KeySpan DcfKey) (keys : List DcfKey)
    (hk : Refers span keys) (points : List U128) (output : List α) :
    c.batchEvaluateSpanInto env H span points output = c.batchEvaluateInto env H keys points output := by
  unfold Dcf.batchEvaluateSpanInto Dcf.batchEvaluateInto
  rw [refers_size hk]
  split
  · rfl
  split
  · rfl
  split
  · rfl
  have hn : (wrapInt32 (keys.length : Int)).toNat ≤ keys.length := by unfold wrapInt32; omega
  dsimp only
  rw [mapRes_get_take hk hn]
  unfold Dcf.batchRun
  show (_ : Res Unit × List α) = _
  dsimp only [Dpf.keep]
  rw [C86_apply c.dpf env H _ _ (Refers.pointers _) (fun _ => points) _ (fun _ _ => rfl)]

/-- C86, comparison functions: `BatchEvaluate` gives the same status and the same outputs for keys by value and by
pointer. -/
theorem C86_dcf {α : Type} (c : Dcf) (env : Env) (H : Helper α) (span : KeySpan DcfKey) (keys : List DcfKey)
    (hk : Refers span keys) (points : List U128) :
    (∀ output : List α, c.batchEvaluateSpanInto env H span points output = c.batchEvaluateInto env H keys points output) ∧
    c.batchEvaluateSpan env H span points = c.batchEvaluate env H keys points := by
  refine ⟨dcf_span c env H span keys hk points, ?_⟩
  unfold Dcf.batchEvaluateSpan Dcf.batchEvaluate
  rw [refers_size hk, dcf_span c env H span keys hk]

theorem cellsSpan_refers {span : KeySpan MicKey} {keys : List MicKey} (hk : Refers span keys) (points : List U128)
    (hlen : keys.length = points.length) (m : Nat) :
    Mic.cellsSpan span points m = ok (Mic.cells keys points m) := by
  unfold Mic.cellsSpan Mic.cells
  have e : mapRes (fun i => rd points i >>= fun x => mapRes (fun j => span.get i >>= fun k => ok (Mic.Cell.mk k x j))
      (List.range m)) (List.range span.size) =
      ok ((keys.zip points).map fun kx => (List.range m).map fun j => Mic.Cell.mk kx.1 kx.2 j) := by
    rw [refers_size hk, mapRes_eq_ok]
    refine ⟨by simp [hlen], ?_⟩
    intro i hi hi'
    simp only [List.length_range] at hi
    rw [List.getElem_range, rd_lt (by omega), bind_ok, List.getElem_map, List.getElem_zip]
    refine mapRes_eq_ok_map fun j _ => ?_
    rw [refers_get hk i hi]; rfl
  rw [e, bind_ok, List.flatMap_def]

/-- C86, gates: `BatchEval` gives the same result for keys by value and by pointer. -/
theorem C86_mic (g : Mic) (env : Env) (span : KeySpan MicKey) (keys : List MicKey) (hk : Refers span keys)
    (points : List U128) : g.batchEvalSpan env span points = g.batchEval env keys points := by
  unfold Mic.batchEvalSpan Mic.batchEval
  rw [refers_size hk]
  by_cases hlen : keys.length ≠ points.length
  · rw [failIf_true hlen]; rfl
  rw [failIf_false hlen]
  simp only [bind_ok]
  congr 1
  funext N
  congr 1
  funext _
  split
  · rfl
  rw [cellsSpan_refers hk points (by omega), bind_ok]
  have hd : ∀ xs : List U128, g.dcf.batchEvaluateSpan env (uintHelper 128)
      (.pointers ((Mic.cells keys points g.params.intervals.length).map fun c => some c.key.dcfKey)) xs =
      g.dcf.batchEvaluate env (uintHelper 128)
        ((Mic.cells keys points g.params.intervals.length).map (·.key.dcfKey)) xs := by
    intro xs
    refine (C86_dcf g.dcf env _ _ _ ?_ xs).2
    have := Refers.pointers ((Mic.cells keys points g.params.intervals.length).map (·.key.dcfKey))
    rwa [List.map_map] at this
  simp only [hd, mapRes_get_take hk (Nat.le_refl _), bind_ok]

/-- C86, numbers of points: if it is not the number of keys, no pointer is followed, and the call is rejected. -/
theorem C86_sizes {α σ : Type} (d : Dpf) (c : Dcf) (g : Mic) (env : Env) (H : Helper α)
    (points : List U128) (output : List α) :
    (∀ (span : KeySpan DpfKey) (op : σ → List α → Bool × σ) (s : σ) (r : Int), points.length ≠ span.size →
      d.evaluateAndApplySpan env H span (fun _ => points) op s r = (err .invalidArgument, s)) ∧
    (∀ span : KeySpan DcfKey, points.length ≠ span.size ∨ output.length ≠ span.size →
      c.batchEvaluateSpanInto env H span points output = (err .invalidArgument, output)) ∧
    ∀ span : KeySpan MicKey, points.length ≠ span.size →
      g.batchEvalSpan env span points = err .invalidArgument := by
  refine ⟨?_, ?_, ?_⟩
  · intro span op s r h
    unfold Dpf.evaluateAndApplySpan
    rw [failIf_true h]; rfl
  · intro span h
    unfold Dcf.batchEvaluateSpanInto
    split
    · rfl
    · rw [if_pos (by omega)]
  · intro span h
    unfold Mic.batchEvalSpan
    rw [failIf_true (Ne.symm h)]; rfl

/-- C86, pointers to no object: `EvaluateAndApply` is undefined if the keys before are valid, and rejected if one of them
is not and is reached first. -/
theorem C86_apply_dangling {α σ : Type} (d : Dpf) (env : Env) (H : Helper α) (span : KeySpan DpfKey) (i : Nat)
    (hi : Dangles span i) (points : List U128) (hp : points.length = span.size) (op : σ → List α → Bool × σ) (s : σ)
    (r : Int) :
    ((∀ j < i, ∃ k, span.get j = ok k ∧ d.pv.validateDpfKey k = ok ()) →
      d.evaluateAndApplySpan env H span (fun _ => points) op s r = (ub, s)) ∧
    ∀ (j : Nat) (k : DpfKey) (e : Code), j < i → (∀ j' < j, ∃ k, span.get j' = ok k ∧ d.pv.validateDpfKey k = ok ()) →
      span.get j = ok k → d.pv.validateDpfKey k = err e →
      d.evaluateAndApplySpan env H span (fun _ => points) op s r = (err e, s) := by
  have hlt := dangles_lt hi
  have split : ∀ j : Nat, j < span.size → (∀ j' < j, ∃ k, span.get j' = ok k ∧ d.pv.validateDpfKey k = ok ()) →
      ∃ ks, d.validateSpan span = ((span.get j >>= fun k => d.pv.validateDpfKey k >>= fun _ => ok k) >>= fun k =>
        mapRes (fun i => span.get i >>= fun k => d.pv.validateDpfKey k >>= fun _ => ok k)
          (List.range' (j + 1) (span.size - (j + 1))) >>= fun l => ok (ks ++ k :: l)) := by
    intro j hj hb
    have e : List.range span.size = List.range j ++ j :: List.range' (j + 1) (span.size - (j + 1)) := by
      have e1 := List.range'_append_1 (s := 0) (m := j) (n := span.size - (j + 1) + 1)
      rw [List.range_eq_range', List.range_eq_range', ← List.range'_succ]
      rw [Nat.zero_add] at e1
      rw [e1]
      congr 1; omega
    obtain ⟨ks, hks⟩ := mapRes_ok_of_forall (f := fun i => span.get i >>= fun k => d.pv.validateDpfKey k >>= fun _ => ok k)
      (l := List.range j) (fun j' hj' => by
        obtain ⟨k, h1, h2⟩ := hb j' (List.mem_range.mp hj')
        exact ⟨k, by rw [h1, bind_ok, h2]; rfl⟩)
    refine ⟨ks, ?_⟩
    unfold Dpf.validateSpan
    rw [e, mapRes_append]
    rw [show mapRes _ (List.range j) = ok ks from hks, bind_ok, mapRes_cons]
    cases (span.get j >>= fun k => d.pv.validateDpfKey k >>= fun _ => ok k) with
    | ok k =>
      simp only [bind_ok]
      cases mapRes (fun i => span.get i >>= fun k => d.pv.validateDpfKey k >>= fun _ => ok k)
        (List.range' (j + 1) (span.size - (j + 1))) <;> rfl
    | err => rfl
    | ub => rfl
    | crash => rfl
  constructor
  · intro hb
    obtain ⟨ks, h⟩ := split i hlt hb
    unfold Dpf.evaluateAndApplySpan
    rw [failIf_false (by simpa using hp), h, dangles_get hi]; rfl
  · intro j k e hj hb hk hv
    obtain ⟨ks, h⟩ := split j (by omega) hb
    unfold Dpf.evaluateAndApplySpan
    rw [failIf_false (by simpa using hp), h, hk, bind_ok, hv]; rfl

/-- C86, pointers to no object: `BatchEvaluate` of a comparison function is undefined, whatever the other keys. -/
theorem C86_dcf_dangling {α : Type} (c : Dcf) (env : Env) (H : Helper α) (span : KeySpan DcfKey) (i : Nat)
    (hi : Dangles span i) (points : List U128) (output : List α) (hp : points.length = span.size)
    (ho : output.length = span.size) (hint : span.size < 2 ^ 31) :
    c.batchEvaluateSpanInto env H span points output = (ub, output) := by
  unfold Dcf.batchEvaluateSpanInto
  have hlt := dangles_lt hi
  have hw : (wrapInt32 (span.size : Int)) = span.size := by unfold wrapInt32; omega
  rw [if_neg (by omega), if_neg (by omega), hw, if_neg (by omega)]
  dsimp only
  rw [mapRes_get_dangles hi (by omega) (by omega)]; rfl

/-- C86, gates: likewise, if the points are in the group. -/
theorem C86_mic_dangling (fp : FpEnv) (params : MicParameters) (g : Mic) (hs : MicSetup fp params g) (env : Env)
    (span : KeySpan MicKey) (i : Nat) (hi : Dangles span i) (points : List U128) (hp : points.length = span.size)
    (hx : ∀ x ∈ points, x.toNat < 2 ^ params.logGroupSize.toNat) :
    g.batchEvalSpan env span points = ub := by
  have hlt := dangles_lt hi
  unfold Mic.batchEvalSpan
  rw [failIf_false (by omega), bind_ok, hs.shl_eq, bind_ok]
  obtain ⟨us, hus⟩ := (mapRes_unit_eq_ok (f := fun x : U128 =>
    failIf (x ≥ (1 : U128) <<< params.logGroupSize.toNat) .invalidArgument) (l := points.take (2 ^ 31))).mpr (by
      intro x hx'
      apply failIf_false
      rw [ge_iff_le, BitVec.le_def, hs.N_toNat]
      exact Nat.not_le.mpr (hx x (List.mem_of_mem_take hx')))
  rw [hus, bind_ok]
  split
  · rfl
  by_cases hm : g.params.intervals.length = 0
  · have hc : Mic.cellsSpan span points g.params.intervals.length = ok [] := by
      unfold Mic.cellsSpan
      rw [mapRes_eq_ok_map (g := fun _ => [])]
      · simp
      · intro j hj
        rw [List.mem_range] at hj
        rw [rd_lt (by omega), bind_ok, hm]; rfl
    have hb : g.dcf.batchEvaluateSpan env (uintHelper 128) (.pointers []) [] = ok [] := by
      rw [(C86_dcf g.dcf env (uintHelper 128) (.pointers []) [] (Refers.pointers []) []).2]
      have e := C28_batch_partial _ _ (.uint .w128) g.dcf hs.dcfSetup env [] [] rfl (by simp)
      rw [List.zip_nil_left, mapRes_nil] at e
      exact e
    rw [hc]
    rw [bind_ok]
    dsimp only
    rw [mapRes_nil, mapRes_nil, bind_ok, bind_ok, List.map_nil, hb, bind_ok, bind_ok, mapRes_get_dangles hi hlt (Nat.le_refl _)]; rfl
  · have hc : Mic.cellsSpan span points g.params.intervals.length = ub := by
      unfold Mic.cellsSpan
      rw [mapRes_ub]
      · rfl
      · intro j hj
        rw [List.mem_range] at hj
        rw [rd_lt (by omega), bind_ok]
        rcases get_cases span hj with ⟨k, hk⟩ | hk
        · rw [hk]
          exact Or.inl ⟨_, mapRes_eq_ok_map (g := fun j' => Mic.Cell.mk k points[j] j') fun _ _ => rfl⟩
        · refine Or.inr (mapRes_ub (fun _ _ => Or.inr (by rw [hk]; rfl)) ⟨0, by simp; omega, by rw [hk]; rfl⟩)
      · refine ⟨i, List.mem_range.mpr hlt, ?_⟩
        rw [rd_lt (by omega), bind_ok]
        exact mapRes_ub (fun _ _ => Or.inr (by rw [dangles_get hi]; rfl))
          ⟨0, by simp; omega, by rw [dangles_get hi]; rfl⟩
    rw [hc]; rfl

/-- C86, output in the memory of the evaluation points: `BatchEvaluate<absl::uint128>` succeeds, but does not give the
value of the key at the point, as it writes zeros and intermediate sums to the points and reads them again. -/
theorem C86_inplace_refuted : ∃ (fp : FpEnv) (p : DpfParameters) (c : Dcf) (env : Env) (k : DcfKey) (x y z : U128),
    DcfSetup fp p (.uint .w128) c ∧ c.batchEvaluate env (uintHelper 128) [k] [x] = ok [y] ∧
    c.batchEvaluateInPlace env (uintHelper 128) (.direct [k]) [x] = (ok (), [z]) ∧ z ≠ y := by
  have hs : MicSetup exFp exMicParams64' exMic64 := ⟨exMic64, [], exMic64_create, rfl⟩
  have h1 : exMic64.dcf.batchEvaluate exEnv (uintHelper 128) [exMic64Keys.1.dcfKey] [15] =
      ok [((exMic64.dcf.batchEvaluate exEnv (uintHelper 128) [exMic64Keys.1.dcfKey] [15]).getD []).getD 0 0] := by
    decide +kernel
  have h2 : exMic64.dcf.batchEvaluateInPlace exEnv (uintHelper 128) (.direct [exMic64Keys.1.dcfKey]) [15] =
      (ok (), [(exMic64.dcf.batchEvaluateInPlace exEnv (uintHelper 128) (.direct [exMic64Keys.1.dcfKey]) [15]).2.getD 0 0]) := by
    decide +kernel
  exact ⟨exFp, _, exMic64.dcf, exEnv, exMic64Keys.1.dcfKey, 15, _, _, hs.dcfSetup, h1, h2, by decide +kernel⟩

/-- C86, output in the memory of the evaluation points: the points do not matter at all, for every key and every
type of outputs of the size of the points. -/
theorem C86_inplace (c : Dcf) (env : Env) (H : Helper U128) (span : KeySpan DcfKey) (keys : List DcfKey)
    (hs : Refers span keys) (h31 : keys.length < 2 ^ 31) (points points' : List U128)
    (hp : points.length = keys.length) (hp' : points'.length = keys.length) :
    c.batchEvaluateInPlace env H span points = c.batchEvaluateInPlace env H span points' := by
  have hsize := refers_size hs
  have hget : mapRes span.get (List.range keys.length) = ok keys := by
    have h := mapRes_get_take hs (Nat.le_refl keys.length)
    rwa [List.take_length] at h
  unfold Dcf.batchEvaluateInPlace
  rw [hsize, wrapInt32_id h31, Int.toNat_natCast, hp, hp']
  dsimp only
  rw [hget]
  simp only [ne_eq, not_true_eq_false, if_false, if_neg (show ¬ ((keys.length : Int) < 0) by omega), Dpf.keep]

/-- C86_inplace on an example: the points 15 and 3 give the same memory. -/
example : exMic64.dcf.batchEvaluateInPlace exEnv (uintHelper 128) (.direct [exMic64Keys.1.dcfKey]) [15] =
    exMic64.dcf.batchEvaluateInPlace exEnv (uintHelper 128) (.direct [exMic64Keys.1.dcfKey]) [3] :=
  C86_inplace _ _ _ _ _ (Refers.direct _) (by decide) _ _ rfl rfl

/-- C86 on examples: two pointers to the same key and keys by value. -/
example : Refers (.pointers [some exMic64Keys.1, some exMic64Keys.1]) [exMic64Keys.1, exMic64Keys.1] ∧
    exMic64.batchEvalSpan exEnv (.pointers [some exMic64Keys.1, some exMic64Keys.1]) [4, 9] =
      exMic64.batchEvalSpan exEnv (.direct [exMic64Keys.1, exMic64Keys.1]) [4, 9] ∧
    ∃ ys, exMic64.batchEvalSpan exEnv (.direct [exMic64Keys.1, exMic64Keys.1]) [4, 9] = ok ys := by
  refine ⟨Refers.pointers [_, _], ?_, ?_⟩
  · rw [C86_mic _ _ _ _ (Refers.direct _)]
    exact C86_mic _ _ _ _ (Refers.pointers [exMic64Keys.1, exMic64Keys.1]) _
  · rw [C86_mic _ _ _ _ (Refers.direct _)]
    exact ⟨_, Res.eq_ok_getD (by decide +kernel) []⟩

example : exMic64.dcf.batchEvaluateSpan exEnv (uintHelper 128) (.pointers [some exMic64Keys.1.dcfKey]) [3] =
    exMic64.dcf.batchEvaluate exEnv (uintHelper 128) [exMic64Keys.1.dcfKey] [3] :=
  (C86_dcf _ _ _ _ _ (Refers.pointers [exMic64Keys.1.dcfKey]) _).2

/-- A callback that counts its calls. -/
example (points : List U128) : exDpf.evaluateAndApplySpan exEnv (exT 0).helper (.pointers [some exKey, some exKey])
      (fun _ : Nat => points) (fun n _ => (true, n + 1)) 0 0 =
    exDpf.evaluateAndApply exEnv (exT 0).helper [exKey, exKey] points (fun n _ => (true, n + 1)) 0 0 :=
  C86_apply exDpf exEnv (exT 0).helper _ _ (Refers.pointers [exKey, exKey]) (fun _ => points) _ (fun _ _ => rfl) 0 0

example : Dangles (.pointers [some exKey, none]) 1 ∧
    exDpf.evaluateAndApplySpan exEnv (exT 0).helper (.pointers [some exKey, none]) (fun _ : Nat => [3, 4])
      (fun n _ => (true, n + 1)) 0 0 = (ub, 0) ∧
    exDpf.evaluateAndApplySpan exEnv (exT 0).helper (.pointers [some DpfKey.default, none]) (fun _ : Nat => [3, 4])
      (fun n _ => (true, n + 1)) 0 0 = (err .invalidArgument, 0) ∧
    exMic64.dcf.batchEvaluateSpanInto exEnv (uintHelper 128) (.pointers [some DpfKey.default, none]) [3, 4] [7, 8] =
      (ub, [7, 8]) ∧
    exMic64.batchEvalSpan exEnv (.pointers [none, some exMic64Keys.1]) [4, 9] = ub ∧
    exMic64.batchEvalSpan exEnv (.pointers [none, some exMic64Keys.1]) [4] = err .invalidArgument := by
  refine ⟨⟨_, rfl, rfl⟩, ?_, ?_, ?_, ?_, ?_⟩
  · refine (C86_apply_dangling exDpf exEnv (exT 0).helper _ 1 ⟨_, rfl, rfl⟩ [3, 4] rfl _ 0 0).1 fun j hj => ?_
    obtain rfl : j = 0 := by omega
    exact ⟨exKey, rfl, by decide +kernel⟩
  · exact (C86_apply_dangling exDpf exEnv (exT 0).helper _ 1 ⟨_, rfl, rfl⟩ [3, 4] rfl _ 0 0).2 0 DpfKey.default _ (by decide)
      (fun j hj => by omega) rfl (by decide +kernel)
  · exact C86_dcf_dangling _ _ _ _ 1 ⟨_, rfl, rfl⟩ _ _ rfl rfl (by decide)
  · exact C86_mic_dangling exFp exMicParams64' exMic64 ⟨exMic64, [], exMic64_create, rfl⟩ exEnv _ 0 ⟨_, rfl, rfl⟩ _ rfl
      (by intro x hx; simp only [List.mem_cons, List.not_mem_nil, or_false] at hx; rcases hx with rfl | rfl <;> decide)
  · exact (C86_sizes (α := U128) (σ := Nat) exDpf exDcf exMic64 exEnv (uintHelper 128) [4] []).2.2 _ (by decide)

end Verif
