import Verif.Lemmas.Mic
/-!
# Properties C30, C31: multiple interval containment gates
-/
namespace Verif
open Res Spec

/-! ## C30 -/

/-- C30, for intervals whose bounds are given as 128-bit numbers: `Gen` returns keys, and evaluating
them at the masked input gives shares which add up to the output mask, plus 1 if the real input `x` lies
in the interval. Missing: bounds given as 64-bit numbers, which are read as 0 (`C30_refuted`). That there
are fewer than 2^31 intervals is no restriction: the size of a repeated field is an `int`. -/
theorem C30_containment_partial (fp : FpEnv) (params : MicParameters) (g : Mic)
    (hs : MicSetup fp params g) (hint : params.intervals.length < 2 ^ 31) (env : Env) (rIn : U128)
    (hr : rIn.toNat < 2 ^ params.logGroupSize.toNat) (rOut : List U128)
    (hlen : rOut.length = params.intervals.length)
    (hro : ∀ r ∈ rOut, r.toNat < 2 ^ params.logGroupSize.toNat) (seed0 seed1 : U128) (rand : Nat → U128) :
    ∃ k0 k1 g', g.gen env rIn rOut seed0 seed1 rand = (ok (k0, k1), g') ∧ MicSetup fp params g' ∧
      ∀ (x : Nat) (X : U128), x < 2 ^ params.logGroupSize.toNat →
        X.toNat = (x + rIn.toNat) % 2 ^ params.logGroupSize.toNat →
        ∃ ys0 ys1, g'.eval env k0 X = ok ys0 ∧ g'.eval env k1 X = ok ys1 ∧
          ys0.length = params.intervals.length ∧ ys1.length = params.intervals.length ∧
          ∀ (j : Nat) (iv : Interval) (r y0 y1 : U128) (p q : Nat), params.intervals[j]? = some iv →
            iv.Bounds p q → rOut[j]? = some r → ys0[j]? = some y0 → ys1[j]? = some y1 →
            (y0.toNat + y1.toNat) % 2 ^ params.logGroupSize.toNat =
              (r.toNat + if p ≤ x ∧ x ≤ q then 1 else 0) % 2 ^ params.logGroupSize.toNat := by
  obtain ⟨k0, k1, g', hg, hs', h⟩ := hs.correct env hr hlen hro seed0 seed1 rand
  refine ⟨k0, k1, g', hg, hs', ?_⟩
  intro x X hx hX
  obtain ⟨ys0, ys1, h0, h1, l0, l1, hy⟩ := h hint x X hx hX
  refine ⟨ys0, ys1, h0, h1, l0, l1, ?_⟩
  intro j iv r y0 y1 p q hiv hb hr hy0 hy1
  obtain ⟨ph, pl, qh, ql, hl, hu, rfl, rfl⟩ := hb
  have := hy j iv r y0 y1 hiv hr hy0 hy1
  simp only [Interval.p, Interval.q, hl, hu, Option.getD_some, valueUint128, makeU128_toNat] at this
  exact this

/-- Example: the intervals [3, 17] and [0, 63] of a group of 64 elements. -/
def exMicParams : MicParameters := ⟨6, [⟨some (.u128 0 3), some (.u128 0 17)⟩, ⟨some (.u128 0 0), some (.u128 0 63)⟩]⟩
/-- The gate with these parameters. -/
def exMic : Mic := (Mic.create exFp exMicParams).getD ⟨exMicParams, exDcf⟩

theorem exMic_create : Mic.create exFp exMicParams = ok exMic := Res.eq_ok_getD (by decide +kernel) _

theorem exMic_setup : MicSetup exFp exMicParams exMic := ⟨_, [], exMic_create, rfl⟩

/-- C30 on the example: the input 10 masked with 60 is 6; the masks of the outputs are 5 and 63. -/
example : ∃ k0 k1 g' ys0 ys1, exMic.gen exEnv 60 [5, 63] 1 2 (fun i => BitVec.ofNat 128 i) = (ok (k0, k1), g') ∧
    g'.eval exEnv k0 6 = ok ys0 ∧ g'.eval exEnv k1 6 = ok ys1 ∧
    ∀ y0 y1, ys0[1]? = some y0 → ys1[1]? = some y1 → (y0.toNat + y1.toNat) % 64 = 0 := by
  obtain ⟨k0, k1, g', hg, _, h⟩ := C30_containment_partial exFp exMicParams exMic exMic_setup (show (2 : Nat) < 2 ^ 31 by decide) exEnv 60 (by decide)
    [5, 63] rfl (by
      intro r hr
      simp only [List.mem_cons, List.not_mem_nil, or_false] at hr
      rcases hr with rfl | rfl <;> decide) 1 2 (fun i => BitVec.ofNat 128 i)
  obtain ⟨ys0, ys1, h0, h1, _, _, hy⟩ := h 10 6 (by decide) (by decide)
  refine ⟨k0, k1, g', ys0, ys1, hg, h0, h1, ?_⟩
  intro y0 y1 e0 e1
  have := hy 1 _ _ y0 y1 0 63 rfl ⟨0, 0, 0, 63, rfl, rfl, rfl, rfl⟩ rfl e0 e1
  exact this

/-- Parameters used in the counterexamples: the interval [5, 3], given by 64-bit numbers. -/
def exMicParams64 : MicParameters := ⟨4, [⟨some (.u64 5), some (.u64 3)⟩]⟩
/-- Parameters used in the counterexamples: the interval [3, 5], given by 64-bit numbers. -/
def exMicParams64' : MicParameters := ⟨4, [⟨some (.u64 3), some (.u64 5)⟩]⟩
/-- The gates with these parameters. -/
def exMic64 : Mic := (Mic.create exFp exMicParams64').getD ⟨exMicParams, exDcf⟩
theorem exMic64_create : Mic.create exFp exMicParams64' = ok exMic64 := Res.eq_ok_getD (by decide +kernel) _
/-- Keys without masks. -/
def exMic64Keys : MicKey × MicKey :=
  (exMic64.gen exEnv 0 [0] 1 2 (fun _ => 0)).1.getD (⟨exKey, []⟩, ⟨exKey, []⟩)

/-- C30 is false if the bounds are given as 64-bit numbers: 4 is reported as not being in [3, 5]
(/repo/dcf/fss_gates/multiple_interval_containment.cc:147-153 reads `value_uint128` only). -/
theorem C30_refuted : ∃ (fp : FpEnv) (params : MicParameters) (g g' : Mic) (env : Env) (k0 k1 : MicKey)
    (y0 y1 : U128), MicSetup fp params g ∧ params.intervals = [⟨some (.u64 3), some (.u64 5)⟩] ∧
    g.gen env 0 [0] 1 2 (fun _ => 0) = (ok (k0, k1), g') ∧
    g'.eval env k0 4 = ok [y0] ∧ g'.eval env k1 4 = ok [y1] ∧
    (y0.toNat + y1.toNat) % 2 ^ params.logGroupSize.toNat = 0 := by
  have hk : (exMic64.gen exEnv 0 [0] 1 2 (fun _ => 0)).1 = ok exMic64Keys :=
    Res.eq_ok_getD (by decide +kernel) _
  refine ⟨exFp, exMicParams64', exMic64, (exMic64.gen exEnv 0 [0] 1 2 (fun _ => 0)).2, exEnv,
    exMic64Keys.1, exMic64Keys.2,
    (((exMic64.gen exEnv 0 [0] 1 2 (fun _ => 0)).2.eval exEnv exMic64Keys.1 4).getD []).getD 0 0,
    (((exMic64.gen exEnv 0 [0] 1 2 (fun _ => 0)).2.eval exEnv exMic64Keys.2 4).getD []).getD 0 0,
    ⟨_, [], exMic64_create, rfl⟩, rfl, Prod.ext hk rfl, by decide +kernel, by decide +kernel, by decide +kernel⟩

/-! ## C31 -/

/-- C31, creation: group sizes below 2 or above 2^127 and intervals with missing bounds, or with
reversed or too large bounds given as 128-bit numbers, are rejected. Missing: bounds given as 64-bit
numbers (`C31_create_refuted`). -/
theorem C31_create_partial (fp : FpEnv) (params : MicParameters)
    (h : params.logGroupSize < 1 ∨ 127 < params.logGroupSize ∨
      ∃ iv ∈ params.intervals, iv.lower = none ∨ iv.upper = none ∨
        ∃ p q, iv.Bounds p q ∧ (2 ^ params.logGroupSize.toNat ≤ p ∨ 2 ^ params.logGroupSize.toNat ≤ q ∨ q < p)) :
    Mic.create fp params = err .invalidArgument := by
  unfold Mic.create
  by_cases h1 : params.logGroupSize < 0 ∨ params.logGroupSize > 127
  · rw [failIf_true h1]; rfl
  · rw [failIf_false h1, bind_ok, show params.logGroupSize = (params.logGroupSize.toNat : Int) by omega,
      shl128_ok (by omega), bind_ok]
    have hcase : ∀ iv, OkOrInvalid (Mic.checkInterval ((1 : U128) <<< params.logGroupSize.toNat) iv) := by
      intro iv
      unfold Mic.checkInterval
      exact (OkOrInvalid.failIf _).bind fun _ _ => (OkOrInvalid.failIf _).bind fun _ _ =>
        (OkOrInvalid.failIf _).bind fun _ _ => OkOrInvalid.failIf _
    rcases OkOrInvalid.mapRes_unit (l := params.intervals) (fun iv _ => hcase iv) with ⟨us, hu⟩ | hu
    · rw [hu, bind_ok]
      rcases h with h | h | ⟨iv, hiv, h⟩
      · have : params.logGroupSize.toNat = 0 := by omega
        rw [this]; rfl
      · omega
      · exfalso
        have hc := mapRes_unit_eq_ok.mp ⟨us, hu⟩ iv hiv
        unfold Mic.checkInterval at hc
        obtain ⟨_, c1, hc⟩ := bind_eq_ok.mp hc
        obtain ⟨_, c2, hc⟩ := bind_eq_ok.mp hc
        obtain ⟨_, c3, hc⟩ := bind_eq_ok.mp hc
        have c1 := failIf_eq_ok.mp c1
        have c2 := failIf_eq_ok.mp c2
        have c3 := failIf_eq_ok.mp c3
        have c4 := failIf_eq_ok.mp hc
        rcases h with h | h | ⟨p, q, ⟨ph, pl, qh, ql, hl, hu', rfl, rfl⟩, h⟩
        · exact c1 (Or.inl h)
        · exact c1 (Or.inr h)
        · rw [ge_iff_le, BitVec.le_def, one_shl_toNat (by omega)] at c2 c3
          rw [gt_iff_lt, BitVec.lt_def] at c4
          simp only [Interval.p, Interval.q, hl, hu', Option.getD_some, valueUint128, makeU128_toNat] at c2 c3 c4
          omega
    · rw [hu]; rfl

/-- C31: the interval [5, 3], given by 64-bit numbers, is accepted. -/
theorem C31_create_refuted : ∃ (fp : FpEnv) (params : MicParameters) (g : Mic),
    params.intervals = [⟨some (.u64 5), some (.u64 3)⟩] ∧ Mic.create fp params = ok g :=
  ⟨exFp, exMicParams64, _, rfl, Res.eq_ok_getD (by decide +kernel) exMic⟩

/-- C31, key generation: masks outside the group and a wrong number of masks are rejected. -/
theorem C31_gen (fp : FpEnv) (params : MicParameters) (g : Mic) (hs : MicSetup fp params g) (env : Env)
    (rIn : U128) (rOut : List U128) (seed0 seed1 : U128) (rand : Nat → U128)
    (h : rOut.length ≠ params.intervals.length ∨ 2 ^ params.logGroupSize.toNat ≤ rIn.toNat ∨
      ∃ r ∈ rOut, 2 ^ params.logGroupSize.toNat ≤ r.toNat) :
    g.gen env rIn rOut seed0 seed1 rand = (err .invalidArgument, g) := by
  have hc : (shl128 1 g.params.logGroupSize >>= fun N => g.checkGen N rIn rOut >>= fun _ => ok N) =
      err .invalidArgument := by
    rw [hs.shl_eq, bind_ok]
    unfold Mic.checkGen
    by_cases h1 : rOut.length ≠ g.params.intervals.length
    · rw [failIf_true h1]; rfl
    · rw [failIf_false h1, bind_ok]
      by_cases h2 : rIn ≥ (1 : U128) <<< params.logGroupSize.toNat
      · rw [failIf_true h2]; rfl
      · rw [failIf_false h2, bind_ok]
        rw [ge_iff_le, BitVec.le_def, hs.N_toNat] at h2
        rw [hs.params_eq] at h1
        rcases h with h | h | ⟨r, hr, h⟩
        · exact absurd h h1
        · exact absurd h h2
        · rw [Dpf.mapRes_err (c := .invalidArgument)]
          · rfl
          · intro a _; exact OkOrInvalid.failIf _
          · exact ⟨r, hr, failIf_true (by rw [ge_iff_le, BitVec.le_def, hs.N_toNat]; exact h) _⟩
  unfold Mic.gen
  rw [hc]

/-- C31, evaluation: mismatched sizes and points outside the group are rejected. Missing: points that are
outside the group but not among the first 2^31 (`C31_many`). -/
theorem C31_eval_partial (fp : FpEnv) (params : MicParameters) (g : Mic) (hs : MicSetup fp params g) (env : Env)
    (keys : List MicKey) (points : List U128)
    (h : points.length ≠ keys.length ∨ ∃ x ∈ points.take (2 ^ 31), 2 ^ params.logGroupSize.toNat ≤ x.toNat) :
    g.batchEval env keys points = err .invalidArgument := by
  unfold Mic.batchEval
  by_cases h1 : keys.length ≠ points.length
  · rw [failIf_true h1]; rfl
  · rw [failIf_false h1, bind_ok, hs.shl_eq, bind_ok]
    rcases h with h | ⟨x, hx, h⟩
    · omega
    · rw [Dpf.mapRes_err (c := .invalidArgument)]
      · rfl
      · intro a _; exact OkOrInvalid.failIf _
      · exact ⟨x, hx, failIf_true (by rw [ge_iff_le, BitVec.le_def, hs.N_toNat]; exact h) _⟩

/-- C31, batches: the result for several keys (well-formed or not, as long as there is a mask share for
every interval) is the concatenation of the individual results. Missing: batches for which the number of
keys or the number of outputs does not fit an `int` (`C31_many`). -/
theorem C31_batch_partial (fp : FpEnv) (params : MicParameters) (g : Mic) (hs : MicSetup fp params g) (env : Env)
    (keys : List MicKey) (points : List U128) (hlen : points.length = keys.length)
    (hm : ∀ k ∈ keys, params.intervals.length ≤ k.outputMaskShare.length)
    (hint : keys.length < 2 ^ 31) (hcells : keys.length * params.intervals.length < 2 ^ 31) :
    g.batchEval env keys points =
      (mapRes (fun kx : MicKey × U128 => g.eval env kx.1 kx.2) (keys.zip points) >>= fun r => ok r.flatten) := by
  have one : ∀ k ∈ keys, ∀ x : U128, x.toNat < 2 ^ params.logGroupSize.toNat → g.eval env k x =
      mapRes (g.cellRes env ((1 : U128) <<< params.logGroupSize.toNat))
        ((List.range params.intervals.length).map fun j => ⟨k, x, j⟩) := by
    intro k hk x hx
    unfold Mic.eval
    have h1 : params.intervals.length ≤ keys.length * params.intervals.length :=
      Nat.le_mul_of_pos_left _ (List.length_pos_of_mem hk)
    rw [hs.batchEval_eq env [k] [x] rfl (by simpa using hx) (by simpa using hm k hk)
      (show (1 : Nat) < 2 ^ 31 by decide) (show 1 * _ < _ by omega)]
    simp [Mic.cells]
  by_cases hp : ∀ x ∈ points, x.toNat < 2 ^ params.logGroupSize.toNat
  · rw [hs.batchEval_eq env keys points hlen hp hm hint hcells, Mic.cells, mapRes_flatMap]
    congr 1
    apply mapRes_congr
    rintro ⟨k, x⟩ hkx
    have := List.of_mem_zip hkx
    exact (one k this.1 x (hp x this.2)).symm
  · have hp' : ∃ x ∈ points, 2 ^ params.logGroupSize.toNat ≤ x.toNat := by
      apply Classical.byContradiction
      intro h
      exact hp fun x hx => Nat.lt_of_not_le fun hb => h ⟨x, hx, hb⟩
    have bad : ∀ (k : MicKey) (x : U128), 2 ^ params.logGroupSize.toNat ≤ x.toNat →
        g.eval env k x = err .invalidArgument :=
      fun k x hx => C31_eval_partial fp params g hs env [k] [x] (Or.inr ⟨x, by simp, hx⟩)
    rw [C31_eval_partial fp params g hs env keys points (Or.inr (by
      rw [List.take_of_length_le (by omega)]; exact hp')), Dpf.mapRes_err (c := .invalidArgument)]
    · rfl
    · rintro ⟨k, x⟩ hkx
      have hk := (List.of_mem_zip hkx).1
      by_cases hx : x.toNat < 2 ^ params.logGroupSize.toNat
      · dsimp only
        rw [one k hk x hx]
        apply OkOrInvalid.mapRes_unit
        intro c hc
        obtain ⟨j, hj, rfl⟩ := List.mem_map.mp hc
        exact (hs.evaluate_cases env _ _).bind fun _ _ => (hs.evaluate_cases env _ _).bind fun _ _ =>
          hs.output_cases _ (List.mem_range.mp hj) (hm k hk) _ _
      · exact Or.inr (bad k x (by omega))
    · obtain ⟨x, hx, hb⟩ := hp'
      obtain ⟨i, hi, rfl⟩ := List.getElem_of_mem hx
      refine ⟨(keys[i]'(by omega), points[i]), ?_, bad _ _ hb⟩
      rw [List.mem_iff_getElem]
      exact ⟨i, by simp; omega, by simp⟩

/-- C31, the missing batches: if the first 2^31 points are in the group but there are more of them than an
`int` can count, or more outputs, an `int` overflows; 2^31 outputs make the evaluation of the comparison
function throw (`C28_many`). -/
theorem C31_many (fp : FpEnv) (params : MicParameters) (g : Mic) (hs : MicSetup fp params g) (env : Env)
    (keys : List MicKey) (points : List U128) (hlen : points.length = keys.length)
    (hp : ∀ x ∈ points.take (2 ^ 31), x.toNat < 2 ^ params.logGroupSize.toNat)
    (hint : 2 ^ 31 ≤ keys.length ∨ 2 ^ 31 ≤ keys.length * params.intervals.length) :
    g.batchEval env keys points =
      if keys.length < 2 ^ 31 ∧ keys.length * params.intervals.length = 2 ^ 31 then crash else ub := by
  unfold Mic.batchEval
  rw [failIf_false (by omega), bind_ok, hs.shl_eq, bind_ok]
  obtain ⟨us, hus⟩ := (mapRes_unit_eq_ok (f := fun x : U128 =>
    failIf (x ≥ (1 : U128) <<< params.logGroupSize.toNat) .invalidArgument) (l := points.take (2 ^ 31))).mpr (by
      intro x hx
      apply failIf_false
      rw [ge_iff_le, BitVec.le_def, hs.N_toNat]
      have := hp x hx
      omega)
  have hcl := Mic.cells_length keys points params.intervals.length hlen
  rw [hus, bind_ok, hs.params_eq]
  by_cases h : keys.length < 2 ^ 31 ∧ keys.length * params.intervals.length = 2 ^ 31
  · rw [if_neg (by omega), if_pos h]
    dsimp only
    have hcell : ∀ c ∈ Mic.cells keys points params.intervals.length, c.j < g.params.intervals.length :=
      fun c hc => by rw [hs.params_eq]; exact (Mic.mem_cells hc).2.2
    have e1 : mapRes (g.xP ((1 : U128) <<< params.logGroupSize.toNat))
        (Mic.cells keys points params.intervals.length) = ok ((Mic.cells keys points params.intervals.length).map
          (g.xPv ((1 : U128) <<< params.logGroupSize.toNat))) := by
      apply mapRes_eq_ok_map
      intro c hc
      unfold Mic.xP Mic.xPv
      rw [rd_getD (hcell c hc), bind_ok]
    have e2 : mapRes (g.xQ ((1 : U128) <<< params.logGroupSize.toNat))
        (Mic.cells keys points params.intervals.length) = ok ((Mic.cells keys points params.intervals.length).map
          (g.xQv ((1 : U128) <<< params.logGroupSize.toNat))) := by
      apply mapRes_eq_ok_map
      intro c hc
      unfold Mic.xQ Mic.xQv
      rw [rd_getD (hcell c hc), bind_ok]
    rw [e1, bind_ok, e2, bind_ok]
    have hm := C28_many (.uint .w128) g.dcf env
      ((Mic.cells keys points params.intervals.length).map (·.key.dcfKey))
      ((Mic.cells keys points params.intervals.length).map (g.xPv ((1 : U128) <<< params.logGroupSize.toNat)))
      (by rw [List.length_map, List.length_map]) (by rw [List.length_map, hcl]; omega)
    rw [if_pos (by rw [List.length_map, hcl, h.2]; decide)] at hm
    rw [show g.dcf.batchEvaluate env (uintHelper 128) _ _ = crash from hm]
    rfl
  · rw [if_pos (by omega), if_neg h]

/-- C31 as stated is false of large batches: keys that can be evaluated one by one, but not together. -/
theorem C31_batch_refuted : ∃ (fp : FpEnv) (params : MicParameters) (g : Mic) (env : Env) (keys : List MicKey)
    (points : List U128) (values : List (List U128)), MicSetup fp params g ∧ points.length = keys.length ∧
    (∀ x ∈ points, x.toNat < 2 ^ params.logGroupSize.toNat) ∧
    mapRes (fun kx : MicKey × U128 => g.eval env kx.1 kx.2) (keys.zip points) = ok values ∧
    g.batchEval env keys points = ub := by
  have hs : MicSetup exFp exMicParams64' exMic64 := ⟨exMic64, [], exMic64_create, rfl⟩
  have he : exMic64.eval exEnv exMic64Keys.1 4 = ok ((exMic64.eval exEnv exMic64Keys.1 4).getD []) :=
    Res.eq_ok_getD (by decide +kernel) []
  generalize (exMic64.eval exEnv exMic64Keys.1 4).getD [] = v at he
  refine ⟨exFp, exMicParams64', exMic64, exEnv, List.replicate (2 ^ 31 + 1) exMic64Keys.1,
    List.replicate (2 ^ 31 + 1) 4, List.replicate (2 ^ 31 + 1) v, hs,
    by rw [List.length_replicate, List.length_replicate], ?_, ?_, ?_⟩
  · intro x hx
    rw [(List.mem_replicate.mp hx).2]; decide
  · rw [List.zip_replicate', mapRes_eq_ok_map (g := fun _ => v), List.map_replicate]
    intro kx hkx
    rw [(List.mem_replicate.mp hkx).2]; exact he
  · rw [C31_many exFp exMicParams64' exMic64 hs exEnv _ _ (by rw [List.length_replicate, List.length_replicate])
      (by
        intro x hx
        rw [(List.mem_replicate.mp (List.mem_of_mem_take hx)).2]; decide)
      (by rw [List.length_replicate]; exact Or.inl (by decide)),
      if_neg (by rw [List.length_replicate]; exact fun h => absurd h.1 (by decide))]

/-- A key with too few mask shares is not rejected: `output_mask_share(j)` is read out of range
(/repo/dcf/fss_gates/multiple_interval_containment.cc:292-294). -/
theorem C31_masks_refuted : ∃ (fp : FpEnv) (params : MicParameters) (g : Mic) (env : Env) (key : MicKey)
    (x : U128), MicSetup fp params g ∧ x.toNat < 2 ^ params.logGroupSize.toNat ∧ g.eval env key x = ub :=
  ⟨exFp, exMicParams64', exMic64, exEnv, ⟨exMic64Keys.1.dcfKey, []⟩, 4,
    ⟨exMic64, [], exMic64_create, rfl⟩, by decide, by decide +kernel⟩

/-- C31 on examples. -/
example : Mic.create exFp ⟨6, [⟨some (.u128 0 3), none⟩]⟩ = err .invalidArgument ∧
    Mic.create exFp ⟨6, [⟨some (.u128 0 3), some (.u128 0 2)⟩]⟩ = err .invalidArgument ∧
    Mic.create exFp ⟨6, [⟨some (.u128 0 3), some (.u128 0 64)⟩]⟩ = err .invalidArgument ∧
    exMic.gen exEnv 64 [5, 63] 1 2 (fun _ => 0) = (err .invalidArgument, exMic) ∧
    exMic.gen exEnv 4 [5, 64] 1 2 (fun _ => 0) = (err .invalidArgument, exMic) ∧
    exMic.batchEval exEnv [⟨exKey, []⟩] [64] = err .invalidArgument :=
  ⟨C31_create_partial _ _ (Or.inr (Or.inr ⟨_, List.mem_singleton.mpr rfl, Or.inr (Or.inl rfl)⟩)),
   C31_create_partial _ _ (Or.inr (Or.inr ⟨_, List.mem_singleton.mpr rfl, Or.inr (Or.inr ⟨3, 2,
    ⟨0, 3, 0, 2, rfl, rfl, rfl, rfl⟩, by decide⟩)⟩)),
   C31_create_partial _ _ (Or.inr (Or.inr ⟨_, List.mem_singleton.mpr rfl, Or.inr (Or.inr ⟨3, 64,
    ⟨0, 3, 0, 64, rfl, rfl, rfl, rfl⟩, by decide⟩)⟩)),
   C31_gen exFp exMicParams exMic exMic_setup _ _ _ _ _ _ (Or.inr (Or.inl (by decide))),
   C31_gen exFp exMicParams exMic exMic_setup _ _ _ _ _ _ (Or.inr (Or.inr ⟨64, by simp, by decide⟩)),
   C31_eval_partial exFp exMicParams exMic exMic_setup _ _ _ (Or.inr ⟨64, by simp, by decide⟩)⟩

/-- C31 on an example: two keys, one of them malformed. -/
example : exMic.batchEval exEnv [⟨exKey, [.notSet, .notSet]⟩, ⟨DpfKey.default, [.notSet, .notSet]⟩] [3, 4] =
    (mapRes (fun kx : MicKey × U128 => exMic.eval exEnv kx.1 kx.2)
      [(⟨exKey, [.notSet, .notSet]⟩, 3), (⟨DpfKey.default, [.notSet, .notSet]⟩, 4)] >>= fun r => ok r.flatten) :=
  C31_batch_partial exFp exMicParams exMic exMic_setup exEnv _ _ rfl (by
    intro k hk
    simp only [List.mem_cons, List.not_mem_nil, or_false] at hk
    rcases hk with rfl | rfl <;> decide) (show (2 : Nat) < 2 ^ 31 by decide) (show (2 * 2 : Nat) < 2 ^ 31 by decide)

end Verif
