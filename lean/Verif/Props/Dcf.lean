import Verif.Lemmas.Dcf
import Verif.Props.Apply
/-!
# Properties C27 - C29: distributed comparison functions
-/
namespace Verif
open Res Spec

/-! ## C27 -/

/-- C27, for all output types without `XorWrapper`: `GenerateKeys` returns keys, and evaluating them at
any point gives shares of beta below alpha and shares of zero elsewhere. Missing: types with
`XorWrapper`, for which the claim is false (`C27_refuted`). -/
theorem C27_comparison_partial (fp : FpEnv) (p : DpfParameters) (T : Ty) (hx : T.noXor = true) (c : Dcf)
    (hs : DcfSetup fp p T c) (env : Env) (alpha : U128)
    (halpha : alpha.toNat < 2 ^ p.logDomainSize.toNat) (beta : Value) (b : T.den)
    (hb : Represents T beta b) (seed0 seed1 : U128) :
    ∃ k0 k1, c.generateKeys env alpha beta seed0 seed1 = ok (k0, k1) ∧
      ∀ x : U128, x.toNat < 2 ^ p.logDomainSize.toNat →
        ∃ v0 v1, c.evaluate env T.helper k0 x = ok v0 ∧ c.evaluate env T.helper k1 x = ok v1 ∧
          T.helper.add v0 v1 = if x.toNat < alpha.toNat then b else T.helper.zero :=
  hs.correct env halpha hx hb seed0 seed1

/-- C27 for `GenerateKeys<T>`, which registers the type itself. -/
theorem C27_typed_partial (fp : FpEnv) (p : DpfParameters) (T : Ty) (hx : T.noXor = true) (c0 : Dcf)
    (Ts : List Ty) (hc : Dcf.create fp p = ok c0) (type : p.valueType = some T.helper.toValueType)
    (hlog : p.logDomainSize ≤ 128) (bytes : ∀ k ∈ c0.dpf.blocksNeeded, T.bytesRead ≤ 16 * k)
    (env : Env) (alpha : U128) (halpha : alpha.toNat < 2 ^ p.logDomainSize.toNat) (b : T.den)
    (seed0 seed1 : U128) :
    ∃ k0 k1 c, (c0.registerAll Ts).generateKeysFor env T.helper alpha b seed0 seed1 = (ok (k0, k1), c) ∧
      ∀ x : U128, x.toNat < 2 ^ p.logDomainSize.toNat →
        ∃ v0 v1, c.evaluate env T.helper k0 x = ok v0 ∧ c.evaluate env T.helper k1 x = ok v1 ∧
          T.helper.add v0 v1 = if x.toNat < alpha.toNat then b else T.helper.zero := by
  have e : (c0.registerAll Ts).register T.helper = c0.registerAll (Ts ++ [T]) := by
    simp [Dcf.registerAll, Dcf.register, Dpf.registerAll]
  have hs : DcfSetup fp p T (c0.registerAll (Ts ++ [T])) := by
    refine ⟨⟨c0, _, hc, rfl, Or.inl (by simp)⟩, type, hlog, ?_⟩
    show ∀ k ∈ (c0.dpf.registerAll (Ts ++ [T])).blocksNeeded, _
    rw [(c0.dpf.registerAll_pv _).2]; exact bytes
  obtain ⟨k0, k1, hk, h⟩ := hs.correct env halpha hx (C20_encoded_represents T b) seed0 seed1
  refine ⟨k0, k1, c0.registerAll (Ts ++ [T]), ?_, h⟩
  unfold Dcf.generateKeysFor
  dsimp only
  rw [e, hk]

/-- Parameters used in the examples: pairs of a byte and a number mod 11, 2^6 points. -/
def exDcfTy : Ty := .tuple (.cons (.uint .w8) (.one (.intModN .w32 11#128 (by decide) (by decide))))
@[inherit_doc exDcfTy] def exDcfParams : DpfParameters := ⟨6, some exDcfTy.helper.toValueType, .val 0⟩
/-- The DCF with these parameters. -/
def exDcf : Dcf := ((Dcf.create exFp exDcfParams).getD ⟨0, exDpf⟩).registerAll [exDcfTy]

theorem exDcf_create : Dcf.create exFp exDcfParams =
    ok ((Dcf.create exFp exDcfParams).getD ⟨0, exDpf⟩) := Res.eq_ok_getD (by decide +kernel) _

theorem exDcf_setup : DcfSetup exFp exDcfParams exDcfTy exDcf :=
  ⟨⟨_, [exDcfTy], exDcf_create, rfl, Or.inl (by simp)⟩, rfl, by decide, by decide +kernel⟩

/-- C27 on the example: alpha = 37. -/
example : ∃ k0 k1 v0 v1, exDcf.generateKeys exEnv 37 (.tuple [.integer (.u64 7), .intModN (.u64 10)]) 1 2 =
      ok (k0, k1) ∧
    exDcf.evaluate exEnv exDcfTy.helper k0 36 = ok v0 ∧ exDcf.evaluate exEnv exDcfTy.helper k1 36 = ok v1 ∧
    exDcfTy.helper.add v0 v1 = (7#8, ⟨10#32, by decide⟩) := by
  obtain ⟨k0, k1, hk, h⟩ := C27_comparison_partial exFp exDcfParams exDcfTy rfl exDcf exDcf_setup exEnv 37
    (by decide) (.tuple [.integer (.u64 7), .intModN (.u64 10)]) (7#8, ⟨10#32, by decide⟩)
    ⟨_, rfl, _, _, rfl, ⟨_, rfl, rfl⟩, _, rfl, _, rfl, rfl⟩ 1 2
  obtain ⟨v0, v1, h0, h1, hs⟩ := h 36 (by decide)
  exact ⟨k0, k1, v0, v1, hk, h0, h1, hs.trans (if_pos (by decide))⟩

/-- Parameters used in the counterexample: XOR-shared bytes, two points. -/
def exXorParams : DpfParameters := ⟨1, some (Ty.xorWrapper .w8).helper.toValueType, .val 0⟩
/-- The DCF with these parameters. -/
def exXorDcf : Dcf := ((Dcf.create exFp exXorParams).getD ⟨0, exDpf⟩).registerAll [.xorWrapper .w8]
theorem exXorDcf_setup : DcfSetup exFp exXorParams (.xorWrapper .w8) exXorDcf :=
  ⟨⟨_, [.xorWrapper .w8], Res.eq_ok_getD (by decide +kernel) _, rfl, Or.inl (by simp)⟩, rfl, by decide,
    by decide +kernel⟩
/-- Keys for alpha = 0, beta = 5. -/
def exXorKeys : DcfKey × DcfKey :=
  (exXorDcf.generateKeys exEnv 0 (.xorWrapper (.u64 5)) 1 2).getD (exKey, exKey)

/-- C27 is false for `XorWrapper`: at point 0, with alpha = 0, the shares add up to beta instead of
zero (`SetToZero` ignores such values, /repo/dcf/distributed_comparison_function.cc:32-42). -/
theorem C27_refuted : ∃ (fp : FpEnv) (p : DpfParameters) (T : Ty) (c : Dcf) (env : Env)
    (alpha x : U128) (beta : Value) (b : T.den) (seed0 seed1 : U128) (k0 k1 : DcfKey) (v0 v1 : T.den),
    DcfSetup fp p T c ∧ alpha.toNat < 2 ^ p.logDomainSize.toNat ∧ Represents T beta b ∧
    c.generateKeys env alpha beta seed0 seed1 = ok (k0, k1) ∧ x.toNat < 2 ^ p.logDomainSize.toNat ∧
    c.evaluate env T.helper k0 x = ok v0 ∧ c.evaluate env T.helper k1 x = ok v1 ∧
    ¬ x.toNat < alpha.toNat ∧ T.helper.add v0 v1 = b ∧ b ≠ T.helper.zero := by
  refine ⟨exFp, exXorParams, .xorWrapper .w8, exXorDcf, exEnv, 0, 0, .xorWrapper (.u64 5), 5#8, 1, 2,
    exXorKeys.1, exXorKeys.2, _, _, exXorDcf_setup, by decide, ⟨_, rfl, rfl⟩,
    Res.eq_ok_getD (by decide +kernel) (exKey, exKey), by decide,
    Res.eq_ok_getD (by decide +kernel) 0#8, Res.eq_ok_getD (by decide +kernel) 0#8, by decide,
    @BitVec.eq_of_toNat_eq 8 _ _ (by decide +kernel), show (5#8 : BitVec 8) ≠ 0#8 by decide⟩

/-! ## C28 -/

/-- C28, for fewer than 2^31 keys: batch evaluation of any keys (also malformed ones) at any points is
evaluation one by one. Missing: 2^31 keys or more, for which it is false (`C28_many`, `C28_refuted`). -/
theorem C28_batch_partial (fp : FpEnv) (p : DpfParameters) (T : Ty) (c : Dcf) (hs : DcfSetup fp p T c)
    (env : Env) (keys : List DcfKey) (points : List U128) (hlen : points.length = keys.length)
    (hint : keys.length < 2 ^ 31) :
    c.batchEvaluate env T.helper keys points =
      mapRes (fun kx : DcfKey × U128 => c.evaluate env T.helper kx.1 kx.2) (keys.zip points) := by
  rw [← mapRes_zip (fun k x => c.evaluate env T.helper k x) keys points DpfKey.default 0 hlen]
  unfold Dcf.batchEvaluate
  dsimp only
  by_cases hk : ∀ k ∈ keys, c.dpf.KeyOk k
  · rw [hs.batch_ok env hlen (by simp) hk hint]
    apply mapRes_congr
    intro j hj
    simp only [List.mem_range] at hj
    rw [hs.evaluate_ok env (hk _ (by simp [List.getD, hj]))]
  · have hk' : ∃ k ∈ keys, ¬ c.dpf.KeyOk k := by
      apply Classical.byContradiction
      intro h
      exact hk fun k hkm => Classical.byContradiction fun hb => h ⟨k, hkm, hb⟩
    rw [hs.batch_bad env hlen (by simp) hk' hint, bind_err]
    symm
    apply Dpf.mapRes_err
    · intro j _
      by_cases h : c.dpf.KeyOk (keys.getD j DpfKey.default)
      · rw [hs.evaluate_ok env h]; exact hs.evalFold_cases env h _
      · exact Or.inr (hs.evaluate_bad env h _)
    · obtain ⟨k, hkm, hb⟩ := hk'
      obtain ⟨i, hi, rfl⟩ := List.getElem_of_mem hkm
      refine ⟨i, by simpa using hi, hs.evaluate_bad env ?_ _⟩
      simpa [List.getD, hi] using hb

/-- C28: the previous contents of the output do not matter. -/
theorem C28_output (T : Ty) (c : Dcf) (env : Env) (keys : List DcfKey) (points : List U128) (output : List T.den)
    (hlen : points.length = keys.length) (hout : output.length = keys.length) :
    (let r := c.batchEvaluateInto env T.helper keys points output
     r.1 >>= fun _ => ok r.2) = c.batchEvaluate env T.helper keys points := by
  have e : ∀ out : List T.den, out.length = keys.length →
      ((c.batchEvaluateInto env T.helper keys points out).1 >>= fun _ =>
        ok (c.batchEvaluateInto env T.helper keys points out).2) =
      ((c.batchEvaluateInto env T.helper keys points output).1 >>= fun _ =>
        ok (c.batchEvaluateInto env T.helper keys points output).2) := by
    intro out ho
    unfold Dcf.batchEvaluateInto
    have h1 : ¬ (keys.length ≠ points.length) := by omega
    have h2 : ¬ (out.length ≠ keys.length) := by omega
    have h3 : ¬ (output.length ≠ keys.length) := by omega
    rw [if_neg h1, if_neg h2, if_neg h1, if_neg h3]
    split
    · rfl
    · unfold Dcf.batchRun
      rw [ho, hout]
  unfold Dcf.batchEvaluate
  exact (e (List.replicate keys.length T.helper.zero) List.length_replicate).symm

/-- C28, the missing case: 2^31 keys or more. If bit 31 of their number is set the constructor of a
vector throws; otherwise the call is rejected, whatever the keys are. -/
theorem C28_many (T : Ty) (c : Dcf) (env : Env) (keys : List DcfKey) (points : List U128)
    (hlen : points.length = keys.length) (hint : 2 ^ 31 ≤ keys.length) :
    c.batchEvaluate env T.helper keys points =
      if 2 ^ 31 ≤ keys.length % 2 ^ 32 then crash else err .invalidArgument := by
  unfold Dcf.batchEvaluate Dcf.batchEvaluateInto
  dsimp only
  rw [if_neg (by omega), if_neg (by rw [List.length_replicate]; omega)]
  have hneg : wrapInt32 (keys.length : Int) < 0 ↔ 2 ^ 31 ≤ keys.length % 2 ^ 32 := by
    unfold wrapInt32; omega
  by_cases h : 2 ^ 31 ≤ keys.length % 2 ^ 32
  · rw [if_pos (hneg.mpr h), if_pos h]; rfl
  · rw [if_neg (fun hh => h (hneg.mp hh)), if_neg h]
    have hw : (wrapInt32 (keys.length : Int)).toNat < keys.length := by
      unfold wrapInt32; omega
    unfold Dcf.batchRun Dpf.evaluateAndApply
    dsimp only
    rw [failIf_true (by rw [List.length_take]; omega)]
    rfl

/-- C28: mismatched sizes are rejected, and nothing is written. -/
theorem C28_sizes (c : Dcf) (env : Env) (T : Ty) (keys : List DcfKey) (points : List U128)
    (output : List T.den) (h : points.length ≠ keys.length ∨ output.length ≠ keys.length) :
    c.batchEvaluateInto env T.helper keys points output = (err .invalidArgument, output) := by
  unfold Dcf.batchEvaluateInto
  split
  · rfl
  · split
    · rfl
    · omega

/-- C27 and C28 on the example: with a C++ value instead of a message, and with buffers of the caller. -/
example : ∃ k0 k1 c v0 v1, ((Dcf.create exFp exDcfParams).getD ⟨0, exDpf⟩).generateKeysFor exEnv exDcfTy.helper 37
      (7#8, ⟨10#32, by decide⟩) 1 2 = (ok (k0, k1), c) ∧
    c.evaluate exEnv exDcfTy.helper k0 36 = ok v0 ∧ c.evaluate exEnv exDcfTy.helper k1 36 = ok v1 ∧
    exDcfTy.helper.add v0 v1 = (7#8, ⟨10#32, by decide⟩) := by
  obtain ⟨k0, k1, c, hk, h⟩ := C27_typed_partial exFp exDcfParams exDcfTy rfl _ [] (Res.eq_ok_getD (by decide +kernel) ⟨0, exDpf⟩)
    rfl (by decide) (by decide +kernel) exEnv 37 (by decide) (7#8, ⟨10#32, by decide⟩) 1 2
  obtain ⟨v0, v1, h0, h1, hs⟩ := h 36 (by decide)
  exact ⟨k0, k1, c, v0, v1, hk, h0, h1, hs.trans (if_pos (by decide))⟩

example (a b : exDcfTy.den) :
    (let r := exDcf.batchEvaluateInto exEnv exDcfTy.helper [DpfKey.default, exKey] [3, 4] [a, b]
     r.1 >>= fun _ => ok r.2) = exDcf.batchEvaluate exEnv exDcfTy.helper [DpfKey.default, exKey] [3, 4] ∧
    exDcf.batchEvaluateInto exEnv exDcfTy.helper [DpfKey.default, exKey] [3, 4] [a] = (err .invalidArgument, [a]) :=
  ⟨C28_output exDcfTy exDcf exEnv _ _ [a, b] rfl rfl, C28_sizes exDcf exEnv exDcfTy _ _ [a] (Or.inr (by simp))⟩

/-- C28 as stated is false: there is a batch of keys that can be evaluated one by one and that makes
`BatchEvaluate` throw. -/
theorem C28_refuted : ∃ (fp : FpEnv) (p : DpfParameters) (T : Ty) (c : Dcf) (env : Env) (keys : List DcfKey)
    (points : List U128) (values : List T.den), DcfSetup fp p T c ∧ points.length = keys.length ∧
    (∀ x ∈ points, x.toNat < 2 ^ p.logDomainSize.toNat) ∧
    mapRes (fun kx : DcfKey × U128 => c.evaluate env T.helper kx.1 kx.2) (keys.zip points) = ok values ∧
    c.batchEvaluate env T.helper keys points = crash := by
  obtain ⟨k0, k1, hk, h⟩ := C27_comparison_partial exFp exDcfParams exDcfTy rfl exDcf exDcf_setup exEnv 37
    (by decide) (.tuple [.integer (.u64 7), .intModN (.u64 10)]) (7#8, ⟨10#32, by decide⟩)
    ⟨_, rfl, _, _, rfl, ⟨_, rfl, rfl⟩, _, rfl, _, rfl, rfl⟩ 1 2
  obtain ⟨v, _, hv, _⟩ := h 3 (by decide)
  refine ⟨exFp, exDcfParams, exDcfTy, exDcf, exEnv, List.replicate (2 ^ 31) k0, List.replicate (2 ^ 31) 3,
    List.replicate (2 ^ 31) v, exDcf_setup, by rw [List.length_replicate, List.length_replicate], ?_, ?_, ?_⟩
  · intro x hx
    rw [(List.mem_replicate.mp hx).2]; decide
  · rw [List.zip_replicate', mapRes_eq_ok_map (g := fun _ => v), List.map_replicate]
    intro kx hkx
    rw [(List.mem_replicate.mp hkx).2]; exact hv
  · rw [C28_many exDcfTy exDcf exEnv _ _ (by rw [List.length_replicate, List.length_replicate])
      (by rw [List.length_replicate]; exact Nat.le_refl _), if_pos (by rw [List.length_replicate]; decide)]

/-- C28 on the example: three keys, one of them malformed; and none malformed. -/
example : exDcf.batchEvaluate exEnv exDcfTy.helper [DpfKey.default, exKey] [3, 4] =
    mapRes (fun kx : DcfKey × U128 => exDcf.evaluate exEnv exDcfTy.helper kx.1 kx.2)
      [(DpfKey.default, 3), (exKey, 4)] :=
  C28_batch_partial exFp exDcfParams exDcfTy exDcf exDcf_setup exEnv [DpfKey.default, exKey] [3, 4] rfl
    (show (2 : Nat) < 2 ^ 31 by decide)
example : ∃ k0 k1 v, exDcf.generateKeys exEnv 37 (.tuple [.integer (.u64 7), .intModN (.u64 10)]) 1 2 =
      ok (k0, k1) ∧ exDcf.batchEvaluate exEnv exDcfTy.helper [k0, k1, k0] [3, 4, 63] = ok v := by
  obtain ⟨k0, k1, hk, h⟩ := C27_comparison_partial exFp exDcfParams exDcfTy rfl exDcf exDcf_setup exEnv 37
    (by decide) (.tuple [.integer (.u64 7), .intModN (.u64 10)]) (7#8, ⟨10#32, by decide⟩)
    ⟨_, rfl, _, _, rfl, ⟨_, rfl, rfl⟩, _, rfl, _, rfl, rfl⟩ 1 2
  obtain ⟨a, _, ha, _⟩ := h 3 (by decide)
  obtain ⟨_, b, _, hb, _⟩ := h 4 (by decide)
  obtain ⟨d, _, hd, _⟩ := h 63 (by decide)
  refine ⟨k0, k1, [a, b, d], hk, ?_⟩
  rw [C28_batch_partial exFp exDcfParams exDcfTy exDcf exDcf_setup exEnv [k0, k1, k0] [3, 4, 63] rfl
    (show (3 : Nat) < 2 ^ 31 by decide)]
  show mapRes _ [(k0, (3 : U128)), (k1, 4), (k0, 63)] = _
  rw [mapRes_cons, mapRes_cons, mapRes_cons]
  dsimp only
  rw [ha, hb, hd]
  rfl

/-! ## C29 -/

/-- C29, creation: domains with fewer than 2 or more than 2^129 points and invalid value types are
rejected. Missing: 2^129 points, which are accepted (`C29_create_refuted`). -/
theorem C29_create_partial (fp : FpEnv) (p : DpfParameters)
    (h : p.logDomainSize < 1 ∨ 129 < p.logDomainSize ∨ ¬ ∃ t, p.valueType = some t ∧ ValidType t) :
    Dcf.create fp p = err .invalidArgument := by
  unfold Dcf.create
  by_cases h1 : p.logDomainSize < 1
  · rw [failIf_true h1]; rfl
  · rw [failIf_false h1, bind_ok]
    have hn : ¬ ValidParams (Dcf.dpfParameters p) := by
      intro hv
      have hmem : ∀ i : Nat, i < p.logDomainSize.toNat →
          (⟨(i : Int), some p.vt, .val 0⟩ : DpfParameters) ∈ Dcf.dpfParameters p := by
        intro i hi
        exact List.mem_map.mpr ⟨i, List.mem_range.mpr hi, rfl⟩
      rcases h with h | h | h
      · exact h1 h
      · have := (hv.log_range _ (hmem 129 (by omega))).2
        dsimp only at this
        omega
      · obtain ⟨t, ht, hvt⟩ := hv.types _ (hmem 0 (by omega))
        simp only [Option.some.injEq] at ht
        subst ht
        cases hp : p.valueType with
        | none => rw [DpfParameters.vt, hp] at hvt; simp [ValidType] at hvt
        | some t => exact h ⟨t, hp, by rwa [DpfParameters.vt, hp] at hvt⟩
    rcases validateParameters_cases (Dcf.dpfParameters p) with ⟨_, h2⟩ | h2
    · exact absurd ((validateParameters_iff _).mp h2) hn
    · dsimp only
      rw [h2]; rfl

/-- C29: 2^129 points are accepted although points have 128 bits, and every call of `GenerateKeys` then
shifts a 128-bit number by 128. -/
theorem C29_create_refuted : ∃ (fp : FpEnv) (p : DpfParameters) (c : Dcf), p.logDomainSize = 129 ∧
    Dcf.create fp p = ok c ∧ ∀ env alpha beta seed0 seed1,
      c.generateKeys env alpha beta seed0 seed1 = ub := by
  have hc : Dcf.create exFp ⟨129, some (.integer 64), .val 0⟩ = ok _ :=
    Res.eq_ok_getD (by decide +kernel) ⟨0, exDpf⟩
  refine ⟨exFp, _, _, rfl, hc, ?_⟩
  intro env alpha beta seed0 seed1
  have hl := (Dcf.create_spec hc).2.1
  unfold Dcf.generateKeys
  rw [hl]
  show (mapRes (Dcf.levelValue 129 alpha beta) (List.range 129) >>= _) = ub
  rw [List.range_succ_eq_map, mapRes_cons]
  rfl

/-- C29, key generation: alpha outside the domain is rejected, and so is a beta that does not match the
value type if alpha is not zero. Missing: alpha = 0, where numbers in beta are never looked at
(`C29_beta_refuted`). -/
theorem C29_generateKeys_partial (fp : FpEnv) (p : DpfParameters) (c : Dcf) (Ts : List Ty)
    (hc : Dcf.create fp p = ok c) (hlog : p.logDomainSize ≤ 128) (env : Env) (alpha : U128) (beta : Value)
    (seed0 seed1 : U128)
    (h : 2 ^ p.logDomainSize.toNat ≤ alpha.toNat ∨
      (alpha ≠ 0 ∧ ∃ t, p.valueType = some t ∧ ¬ Matches t beta)) :
    (c.registerAll Ts).generateKeys env alpha beta seed0 seed1 = err .invalidArgument := by
  obtain ⟨hpos, hl, hd⟩ := Dcf.create_spec hc
  have hcr : Created fp (Dcf.dpfParameters p) (c.dpf.registerAll Ts) := ⟨c.dpf, Ts, hd, rfl⟩
  unfold Dcf.generateKeys
  show (mapRes (Dcf.levelValue c.logDomainSize alpha beta) _ >>= _) = _
  rw [mapRes_eq_ok_map (g := fun i => if alpha.toNat / 2 ^ (p.logDomainSize.toNat - i - 1) % 2 = 1 then beta
    else setToZero beta), bind_ok]
  · apply C19_rejects fp _ _ hcr
    have hlast : lastLogSize (Dcf.dpfParameters p) = p.logDomainSize.toNat - 1 := by
      unfold lastLogSize
      rw [Dcf.dpfParameters_length, Dcf.logSize_eq (by omega)]
    have hpow : 2 ^ p.logDomainSize.toNat = 2 ^ (p.logDomainSize.toNat - 1) * 2 := by
      rw [← Nat.pow_succ]; congr 1; omega
    have hshr : (alpha >>> 1).toNat = alpha.toNat / 2 := by rw [Dpf.shr_toNat]
    by_cases hbig : 2 ^ p.logDomainSize.toNat ≤ alpha.toNat
    · right; right
      rw [hlast, hshr]
      omega
    · rcases h with h | ⟨h0, t, ht, hm⟩
      · exact absurd h hbig
      · right; left
        -- some bit of alpha is set
        have hbit : ∃ k, k < p.logDomainSize.toNat ∧ alpha.toNat / 2 ^ k % 2 = 1 := by
          apply Classical.byContradiction
          intro hno
          apply h0
          apply BitVec.eq_of_toNat_eq
          apply Nat.eq_of_testBit_eq
          intro k
          rw [Nat.testBit_eq_decide_div_mod_eq]
          have : ¬ alpha.toNat / 2 ^ k % 2 = 1 := by
            by_cases hk : k < p.logDomainSize.toNat
            · intro e; exact hno ⟨k, hk, e⟩
            · rw [Nat.div_eq_of_lt (Nat.lt_of_lt_of_le (by omega : alpha.toNat < 2 ^ p.logDomainSize.toNat)
                (Nat.pow_le_pow_right (by omega) (by omega)))]
              omega
          simp [this]
        obtain ⟨k, hk, hb⟩ := hbit
        refine ⟨p.logDomainSize.toNat - 1 - k, ⟨((p.logDomainSize.toNat - 1 - k : Nat) : Int), some p.vt, .val 0⟩,
          t, beta, ?_, ?_, ?_, hm⟩
        · simp only [Dcf.dpfParameters, List.getElem?_map]
          rw [List.getElem?_range (by omega)]; rfl
        · simp [DpfParameters.vt, ht]
        · rw [List.getElem?_map]
          show Option.map _ (List.range c.logDomainSize.toNat)[_]? = _
          rw [List.getElem?_range (by omega), Option.map_some,
            show p.logDomainSize.toNat - (p.logDomainSize.toNat - 1 - k) - 1 = k by omega, if_pos hb]
  · intro i hi
    have hi' : i < p.logDomainSize.toNat := by
      have : i < c.logDomainSize.toNat := List.mem_range.mp hi
      omega
    unfold Dcf.levelValue
    rw [show c.logDomainSize - (i : Nat) - 1 = ((p.logDomainSize.toNat - i - 1 : Nat) : Int) by omega,
      shl128_ok (by omega), bind_ok]
    simp only [and_one_shl _ (show p.logDomainSize.toNat - i - 1 < 128 by omega)]

/-- C29: with alpha = 0 a beta that does not fit the output type is accepted. -/
theorem C29_beta_refuted : ∃ (fp : FpEnv) (p : DpfParameters) (T : Ty) (c : Dcf) (env : Env) (beta : Value)
    (keys : DcfKey × DcfKey), DcfSetup fp p T c ∧ ¬ Matches T.helper.toValueType beta ∧
    c.generateKeys env 0 beta 1 2 = ok keys := by
  refine ⟨exFp, exDcfParams, exDcfTy, exDcf, exEnv, .tuple [.integer (.u64 256), .intModN (.u64 11)], _,
    exDcf_setup, ?_, Res.eq_ok_getD (by decide +kernel) (exKey, exKey)⟩
  rintro ⟨vs, hv, v, vs', rfl, ⟨i, rfl, hf⟩, _⟩
  simp only [Value.tuple.injEq, List.cons.injEq, Value.integer.injEq] at hv
  obtain ⟨rfl, _⟩ := hv
  rcases hf with hf | ⟨n, hn, hlt⟩
  · exact absurd hf (by decide)
  · simp [intMsg] at hn
    subst hn
    exact absurd hlt (by decide)

/-- C29 on examples. -/
example : Dcf.create exFp ⟨0, some (.integer 8), .val 0⟩ = err .invalidArgument ∧
    Dcf.create exFp ⟨5, some (.integer 9), .val 0⟩ = err .invalidArgument ∧
    exDcf.generateKeys exEnv 64 (.tuple [.integer (.u64 7), .intModN (.u64 10)]) 1 2 = err .invalidArgument ∧
    exDcf.generateKeys exEnv 1 (.integer (.u64 7)) 1 2 = err .invalidArgument :=
  ⟨C29_create_partial _ _ (Or.inl (by decide)),
   C29_create_partial _ _ (Or.inr (Or.inr (by
    rintro ⟨t, ht, hv⟩
    simp only [Option.some.injEq] at ht
    subst ht
    simp [ValidType, ValidBits] at hv))),
   C29_generateKeys_partial _ _ _ [exDcfTy] exDcf_create (by decide) _ _ _ _ _ (Or.inl (by decide)),
   C29_generateKeys_partial _ _ _ [exDcfTy] exDcf_create (by decide) _ _ _ _ _ (Or.inr ⟨by decide, _, rfl, by
    rintro ⟨vs, hv, _⟩; cases hv⟩)⟩

/-! ## C11 for the DCF -/

/-- C11 as documented is false of `Evaluate`: a point outside the domain is accepted. -/
theorem C11_dcf_refuted : ∃ (fp : FpEnv) (p : DpfParameters) (T : Ty) (c : Dcf) (env : Env)
    (key : DcfKey) (x : U128) (v : T.den), DcfSetup fp p T c ∧ 2 ^ p.logDomainSize.toNat ≤ x.toNat ∧
    c.evaluate env T.helper key x = ok v :=
  ⟨exFp, exXorParams, .xorWrapper .w8, exXorDcf, exEnv, exXorKeys.1, 2, _, exXorDcf_setup, by decide,
    Res.eq_ok_getD (by decide +kernel) 0#8⟩

end Verif
