import Verif.Lemmas.BenchmarkKeys
import Verif.Props.Benchmarks
/-!
# C82: benchmarks of key generation, of DPFs with one level, of DCFs and of gates
-/
namespace Verif
open Res Spec Benchmarks SyntheticData

/-! ### Key generation -/

/-- The domain sizes of `BM_KeyGeneration`. -/
def keyGenerationSizes (direct : Bool) (log : Nat) : List Nat := if direct then [log] else bitwise log

theorem keyGenerationSizes_levels {direct : Bool} {log : Nat} (h0 : 0 < log) (h : log ≤ 128) :
    LevelsUpTo log (keyGenerationSizes direct log) := by
  cases direct
  · exact bitwise_levels h0 h
  · exact ⟨List.pairwise_singleton _ _, rfl, h⟩

theorem keyGenerationSizes_eq (direct : Bool) (log : Nat) :
    (if direct then [(log : Int)] else (List.range log).map fun i => ((i + 1 : Nat) : Int)) =
      (keyGenerationSizes direct log).map Int.ofNat := by
  cases direct
  · show _ = (bitwise log).map Int.ofNat
    rw [bitwise, List.map_map]; rfl
  · rfl

/-- C82, key generation: `BM_KeyGeneration` completes for domains of up to 127 bits, with one level as well as with a level for
each bit. Each pair of keys is for the last `log` bits of the number drawn, and the value 23 on all levels. Missing: 128
bits (`C82_keygen_refuted`). -/
theorem C82_keygen_partial (fp : FpEnv) (env : Env) (direct : Bool) (log : Nat) (h0 : 0 < log) (h : log < 128)
    (draws : List (U128 × U128 × U128)) :
    ∃ keys d, keyGeneration fp env direct log draws = ok (keys, d) ∧ keys.length = draws.length ∧
      Setup fp (parametersOf .w32 ((keyGenerationSizes direct log).map Int.ofNat)) (fun _ => .uint .w32) d ∧
      ∀ (i : Nat) (x s0 s1 : U128), draws[i]? = some (x, s0, s1) → ∃ k0 k1, keys[i]? = some (k0, k1) ∧
        SharesPoint (parametersOf .w32 ((keyGenerationSizes direct log).map Int.ofNat)) (fun _ => .uint .w32) d env
          (BitVec.ofNat 128 (x.toNat % 2 ^ log)) (fun _ => (23 : BitVec 32)) k0 k1 := by
  have g := keyGenerationSizes_levels (direct := direct) h0 (by omega)
  obtain ⟨d0, hd0⟩ := C16_accepts fp _ (sizeParams_valid (w := .w32) g) fun p hp => ⟨.uint .w32, rfl, by decide, by
    obtain ⟨a, _, rfl⟩ := sizeParams_mem hp; rfl⟩
  obtain ⟨keys, Ts', e, h1, h2, h3⟩ := keyGenerationLoop_ok g h hd0 env draws []
  refine ⟨keys, _, ?_, h1, h2, h3⟩
  have hlast : ((keyGenerationSizes direct log).map Int.ofNat).getLastD 0 = (log : Int) := by
    rw [List.getLastD_eq_getLast?, List.getLast?_map, g.last]; rfl
  unfold keyGeneration
  dsimp only
  rw [keyGenerationSizes_eq, hd0]
  dsimp only [value]
  rw [bind_ok, hlast, shl128_ok h, bind_ok, List.length_map]
  exact e

/-- C82, key generation is undefined for domains of 128 bits: 1 is shifted by 128
(/repo/dpf/distributed_point_function_benchmark.cc:262-263). The benchmark is registered with this size in both
variants. -/
theorem C82_keygen_refuted (fp : FpEnv) (env : Env) (direct : Bool) (draws : List (U128 × U128 × U128)) :
    keyGeneration fp env direct 128 draws = ub := by
  have g := keyGenerationSizes_levels (direct := direct) (log := 128) (by omega) (by omega)
  obtain ⟨d0, hd0⟩ := C16_accepts fp _ (sizeParams_valid (w := .w32) g) fun p hp => ⟨.uint .w32, rfl, by decide, by
    obtain ⟨a, _, rfl⟩ := sizeParams_mem hp; rfl⟩
  have hlast : ((keyGenerationSizes direct 128).map Int.ofNat).getLastD 0 = (128 : Int) := by
    rw [List.getLastD_eq_getLast?, List.getLast?_map, g.last]; rfl
  unfold keyGeneration
  dsimp only
  rw [keyGenerationSizes_eq, hd0]
  dsimp only [value]
  rw [bind_ok, hlast]
  rfl

/-- Two iterations with 20 bits. -/
example (fp : FpEnv) (env : Env) : ∃ keys d, keyGeneration fp env false 20 [(2 ^ 20 + 7, 1, 2), (9, 3, 4)] = ok (keys, d) ∧
    keys.length = 2 ∧ ∃ k0 k1, keys[0]? = some (k0, k1) ∧
      SharesPoint (parametersOf .w32 ((bitwise 20).map Int.ofNat)) (fun _ => .uint .w32) d env 7 (fun _ => (23 : BitVec 32)) k0 k1 := by
  obtain ⟨keys, d, h1, h2, _, h3⟩ := C82_keygen_partial fp env false 20 (by omega) (by omega) [(2 ^ 20 + 7, 1, 2), (9, 3, 4)]
  exact ⟨keys, d, h1, h2, h3 0 _ _ _ rfl⟩

/-! ### One level -/

/-- C82, DPFs with one level: for every type without tuples inside of tuples, or without integers modulo `N`,
`BM_EvaluateRegularDpf` completes if a DPF can be created. The key is one of two for the value 0 at the point 0; in each
iteration its values at all points are computed. -/
theorem C82_regular (fp : FpEnv) (env : Env) (t : Ty) (ht : t.flat = true ∨ t.noMod = true) (log : Nat) (hlog : log < 63)
    (d0 : Dpf) (hd0 : Dpf.createIncremental fp [⟨(log : Int), some t.helper.toValueType, .val 0⟩] = ok d0)
    (iterations : Nat) (seed0 seed1 : U128) :
    ∃ k0 k1 d out, evaluateRegularDpf fp env t log iterations seed0 seed1 = ok (k0, List.replicate iterations out) ∧
      Setup fp [⟨(log : Int), some t.helper.toValueType, .val 0⟩] (fun _ => t) d ∧
      SharesPoint [⟨(log : Int), some t.helper.toValueType, .val 0⟩] (fun _ => t) d env 0 (fun _ => t.helper.zero) k0 k1 ∧
      d.evaluateAt env t.helper k0 0 ((List.range (2 ^ log)).map (BitVec.ofNat 128)) = ok out := by
  obtain ⟨k0, k1, Ts', ctx, e, hs, hsh, hctx⟩ := zeroKeys_ok ht hd0 [t] env (alpha := 0) (Nat.two_pow_pos _) seed0 seed1
  have hr : RoundsOk (oneLevel log t) (d0.registerAll Ts') ((0 : Nat) - 1) [] (roundsFrom 0 [[]]) := by
    refine ⟨by omega, by show 0 < 1; omega, ⟨fun _ => rfl, fun _ => by omega⟩, (by simp), ?_, True.intro⟩
    rw [if_pos (by omega)]
    have := oneLevel_last log t
    unfold lastLogSize at this
    rw [show (oneLevel log t).length - 1 = 0 from rfl] at this
    omega
  obtain ⟨out, o1, o2, o3⟩ := evaluateAll_ok hs hsh [[]] 0 [] ctx (Or.inl ⟨rfl, hctx⟩) (by intro h; omega) hr
  obtain ⟨vals, v1, v2⟩ := o3 0 [] rfl
  refine ⟨k0, k1, _, vals, ?_, hs, hsh, ?_⟩
  · have hnext : value ((d0.registerAll Ts').evaluateNext env t.helper [] ctx).1 = ok vals := by
      rw [evaluateAll] at o1
      obtain ⟨vs, e1, e2⟩ := bind_eq_ok.mp o1
      obtain ⟨rest, _, e3⟩ := bind_eq_ok.mp e2
      obtain rfl := Res.ok.inj e3
      simp at v1
      rw [e1, v1]
    unfold evaluateRegularDpf
    rw [hd0]
    dsimp only [value]
    rw [bind_ok, show d0.registerValueType t.helper = d0.registerAll [t] from rfl, e]
    dsimp only [value]
    rw [bind_ok, hctx]
    dsimp only [bind_ok]
    refine Eq.trans (b := mapRes (fun _ => value ((d0.registerAll Ts').evaluateNext env t.helper [] ctx).1) (List.range iterations) >>=
      fun results => ok (k0, results)) rfl ?_
    rw [mapRes_const (List.range iterations) (fun _ _ => hnext), List.length_range]
    rfl
  · have : outputPoints (oneLevel log t) (((0 + 0 : Nat) : Int) - 1) ((0 + 0 : Nat) : Int) [] =
        (List.range (2 ^ log)).map (BitVec.ofNat 128) := by
      rw [outputPoints, if_pos (by omega)]
      unfold allPoints
      have := oneLevel_last log t
      unfold lastLogSize at this
      rw [show (oneLevel log t).length - 1 = 0 from rfl] at this
      rw [show (((0 + 0 : Nat) : Int).toNat) = 0 from rfl, this]
    rw [this] at v2
    exact v2

/-- Five integers modulo 2^32 - 5. -/
def exBenchTy : Ty :=
  let t : Ty := .intModN .w32 4294967291#128 (by decide) (by decide)
  .tuple (.cons t (.cons t (.cons t (.cons t (.one t)))))
/-- The DPF of the benchmark with this type and 2^12 points. -/
def exBenchDpf : Dpf := (Dpf.createIncremental exFp [⟨12, some exBenchTy.helper.toValueType, .val 0⟩]).getD exDpf
theorem exBenchDpf_create : Dpf.createIncremental exFp [⟨12, some exBenchTy.helper.toValueType, .val 0⟩] = ok exBenchDpf :=
  Res.eq_ok_getD (by decide +kernel) _

/-- Five integers modulo 2^32 - 5 and 2^12 points. -/
example (env : Env) (seed0 seed1 : U128) : ∃ k0 out, evaluateRegularDpf exFp env exBenchTy 12 3 seed0 seed1 = ok (k0, [out, out, out]) := by
  obtain ⟨k0, _, _, out, h, _⟩ := C82_regular exFp env exBenchTy (Or.inl rfl) 12 (by omega) exBenchDpf exBenchDpf_create 3 seed0 seed1
  exact ⟨k0, out, h⟩

/-! ### Many keys -/

/-- C82, many keys: for every type as above, `BM_BatchEvaluation` with `m` points for each key completes if a DPF can be created.
Key `i` is one of two for the value 0 at the point drawn for it. Evaluation `i` is at the points drawn for key `i`, and uses
key `i / m`. -/
theorem C82_batch (fp : FpEnv) (env : Env) (t : Ty) (ht : t.flat = true ∨ t.noMod = true) (m : Nat) (hm : 0 < m)
    (d0 : Dpf) (hd0 : Dpf.createIncremental fp [⟨56, some t.helper.toValueType, .val 0⟩] = ok d0)
    (draws : List BatchDraw) (hpts : ∀ b ∈ draws, b.points.length = m) :
    ∃ keys d out, batchEvaluation fp env t m draws = ok (keys, d, out) ∧ keys.length = draws.length ∧
      (∀ (i : Nat) b, draws[i]? = some b → ∃ k0 k1, keys[i]? = some k0 ∧
        SharesPoint [⟨56, some t.helper.toValueType, .val 0⟩] (fun _ => t) d env (BitVec.ofNat 128 (b.alpha.toNat % 2 ^ 56))
          (fun _ => t.helper.zero) k0 k1) ∧
      out.length = draws.length ∧
      ∀ (i : Nat) b, draws[i]? = some b → ∃ k vals, keys[i / m]? = some k ∧ out[i]? = some vals ∧
        d.evaluateAt env t.helper k 0 (b.points.map fun x => BitVec.ofNat 128 (x.toNat % 2 ^ 56)) = ok vals := by
  obtain ⟨keys, Ts', e, hl, hk⟩ := batchKeys_ok (log := 56) (by omega) ht hd0 env draws []
  have hmask : ∀ x : U128, x &&& ((1 : U128) <<< 56 - 1) = BitVec.ofNat 128 (x.toNat % 2 ^ 56) := by
    intro x
    apply BitVec.eq_of_toNat_eq
    rw [and_mask_toNat (by omega), BitVec.toNat_ofNat, Nat.mod_eq_of_lt (Nat.lt_of_le_of_lt (Nat.mod_le _ _) x.isLt)]
  have hev : ∀ (i : Nat) b, draws[i]? = some b → ∃ k vals, keys[i / m]? = some k ∧
      (d0.registerAll Ts').evaluateAt env t.helper k 0 (b.points.map fun x => BitVec.ofNat 128 (x.toNat % 2 ^ 56)) = ok vals := by
    intro i b hb
    have hi := (List.getElem?_eq_some_iff.mp hb).1
    have him : i / m < draws.length := Nat.lt_of_le_of_lt (Nat.div_le_self _ _) hi
    obtain ⟨k0, k1, h1, h2⟩ := hk (i / m) _ (List.getElem?_eq_getElem him)
    obtain ⟨v0, v1, a1, _⟩ := h2 0 (by show 0 < 1; omega) (b.points.map fun x => BitVec.ofNat 128 (x.toNat % 2 ^ 56)) (by
      intro x hx
      obtain ⟨y, _, rfl⟩ := List.mem_map.mp hx
      rw [BitVec.toNat_ofNat]
      exact Nat.lt_of_le_of_lt (Nat.mod_le _ _) (Nat.mod_lt _ (Nat.two_pow_pos 56)))
    exact ⟨k0, v0, h1, a1⟩
  have hloop : ∀ i ∈ List.range draws.length, ∃ v, (do
      let key ← rd (keys.flatMap fun k => List.replicate m k) i
      value ((d0.registerAll Ts').evaluateAt env t.helper key 0
        (((draws.flatMap fun b => b.points.map fun x => x &&& ((1 : U128) <<< 56 - 1)).drop (i * m)).take m))) = ok v ∧
      ∀ b, draws[i]? = some b → ∃ k, keys[i / m]? = some k ∧
        (d0.registerAll Ts').evaluateAt env t.helper k 0 (b.points.map fun x => BitVec.ofNat 128 (x.toNat % 2 ^ 56)) = ok v := by
    intro i hi
    have hi := List.mem_range.mp hi
    obtain ⟨k, v, h1, h2⟩ := hev i _ (List.getElem?_eq_getElem hi)
    refine ⟨v, ?_, ?_⟩
    · rw [flatMap_chunk draws (fun b hb => by rw [List.length_map, hpts b hb]) i _ (List.getElem?_eq_getElem hi)]
      have hr : rd (keys.flatMap fun k => List.replicate m k) i = ok k := by
        unfold rd
        rw [flatMap_replicate_get hm, h1]
      rw [hr, bind_ok]
      simp only [hmask]
      rw [h2]; rfl
    · intro b hb
      rw [List.getElem?_eq_getElem hi] at hb
      cases hb
      exact ⟨k, h1, h2⟩
  have hrun : ∃ out, mapRes (fun i => do
      let key ← rd (keys.flatMap fun k => List.replicate m k) i
      value ((d0.registerAll Ts').evaluateAt env t.helper key 0
        (((draws.flatMap fun b => b.points.map fun x => x &&& ((1 : U128) <<< 56 - 1)).drop (i * m)).take m)))
        (List.range draws.length) = ok out := mapRes_ok_of_forall fun i hi => let ⟨v, hv, _⟩ := hloop i hi; ⟨v, hv⟩
  obtain ⟨out, hout⟩ := hrun
  refine ⟨keys, d0.registerAll Ts', out, ?_, hl, hk, by rw [mapRes_length hout, List.length_range], ?_⟩
  · unfold batchEvaluation
    rw [show shl128 (1 : U128) 56 = ok ((1 : U128) <<< 56) from shl128_ok (n := 56) (by omega), bind_ok]
    have hd0' : Dpf.createIncremental fp [⟨56, some t.helper.toValueType, .val 0⟩] = ok d0 := hd0
    rw [hd0']
    dsimp only [value]
    have e' : batchKeys env t ((1 : U128) <<< 56 - 1) draws d0 = ok (keys, d0.registerAll Ts') := e
    rw [bind_ok, e', bind_ok]
    dsimp only
    refine Eq.trans (congrArg (· >>= _) hout) ?_
    rfl
  · intro i b hb
    have hi := (List.getElem?_eq_some_iff.mp hb).1
    obtain ⟨hlen, hget⟩ := mapRes_eq_ok.mp hout
    rw [List.length_range] at hlen
    have := hget i (by simpa using hi) (by omega)
    rw [List.getElem_range] at this
    obtain ⟨v, h1, h2⟩ := hloop i (List.mem_range.mpr hi)
    rw [h1] at this
    obtain rfl := Res.ok.inj this
    obtain ⟨k, h3, h4⟩ := h2 b hb
    exact ⟨k, _, h3, List.getElem?_eq_getElem (by omega), h4⟩

/-- C82, many keys: if there are not more keys than points for each, as in all registered cases, only the first key is evaluated. -/
theorem C82_batch_first (fp : FpEnv) (env : Env) (t : Ty) (ht : t.flat = true ∨ t.noMod = true) (m : Nat) (hm : 0 < m)
    (d0 : Dpf) (hd0 : Dpf.createIncremental fp [⟨56, some t.helper.toValueType, .val 0⟩] = ok d0)
    (draws : List BatchDraw) (hpts : ∀ b ∈ draws, b.points.length = m) (hle : draws.length ≤ m) (hne : draws ≠ []) :
    ∃ keys d out first, batchEvaluation fp env t m draws = ok (keys, d, out) ∧ keys[0]? = some first ∧
      ∀ (i : Nat) b, draws[i]? = some b → ∃ vals, out[i]? = some vals ∧
        d.evaluateAt env t.helper first 0 (b.points.map fun x => BitVec.ofNat 128 (x.toNat % 2 ^ 56)) = ok vals := by
  obtain ⟨keys, d, out, h1, h2, _, _, h5⟩ := C82_batch fp env t ht m hm d0 hd0 draws hpts
  have h0 := List.getElem?_eq_getElem (l := keys) (i := 0) (by rw [h2]; exact List.length_pos_iff.mpr hne)
  refine ⟨keys, d, out, _, h1, h0, ?_⟩
  intro i b hb
  obtain ⟨k, v, e1, e2, e3⟩ := h5 i b hb
  have hi := (List.getElem?_eq_some_iff.mp hb).1
  rw [Nat.div_eq_of_lt (by omega), h0] at e1
  cases e1
  exact ⟨v, e2, e3⟩

/-- Two keys with two points each. -/
def exBatchDraws : List BatchDraw := [⟨5, 1, 2, [3, 4]⟩, ⟨9, 7, 8, [5, 6]⟩]
/-- The DPF of `BM_BatchEvaluation`. -/
def exBatchDpf : Dpf := (Dpf.createIncremental exFp [⟨56, some (Ty.xorWrapper .w128).helper.toValueType, .val 0⟩]).getD exDpf
theorem exBatchDpf_create :
    Dpf.createIncremental exFp [⟨56, some (Ty.xorWrapper .w128).helper.toValueType, .val 0⟩] = ok exBatchDpf :=
  Res.eq_ok_getD (by decide +kernel) _

theorem exBatchDraws_points : ∀ b ∈ exBatchDraws, b.points.length = 2 := by
  intro b hb
  simp [exBatchDraws] at hb
  rcases hb with rfl | rfl <;> rfl

/-- Two keys with two points each. -/
example (env : Env) : ∃ keys d out first, batchEvaluation exFp env (.xorWrapper .w128) 2 exBatchDraws = ok (keys, d, out) ∧
    keys[0]? = some first ∧ ∃ vals, out[1]? = some vals ∧ d.evaluateAt env (Ty.xorWrapper .w128).helper first 0 [5, 6] = ok vals := by
  obtain ⟨keys, d, out, first, h1, h2, h3⟩ := C82_batch_first exFp env (.xorWrapper .w128) (Or.inl rfl) 2 (by omega) exBatchDpf
    exBatchDpf_create exBatchDraws exBatchDraws_points (by decide) (by simp [exBatchDraws])
  exact ⟨keys, d, out, first, h1, h2, h3 1 _ rfl⟩

/-- The result of the benchmark on this example. -/
def exBatch : List DpfKey × Dpf × List (List (Ty.xorWrapper .w128).den) :=
  (batchEvaluation exFp exEnv (.xorWrapper .w128) 2 exBatchDraws).getD ([], exBatchDpf, [])

theorem exBatch_eq : batchEvaluation exFp exEnv (.xorWrapper .w128) 2 exBatchDraws = ok exBatch := Res.eq_ok_getD (by decide +kernel) _

/-- What the second key gives at the points drawn for it. -/
def exBatchOther : List (Ty.xorWrapper .w128).den :=
  (exBatch.2.1.evaluateAt exEnv (Ty.xorWrapper .w128).helper (exBatch.1.getD 1 exKey) 0
    ([5, 6].map fun x : U128 => BitVec.ofNat 128 (x.toNat % 2 ^ 56))).getD []
theorem exBatchOther_eq : exBatch.2.1.evaluateAt exEnv (Ty.xorWrapper .w128).helper (exBatch.1.getD 1 exKey) 0
    ([5, 6].map fun x : U128 => BitVec.ofNat 128 (x.toNat % 2 ^ 56)) = ok exBatchOther := Res.eq_ok_getD (by decide +kernel) _

theorem exBatch_ne : exBatch.2.2.getD 1 [] ≠ exBatchOther := by decide +kernel
theorem exBatch_length : 1 < exBatch.1.length ∧ 1 < exBatch.2.2.length := by decide +kernel

theorem getElem?_getD {α : Type} {l : List α} {i : Nat} {a : α} (h : i < l.length) : l[i]? = some (l.getD i a) := by
  rw [List.getD_eq_getElem?_getD, List.getElem?_eq_getElem h]; rfl

/-- C82, many keys: that evaluation `i` gives the values of key `i` at the points drawn for it is false
(/repo/dpf/distributed_point_function_benchmark.cc:403: `key_pointers[i]` instead of
`key_pointers[i * evaluation_points_per_key]`). -/
theorem C82_batch_refuted : ∃ (fp : FpEnv) (env : Env) (draws : List BatchDraw) (keys : List DpfKey) (d : Dpf)
    (out : List (List (Ty.xorWrapper .w128).den)) (b : BatchDraw) (k : DpfKey) (v v' : List (Ty.xorWrapper .w128).den),
    batchEvaluation fp env (.xorWrapper .w128) 2 draws = ok (keys, d, out) ∧ (∀ b ∈ draws, b.points.length = 2) ∧
    draws[1]? = some b ∧ keys[1]? = some k ∧ out[1]? = some v ∧
    d.evaluateAt env (Ty.xorWrapper .w128).helper k 0 (b.points.map fun x => BitVec.ofNat 128 (x.toNat % 2 ^ 56)) = ok v' ∧ v ≠ v' := by
  refine ⟨exFp, exEnv, exBatchDraws, exBatch.1, exBatch.2.1, exBatch.2.2, ⟨9, 7, 8, [5, 6]⟩, exBatch.1.getD 1 exKey,
    exBatch.2.2.getD 1 [], exBatchOther, ?_, exBatchDraws_points, rfl, getElem?_getD exBatch_length.1,
    getElem?_getD exBatch_length.2, ?_, exBatch_ne⟩
  · rw [exBatch_eq]
  · rw [← exBatchOther_eq]

/-! ### DCFs -/

/-- C82, DCFs: `BM_EvaluateDcf` completes for domains of 1 to 128 bits. Key `i` is one of two for the point and value drawn for
it, and is evaluated at the other point drawn. -/
theorem C82_dcf (fp : FpEnv) (env : Env) (w : Width) (log : Nat) (h0 : 0 < log) (h : log ≤ 128) (draws : List (DcfDraw w))
    (hint : draws.length < 2 ^ 31) :
    ∃ keys c out, evaluateDcf fp env w log draws = ok (keys, c, out) ∧ keys.length = draws.length ∧ out.length = draws.length ∧
      ∀ (i : Nat) b, draws[i]? = some b → ∃ k0 k1 v, keys[i]? = some k0 ∧
        SharesComparison log (.uint w) c env (b.alpha.toNat % 2 ^ log) b.beta k0 k1 ∧
        out[i]? = some v ∧ c.evaluate env (Ty.uint w).helper k0 (BitVec.ofNat 128 (b.point.toNat % 2 ^ log)) = ok v := by
  obtain ⟨c0, hc0⟩ := C29_accepts fp ⟨(log : Int), some (Ty.uint w).helper.toValueType, .val 0⟩ (by dsimp only; omega)
    (by dsimp only; omega) (.uint w) rfl (by cases w <;> decide) rfl
  have hmask : ∃ mask : U128, domainMask log = ok mask ∧ ∀ x : U128, (x &&& mask).toNat = x.toNat % 2 ^ log := by
    by_cases hl : log < 128
    · refine ⟨(1 : U128) <<< log - 1, ?_, and_mask_toNat hl⟩
      rw [domainMask, if_pos hl, shl128_ok hl]; rfl
    · refine ⟨_, if_neg hl, fun x => ?_⟩
      rw [BitVec.and_allOnes, show log = 128 by omega, Nat.mod_eq_of_lt x.isLt]
  obtain ⟨mask, hm1, hm2⟩ := hmask
  have bytes := dcf_bytes (w := w) hc0 rfl
  obtain ⟨keys, Ts', e, hl, hk⟩ := dcfKeys_ok h hm2 hc0 bytes env draws []
  have hpoint : ∀ x : U128, x &&& mask = BitVec.ofNat 128 (x.toNat % 2 ^ log) := by
    intro x
    apply BitVec.eq_of_toNat_eq
    rw [hm2, BitVec.toNat_ofNat, Nat.mod_eq_of_lt (Nat.lt_of_le_of_lt (Nat.mod_le _ _) x.isLt)]
  have hs : DcfSetup fp ⟨(log : Int), some (Ty.uint w).helper.toValueType, .val 0⟩ (.uint w) (c0.registerAll Ts') := by
    refine ⟨⟨c0, Ts', hc0, rfl, Or.inr ⟨w, rfl⟩⟩, rfl, by dsimp only; omega, ?_⟩
    show ∀ k ∈ (c0.dpf.registerAll Ts').blocksNeeded, _
    rw [(c0.dpf.registerAll_pv _).2]; exact bytes
  have hb := C28_batch_partial fp _ _ _ hs env keys (draws.map fun b => b.point &&& mask) (by rw [List.length_map, hl]) (by omega)
  have hone : ∀ (i : Nat) b, draws[i]? = some b → ∃ k0 k1 v, keys[i]? = some k0 ∧
      SharesComparison log (.uint w) (c0.registerAll Ts') env (b.alpha.toNat % 2 ^ log) b.beta k0 k1 ∧
      (c0.registerAll Ts').evaluate env (Ty.uint w).helper k0 (b.point &&& mask) = ok v := by
    intro i b hb
    obtain ⟨k0, k1, h1, h2⟩ := hk i b hb
    obtain ⟨v0, v1, a1, _⟩ := h2 (b.point &&& mask) (by rw [hm2]; exact Nat.mod_lt _ (Nat.two_pow_pos _))
    exact ⟨k0, k1, v0, h1, h2, a1⟩
  obtain ⟨out, hout⟩ : ∃ out, mapRes (fun kx : DcfKey × U128 => (c0.registerAll Ts').evaluate env (Ty.uint w).helper kx.1 kx.2)
      (keys.zip (draws.map fun b => b.point &&& mask)) = ok out := by
    apply mapRes_ok_of_forall
    intro kx hkx
    obtain ⟨i, hi, rfl⟩ := List.getElem_of_mem hkx
    have hi' : i < draws.length := by simp at hi; omega
    obtain ⟨k0, k1, v, h1, _, h3⟩ := hone i _ (List.getElem?_eq_getElem hi')
    refine ⟨v, ?_⟩
    rw [List.getElem_zip, List.getElem_map]
    rw [List.getElem?_eq_getElem (by omega)] at h1
    rw [Option.some.inj h1]; exact h3
  obtain ⟨ho1, ho2⟩ := mapRes_eq_ok.mp hout
  have holen : out.length = draws.length := by rw [ho1]; simp [hl]
  refine ⟨keys, c0.registerAll Ts', out, ?_, hl, holen, ?_⟩
  · unfold evaluateDcf
    rw [hc0]
    dsimp only [value]
    rw [bind_ok, hm1, bind_ok]
    have e' : dcfKeys env w mask draws c0 = ok (keys, c0.registerAll Ts') := e
    rw [e', bind_ok]
    dsimp only
    rw [hb, hout]; rfl
  · intro i b hb
    obtain ⟨k0, k1, v, h1, h2, h3⟩ := hone i b hb
    have hi := (List.getElem?_eq_some_iff.mp hb)
    obtain ⟨hi, rfl⟩ := hi
    refine ⟨k0, k1, v, h1, h2, ?_, by rw [← hpoint]; exact h3⟩
    have := ho2 i (by rw [← ho1]; omega) (by omega)
    rw [List.getElem_zip, List.getElem_map] at this
    rw [List.getElem?_eq_getElem (by omega)] at h1
    rw [Option.some.inj h1, h3] at this
    rw [List.getElem?_eq_getElem (by omega), Res.ok.inj this]

/-- 128 bits and one key. -/
example (fp : FpEnv) (env : Env) : ∃ keys c out, evaluateDcf fp env .w32 128 [⟨1000, 5, 1, 2, 77⟩] = ok (keys, c, out) ∧
    ∃ k0 k1, keys[0]? = some k0 ∧ SharesComparison 128 (.uint .w32) c env 1000 (5 : BitVec 32) k0 k1 := by
  obtain ⟨keys, c, out, h1, _, _, h2⟩ := C82_dcf fp env .w32 128 (by omega) (by omega) [⟨1000, 5, 1, 2, 77⟩] (by decide)
  obtain ⟨k0, k1, _, e1, e2, _⟩ := h2 0 _ rfl
  refine ⟨keys, c, out, h1, k0, k1, e1, ?_⟩
  exact e2

/-! ### Gates -/

/-- C82, gates: `BM_BatchedMicEvaluation` completes if there are not too many keys and intervals. Key `i` is one of two; their
outputs on the masked input `x` are shares of the output mask drawn, plus 1 if `x` is 0, whatever the intervals drawn. The
result is that of all keys at the masked input 0, one after the other. -/
theorem C82_mic (fp : FpEnv) (env : Env) (intervals : List IntervalDraw) (draws : List MicDraw)
    (hint : intervals.length < 2 ^ 31) (hdraws : draws.length < 2 ^ 31) (hcells : draws.length * intervals.length < 2 ^ 31) :
    ∃ (keys : List MicKey) (g : Mic) (out : List (List U128)), batchedMic fp env intervals draws = ok (keys, g, out.flatten) ∧
      keys.length = draws.length ∧ out.length = draws.length ∧
      ∀ (i : Nat) b, draws[i]? = some b → ∃ k0 k1 ys, keys[i]? = some k0 ∧ out[i]? = some ys ∧ g.eval env k0 0 = ok ys ∧
        ys.length = intervals.length ∧
        ∀ (x : Nat) (X : U128), x < 2 ^ 64 → X.toNat = (x + b.rIn.toNat) % 2 ^ 64 →
        ∃ ys0 ys1, g.eval env k0 X = ok ys0 ∧ g.eval env k1 X = ok ys1 ∧
          ys0.length = intervals.length ∧ ys1.length = intervals.length ∧
          ∀ (j : Nat) (d : IntervalDraw) (y0 y1 : U128), intervals[j]? = some d → ys0[j]? = some y0 → ys1[j]? = some y1 →
            (y0.toNat + y1.toNat) % 2 ^ 64 = (d.rOut.toNat + if x = 0 then 1 else 0) % 2 ^ 64 := by
  obtain ⟨g0, hg0⟩ := micCreate_ok fp intervals
  have hlen : (intervals.map fun d => d.rOut.setWidth 128).length = (micParameters intervals).intervals.length := by
    simp [micParameters]
  have hil : (micParameters intervals).intervals.length = intervals.length := by simp [micParameters]
  have hro : ∀ r ∈ (intervals.map fun d => d.rOut.setWidth 128), r.toNat < 2 ^ (micParameters intervals).logGroupSize.toNat := by
    intro r hr
    obtain ⟨d, _, rfl⟩ := List.mem_map.mp hr
    rw [BitVec.toNat_setWidth_of_le (by omega)]
    exact d.rOut.isLt
  obtain ⟨keys, Ts', e, hl, hms, hk⟩ := micKeys_ok hg0 env (by rw [hil]; exact hint) (by show (64 : Int) ≤ 64; omega) hlen hro draws []
  have hs : MicSetup fp (micParameters intervals) ⟨g0.params, g0.dcf.registerAll Ts'⟩ := ⟨g0, Ts', hg0, rfl⟩
  have hb := C31_batch_partial fp _ _ hs env keys (List.replicate draws.length 0) (by rw [List.length_replicate, hl])
    (fun k hk => by rw [hms k hk]; exact Nat.le_refl _) (by omega) (by rw [hil, hl]; exact hcells)
  have hone : ∀ (i : Nat) b, draws[i]? = some b → ∃ k0 k1 ys, keys[i]? = some k0 ∧
      (⟨g0.params, g0.dcf.registerAll Ts'⟩ : Mic).eval env k0 0 = ok ys ∧ ys.length = intervals.length ∧
      ∀ (x : Nat) (X : U128), x < 2 ^ 64 → X.toNat = (x + b.rIn.toNat) % 2 ^ 64 →
        ∃ ys0 ys1, (⟨g0.params, g0.dcf.registerAll Ts'⟩ : Mic).eval env k0 X = ok ys0 ∧
          (⟨g0.params, g0.dcf.registerAll Ts'⟩ : Mic).eval env k1 X = ok ys1 ∧
          ys0.length = intervals.length ∧ ys1.length = intervals.length ∧
          ∀ (j : Nat) (d : IntervalDraw) (y0 y1 : U128), intervals[j]? = some d → ys0[j]? = some y0 → ys1[j]? = some y1 →
            (y0.toNat + y1.toNat) % 2 ^ 64 = (d.rOut.toNat + if x = 0 then 1 else 0) % 2 ^ 64 := by
    intro i b hb
    obtain ⟨k0, k1, h1, h2⟩ := hk i b hb
    have h3 : ∀ (x : Nat) (X : U128), x < 2 ^ 64 → X.toNat = (x + b.rIn.toNat) % 2 ^ 64 →
        ∃ ys0 ys1, (⟨g0.params, g0.dcf.registerAll Ts'⟩ : Mic).eval env k0 X = ok ys0 ∧
          (⟨g0.params, g0.dcf.registerAll Ts'⟩ : Mic).eval env k1 X = ok ys1 ∧
          ys0.length = intervals.length ∧ ys1.length = intervals.length ∧
          ∀ (j : Nat) (d : IntervalDraw) (y0 y1 : U128), intervals[j]? = some d → ys0[j]? = some y0 → ys1[j]? = some y1 →
            (y0.toNat + y1.toNat) % 2 ^ 64 = (d.rOut.toNat + if x = 0 then 1 else 0) % 2 ^ 64 := by
      intro x X hx hX
      obtain ⟨ys0, ys1, a1, a2, a3, a4, a5⟩ := h2 x X hx hX
      refine ⟨ys0, ys1, a1, a2, by rw [a3, hil], by rw [a4, hil], ?_⟩
      intro j d y0 y1 hd hy0 hy1
      have := a5 j (micInterval d.x d.y) (d.rOut.setWidth 128) y0 y1
        (by show (intervals.map fun d => micInterval d.x d.y)[j]? = _; rw [List.getElem?_map, hd]; rfl)
        (by rw [List.getElem?_map, hd]; rfl) hy0 hy1
      obtain ⟨hp, hq⟩ := micInterval_zero d.x d.y
      rw [hp, hq, BitVec.toNat_setWidth_of_le (by omega)] at this
      have hiff : ((0 : U128).toNat ≤ x ∧ x ≤ (0 : U128).toNat) ↔ x = 0 := by
        rw [show (0 : U128).toNat = 0 from rfl]; omega
      simp only [hiff] at this
      exact this
    have h0 := b.rIn.isLt
    obtain ⟨ys, _, a1, _, a3, _⟩ := h3 ((2 ^ 64 - b.rIn.toNat) % 2 ^ 64) 0 (Nat.mod_lt _ (Nat.two_pow_pos _)) (by
      rw [show (0 : U128).toNat = 0 from rfl, Nat.mod_add_mod, Nat.sub_add_cancel (by omega), Nat.mod_self])
    exact ⟨k0, k1, ys, h1, a1, a3, h3⟩
  obtain ⟨out, hout⟩ : ∃ out, mapRes (fun kx : MicKey × U128 => (⟨g0.params, g0.dcf.registerAll Ts'⟩ : Mic).eval env kx.1 kx.2)
      (keys.zip (List.replicate draws.length 0)) = ok out := by
    apply mapRes_ok_of_forall
    intro kx hkx
    obtain ⟨i, hi, rfl⟩ := List.getElem_of_mem hkx
    have hi' : i < draws.length := by simp at hi; omega
    obtain ⟨k0, k1, v, h1, h3, _⟩ := hone i _ (List.getElem?_eq_getElem hi')
    refine ⟨v, ?_⟩
    rw [List.getElem_zip, List.getElem_replicate]
    rw [List.getElem?_eq_getElem (by omega)] at h1
    rw [Option.some.inj h1]; exact h3
  obtain ⟨ho1, ho2⟩ := mapRes_eq_ok.mp hout
  have holen : out.length = draws.length := by rw [ho1]; simp [hl]
  refine ⟨keys, ⟨g0.params, g0.dcf.registerAll Ts'⟩, out, ?_, hl, holen, ?_⟩
  · unfold batchedMic
    rw [hg0]
    dsimp only [value]
    have e' : micKeys env (intervals.map fun d => d.rOut.setWidth 128) draws g0 = ok (keys, ⟨g0.params, g0.dcf.registerAll Ts'⟩) := e
    rw [bind_ok, e', bind_ok]
    dsimp only
    rw [hb, hout]; rfl
  · intro i b hb
    obtain ⟨k0, k1, v, h1, h2, h3, h4⟩ := hone i b hb
    obtain ⟨hi, rfl⟩ := List.getElem?_eq_some_iff.mp hb
    refine ⟨k0, k1, v, h1, ?_, h2, h3, h4⟩
    have := ho2 i (by rw [← ho1]; omega) (by omega)
    rw [List.getElem_zip, List.getElem_replicate] at this
    rw [List.getElem?_eq_getElem (by omega)] at h1
    rw [Option.some.inj h1, h2] at this
    rw [List.getElem?_eq_getElem (by omega), Res.ok.inj this]

/-- C82, gates: the intervals drawn do not matter for the keys' outputs. Here the interval is [3, 2^40]; the input 5 is reported as
outside of it. -/
theorem C82_mic_refuted (fp : FpEnv) (env : Env) (b : MicDraw) :
    ∃ (keys : List MicKey) (g : Mic) (out : List U128) (k0 k1 : MicKey) (y0 y1 : U128),
      batchedMic fp env [⟨2 ^ 40, 3, 100⟩] [b] = ok (keys, g, out) ∧ keys = [k0] ∧
      g.eval env k0 ((b.rIn + 5).setWidth 128) = ok [y0] ∧ g.eval env k1 ((b.rIn + 5).setWidth 128) = ok [y1] ∧
      (y0.toNat + y1.toNat) % 2 ^ 64 = 100 := by
  obtain ⟨keys, g, out, h1, h2, _, h4⟩ := C82_mic fp env [⟨2 ^ 40, 3, 100⟩] [b] (by decide) (by show 1 < _; decide) (by show 1 * 1 < _; decide)
  obtain ⟨k0, k1, _, e1, _, _, _, e5⟩ := h4 0 b rfl
  obtain ⟨ys0, ys1, a1, a2, a3, a4, a5⟩ := e5 5 ((b.rIn + 5).setWidth 128) (by omega) (by
    rw [BitVec.toNat_setWidth_of_le (by omega), BitVec.toNat_add, Nat.add_comm]; rfl)
  match keys, h2, e1 with
  | [k], _, e1 =>
    cases e1
    match ys0, ys1, a3, a4 with
    | [y0], [y1], _, _ => exact ⟨_, g, _, k0, k1, y0, y1, h1, rfl, a1, a2, a5 0 _ y0 y1 rfl rfl rfl⟩

/-- Two keys and two intervals. -/
example (fp : FpEnv) (env : Env) : ∃ keys g out, batchedMic fp env [⟨7, 3, 100⟩, ⟨1, 2, 200⟩] [⟨5, 1, 2, fun _ => 0⟩, ⟨6, 3, 4, fun _ => 9⟩] =
    ok (keys, g, out) ∧ keys.length = 2 := by
  obtain ⟨keys, g, out, h1, h2, _⟩ := C82_mic fp env [⟨7, 3, 100⟩, ⟨1, 2, 200⟩] [⟨5, 1, 2, fun _ => 0⟩, ⟨6, 3, 4, fun _ => 9⟩]
    (by decide) (by decide) (by decide)
  exact ⟨keys, g, _, h1, h2⟩

/-- C82, many keys, on the example above. -/
example (env : Env) : ∃ keys d out, batchEvaluation exFp env (.xorWrapper .w128) 2 exBatchDraws = ok (keys, d, out) ∧
    keys.length = 2 ∧ out.length = 2 := by
  obtain ⟨keys, d, out, h1, h2, _, h3, _⟩ := C82_batch exFp env (.xorWrapper .w128) (Or.inl rfl) 2 (by omega) exBatchDpf
    exBatchDpf_create exBatchDraws exBatchDraws_points
  exact ⟨keys, d, out, h1, h2, h3⟩

end Verif
