import Verif.Lemmas.Random
import Verif.Props.Mic
import Verif.Props.Prng
/-!
# C65: failures of the random number generator
-/
namespace Verif
open Res Spec

/-! ## C65 -/

/-- C65, `Rand8`, `Rand64` and `Rand128`: INTERNAL if `RAND_bytes` returns 0; if it succeeds, a number whose bytes are
those written by `RAND_bytes`, each once. Missing: failures reported by -1 (`C65_rng_refuted`). -/
theorem C65_rng_partial (c : RandCall) (w : Nat) (_hw : w = 8 ∨ w = 64 ∨ w = 128) :
    (c.result = 0 → BasicRng.rand w c = err .internal) ∧
    (c.result = 1 → ∃ x, BasicRng.rand w c = ok x ∧ ∀ i < w / 8, x.extractLsb' (8 * i) 8 = c.bytes i) :=
  ⟨BasicRng.rand_failure w, fun h => ⟨_, BasicRng.rand_success w (by omega), fun i hi => c.integer_byte w i (by omega)⟩⟩

/-- C65 is false of `BasicRng` for a generator that does not support `RAND_bytes`, which OpenSSL reports by -1: the
uninitialised array is returned as a random number. -/
theorem C65_rng_refuted (c : RandCall) (h : c.result = -1) (w : Nat) (_hw : w = 8 ∨ w = 64 ∨ w = 128) :
    ∃ x, BasicRng.rand w c = ok x ∧ ∀ i < w / 8, x.extractLsb' (8 * i) 8 = c.bytes i :=
  ⟨_, BasicRng.rand_success w (by omega), fun i hi => c.integer_byte w i (by omega)⟩

/-- C65, masks of gates: `Gen` returns INTERNAL if `RAND_bytes` returns 0 for the mask of some interval. Missing:
the seeds of the keys (`C65_mic_refuted`) and failures reported by -1 (`C65_rng_refuted`). -/
theorem C65_mic_partial (fp : FpEnv) (params : MicParameters) (g : Mic) (hs : MicSetup fp params g) (env : Env)
    (rIn : U128) (hr : rIn.toNat < 2 ^ params.logGroupSize.toNat) (rOut : List U128)
    (hlen : rOut.length = params.intervals.length) (hro : ∀ r ∈ rOut, r.toNat < 2 ^ params.logGroupSize.toNat)
    (c0 c1 : RandCall) (cs : Nat → RandCall) (h : ∃ i < params.intervals.length, (cs i).result = 0) :
    (g.genRand env rIn rOut c0 c1 cs).1 = err .internal := by
  obtain ⟨k0, k1, g', hg, _⟩ := hs.correct env hr hlen hro (c0.integer 128) (c1.integer 128)
    (fun i => (cs i).integer 128)
  unfold Mic.gen at hg
  unfold Mic.genRand
  split at hg
  · rename_i N hN
    rw [hN]
    dsimp only at hg ⊢
    have h1 := congrArg Prod.fst hg
    dsimp only at h1
    obtain ⟨⟨a0, a1⟩, ha, h1⟩ := bind_eq_ok.mp h1
    rw [ha, bind_ok]
    dsimp only at h1 ⊢
    rw [Dpf.mapRes_err (c := .internal)]
    · rfl
    · intro i hi
      have hi := List.mem_range.mp hi
      rw [rd_lt hi, bind_ok, rd_lt (by rw [hs.params_eq] at hi; omega), bind_ok]
      by_cases hc : (cs i).result = 0
      · right; rw [BasicRng.rand_failure 128 hc]; rfl
      · left; rw [BasicRng.rand_success 128 hc]; exact ⟨_, rfl⟩
    · obtain ⟨i, hi, hc⟩ := h
      have hi' : i < g.params.intervals.length := by rw [hs.params_eq]; exact hi
      refine ⟨i, List.mem_range.mpr hi', ?_⟩
      rw [rd_lt hi', bind_ok, rd_lt (by omega), bind_ok]
      rw [BasicRng.rand_failure 128 hc]; rfl
  all_goals cases hg

/-- C65, gates: if `RAND_bytes` succeeds for all masks, `Gen` behaves as stated in the theorems on `gen`, with the
numbers drawn. -/
theorem C65_mic_success (fp : FpEnv) (params : MicParameters) (g : Mic) (hs : MicSetup fp params g) (env : Env)
    (rIn : U128) (rOut : List U128) (c0 c1 : RandCall) (cs : Nat → RandCall)
    (h : ∀ i < params.intervals.length, (cs i).result = 1) :
    g.genRand env rIn rOut c0 c1 cs =
      g.gen env rIn rOut (c0.integer 128) (c1.integer 128) (fun i => (cs i).integer 128) :=
  Mic.genRand_eq env rIn rOut c0 c1 (by rw [hs.params_eq]; intro i hi; rw [h i hi]; decide)

/-- C65 is false of key generation: if both calls of `RAND_bytes` fail, keys are returned all the same. Their seeds are
what the uninitialised array contained. -/
theorem C65_dpf_refuted (fp : FpEnv) (params : List DpfParameters) (T : Nat → Ty) (d : Dpf)
    (hs : Setup fp params T d) (env : Env) (alpha : U128) (ha : alpha.toNat < 2 ^ lastLogSize params)
    (beta : List Value) (b : (h : Nat) → (T h).den) (hb : BetasRepresent params T beta b) (c0 c1 : RandCall)
    (_h0 : c0.result ≠ 1) (_h1 : c1.result ≠ 1) :
    ∃ k0 k1 s0 s1, d.generateKeysIncrementalRand env alpha beta c0 c1 = ok (k0, k1) ∧
      k0.seed = some s0 ∧ k1.seed = some s1 ∧
      ∀ i < 16, s0.extractLsb' (8 * i) 8 = c0.bytes i ∧ s1.extractLsb' (8 * i) 8 = c1.bytes i := by
  obtain ⟨k0, k1, h, hg⟩ := hs.wf.generateKeys_ok env (hs.betasOk hb) (alpha := alpha)
    (by rw [hs.toCreated.last_eq]; exact ha) (c0.integer 128) (c1.integer 128)
  exact ⟨k0, k1, _, _, h, hg.seed0, hg.seed1, fun i hi =>
    ⟨c0.integer_byte 128 i (by omega), c1.integer_byte 128 i (by omega)⟩⟩

/-- C65 is false of gates if only the seeds fail: keys are returned. -/
theorem C65_mic_refuted (fp : FpEnv) (params : MicParameters) (g : Mic) (hs : MicSetup fp params g) (env : Env)
    (rIn : U128) (hr : rIn.toNat < 2 ^ params.logGroupSize.toNat) (rOut : List U128)
    (hlen : rOut.length = params.intervals.length) (hro : ∀ r ∈ rOut, r.toNat < 2 ^ params.logGroupSize.toNat)
    (c0 c1 : RandCall) (_h0 : c0.result ≠ 1) (_h1 : c1.result ≠ 1) (cs : Nat → RandCall)
    (h : ∀ i < params.intervals.length, (cs i).result = 1) :
    ∃ ks, (g.genRand env rIn rOut c0 c1 cs).1 = ok ks := by
  obtain ⟨k0, k1, g', hg, _⟩ := hs.correct env hr hlen hro (c0.integer 128) (c1.integer 128)
    (fun i => (cs i).integer 128)
  exact ⟨(k0, k1), by rw [C65_mic_success fp params g hs env rIn rOut c0 c1 cs h, hg]⟩

/-- C65 is false of `GenerateSeed`: if `RAND_bytes` fails and leaves the zeros with which the string is filled
(/repo/pir/prng/aes_128_ctr_seeded_prng.cc:47), the seed consists of zeros, so that the mask of a response is known
to everyone. -/
theorem C65_seed_refuted (c : RandCall) (_h : c.result ≠ 1) (hz : ∀ i, c.bytes i = 0) :
    Prng.generateSeedRand c = ok (List.replicate 16 0) := by
  unfold Prng.generateSeedRand Prng.generateSeed
  congr 1
  rw [show (c.bytes : Nat → BitVec 8) = fun _ => 0 from funext hz]
  rfl

/-! ## Examples -/

/-- A call that succeeds and calls that fail. -/
def exRandOk : RandCall := ⟨1, fun i => BitVec.ofNat 8 (i + 1)⟩
def exRandFail : RandCall := ⟨0, fun _ => 0⟩
def exRandNone : RandCall := ⟨-1, fun _ => 0⟩

/-- C65 on examples: the number drawn, and a failure. -/
example : BasicRng.rand 64 exRandOk = ok 0x0807060504030201 ∧ BasicRng.rand 128 exRandFail = err .internal ∧
    ∃ x, BasicRng.rand 8 exRandNone = ok x ∧ ∀ i < 1, x.extractLsb' (8 * i) 8 = 0 :=
  ⟨by decide +kernel, (C65_rng_partial exRandFail 128 (by decide)).1 rfl, C65_rng_refuted exRandNone rfl 8 (by decide)⟩

theorem exMic_masks : ∀ r ∈ ([5, 63] : List U128), r.toNat < 2 ^ exMicParams.logGroupSize.toNat := by
  intro r hr
  simp only [List.mem_cons, List.not_mem_nil, or_false] at hr
  rcases hr with rfl | rfl <;> decide

/-- C65 on the gate of C30: the second mask cannot be drawn; the masks can be drawn, but no seeds. -/
example : (exMic.genRand exEnv 60 [5, 63] exRandOk exRandOk fun i => if i = 1 then exRandFail else exRandOk).1 =
      err .internal ∧
    ∃ ks, (exMic.genRand exEnv 60 [5, 63] exRandFail exRandFail fun _ => exRandOk).1 = ok ks :=
  ⟨C65_mic_partial exFp exMicParams exMic exMic_setup exEnv 60 (by decide) _ rfl exMic_masks _ _ _
    ⟨1, by decide, by decide⟩,
   C65_mic_refuted exFp exMicParams exMic exMic_setup exEnv 60 (by decide) _ rfl exMic_masks _ _ (by decide) (by decide) _
    fun _ _ => rfl⟩

end Verif
