import Verif.Lemmas.Machine
import Verif.Props.Simd
import Verif.Props.ServerSafety
import Verif.Props.Mic
/-!
# C68: results do not depend on the machine

Two machines `env` and `env'` whose libraries compute the same AES; vector units, their widths, and alignments
may differ, also from call to call.
-/
namespace Verif
open Res Spec

/-- C68 for distributed point functions: key generation and all evaluations give the same result, or the same
error, and leave the context in the same state, for every key, context and argument. -/
theorem C68_dpf (fp : FpEnv) (params : List DpfParameters) (d : Dpf) (hd : Created fp params d)
    (env env' : Env) (haes : env.aes = env'.aes) :
    (∀ alpha beta seed0 seed1, d.generateKeysIncremental env alpha beta seed0 seed1 =
      d.generateKeysIncremental env' alpha beta seed0 seed1) ∧
    ∀ T : Ty,
      (∀ level prefixes ctx, d.evaluateUntil env T.helper level prefixes ctx =
        d.evaluateUntil env' T.helper level prefixes ctx) ∧
      (∀ prefixes ctx, d.evaluateNext env T.helper prefixes ctx =
        d.evaluateNext env' T.helper prefixes ctx) ∧
      (∀ key level points, d.evaluateAt env T.helper key level points =
        d.evaluateAt env' T.helper key level points) ∧
      ∀ level points ctx, d.evaluateAtCtx env T.helper level points ctx =
        d.evaluateAtCtx env' T.helper level points ctx := by
  refine ⟨fun _ _ _ _ => ?_, fun T => ⟨fun _ _ _ => ?_, fun _ _ => ?_, fun _ _ _ => ?_, fun _ _ _ => ?_⟩⟩
  · rw [d.generateKeysIncremental_aes haes]
  · rw [hd.wf.evaluateUntil_aes haes]
  · rw [hd.wf.evaluateNext_aes haes]
  · rw [hd.wf.evaluateAt_aes haes]
  · rw [hd.wf.evaluateAtCtx_aes haes]

/-- C68 for `EvaluateAndApply`: the callback is called with the same values. (Shifts are not negative.) -/
theorem C68_apply (fp : FpEnv) (params : List DpfParameters) (d : Dpf) (hd : Created fp params d)
    (env env' : Env) (haes : env.aes = env'.aes) (T : Ty) (keys : List DpfKey) (points : List U128) {σ : Type}
    (op : σ → List T.den → Bool × σ) (s : σ) (r : Nat) :
    d.evaluateAndApply env T.helper keys points op s r = d.evaluateAndApply env' T.helper keys points op s r :=
  hd.wf.evaluateAndApply_aes haes T.helper keys points op s r

/-- C01 with three machines: one generates the keys, and each party evaluates on its own. -/
theorem C68_point_function_partial (fp : FpEnv) (params : List DpfParameters) (T : Nat → Ty)
    (d : Dpf) (hs : Setup fp params T d) (env env0 env1 : Env) (haes0 : env.aes = env0.aes)
    (haes1 : env.aes = env1.aes) (alpha : U128)
    (halpha : alpha.toNat < 2 ^ lastLogSize params) (beta : List Value)
    (b : (h : Nat) → (T h).den) (hb : BetasRepresent params T beta b) (seed0 seed1 : U128) :
    ∃ k0 k1, d.generateKeysIncremental env alpha beta seed0 seed1 = ok (k0, k1) ∧
      ∀ h, h < params.length → ∀ points : List U128,
        (∀ x ∈ points, x.toNat < 2 ^ logSize params h) →
        ∃ v0 v1, d.evaluateAt env0 (T h).helper k0 h points = ok v0 ∧
          d.evaluateAt env1 (T h).helper k1 h points = ok v1 ∧
          v0.length = points.length ∧ v1.length = points.length ∧
          List.zipWith (T h).helper.add v0 v1 = points.map fun x =>
            if x.toNat = alphaPrefix params alpha h then b h else (T h).helper.zero := by
  obtain ⟨k0, k1, h1, h2⟩ := C01_point_function_partial fp params T d hs env alpha halpha beta b hb seed0 seed1
  refine ⟨k0, k1, h1, fun h hh points hp => ?_⟩
  rw [← hs.wf.evaluateAt_aes haes0, ← hs.wf.evaluateAt_aes haes1]
  exact h2 h hh points hp

/-- C68 for distributed comparison functions, after any number of `GenerateKeys<…>` calls. -/
theorem C68_dcf (fp : FpEnv) (p : DpfParameters) (c0 : Dcf) (Ts : List Ty) (hc : Dcf.create fp p = ok c0)
    (env env' : Env) (haes : env.aes = env'.aes) :
    let c := c0.registerAll Ts
    (∀ alpha beta seed0 seed1, c.generateKeys env alpha beta seed0 seed1 =
      c.generateKeys env' alpha beta seed0 seed1) ∧
    ∀ T : Ty,
      (∀ alpha beta seed0 seed1, c.generateKeysFor env T.helper alpha beta seed0 seed1 =
        c.generateKeysFor env' T.helper alpha beta seed0 seed1) ∧
      (∀ key x, c.evaluate env T.helper key x = c.evaluate env' T.helper key x) ∧
      (∀ keys points, c.batchEvaluate env T.helper keys points = c.batchEvaluate env' T.helper keys points) ∧
      ∀ keys points output, c.batchEvaluateInto env T.helper keys points output =
        c.batchEvaluateInto env' T.helper keys points output := by
  intro c
  have wf : c.dpf.WF := by
    unfold Dcf.create at hc
    obtain ⟨_, _, hc⟩ := bind_eq_ok.mp hc
    obtain ⟨_, _, hc⟩ := bind_eq_ok.mp hc
    obtain ⟨d, hd, hc⟩ := bind_eq_ok.mp hc
    have : Created fp (Dcf.dpfParameters p) c.dpf := ⟨d, Ts, hd, by subst c; rw [← ok.inj hc]; rfl⟩
    exact this.wf
  refine ⟨fun _ _ _ _ => ?_, fun T => ⟨fun _ _ _ _ => ?_, fun _ _ => ?_, fun _ _ => ?_, fun _ _ _ => ?_⟩⟩
  · rw [c.generateKeys_aes haes]
  · rw [c.generateKeysFor_aes haes]
  · rw [Dcf.evaluate_aes wf haes]
  · rw [Dcf.batchEvaluate_aes wf haes]
  · rw [Dcf.batchEvaluateInto_aes wf haes]

/-- C68 for interval gates. -/
theorem C68_mic (fp : FpEnv) (params : MicParameters) (g : Mic) (hs : MicSetup fp params g)
    (env env' : Env) (haes : env.aes = env'.aes) :
    (∀ rIn rOut seed0 seed1 rand, g.gen env rIn rOut seed0 seed1 rand =
      g.gen env' rIn rOut seed0 seed1 rand) ∧
    (∀ key x, g.eval env key x = g.eval env' key x) ∧
    ∀ keys points, g.batchEval env keys points = g.batchEval env' keys points := by
  have wf : g.dcf.dpf.WF := by
    obtain ⟨g0, Ts, hc, rfl⟩ := hs.created
    unfold Mic.create at hc
    obtain ⟨_, _, hc⟩ := bind_eq_ok.mp hc
    obtain ⟨_, _, hc⟩ := bind_eq_ok.mp hc
    obtain ⟨_, _, hc⟩ := bind_eq_ok.mp hc
    obtain ⟨c0, hc0, hc⟩ := bind_eq_ok.mp hc
    unfold Dcf.create at hc0
    obtain ⟨_, _, hc0⟩ := bind_eq_ok.mp hc0
    obtain ⟨_, _, hc0⟩ := bind_eq_ok.mp hc0
    obtain ⟨d, hd, hc0⟩ := bind_eq_ok.mp hc0
    have : Created fp _ (c0.registerAll Ts).dpf := ⟨d, Ts, hd, by rw [← ok.inj hc0]; rfl⟩
    rw [← ok.inj hc]
    exact this.wf
  refine ⟨fun _ _ _ _ _ => ?_, fun _ _ => ?_, fun _ _ => ?_⟩
  · rw [g.gen_aes haes]
  · unfold Mic.eval; rw [Mic.batchEval_aes wf haes]
  · rw [Mic.batchEval_aes wf haes]

/-- C68 for the clients. -/
theorem C68_clients (env env' : Env) (haes : env.aes = env'.aes) (codec : HelperCodec) :
    (∀ (c : DenseClient) queries seeds random, c.createRequest codec env queries seeds random =
      c.createRequest codec env' queries seeds random) ∧
    (∀ (c : CuckooClient) queries seeds random, c.createRequest codec env queries seeds random =
      c.createRequest codec env' queries seeds random) ∧
    ∀ (c : SimpleClient) queries seeds random, c.createRequest codec env queries seeds random =
      c.createRequest codec env' queries seeds random := by
  refine ⟨fun c _ _ _ => ?_, fun c _ _ _ => ?_, fun c _ _ _ => ?_⟩
  · unfold DenseClient.createRequest; rw [c.createPlainRequests_aes haes]
  · unfold CuckooClient.createRequest; rw [c.createPlainRequests_aes haes]
  · unfold SimpleClient.createRequest; rw [c.createPlainRequests_aes haes]

/-- C68 for the dense server, in every role, on every request: two machines, with vectors of their own also in
the inner product, give the same response. Missing: more than 2^24 and at most 2^30 records on a machine without
vectors, for which the statement is false (`C60_scalar_refuted`). -/
theorem C68_dense_partial (fp : FpEnv) (ceilLog2 : CeilLog2) (config : PirConfig) (records : List Bytes)
    (db : DenseDb) (hdb : BuiltFrom records db) (hc : ExactAt ceilLog2 records.length) (simd simd' : SimdEnv)
    (hsimd : SimdOk simd) (hsimd' : SimdOk simd') (hcan : CanServe records.length simd)
    (hcan' : CanServe records.length simd') (server : DenseServer)
    (hserver : DenseServerFor fp ceilLog2 config (some db) server) (env env' : Env) (haes : env.aes = env'.aes)
    (codec : HelperCodec) (aes : AesBlock) (request : PirRequest) :
    server.handleRequest codec aes env simd request = server.handleRequest codec aes env' simd' request := by
  have hh := builtFrom_holds hdb
  obtain ⟨n, d, role, rfl, _, h2, h3, rfl⟩ := denseServer_inv hserver
  have hn : n = records.length := by rw [← h2, hh.size]
  subst hn
  obtain ⟨l, a2, a3, a4, b4⟩ := pirDpf_inv2 fp hc hcan hcan' h3
  unfold DenseServer.handleRequest
  rw [dense_plain_eq hh a3 hsimd hsimd' a4 b4 a2 role haes]

/-- C68 for the server with cuckoo hashing. Missing: as above. -/
theorem C68_cuckoo_partial (fp : FpEnv) (ceilLog2 : CeilLog2) (sha : Sha256) (random : Nat → Nat)
    (seed : Bytes) (k n : Nat) (records : List (Bytes × Bytes)) (db : CuckooDb)
    (hr : ∀ i, random i < k) (h1 : n < 2 ^ 31) (hrec : records.length < 2 ^ 31)
    (hdb : CuckooBuiltFrom sha random (cuckooParams seed k n) records db) (hc : ExactAt ceilLog2 n)
    (simd simd' : SimdEnv) (hsimd : SimdOk simd) (hsimd' : SimdOk simd') (hcan : CanServe n simd)
    (hcan' : CanServe n simd') (params : CuckooParams) (server : CuckooServer)
    (hserver : CuckooServerFor fp ceilLog2 sha params (some db) server) (env env' : Env)
    (haes : env.aes = env'.aes) (codec : HelperCodec) (aes : AesBlock) (request : PirRequest) :
    server.handleRequest codec aes env simd request = server.handleRequest codec aes env' simd' request := by
  obtain ⟨table, stash, a1, a2, a3, a4, _⟩ := cuckoo_table hr h1 hrec hdb
  obtain ⟨d, f, role, b1, b2, rfl⟩ := cuckooServer_inv hserver
  rw [← b1, a3] at b2
  obtain ⟨l, c2, c3, c4, e4⟩ := pirDpf_inv2 fp hc hcan hcan' b2
  unfold CuckooServer.handleRequest
  rw [cuckoo_plain_eq a1 a2 c3 hsimd hsimd' c4 e4 (by simp; omega) (by simp; omega) _ f role haes]

/-- C68 for the server with simple hashing. Missing: as above. -/
theorem C68_simple_partial (fp : FpEnv) (ceilLog2 : CeilLog2) (sha : Sha256) (bucketCodec : BucketCodec)
    (seed : Bytes) (n : Nat) (records : List (Bytes × Bytes)) (db : SimpleDb) (h1 : n < 2 ^ 31)
    (hdb : SimpleBuiltFrom sha bucketCodec (simpleParams seed n) records db) (hc : ExactAt ceilLog2 n)
    (simd simd' : SimdEnv) (hsimd : SimdOk simd) (hsimd' : SimdOk simd') (hcan : CanServe n simd)
    (hcan' : CanServe n simd') (params : SimpleParams) (server : SimpleServer)
    (hserver : SimpleServerFor fp ceilLog2 sha params (some db) server) (env env' : Env)
    (haes : env.aes = env'.aes) (codec : HelperCodec) (aes : AesBlock) (request : PirRequest) :
    server.handleRequest codec aes env simd request = server.handleRequest codec aes env' simd' request := by
  obtain ⟨a1, a2, a3, ss, a4⟩ := simple_built_inv h1 hdb
  obtain ⟨db', b1, b2, b3⟩ := simple_build_ok sha bucketCodec a1 a2 h1 records a3 ss a4
  have : db' = db := by
    unfold SimpleBuiltFrom at b1 hdb
    rw [b1] at hdb
    exact ok.inj hdb
  subst this
  have lss : ss.length = n := by simpa using (congrArg List.length a4).symm
  obtain ⟨d, f, role, c1, c2, rfl⟩ := simpleServer_inv hserver
  rw [← c1, b3] at c2
  obtain ⟨l, d2, d3, d4, e4⟩ := pirDpf_inv2 fp hc hcan hcan' c2
  unfold SimpleServer.handleRequest
  rw [simple_plain_eq b2 d3 hsimd hsimd' d4 e4 (by omega) _ f role haes]

/-! ## Examples: a machine with vectors of 32 bytes and one without vectors -/

/-- The machine without vectors. -/
def exPlainEnv : Env := { aes := exHwyEnv.aes }

example (key : DpfKey) (points : List U128) :
    exDpf.evaluateAt exHwyEnv (Ty.uint .w8).helper key 1 points =
      exDpf.evaluateAt exPlainEnv (Ty.uint .w8).helper key 1 points :=
  ((C68_dpf _ _ exDpf ⟨exDpf, [], exDpf_eq, rfl⟩ exHwyEnv exPlainEnv rfl).2 (.uint .w8)).2.2.1 key 1 points

example (keys : List DcfKey) (points : List U128) :
    exDcf.batchEvaluate exHwyEnv exDcfTy.helper keys points =
      exDcf.batchEvaluate exPlainEnv exDcfTy.helper keys points :=
  ((C68_dcf exFp exDcfParams _ [exDcfTy] exDcf_create exHwyEnv exPlainEnv rfl).2 exDcfTy).2.2.1 keys points

example (keys : List MicKey) (points : List U128) :
    exMic.batchEval exHwyEnv keys points = exMic.batchEval exPlainEnv keys points :=
  (C68_mic exFp exMicParams exMic exMic_setup exHwyEnv exPlainEnv rfl).2.2 keys points

/-- A CPU without vectors, with records and results at odd addresses. -/
def exScalarSimd : SimdEnv := ⟨true, 1, 0, 1, 8, rfl, fun i => 2 * i + 1, fun k => k, fun k => 2 * k + 1⟩

theorem exScalarSimd_ok : SimdOk exScalarSimd :=
  ⟨0, rfl, Nat.le_refl 0, ⟨0, rfl, Nat.le_refl 0⟩, fun _ => Nat.mod_one _⟩

/-- A helper for three records, moved to a machine with other vectors. -/
example (request : PirRequest) :
    exHelper.handleRequest exCodec exAes exHwyEnv exSimd request =
      exHelper.handleRequest exCodec exAes exPlainEnv exScalarSimd request :=
  C68_dense_partial exFp exCeilLog2 (.dense 3) exRecords ((exRecords.foldl DenseBuilder.insert
    DenseBuilder.new).build.1.getD ⟨0, [], 0, []⟩) (Res.eq_ok_getD (by decide +kernel) _)
    ⟨2, by decide, by decide, by decide⟩ exSimd _ exSimd_ok exScalarSimd_ok (Or.inl (by decide))
    (Or.inl (by decide)) exHelper
    (Or.inr (Or.inr ⟨some fun m _ => ok (m.map (~~~ ·)), Res.eq_ok_getD (by decide +kernel) _⟩)) _ _ rfl _ _ _

/-- Servers with hashing, for three records in seven buckets. -/
example (server : CuckooServer) (hserver : CuckooServer.createLeader exFp exCeilLog2 exSha (cuckooParams [9] 3 7)
    (some exCuckooDb) (some fun _ => (true, ok none)) = ok server) (request : PirRequest) :
    server.handleRequest exCodec exAes exHwyEnv exSimd request =
      server.handleRequest exCodec exAes exPlainEnv exScalarSimd request :=
  C68_cuckoo_partial exFp exCeilLog2 exSha (fun i => i % 3) [9] 3 7 exPairs exCuckooDb
    (fun i => Nat.mod_lt i (by decide)) (by decide) (by decide) exCuckooDb_ok ⟨3, by decide, by decide, by decide⟩
    exSimd _ exSimd_ok exScalarSimd_ok (Or.inl (by decide)) (Or.inl (by decide)) _ server
    (Or.inr (Or.inl ⟨_, hserver⟩)) _ _ rfl _ _ _

example (server : SimpleServer) (hserver : SimpleServer.createPlain exFp exCeilLog2 exSha
    (simpleParams [9] 7) (some exSimpleDb) = ok server) (request : PirRequest) :
    server.handleRequest exCodec exAes exHwyEnv exSimd request =
      server.handleRequest exCodec exAes exPlainEnv exScalarSimd request :=
  C68_simple_partial exFp exCeilLog2 exSha wireCodec [9] 7 exPairs exSimpleDb (by decide)
    (Res.eq_ok_getD (by decide +kernel) _) ⟨3, by decide, by decide, by decide⟩
    exSimd _ exSimd_ok exScalarSimd_ok (Or.inl (by decide)) (Or.inl (by decide)) _ server
    (Or.inl hserver) _ _ rfl _ _ _

/-- Keys made on a machine without vectors, evaluated by one party with vectors and by the other without. -/
example : ∃ d k0 k1, Setup exFp exParams exT d ∧
    d.generateKeysIncremental exPlainEnv 12345 exBeta 1 2 = ok (k0, k1) ∧
    ∃ v0 v1, d.evaluateAt exHwyEnv (exT 1).helper k0 (1 : Nat) [0, 3] = ok v0 ∧
      d.evaluateAt exPlainEnv (exT 1).helper k1 (1 : Nat) [0, 3] = ok v1 ∧
      List.zipWith (exT 1).helper.add v0 v1 = [exB 1, (exT 1).helper.zero] := by
  obtain ⟨d, hd⟩ := exSetup
  obtain ⟨k0, k1, h1, h2⟩ := C68_point_function_partial _ _ _ d hd exPlainEnv exHwyEnv exPlainEnv rfl rfl 12345
    (by decide +kernel) exBeta exB exBetas 1 2
  obtain ⟨v0, v1, h3, h4, _, _, h5⟩ := h2 1 (by decide) [0, 3] (by
    intro x hx
    simp only [List.mem_cons, List.not_mem_nil, or_false] at hx
    rcases hx with rfl | rfl <;> decide +kernel)
  refine ⟨d, k0, k1, hd, h1, v0, v1, h3, h4, ?_⟩
  rw [h5]
  have e : alphaPrefix exParams 12345 1 = 0 := by decide +kernel
  have e0 : BitVec.toNat (0 : U128) = 0 := rfl
  have e3 : BitVec.toNat (3 : U128) = 3 := rfl
  rw [e, List.map_cons, List.map_cons, List.map_nil, e0, e3, if_pos rfl, if_neg (by decide)]

example (keys : List DpfKey) (points : List U128) :
    exDpf.evaluateAndApply exHwyEnv (Ty.uint .w8).helper keys points (fun (n : Nat) _ => (true, n + 1)) 0 (2 : Nat) =
      exDpf.evaluateAndApply exPlainEnv (Ty.uint .w8).helper keys points (fun (n : Nat) _ => (true, n + 1)) 0 (2 : Nat) :=
  C68_apply _ _ exDpf ⟨exDpf, [], exDpf_eq, rfl⟩ exHwyEnv exPlainEnv rfl (.uint .w8) keys points _ _ 2

example (c : DenseClient) (queries : List Int) (seeds : Nat → U128 × U128) (random : Nat → BitVec 8) :
    c.createRequest exCodec exHwyEnv queries seeds random = c.createRequest exCodec exPlainEnv queries seeds random :=
  (C68_clients exHwyEnv exPlainEnv rfl exCodec).1 c queries seeds random

end Verif
