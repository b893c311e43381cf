import Verif.Lemmas.Hiding
import Verif.Props.Mic
import Verif.Props.SparsePir
import Verif.Props.ServerSafety
/-!
# C62: what one party sees of comparison functions, gates and PIR

As in C48, Spec/Hiding.lean describes what a party receives with the other party's pseudorandom blocks as an argument.
`C62_…_real`: at the blocks the other party really computes, this is what the code produces. `C62_…_hides`: over
uniform blocks, its distribution is the same for all secrets.
-/
namespace Verif
open Res Spec

/-! ## Comparison functions -/

/-- C62: the keys of a comparison function are those of the experiment. -/
theorem C62_dcf_real (fp : FpEnv) (p : DpfParameters) (T : Ty) (c : Dcf) (hs : DcfSetup fp p T c) (env : Env)
    (alpha : U128) (halpha : alpha.toNat < 2 ^ p.logDomainSize.toNat) (beta : Value) (b : T.den)
    (hb : Represents T beta b) (seed0 seed1 : U128) :
    ∃ k0 k1, c.generateKeys env alpha beta seed0 seed1 = ok (k0, k1) ∧
      k0 = dcfExperimentKey c env p T false seed0 alpha b ((dcfPathBits c env p alpha k1).rand _) ∧
      k1 = dcfExperimentKey c env p T true seed1 alpha b ((dcfPathBits c env p alpha k0).rand _) :=
  hs.real env halpha hb seed0 seed1

/-- C62: over uniform blocks and elements, the key of a party has the same distribution for all alpha and beta. -/
theorem C62_dcf_hides (fp : FpEnv) (p : DpfParameters) (T : Ty) (c : Dcf) (hs : DcfSetup fp p T c) (env : Env)
    (party : Bool) (seed alpha alpha' : U128) (b b' : T.den) :
    SameView (dcfExperimentKey c env p T party seed alpha b) (dcfExperimentKey c env p T party seed alpha' b') :=
  hs.hides env party seed alpha alpha' b b'

/-- C62: the same over uniform bits, for types without `IntModN`. Missing: `IntModN`, for which it is false
(`C62_dcf_refuted`). -/
theorem C62_dcf_hides_bits_partial (fp : FpEnv) (p : DpfParameters) (T : Ty) (hT : T.noMod = true) (c : Dcf)
    (hs : DcfSetup fp p T c) (env : Env) (party : Bool) (seed alpha alpha' : U128) (b b' : T.den) :
    SameView (fun r : Bits (treeLevels c.dpf) (Dcf.dpfParameters p).length (blocksOf c.dpf) =>
        dcfExperimentKey c env p T party seed alpha b (r.rand _))
      (fun r => dcfExperimentKey c env p T party seed alpha' b' (r.rand _)) :=
  hs.hides_bits hT env party seed alpha alpha' b b'

/-- Two points, numbers mod 3. -/
def exDcfParamsMod3 : DpfParameters := ⟨1, some exMod3.helper.toValueType, .val 0⟩

/-- C62 is false for uniform bits and `IntModN`: keys for alpha 0 and alpha 1 have different distributions. -/
theorem C62_dcf_refuted : ∃ (fp : FpEnv) (p : DpfParameters) (T : Ty) (c : Dcf) (b : T.den), DcfSetup fp p T c ∧
    ∀ (env : Env) (seed : U128),
    ¬ SameView (fun r : Bits (treeLevels c.dpf) (Dcf.dpfParameters p).length (blocksOf c.dpf) =>
        dcfExperimentKey c env p T false seed 1 b (r.rand _))
      (fun r => dcfExperimentKey c env p T false seed 0 b (r.rand _)) := by
  have h : (match Dcf.create exFp exDcfParamsMod3 with
    | .ok c => some (c.dpf.pv.treeLevelsNeeded, c.dpf.pv.hierarchyToTree, c.dpf.blocksNeeded)
    | _ => none) = some (1, [0], [1]) := by decide +kernel
  split at h
  · rename_i c0 hc
    simp only [Option.some.injEq, Prod.mk.injEq] at h
    refine ⟨exFp, exDcfParamsMod3, exMod3, ⟨c0.logDomainSize, c0.dpf.registerAll [exMod3]⟩, ⟨1#32, by decide⟩, ?_, ?_⟩
    · refine ⟨⟨c0, [exMod3], hc, rfl, Or.inl (by simp)⟩, rfl, by decide, ?_⟩
      show ∀ k ∈ (c0.dpf.registerAll [exMod3]).blocksNeeded, _
      rw [(c0.dpf.registerAll_pv [exMod3]).2, h.2.2]
      decide
    · intro env seed
      have e1 : (fun h : Nat => if (1#128).toNat.testBit (1 - h - 1) then (⟨1#32, by decide⟩ : exMod3.den)
          else zeroed exMod3 ⟨1#32, by decide⟩) = fun _ => ⟨1#32, by decide⟩ := by
        funext h
        refine if_pos ?_
        rw [show 1 - h - 1 = 0 by omega]
        decide
      have e0 : (fun h : Nat => if (0#128).toNat.testBit (1 - h - 1) then (⟨1#32, by decide⟩ : exMod3.den)
          else zeroed exMod3 ⟨1#32, by decide⟩) = fun _ => ⟨0#32, by decide⟩ := by
        funext h
        refine (if_neg ?_).trans (Subtype.ext rfl)
        rw [show (0#128).toNat = 0 from rfl, Nat.zero_testBit]
        decide
      have k1 : ∀ r, dcfExperimentKey ⟨c0.logDomainSize, c0.dpf.registerAll [exMod3]⟩ env exDcfParamsMod3 exMod3 false
          seed 1 ⟨1#32, by decide⟩ r = experimentKey (c0.dpf.registerAll [exMod3]) env exParamsMod3 (fun _ => exMod3)
            false seed 0 (fun _ => ⟨1#32, by decide⟩) r := by
        intro r
        rw [← e1]
        rfl
      have k0 : ∀ r, dcfExperimentKey ⟨c0.logDomainSize, c0.dpf.registerAll [exMod3]⟩ env exDcfParamsMod3 exMod3 false
          seed 0 ⟨1#32, by decide⟩ r = experimentKey (c0.dpf.registerAll [exMod3]) env exParamsMod3 (fun _ => exMod3)
            false seed 0 (fun _ => ⟨0#32, by decide⟩) r := by
        intro r
        rw [← e0]
        rfl
      simp only [k0, k1]
      refine exMod3_differs (d := c0.dpf.registerAll [exMod3]) ?_ ?_ ?_ env seed
      · unfold treeLevels; rw [(c0.dpf.registerAll_pv [exMod3]).1, h.1]
      · unfold treeOf; rw [(c0.dpf.registerAll_pv [exMod3]).1, h.2.1]; rfl
      · unfold blocksOf; rw [(c0.dpf.registerAll_pv [exMod3]).2, h.2.2]; rfl
  · cases h

/-! ## Gates -/

/-- C62: the keys of a gate are those of the experiment. -/
theorem C62_gate_real (fp : FpEnv) (params : MicParameters) (g : Mic) (hs : MicSetup fp params g) (env : Env)
    (rIn : U128) (hr : rIn.toNat < 2 ^ params.logGroupSize.toNat) (rOut : List U128)
    (hlen : rOut.length = params.intervals.length)
    (hro : ∀ r ∈ rOut, r.toNat < 2 ^ params.logGroupSize.toNat) (seed0 seed1 : U128) (rand : Nat → U128) :
    ∃ k0 k1, (g.gen env rIn rOut seed0 seed1 rand).1 = ok (k0, k1) ∧
      (let c := g.dcf.register (uintHelper 128)
       let N := (1 : U128) <<< params.logGroupSize.toNat
       let other := fun k : MicKey => (dcfPathBits c env (gateDcfParams params) ((N - 1 + rIn) % N) k.dcfKey).rand _
       k0 = gateExperimentKey c env params false seed0 rIn rOut (other k1) (fun i => rand i) ∧
       k1 = gateExperimentKey c env params true seed1 rIn rOut (other k0) (fun i => rand i)) :=
  hs.real env hr hlen hro seed0 seed1 rand

/-- C62: over uniform bits, the key of a party has the same distribution for all masks. -/
theorem C62_gate_hides (fp : FpEnv) (params : MicParameters) (g : Mic) (hs : MicSetup fp params g) (env : Env)
    (party : Bool) (seed rIn rIn' : U128) (rOut rOut' : List U128) :
    (let c := g.dcf.register (uintHelper 128)
     SameView (fun r : GateRand c params => gateExperimentKey c env params party seed rIn rOut (r.1.rand _) r.2)
      (fun r : GateRand c params => gateExperimentKey c env params party seed rIn' rOut' (r.1.rand _) r.2)) :=
  hs.hides env party seed rIn rIn' rOut rOut'

/-! ## PIR -/

/-- C62: the requests of the dense client are those of the experiment, one key per index. -/
theorem C62_dense_real (fp : FpEnv) (ceilLog2 : CeilLog2) (n : Int) (encrypter : CryptFn) (info : Bytes)
    (client : DenseClient) (hclient : DenseClient.create fp ceilLog2 (.dense n) (some encrypter) info = ok client)
    (env : Env) (queries : List Int) (seeds : Nat → U128 × U128) (random : Nat → BitVec 8) (leader : PlainRequest)
    (helper : HelperRequest) (state : ClientState)
    (h : client.createPlainRequests env queries seeds random = ok (leader, helper, state)) :
    Dpf.create fp (pirParameters ceilLog2 n) = ok client.dpf ∧
    helper.oneTimePadSeed = Prng.generateSeed random ∧
    ExperimentRequests (client.dpf.registerValueType pirTy.helper) env (pirParameters ceilLog2 n) seeds 0 queries
      leader (helper.plainRequest.getD PlainRequest.default) := by
  have hd := denseClient_dpf hclient
  obtain ⟨h1, _, _, h4⟩ := denseRequests_real hd env h
  exact ⟨hd, h1, h4⟩

/-- C62: the requests of the client with cuckoo hashing are those of the experiment for some indices, as many per
query as there are hash functions. -/
theorem C62_cuckoo_real (fp : FpEnv) (ceilLog2 : CeilLog2) (sha : Sha256) (params : CuckooParams)
    (encrypter : CryptFn) (info : Bytes) (client : CuckooClient)
    (hclient : CuckooClient.create fp ceilLog2 sha (.cuckoo params) (some encrypter) info = ok client)
    (env : Env) (queries : List Bytes) (seeds : Nat → U128 × U128) (random : Nat → BitVec 8) (leader : PlainRequest)
    (helper : HelperRequest) (state : ClientState)
    (h : client.createPlainRequests env queries seeds random = ok (leader, helper, state)) :
    Dpf.create fp (pirParameters ceilLog2 params.numBuckets) = ok client.wrapped.dpf ∧
    ∃ (indices : List Int) (request : PlainRequest), indices.length = queries.length * params.numHashFunctions.toNat ∧
      helper = ⟨some request, Prng.generateSeed random⟩ ∧
      ExperimentRequests (client.wrapped.dpf.registerValueType pirTy.helper) env
        (pirParameters ceilLog2 params.numBuckets) seeds (BitVec.ofInt 32 client.fingerprint) indices leader request := by
  unfold CuckooClient.create at hclient
  dsimp only at hclient
  obtain ⟨_, _, hclient⟩ := bind_eq_ok.mp hclient
  obtain ⟨_, _, hclient⟩ := bind_eq_ok.mp hclient
  obtain ⟨family, e1, hclient⟩ := bind_eq_ok.mp hclient
  obtain ⟨_, _, hclient⟩ := bind_eq_ok.mp hclient
  obtain ⟨fs, e2, hclient⟩ := bind_eq_ok.mp hclient
  obtain ⟨w, e3, hclient⟩ := bind_eq_ok.mp hclient
  have hfs := (functions_sha e1 e2).1
  have hclient := ok.inj hclient
  have hw : client.wrapped = w := by rw [← hclient]
  have hf : client.hashFunctions = fs := by rw [← hclient]
  have hd := denseClient_dpf e3
  rw [← hw] at hd
  unfold CuckooClient.createPlainRequests at h
  obtain ⟨indices, hi, h⟩ := bind_eq_ok.mp h
  obtain ⟨⟨l, hr, st⟩, hreq, h⟩ := bind_eq_ok.mp h
  obtain ⟨h1, _, _, h4⟩ := denseRequests_real hd env hreq
  have h := ok.inj h
  unfold setFingerprints at h
  simp only [Prod.mk.injEq] at h
  obtain ⟨rfl, rfl, _⟩ := h
  refine ⟨hd, indices.flatten, _, ?_, ?_, h4.setFingerprints _⟩
  · rw [flatten_length_of (n := fs.length), mapRes_length hi, hfs]
    intro x hx
    obtain ⟨q, _, hq⟩ := mapRes_mem hi hx
    unfold CuckooClient.hashes at hq
    rw [mapRes_length hq, hf]
  · rw [h1]

/-- C62: the requests of the client with simple hashing are those of the experiment for some indices, one per
query. -/
theorem C62_simple_real (fp : FpEnv) (ceilLog2 : CeilLog2) (sha : Sha256) (params : SimpleParams)
    (encrypter : CryptFn) (info : Bytes) (client : SimpleClient)
    (hclient : SimpleClient.create fp ceilLog2 sha (.simple params) (some encrypter) info = ok client)
    (env : Env) (queries : List Bytes) (seeds : Nat → U128 × U128) (random : Nat → BitVec 8) (leader : PlainRequest)
    (helper : HelperRequest) (state : ClientState)
    (h : client.createPlainRequests env queries seeds random = ok (leader, helper, state)) :
    Dpf.create fp (pirParameters ceilLog2 params.numBuckets) = ok client.wrapped.dpf ∧
    ∃ (indices : List Int) (request : PlainRequest), indices.length = queries.length ∧
      helper = ⟨some request, Prng.generateSeed random⟩ ∧
      ExperimentRequests (client.wrapped.dpf.registerValueType pirTy.helper) env
        (pirParameters ceilLog2 params.numBuckets) seeds (BitVec.ofInt 32 client.fingerprint) indices leader request := by
  unfold SimpleClient.create at hclient
  dsimp only at hclient
  obtain ⟨_, _, hclient⟩ := bind_eq_ok.mp hclient
  obtain ⟨family, e1, hclient⟩ := bind_eq_ok.mp hclient
  obtain ⟨_, _, hclient⟩ := bind_eq_ok.mp hclient
  obtain ⟨fs, e2, hclient⟩ := bind_eq_ok.mp hclient
  obtain ⟨_, _, hclient⟩ := bind_eq_ok.mp hclient
  obtain ⟨w, e3, hclient⟩ := bind_eq_ok.mp hclient
  have hclient := ok.inj hclient
  have hw : client.wrapped = w := by rw [← hclient]
  have hd := denseClient_dpf e3
  rw [← hw] at hd
  unfold SimpleClient.createPlainRequests at h
  obtain ⟨indices, hi, h⟩ := bind_eq_ok.mp h
  obtain ⟨⟨l, hr, st⟩, hreq, h⟩ := bind_eq_ok.mp h
  obtain ⟨h1, _, _, h4⟩ := denseRequests_real hd env hreq
  have h := ok.inj h
  unfold setFingerprints at h
  simp only [Prod.mk.injEq] at h
  obtain ⟨rfl, rfl, _⟩ := h
  refine ⟨hd, indices, _, mapRes_length hi, ?_, h4.setFingerprints _⟩
  rw [h1]

/-- C62: over uniform bits, the request that a server gets has the same distribution for all lists of indices of the
same length. -/
theorem C62_request_hides (fp : FpEnv) (ceilLog2 : CeilLog2) (n : Int) (d : Dpf)
    (hd : Dpf.create fp (pirParameters ceilLog2 n) = ok d) (env : Env) (p : Bool) (seeds : Nat → U128)
    (fingerprint : BitVec 32) (queries queries' : List Int) {m : Nat} (_hm : queries.length = m)
    (_hm' : queries'.length = m) :
    (let d := d.registerValueType pirTy.helper
     SameView (experimentRequest (n := m) d env (pirParameters ceilLog2 n) p seeds fingerprint queries)
      (experimentRequest (n := m) d env (pirParameters ceilLog2 n) p seeds fingerprint queries')) :=
  request_hides hd env p seeds fingerprint queries queries'

/-! ## Masked responses -/

/-- C62: what a helper returns (and the leader sees) is its response to the plain request, XOR the AES-CTR stream of
the seed in the request. -/
theorem C62_mask_real (codec : HelperCodec) (aes : AesBlock) (handlePlain : PirRequest → Res PirResponse)
    (decrypter : CryptFn) (info : Bytes) (request : PirRequest) (response : PirResponse)
    (h : PirServer.handleHelperRequest codec aes handlePlain decrypter info request = ok response) :
    ∃ bytes decrypted inner products, request.dpf = .encrypted bytes ∧ decrypter bytes info = ok decrypted ∧
      codec.parse decrypted = some inner ∧
      handlePlain (some (.plain (inner.plainRequest.getD PlainRequest.default))) = ok products ∧
      response.masked = xorPad (ctrStream aes inner.oneTimePadSeed 0) 0 products.masked := by
  unfold PirServer.handleHelperRequest at h
  split at h
  · rename_i bytes hb
    obtain ⟨m, e1, h⟩ := bind_eq_ok.mp h
    split at h
    · cases h
    · rename_i inner hp
      obtain ⟨products, e2, h⟩ := bind_eq_ok.mp h
      refine ⟨bytes, m, inner, products, hb, e1, hp, e2, ?_⟩
      obtain ⟨prng, e3, h⟩ := bind_eq_ok.mp h
      have hs : inner.oneTimePadSeed.length = 16 := by
        unfold Prng.create Prng.createWithNonce at e3
        obtain ⟨_, e, _⟩ := bind_eq_ok.mp e3
        have := failIf_eq_ok.mp e
        simpa [Prng.seedSize] using this
      obtain ⟨p, h1, h2⟩ := Prng.create_ok (aes := aes) (seed := inner.oneTimePadSeed)
        (nonce := List.replicate 16 0) hs (by simp)
      have : prng = p := ok.inj (e3.symm.trans h1)
      subst this
      rw [maskAll_ok h2, bind_ok, maskWith_eq_xorPad] at h
      have h := ok.inj h
      rw [show nonceOf (List.replicate 16 0) = 0 by decide +kernel] at h
      rw [← h]
      split
      · rename_i e0
        rw [e0]
        cases hm : products.masked with
        | nil => rfl
        | cons a l =>
          rw [hm] at e0
          cases e0
      · rfl
  · cases h

/-- C62: over a uniform pad, the masked response has the same distribution for all responses of the same shape. -/
theorem C62_mask_hides (products products' : List Bytes)
    (h : products'.map List.length = products.map List.length) {n : Nat} (hn : n = products.flatten.length) :
    SameView (fun pad : Fin n → BitVec 8 => xorPad (extend pad 0) 0 products)
      (fun pad => xorPad (extend pad 0) 0 products') :=
  xorPad_sameView products products' h hn

/-! ## Examples -/

/-- C62 on the DCF of C27: alpha = 37 against alpha = 5. -/
example : ∃ k0 k1, exDcf.generateKeys exEnv 37 (.tuple [.integer (.u64 7), .intModN (.u64 10)]) 1 2 = ok (k0, k1) ∧
    k1 = dcfExperimentKey exDcf exEnv exDcfParams exDcfTy true 2 37 (7#8, ⟨10#32, by decide⟩)
      ((dcfPathBits exDcf exEnv exDcfParams 37 k0).rand _) := by
  obtain ⟨k0, k1, h1, _, h2⟩ := C62_dcf_real exFp exDcfParams exDcfTy exDcf exDcf_setup exEnv 37 (by decide)
    (.tuple [.integer (.u64 7), .intModN (.u64 10)]) (7#8, ⟨10#32, by decide⟩)
    ⟨_, rfl, _, _, rfl, ⟨_, rfl, rfl⟩, _, rfl, _, rfl, rfl⟩ 1 2
  exact ⟨k0, k1, h1, h2⟩
example : SameView
    (dcfExperimentKey exDcf exEnv exDcfParams exDcfTy true 2 37 (7#8, ⟨10#32, by decide⟩))
    (dcfExperimentKey exDcf exEnv exDcfParams exDcfTy true 2 5 (255#8, ⟨0#32, by decide⟩)) :=
  C62_dcf_hides exFp exDcfParams exDcfTy exDcf exDcf_setup exEnv true 2 37 5 _ _
example : SameView
    (fun r : Bits (treeLevels exMic.dcf.dpf) (Dcf.dpfParameters (gateDcfParams exMicParams)).length
      (blocksOf exMic.dcf.dpf) => dcfExperimentKey exMic.dcf exEnv (gateDcfParams exMicParams) (.uint .w128) false 2 37
        3#128 (r.rand _))
    (fun r => dcfExperimentKey exMic.dcf exEnv (gateDcfParams exMicParams) (.uint .w128) false 2 5 4#128 (r.rand _)) :=
  C62_dcf_hides_bits_partial exFp _ _ rfl exMic.dcf exMic_setup.dcfSetup exEnv false 2 37 5 _ _

/-- C62 on the gate of C30: masks 60 and 5, 63 against masks 1 and 0, 0. -/
example : ∃ k0 k1, (exMic.gen exEnv 60 [5, 63] 1 2 (fun i => BitVec.ofNat 128 i)).1 = ok (k0, k1) ∧
    ∃ r, k1 = gateExperimentKey (exMic.dcf.register (uintHelper 128)) exEnv exMicParams true 2 60 [5, 63] r
      (fun i => BitVec.ofNat 128 i) := by
  obtain ⟨k0, k1, h1, _, h2⟩ := C62_gate_real exFp exMicParams exMic exMic_setup exEnv 60 (by decide) [5, 63] rfl (by
      intro r hr
      simp only [List.mem_cons, List.not_mem_nil, or_false] at hr
      rcases hr with rfl | rfl <;> decide) 1 2 (fun i => BitVec.ofNat 128 i)
  exact ⟨k0, k1, h1, _, h2⟩
example : SameView
    (fun r : GateRand (exMic.dcf.register (uintHelper 128)) exMicParams => gateExperimentKey
      (exMic.dcf.register (uintHelper 128)) exEnv exMicParams true 2 60 [5, 63] (r.1.rand _) r.2)
    (fun r => gateExperimentKey (exMic.dcf.register (uintHelper 128)) exEnv exMicParams true 2 1 [0, 0]
      (r.1.rand _) r.2) :=
  C62_gate_hides exFp exMicParams exMic exMic_setup exEnv true 2 60 1 [5, 63] [0, 0]

/-- C62 on the dense client of C34: indices 2 and 0 against 1 and 1. -/
example : ∃ client leader helper state,
    DenseClient.create exFp exCeilLog2 (.dense 3) (some fun m _ => ok m) [] = ok client ∧
    client.createPlainRequests exEnv [2, 0] (fun i => (BitVec.ofNat 128 i, 77)) (fun _ => 5) =
      ok (leader, helper, state) ∧
    (let d := client.dpf.registerValueType pirTy.helper
     (∃ r : Fin 2 → PirRand d, leader = experimentRequest d exEnv (pirParameters exCeilLog2 3) false
        (fun i => BitVec.ofNat 128 i) 0 [2, 0] r) ∧
     SameView (experimentRequest (n := 2) d exEnv (pirParameters exCeilLog2 3) false (fun i => BitVec.ofNat 128 i) 0
        [2, 0])
      (experimentRequest (n := 2) d exEnv (pirParameters exCeilLog2 3) false (fun i => BitVec.ofNat 128 i) 0
        [1, 1])) := by
  have hdb : BuiltFrom exRecords ((exRecords.foldl DenseBuilder.insert DenseBuilder.new).build.1.getD
      ⟨0, [], 0, []⟩) := Res.eq_ok_getD (by decide +kernel) _
  obtain ⟨server, client, _, h2, h3⟩ := C34_dense_partial exFp exEnv exCeilLog2 exSimd exSimd exSimd_ok
    exSimd_ok exRecords _ hdb ⟨[4, 5, 6], by simp [exRecords], by simp⟩ ⟨2, by decide, by decide, by decide⟩
    (Or.inl (by decide)) (fun m _ => ok m) []
  obtain ⟨a, b, c, d, e, f, h4, _⟩ := h3 [2, 0] (by simp) (by decide)
    (fun i => (BitVec.ofNat 128 i, 77)) (fun _ => 5)
  have h := C62_dense_real exFp exCeilLog2 3 _ [] client h2 exEnv [2, 0] _ _ _ _ _ h4
  exact ⟨client, _, _, _, h2, h4, ⟨_, h.2.2.1⟩,
    C62_request_hides exFp exCeilLog2 3 client.dpf h.1 exEnv false _ 0 [2, 0] [1, 1] rfl rfl⟩

/-- C62 on the clients of C46 and C47: three queries, with three hash functions and with one. -/
example : ∃ client leader helper state, CuckooClient.create exSetting.fp exSetting.ceilLog2 exSetting.sha
      (.cuckoo (cuckooParams [9] 3 7)) (some exSetting.encrypter) CuckooServer.contextInfo = ok client ∧
    client.createPlainRequests exSetting.env [[2, 2], [5], [1]] (fun i => (BitVec.ofNat 128 i, 77)) (fun _ => 5) =
      ok (leader, helper, state) ∧
    ∃ (indices : List Int) (request : PlainRequest), indices.length = 9 ∧ helper.plainRequest = some request ∧
      ExperimentRequests (client.wrapped.dpf.registerValueType pirTy.helper) exSetting.env
        (pirParameters exSetting.ceilLog2 7) (fun i => (BitVec.ofNat 128 i, 77))
        (BitVec.ofInt 32 client.fingerprint) indices leader request := by
  have hrun : CuckooRun exSetting (cuckooParams [9] 3 7) exCuckooDb [[2, 2], [5], [1]]
      [some [20, 21], none, some [10, 0]] :=
    C46_end_to_end_partial exSetting (fun i => i % 3) [9] 3 7 exPairs exCuckooDb
      (fun i => Nat.mod_lt i (by decide)) (by decide) exCuckooDb_ok _ _ exCuckooDb_holds (by decide +kernel)
      ⟨[30], by decide, by decide⟩ [[2, 2], [5], [1]] (by decide) (exSetting_works _ _ (by decide)) (by decide +kernel)
      (by decide +kernel) (by decide +kernel)
  obtain ⟨_, _, client, _, _, h3, h4⟩ := hrun
  obtain ⟨_, _, _, h5, _⟩ := h4 (fun i => (BitVec.ofNat 128 i, 77)) (fun _ => 5)
  unfold CuckooClient.createRequest PirClient.createRequest at h5
  obtain ⟨⟨leader, helper, state⟩, h6, _⟩ := bind_eq_ok.mp h5
  obtain ⟨_, indices, request, g1, g2, g3⟩ := C62_cuckoo_real _ _ _ _ _ _ client h3 _ _ _ _ _ _ _ h6
  exact ⟨client, leader, helper, state, h3, h6, indices, request, g1, by rw [g2], g3⟩
example : ∃ client leader helper state, SimpleClient.create exSetting.fp exSetting.ceilLog2 exSetting.sha
      (.simple (simpleParams [9] 7)) (some exSetting.encrypter) SimpleServer.contextInfo = ok client ∧
    client.createPlainRequests exSetting.env [[2, 2], [5], [1]] (fun i => (BitVec.ofNat 128 i, 77)) (fun _ => 5) =
      ok (leader, helper, state) ∧
    ∃ (indices : List Int) (request : PlainRequest), indices.length = 3 ∧ helper.plainRequest = some request ∧
      ExperimentRequests (client.wrapped.dpf.registerValueType pirTy.helper) exSetting.env
        (pirParameters exSetting.ceilLog2 7) (fun i => (BitVec.ofNat 128 i, 77))
        (BitVec.ofInt 32 client.fingerprint) indices leader request := by
  have hrun : SimpleRun exSetting wireCodec (simpleParams [9] 7) exSimpleDb [[2, 2], [5], [1]]
      ([[2, 2], [5], [1]].map (firstValue exPairs)) :=
    C47_end_to_end_partial exSetting [9] 7 exPairs exSimpleDb (Res.eq_ok_getD (by decide +kernel) _)
      (by decide) _ (by decide) (exSetting_works _ _ (by decide))
  obtain ⟨_, _, client, _, _, h3, h4⟩ := hrun
  obtain ⟨_, _, _, h5, _⟩ := h4 (fun i => (BitVec.ofNat 128 i, 77)) (fun _ => 5)
  unfold SimpleClient.createRequest PirClient.createRequest at h5
  obtain ⟨⟨leader, helper, state⟩, h6, _⟩ := bind_eq_ok.mp h5
  obtain ⟨_, indices, request, g1, g2, g3⟩ := C62_simple_real _ _ _ _ _ _ client h3 _ _ _ _ _ _ _ h6
  exact ⟨client, leader, helper, state, h3, h6, indices, request, g1, by rw [g2], g3⟩

/-- C62 on masks: two strings. -/
example : PirServer.handleHelperRequest exCodec exAes (fun _ => ok (some [[1, 2], [3]])) (fun m _ => ok m) []
    (some (.encrypted (exCodec.serialize ⟨none, exSeed⟩))) =
      ok (some (xorPad (ctrStream exAes exSeed 0) 0 [[1, 2], [3]])) := by
  have h : ∃ r, PirServer.handleHelperRequest exCodec exAes (fun _ => ok (some [[1, 2], [3]])) (fun m _ => ok m) []
      (some (.encrypted (exCodec.serialize ⟨none, exSeed⟩))) = ok (some r) :=
    ⟨[[0, 7], [14]], by decide +kernel⟩
  obtain ⟨r, h⟩ := h
  obtain ⟨_, _, inner, products, h1, h2, h3, h4, h5⟩ := C62_mask_real _ _ _ _ _ _ _ h
  cases ok.inj h4
  cases h1
  cases ok.inj h2
  rw [exCodec_ok] at h3
  cases h3
  rw [h]
  exact congrArg (fun l => ok (some l)) h5
example : SameView (fun pad : Fin 3 → BitVec 8 => xorPad (extend pad 0) 0 [[1, 2], [3]])
    (fun pad => xorPad (extend pad 0) 0 [[0, 0], [255]]) :=
  C62_mask_hides [[1, 2], [3]] [[0, 0], [255]] rfl rfl

end Verif
