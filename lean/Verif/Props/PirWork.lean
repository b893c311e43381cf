import Verif.Lemmas.PirWork
import Verif.Props.Work
import Verif.Props.PirFaults
/-!
# C97: how much is computed by PIR clients and servers, and for keys of gates
-/
namespace Verif
open Res Spec Faulty Wire

/-! ## Creation -/

/-- C97 for creation: three ciphers are set up, with two calls for each, whatever the parameters. -/
theorem C97_create (fp : FpEnv) :
    (∀ params d, Dpf.createIncremental fp params = ok d → MakesCalls (Dpf.createIncrementalF fp params) 6 d) ∧
    (∀ p c, Dcf.create fp p = ok c → MakesCalls (Dcf.createF fp p) 6 c) ∧
    ∀ params g, Mic.create fp params = ok g → MakesCalls (Mic.createF fp params) 6 g := by
  have ha : ∀ key, Costs (Aes128FixedKeyHash.createF key) (ok key) 2 := fun key => by
    unfold Aes128FixedKeyHash.createF
    exact .callThen (n := 1) (.callThen (n := 0) (.lift _))
  have h1 : ∀ params, Costs (Dpf.createIncrementalF fp params) (Dpf.createIncremental fp params) 6 := fun params => by
    unfold Dpf.createIncrementalF Dpf.createIncremental
    exact .liftThen fun _ _ => .liftThen fun _ _ => .skip (n := 2) (n' := 4) (ha _) (.skip (n := 2) (n' := 2) (ha _)
      (.skip (n := 2) (n' := 0) (ha _) (.lift _)))
  have h2 : ∀ p, Costs (Dcf.createF fp p) (Dcf.create fp p) 6 := fun p => by
    unfold Dcf.createF Dcf.create
    exact .liftThen fun _ _ => .liftThen fun _ _ => .bind (n := 6) (n' := 0) (h1 _) fun _ _ => .lift _
  refine ⟨h1, h2, fun params => ?_⟩
  have h3 : Costs (Mic.createF fp params) (Mic.create fp params) 6 := by
    unfold Mic.createF Mic.create
    exact .liftThen fun _ _ => .liftThen fun _ _ => .liftThen fun _ _ => .bind (n := 6) (n' := 0) (h2 _) fun _ _ =>
      .lift _
  exact h3

/-- C97 on examples. -/
example : MakesCalls (Dpf.createIncrementalF exFp exParams8) 6 exDpf ∧ MakesCalls (Mic.createF exFp exMicParams) 6 exMic :=
  ⟨(C97_create exFp).1 _ _ exDpf_eq, (C97_create exFp).2.2 _ _ exMic_create⟩

/-! ## Gates -/

/-- C97 for keys of gates: the calls depend on the number of bits only, not on the masks, nor on the intervals. -/
theorem C97_mic (fp : FpEnv) (params : MicParameters) (g : Mic) (hs : MicSetup fp params g) (env : Env) (rIn : U128)
    (rOut : List U128) (seed0 seed1 : U128) (rand : Nat → U128) (keys : MicKey × MicKey) (g' : Mic)
    (hk : g.gen env rIn rOut seed0 seed1 rand = (ok keys, g')) :
    MakesCallsOn (g.genF env rIn rOut seed0 seed1 rand)
      (3 * params.logGroupSize.toNat - 2) keys g' := by
  have hd : DcfSetup fp (Mic.dcfParams params) (.uint .w128) (g.dcf.register (uintHelper 128)) :=
    hs.dcfSetup.register (.uint .w128)
  have hpos : 1 ≤ params.logGroupSize.toNat := by
    have : 1 ≤ params.logGroupSize := hd.log_pos
    omega
  have hblocks : ∀ h < params.logGroupSize.toNat, blocksOf (g.dcf.register (uintHelper 128)).dpf h = 1 := by
    intro h hh
    obtain ⟨d0, Ts, hc, e, _⟩ := hd.setup.created
    obtain ⟨_, h1, _⟩ := createIncremental_spec hc
    obtain ⟨h2, h3⟩ := mapRes_eq_ok.mp h1
    have hl : h < (Dcf.dpfParameters (Mic.dcfParams params)).length := by rw [Dcf.dpfParameters_length]; exact hh
    have h4 := h3 h hl (by omega)
    unfold blocksOf
    rw [e, (d0.registerAll_pv Ts).2, getD_eq_getElem _ _ _ (by omega)]
    rw [(Dcf.dpfParameters_get (List.getElem?_eq_getElem hl)).2] at h4
    exact (ok.inj (show ok 1 = ok _ from h4)).symm
  have hcalls : keyGenCalls (params.logGroupSize.toNat - 1) params.logGroupSize.toNat
      (blocksOf (g.dcf.register (uintHelper 128)).dpf) = 3 * params.logGroupSize.toNat - 2 := by
    unfold keyGenCalls
    have : (List.range params.logGroupSize.toNat).map
        (fun h => batches (2 * blocksOf (g.dcf.register (uintHelper 128)).dpf h)) =
        (List.range params.logGroupSize.toNat).map fun _ => 1 := by
      refine List.map_congr_left fun h hh => ?_
      rw [hblocks h (List.mem_range.mp hh)]
      rfl
    rw [this, sum_map_const, List.length_range]
    omega
  intro more
  unfold Mic.gen at hk
  split at hk
  · rename_i N hN
    obtain ⟨N', e1, hN⟩ := bind_eq_ok.mp hN
    obtain ⟨_, e2, hN⟩ := bind_eq_ok.mp hN
    cases hN
    unfold Mic.genF keepF
    rw [e1]
    dsimp only [lift]
    rw [e2]
    dsimp only [lift]
    obtain ⟨hk1, hk2⟩ := Prod.mk.inj hk
    obtain ⟨⟨k0, k1⟩, e3, hk1⟩ := bind_eq_ok.mp hk1
    have e3' : (g.dcf.register (uintHelper 128)).generateKeys env ((N - 1 + rIn) % N) ((uintHelper 128).toValue 1) seed0
      seed1 = ok (k0, k1) := e3
    have h := C97_dcf fp _ _ _ hd env _ _ seed0 seed1 _ e3'
    change MakesCalls _ (keyGenCalls (params.logGroupSize.toNat - 1) params.logGroupSize.toNat _) _ at h
    rw [hcalls] at h
    unfold Dcf.generateKeysForF keepF
    rw [h more]
    dsimp only [endF]
    rw [bind_ok]
    exact Prod.ext (Prod.ext hk1 hk2) rfl
  all_goals exact nomatch hk

/-- C97 on an example: a group of 6 bits, two intervals. -/
example : ∃ keys g', MakesCallsOn (exMic.genF exEnv 60 [5, 63] 1 2 (fun i => BitVec.ofNat 128 i)) 16 keys g' := by
  obtain ⟨k0, k1, g', h, _⟩ := C70_mic_generated 100 exFp exMicParams exMic exMic_setup exEnv 60 (by decide) [5, 63] rfl (by
    intro r hr
    simp only [List.mem_cons, List.not_mem_nil, or_false] at hr
    rcases hr with rfl | rfl <;> decide) 1 2 (fun i => BitVec.ofNat 128 i) (by decide) (by decide)
  exact ⟨_, _, C97_mic _ _ _ exMic_setup _ _ _ _ _ _ _ g' h⟩

/-! ## Clients -/

/-- C97 for requests to dense databases: the calls depend on the number of indices, not on the indices. -/
theorem C97_dense_request (fp : FpEnv) (ceilLog2 : CeilLog2) (n : Int) (encrypter : CryptFn) (info : Bytes)
    (client : DenseClient) (hclient : DenseClient.create fp ceilLog2 (.dense n) (some encrypter) info = ok client)
    (codec : HelperCodec) (env : Env) (queries : List Int) (seeds : Nat → U128 × U128) (random : Nat → BitVec 8)
    (result : PirRequest × ClientState)
    (h : client.createRequest codec env queries seeds random = ok result) :
    MakesCalls (client.createRequestF codec env queries seeds random)
      (requestCalls queries.length (ceilLog2 n).toNat) result :=
  createRequest_costs _ _ _ (denseRequests_costs (denseClient_parts hclient).2.2 _ _ _ _) result h

/-- C97 for requests with cuckoo hashing: the calls depend on the number of queries, not on the queries, nor on how
their hashes collide. -/
theorem C97_cuckoo_request (fp : FpEnv) (ceilLog2 : CeilLog2) (sha : Sha256) (params : CuckooParams)
    (encrypter : CryptFn) (info : Bytes) (client : CuckooClient)
    (hclient : CuckooClient.create fp ceilLog2 sha (.cuckoo params) (some encrypter) info = ok client)
    (codec : HelperCodec) (env : Env) (queries : List Bytes) (seeds : Nat → U128 × U128) (random : Nat → BitVec 8)
    (result : PirRequest × ClientState)
    (h : client.createRequest codec env queries seeds random = ok result) :
    MakesCalls (client.createRequestF codec env queries seeds random)
      (requestCalls (queries.length * params.numHashFunctions.toNat) (ceilLog2 params.numBuckets).toNat) result := by
  obtain ⟨_, _, e3, e4⟩ := cuckooClient_parts hclient
  refine createRequest_costs _ _ _ ?_ result h
  unfold CuckooClient.createPlainRequestsF CuckooClient.createPlainRequests
  refine .liftThen fun idx hidx => .bind (n := requestCalls (queries.length * params.numHashFunctions.toNat) _) (n' := 0)
    ((denseRequests_costs e3 _ _ _ _).cast ?_) fun _ _ => .lift _
  have : idx.flatten.length = queries.length * params.numHashFunctions.toNat := by
    obtain ⟨i1, i2⟩ := mapRes_eq_ok.mp hidx
    rw [← i1, ← List.flatMap_id]
    refine flatMap_length _ _ fun l hl => ?_
    obtain ⟨i, hi, rfl⟩ := List.mem_iff_getElem.mp hl
    rw [id, mapRes_length (i2 i (by omega) hi), e4]
  rw [this]

/-- C97 for requests with simple hashing. -/
theorem C97_simple_request (fp : FpEnv) (ceilLog2 : CeilLog2) (sha : Sha256) (params : SimpleParams)
    (encrypter : CryptFn) (info : Bytes) (client : SimpleClient)
    (hclient : SimpleClient.create fp ceilLog2 sha (.simple params) (some encrypter) info = ok client)
    (codec : HelperCodec) (env : Env) (queries : List Bytes) (seeds : Nat → U128 × U128) (random : Nat → BitVec 8)
    (result : PirRequest × ClientState)
    (h : client.createRequest codec env queries seeds random = ok result) :
    MakesCalls (client.createRequestF codec env queries seeds random)
      (requestCalls queries.length (ceilLog2 params.numBuckets).toNat) result := by
  obtain ⟨_, _, e3⟩ := simpleClient_parts hclient
  refine createRequest_costs _ _ _ ?_ result h
  unfold SimpleClient.createPlainRequestsF SimpleClient.createPlainRequests
  refine .liftThen fun idx hidx => .bind (n := requestCalls queries.length _) (n' := 0)
    ((denseRequests_costs e3 _ _ _ _).cast ?_) fun _ _ => .lift _
  rw [mapRes_length hidx]

/-- C97 for responses: one call, whatever they contain. -/
theorem C97_dense_response (aes : AesBlock) (response : PirResponse) (state : ClientState) (answers : List Bytes)
    (h : DenseClient.handleResponse aes response state = ok answers) :
    MakesCalls (DenseClient.handleResponseF aes response state) 1 answers := denseResponse_costs _ _ _ _ h

/-- C97 for responses with cuckoo hashing: whether and where a query is found makes no difference. -/
theorem C97_cuckoo_response (aes : AesBlock) (client : CuckooClient) (response : PirResponse) (state : ClientState)
    (answers : List (Option Bytes)) (h : client.handleResponse aes response state = ok answers) :
    MakesCalls (client.handleResponseF aes response state) 1 answers := by
  have hc : Costs (client.handleResponseF aes response state) (client.handleResponse aes response state) 1 := by
    unfold CuckooClient.handleResponseF CuckooClient.handleResponse
    cases response with
    | none => exact fun _ h => nomatch h
    | some masked =>
      cases state with
      | cuckoo seed queries =>
        exact .liftThen fun _ _ => .bind (n' := 0) (denseResponse_costs _ _ _) fun _ _ =>
          .ite (fun _ => .lift _) fun _ => .lift _
      | _ => exact fun _ h => nomatch h
  exact hc _ h

/-- C97 for responses with simple hashing. -/
theorem C97_simple_response (aes : AesBlock) (codec : BucketCodec) (response : PirResponse) (state : ClientState)
    (answers : List (Option Bytes)) (h : SimpleClient.handleResponse aes codec response state = ok answers) :
    MakesCalls (SimpleClient.handleResponseF aes codec response state) 1 answers := by
  have hc : Costs (SimpleClient.handleResponseF aes codec response state)
      (SimpleClient.handleResponse aes codec response state) 1 := by
    unfold SimpleClient.handleResponseF SimpleClient.handleResponse
    cases response with
    | none => exact fun _ h => nomatch h
    | some masked =>
      cases state with
      | simple seed queries =>
        exact .liftThen fun _ _ => .bind (n' := 0) (denseResponse_costs _ _ _) fun _ _ => .lift _
      | _ => exact fun _ h => nomatch h
  exact hc _ h

/-! ## Servers -/

/-- C97 for dense servers in any role: the calls depend on the size of the database and the number of keys, not on what
the keys select or what the records are. -/
theorem C97_dense_server (fp : FpEnv) (ceilLog2 : CeilLog2) (n : Nat) (db : DenseDb) (server : DenseServer)
    (hserver : DenseServerFor fp ceilLog2 (.dense n) (some db) server) (codec : HelperCodec) (aes : AesBlock) (env : Env)
    (simd : SimdEnv) (vectors : Bool) (hv : vectors = true ↔ Vectorised simd) (request : PirRequest)
    (response : PirResponse) (h : server.handleRequest codec aes env simd request = ok response) :
    ∃ calls, CallsInRole codec server.role request (answerCalls vectors 1 (ceilLog2 n).toNat) calls ∧
      MakesCalls (server.handleRequestF codec aes env simd request) calls response := by
  obtain ⟨n', d, role, e, _, _, hd, rfl⟩ := denseServer_inv hserver
  cases e
  refine role_calls codec aes (fun r => densePlain_costs (pirDpf_wf hd) (pirDpf_tree hd) (pirDpf_blocks hd) hv env db role r)
    ?_ role request response h
  intro req resp hr
  cases req with
  | none => exact nomatch hr
  | some req => cases req with
    | plain r =>
      obtain ⟨_, hr, _⟩ := bind_eq_ok.mp hr
      exact ⟨r, rfl, fun e => failIf_eq_ok.mp hr (by rw [e]; rfl)⟩
    | notSet => exact nomatch hr
    | leader _ _ => exact nomatch hr
    | encrypted _ => exact nomatch hr

/-- C97 for servers with cuckoo hashing in any role. -/
theorem C97_cuckoo_server (fp : FpEnv) (ceilLog2 : CeilLog2) (sha : Sha256) (params : CuckooParams) (db : CuckooDb)
    (server : CuckooServer) (hserver : CuckooServerFor fp ceilLog2 sha params (some db) server) (codec : HelperCodec)
    (aes : AesBlock) (env : Env) (simd : SimdEnv) (vectors : Bool) (hv : vectors = true ↔ Vectorised simd)
    (request : PirRequest) (response : PirResponse)
    (h : server.handleRequest codec aes env simd request = ok response) :
    ∃ calls, CallsInRole codec server.role request (answerCalls vectors 2 (ceilLog2 params.numBuckets).toNat) calls ∧
      MakesCalls (server.handleRequestF codec aes env simd request) calls response := by
  obtain ⟨d, f, role, _, hd, rfl⟩ := cuckooServer_inv hserver
  refine role_calls codec aes
    (fun r => cuckooPlain_costs (pirDpf_wf hd) (pirDpf_tree hd) (pirDpf_blocks hd) hv env _ db f role r)
    ?_ role request response h
  intro req resp hr
  cases req with
  | none => exact nomatch hr
  | some req => cases req with
    | plain r =>
      obtain ⟨_, hr, _⟩ := bind_eq_ok.mp hr
      exact ⟨r, rfl, fun e => failIf_eq_ok.mp hr (by rw [e]; rfl)⟩
    | notSet => exact nomatch hr
    | leader _ _ => exact nomatch hr
    | encrypted _ => exact nomatch hr

/-- C97 for servers with simple hashing in any role. -/
theorem C97_simple_server (fp : FpEnv) (ceilLog2 : CeilLog2) (sha : Sha256) (params : SimpleParams) (db : SimpleDb)
    (server : SimpleServer) (hserver : SimpleServerFor fp ceilLog2 sha params (some db) server) (codec : HelperCodec)
    (aes : AesBlock) (env : Env) (simd : SimdEnv) (vectors : Bool) (hv : vectors = true ↔ Vectorised simd)
    (request : PirRequest) (response : PirResponse)
    (h : server.handleRequest codec aes env simd request = ok response) :
    ∃ calls, CallsInRole codec server.role request (answerCalls vectors 1 (ceilLog2 params.numBuckets).toNat) calls ∧
      MakesCalls (server.handleRequestF codec aes env simd request) calls response := by
  obtain ⟨d, f, role, _, hd, rfl⟩ := simpleServer_inv hserver
  refine role_calls codec aes
    (fun r => simplePlain_costs (pirDpf_wf hd) (pirDpf_tree hd) (pirDpf_blocks hd) hv env _ db f role r)
    ?_ role request response h
  intro req resp hr
  cases req with
  | none => exact nomatch hr
  | some req => cases req with
    | plain r =>
      obtain ⟨_, hr, _⟩ := bind_eq_ok.mp hr
      exact ⟨r, rfl, fun e => failIf_eq_ok.mp hr (by rw [e]; rfl)⟩
    | notSet => exact nomatch hr
    | leader _ _ => exact nomatch hr
    | encrypted _ => exact nomatch hr

/-- The machine of the example has vectors. -/
theorem exSimd_vectors : true = true ↔ Vectorised exSimd := ⟨fun _ => ⟨rfl, by decide, by decide⟩, fun _ => rfl⟩

/-- C97 on an example: two indices in a database of three records. -/
example : ∃ (client : DenseClient) (leader : DenseServer) (request : PirRequest) (state : ClientState)
    (response : PirResponse),
    MakesCalls (client.createRequestF (helperCodec 100) exEnv [2, 0] (fun _ => (1, 2)) (fun _ => 5)) 10 (request, state) ∧
    MakesCalls (leader.handleRequestF (helperCodec 100) exAes exEnv exSimd request) 20 response ∧
    MakesCalls (DenseClient.handleResponseF exAes response state) 1
      [[4, 5, 6] ++ List.replicate 16 0, List.replicate 19 1] := by
  obtain ⟨helper, leader, client, _, g2, g3, g4⟩ := C92_dense_records exSetting exRecords exDenseDb
    (Res.eq_ok_getD (by decide +kernel) _) ⟨[4, 5, 6], by simp [exRecords], by simp⟩ [2, 0] (by simp) (by decide)
    exSetting_works3
  obtain ⟨request, state, response, f1, f2, f3⟩ := g4 (fun _ => (1, 2)) (fun _ => 5)
  obtain ⟨⟨r, c, e1, e2⟩, _⟩ := C85_dense_request _ _ _ _ _ client g3 0 (fun m c hc => by
    rw [← ok.inj hc, List.length_map]; exact Nat.le_refl _) 100 _ _ (by decide) _ _ request state f1
  obtain ⟨calls, h1, h2⟩ := C97_dense_server _ _ _ _ leader (.inr (.inl ⟨_, g2⟩)) _ _ _ exSimd true exSimd_vectors
    request response f2
  obtain ⟨_, hrole⟩ := denseLeader_role g2
  rw [hrole] at h1
  obtain ⟨r', c', e3, e4⟩ := h1
  rw [e1] at e3
  cases e3
  rw [e2] at e4
  have e5 : calls = 20 := e4.trans (by decide +kernel)
  rw [e5] at h2
  rw [show answer exRecords [2, 0] = [[4, 5, 6] ++ List.replicate 16 0, List.replicate 19 1] by decide +kernel] at f3
  exact ⟨client, leader, request, state, response, C97_dense_request _ _ _ _ _ client g3 _ _ _ _ _ _ f1, h2,
    C97_dense_response _ _ _ _ f3⟩

/-- C97 on an example: three queries with three hash functions, seven buckets. -/
example : ∃ (client : CuckooClient) (leader : CuckooServer) (request : PirRequest) (state : ClientState)
    (response : PirResponse) (answers : List (Option Bytes)),
    MakesCalls (client.createRequestF (helperCodec 100) exEnv [[2, 2], [5], [1]] (fun _ => (1, 2)) (fun _ => 5)) 63
      (request, state) ∧
    MakesCalls (leader.handleRequestF (helperCodec 100) exAes exEnv exSimd request) 117 response ∧
    MakesCalls (client.handleResponseF exAes response state) 1 answers := by
  obtain ⟨helper, leader, client, _, g2, g3, g4⟩ := C46_answers exSetting (fun i => i % 3) [9] 3 7 exPairs exCuckooDb
    (fun i => Nat.mod_lt i (by decide)) (by decide) exCuckooDb_ok _ _ exCuckooDb_holds
    ⟨[30], by decide, by decide⟩ [[2, 2], [5], [1]] (by decide) (exSetting_works _ _ (by decide))
  obtain ⟨request, state, response, f1, f2, f3⟩ := g4 (fun _ => (1, 2)) (fun _ => 5)
  obtain ⟨⟨r, c, e1, e2⟩, _⟩ := C85_cuckoo_request _ _ _ _ _ _ client g3 0 (fun m c hc => by
    rw [← ok.inj hc, List.length_map]; exact Nat.le_refl _) 100 _ _ (by decide) _ _ request state f1
  obtain ⟨calls, h1, h2⟩ := C97_cuckoo_server _ _ _ _ _ leader (.inr (.inl ⟨_, g2⟩)) _ _ _ exSimd true exSimd_vectors
    request response f2
  obtain ⟨_, hrole⟩ := cuckooLeader_role g2
  rw [hrole] at h1
  obtain ⟨r', c', e3, e4⟩ := h1
  rw [e1] at e3
  cases e3
  rw [e2] at e4
  have e5 : calls = 117 := e4.trans (by decide +kernel)
  rw [e5] at h2
  exact ⟨client, leader, request, state, response, _, C97_cuckoo_request _ _ _ _ _ _ client g3 _ _ _ _ _ _ f1, h2,
    C97_cuckoo_response _ _ _ _ _ f3⟩

/-- C97 on an example: two queries, seven buckets. -/
example : ∃ (client : SimpleClient) (leader : SimpleServer) (request : PirRequest) (state : ClientState)
    (response : PirResponse) (answers : List (Option Bytes)),
    MakesCalls (client.createRequestF (helperCodec 100) exEnv [[2, 2], [5]] (fun _ => (1, 2)) (fun _ => 5)) 14
      (request, state) ∧
    MakesCalls (leader.handleRequestF (helperCodec 100) exAes exEnv exSimd request) 24 response ∧
    MakesCalls (SimpleClient.handleResponseF exAes wireCodec response state) 1 answers := by
  have hdb : SimpleBuiltFrom exSha wireCodec (simpleParams [9] 7) exPairs exSimpleDb :=
    Res.eq_ok_getD (by decide +kernel) _
  obtain ⟨helper, leader, client, _, g2, g3, g4⟩ := C47_end_to_end_partial exSetting [9] 7 exPairs exSimpleDb hdb
    (by decide) [[2, 2], [5]] (by decide) (exSetting_works _ _ (by decide))
  obtain ⟨request, state, response, f1, f2, f3⟩ := g4 (fun _ => (1, 2)) (fun _ => 5)
  obtain ⟨⟨r, c, e1, e2⟩, _⟩ := C85_simple_request _ _ _ _ _ _ client g3 0 (fun m c hc => by
    rw [← ok.inj hc, List.length_map]; exact Nat.le_refl _) 100 _ _ (by decide) _ _ request state f1
  obtain ⟨calls, h1, h2⟩ := C97_simple_server _ _ _ _ _ leader (.inr (.inl ⟨_, g2⟩)) _ _ _ exSimd true exSimd_vectors
    request response f2
  obtain ⟨_, hrole⟩ := simpleLeader_role g2
  rw [hrole] at h1
  obtain ⟨r', c', e3, e4⟩ := h1
  rw [e1] at e3
  cases e3
  rw [e2] at e4
  have e5 : calls = 24 := e4.trans (by decide +kernel)
  rw [e5] at h2
  exact ⟨client, leader, request, state, response, _, C97_simple_request _ _ _ _ _ _ client g3 _ _ _ _ _ _ f1, h2,
    C97_simple_response _ _ _ _ _ f3⟩

end Verif
