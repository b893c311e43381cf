import Verif.Lemmas.Communication
import Verif.Props.Wire
import Verif.Props.ServerSafety
import Verif.Props.Network
/-!
# C85: communication
-/
namespace Verif
open Res Spec Wire

/-! ## Keys -/

/-- C85 for DPF keys: a generated key needs at most 34 bytes for each level of the tree, as much as the values of the
levels, and 26 bytes. So keys grow with the logarithm of the domain, not with the domain. -/
theorem C85_dpf (fp : FpEnv) (params : List DpfParameters) (T : Nat → Ty) (d : Dpf) (hs : Setup fp params T d)
    (depth : Nat → Nat) (hd : IsDepth params T depth)
    (hsz : keyBytes T params.length (depth (params.length - 1)) < 2 ^ 31) (env : Env) (alpha : U128) (beta : List Value) (seed0 seed1 : U128) (k0 k1 : DpfKey)
    (hk : d.generateKeysIncremental env alpha beta seed0 seed1 = ok (k0, k1)) :
    (serializeKey k0).length ≤ keyBytes T params.length (depth (params.length - 1)) ∧
      (serializeKey k1).length ≤ keyBytes T params.length (depth (params.length - 1)) :=
  generated_length hs hd (by unfold keyBytes at hsz; omega) hk

/-- The depths of the levels of the example. -/
def exDepths : Nat → Nat
  | 0 => 0
  | 1 => 10
  | _ => 128

/-- C85 on an example: three levels, on a domain of 2^128 points, in about 5 KB. -/
example : ∃ d k0 k1, Setup exFp exParams exT d ∧ IsDepth exParams exT exDepths ∧
    d.generateKeysIncremental exEnv 12345 exBeta 1 2 = ok (k0, k1) ∧
    (serializeKey k0).length ≤ 5074 ∧ (serializeKey k1).length ≤ 5074 := by
  obtain ⟨d, hd⟩ := exSetup
  obtain ⟨k0, k1, h, _⟩ := C70_generated 100 _ _ _ d hd exEnv 12345 (by decide +kernel) exBeta exB exBetas 1 2
    (by decide +kernel) (by decide +kernel)
  have hdepth : IsDepth exParams exT exDepths := by unfold IsDepth; decide +kernel
  have e := C85_dpf _ _ _ d hd _ hdepth (by decide +kernel) _ _ _ _ _ k0 k1 h
  have e1 : keyBytes exT exParams.length (exDepths (exParams.length - 1)) = 5074 := by decide +kernel
  rw [e1] at e
  exact ⟨d, k0, k1, hd, hdepth, h, e⟩

/-- C85 for keys of comparison functions. -/
theorem C85_dcf (fp : FpEnv) (p : DpfParameters) (T : Ty) (c : Dcf) (hs : DcfSetup fp p T c)
    (hsz : dcfKeyBytes T p.logDomainSize.toNat < 2 ^ 31) (env : Env) (alpha : U128) (beta : Value) (seed0 seed1 : U128) (k0 k1 : DcfKey)
    (hk : c.generateKeys env alpha beta seed0 seed1 = ok (k0, k1)) :
    (wire (putDcfKey k0)).length ≤ dcfKeyBytes T p.logDomainSize.toNat ∧
      (wire (putDcfKey k1)).length ≤ dcfKeyBytes T p.logDomainSize.toNat := by
  rw [hs.generateKeys_unfold env alpha beta seed0 seed1] at hk
  unfold dcfKeyBytes at hsz
  have h1 := generated_length_log hs.setup (by
    rw [Dcf.dpfParameters_length]
    unfold keyBytes at hsz
    omega) hk
  have hpos := hs.log_pos
  have hle := hs.log_le
  have hlast : lastLogSize (Dcf.dpfParameters p) = p.logDomainSize.toNat - 1 := by
    unfold lastLogSize
    rw [Dcf.dpfParameters_length]
    exact Dcf.logSize_eq (by omega)
  rw [Dcf.dpfParameters_length, hlast] at h1
  unfold putDcfKey dcfKeyBytes
  rw [wire_single_length, wire_single_length]
  have h2 := inner_length_bound (i := 1) (by decide) h1.1 (by omega)
  have h3 := inner_length_bound (i := 1) (by decide) h1.2 (by omega)
  omega

/-- C85 on an example. -/
example : ∃ k0 k1, exDcf.generateKeys exEnv 37 (.tuple [.integer (.u64 7), .intModN (.u64 10)]) 1 2 = ok (k0, k1) ∧
    (wire (putDcfKey k0)).length ≤ dcfKeyBytes exDcfTy 6 ∧ dcfKeyBytes exDcfTy 6 = 706 := by
  obtain ⟨k0, k1, h, _⟩ := C70_dcf_generated 100 exFp exDcfParams exDcfTy exDcf exDcf_setup exEnv 37 (by decide)
    (.tuple [.integer (.u64 7), .intModN (.u64 10)]) (7#8, ⟨10#32, by decide⟩)
    (Spec.Represents.accepted ⟨_, rfl, _, _, rfl, ⟨_, rfl, rfl⟩, _, rfl, _, rfl, rfl⟩) 1 2 (by decide +kernel) (by decide +kernel)
  exact ⟨k0, k1, h, (C85_dcf _ _ _ _ exDcf_setup (by decide +kernel) _ _ _ _ _ k0 k1 h).1, by decide +kernel⟩

/-- C85 for keys of gates: 26 bytes for each interval, and a key of a comparison function. -/
theorem C85_mic (fp : FpEnv) (params : MicParameters) (g : Mic) (hs : MicSetup fp params g) (env : Env) (rIn : U128)
    (rOut : List U128) (seed0 seed1 : U128) (rand : Nat → U128) (k0 k1 : MicKey) (g' : Mic)
    (hk : g.gen env rIn rOut seed0 seed1 rand = (ok (k0, k1), g')) :
    (wire (putMicKey k0)).length ≤ micKeyBytes params.logGroupSize.toNat params.intervals.length ∧
      (wire (putMicKey k1)).length ≤ micKeyBytes params.logGroupSize.toNat params.intervals.length := by
  have hs' := hs.register
  have hp : g.params = params := hs.params_eq
  have hd : dcfKeyBytes (.uint .w128) params.logGroupSize.toNat < 2 ^ 31 := by
    have e1 : levelBytes (fun _ => .uint .w128) params.logGroupSize.toNat = params.logGroupSize.toNat * 36 := by
      unfold levelBytes
      rw [sum_map_const, List.length_range]
      rfl
    have e2 : params.logGroupSize ≤ 128 := hs.dcfSetup.log_le
    unfold dcfKeyBytes keyBytes
    omega
  unfold Mic.gen at hk
  split at hk
  case h_1 N _ =>
    dsimp only at hk
    have hk := (Prod.mk.inj hk).1
    obtain ⟨⟨a, b⟩, h1, hk⟩ := bind_eq_ok.mp hk
    obtain ⟨zs, h2, hk⟩ := bind_eq_ok.mp hk
    have hz := mapRes_length h2
    rw [List.length_range, hp] at hz
    obtain ⟨e1, e2⟩ := C85_dcf fp _ (.uint .w128) _ hs'.dcfSetup hd env _ _ seed0 seed1 a b h1
    have key : ∀ (k : DcfKey) (m : List IntegerP), m.length = params.intervals.length →
        (wire (putDcfKey k)).length ≤ dcfKeyBytes (.uint .w128) params.logGroupSize.toNat →
        (wire (putMicKey ⟨k, m⟩)).length ≤ micKeyBytes params.logGroupSize.toNat params.intervals.length := by
      intro k m hm hl
      have h1 := wire_length_bound (rs := m.map fun v => inner 2 (putInteger v)) (L := 26) (by
        intro r hr
        obtain ⟨v, _, rfl⟩ := List.mem_map.mp hr
        exact inner_length_short (by decide) (integer_length_le v) (by decide))
      rw [List.length_map, hm] at h1
      have h2 := inner_length_bound (i := 1) (by decide) hl (by omega)
      unfold putMicKey micKeyBytes
      rw [wire_append, List.length_append, wire_single_length]
      dsimp only
      omega
    cases hk
    exact ⟨key _ _ (by simpa using hz) e1, key _ _ (by simpa using hz) e2⟩
  all_goals cases (Prod.mk.inj hk).1

/-- C85 on an example: two intervals. -/
example : ∃ k0 k1 g', exMic.gen exEnv 60 [5, 63] 1 2 (fun i => BitVec.ofNat 128 i) = (ok (k0, k1), g') ∧
    (wire (putMicKey k0)).length ≤ micKeyBytes 6 2 ∧ (wire (putMicKey k1)).length ≤ micKeyBytes 6 2 ∧
    micKeyBytes 6 2 = 476 := by
  obtain ⟨k0, k1, g', h, _⟩ := C70_mic_generated 100 exFp exMicParams exMic exMic_setup exEnv 60 (by decide) [5, 63] rfl (by
    intro r hr
    simp only [List.mem_cons, List.not_mem_nil, or_false] at hr
    rcases hr with rfl | rfl <;> decide) 1 2 (fun i => BitVec.ofNat 128 i) (by decide) (by decide)
  have e := C85_mic _ _ _ exMic_setup _ _ _ _ _ _ k0 k1 g' h
  exact ⟨k0, k1, g', h, e.1, e.2, by decide +kernel⟩

/-! ## Requests and responses -/

/-- C85 for requests to dense databases: a request has two keys for each number, and each of them needs at most 34 bytes
for each bit of an index. (Messages of 2 GB and more cannot be serialized.) -/
theorem C85_dense_request (fp : FpEnv) (ceilLog2 : CeilLog2) (n : Int) (encrypter : CryptFn) (info : Bytes)
    (client : DenseClient) (hclient : DenseClient.create fp ceilLog2 (.dense n) (some encrypter) info = ok client)
    (growth : Nat) (hgrow : ∀ m c, encrypter m info = ok c → c.length ≤ m.length + growth)
    (limit : Nat) (env : Env) (queries : List Int)
    (hb : requestBytes queries.length (ceilLog2 n).toNat growth < 2 ^ 31) (seeds : Nat → U128 × U128) (random : Nat → BitVec 8) (request : PirRequest) (state : ClientState)
    (h : client.createRequest (helperCodec limit) env queries seeds random = ok (request, state)) :
    (∃ r c, request = some (.leader (some r) (some c)) ∧ r.dpfKeys.length = queries.length) ∧
      (wire (putRequest request)).length ≤ requestBytes queries.length (ceilLog2 n).toNat growth := by
  obtain ⟨e1, e2, e3⟩ := denseClient_parts hclient
  obtain ⟨h128, hd⟩ := pirParameters_log e3
  obtain ⟨r, m, c, p1, p2, rfl⟩ := createRequest_inv h
  obtain ⟨q1, q2, q3, q4⟩ := dense_short hd p1
  rw [e1, e2] at p2
  exact ⟨⟨_, _, rfl, q2⟩, request_short h128 hb q1 q2 q3 q4 (hgrow _ _ p2)⟩

/-- C85 for requests with cuckoo hashing: two keys for each query and hash function. -/
theorem C85_cuckoo_request (fp : FpEnv) (ceilLog2 : CeilLog2) (sha : Sha256) (params : CuckooParams)
    (encrypter : CryptFn) (info : Bytes) (client : CuckooClient)
    (hclient : CuckooClient.create fp ceilLog2 sha (.cuckoo params) (some encrypter) info = ok client)
    (growth : Nat) (hgrow : ∀ m c, encrypter m info = ok c → c.length ≤ m.length + growth)
    (limit : Nat) (env : Env) (queries : List Bytes)
    (hb : requestBytes (queries.length * params.numHashFunctions.toNat) (ceilLog2 params.numBuckets).toNat growth <
      2 ^ 31) (seeds : Nat → U128 × U128)
    (random : Nat → BitVec 8) (request : PirRequest) (state : ClientState)
    (h : client.createRequest (helperCodec limit) env queries seeds random = ok (request, state)) :
    (∃ r c, request = some (.leader (some r) (some c)) ∧ r.dpfKeys.length = queries.length * params.numHashFunctions.toNat) ∧
      (wire (putRequest request)).length ≤ requestBytes (queries.length * params.numHashFunctions.toNat) (ceilLog2 params.numBuckets).toNat growth := by
  obtain ⟨e1, e2, e3, e4⟩ := cuckooClient_parts hclient
  obtain ⟨h128, hd⟩ := pirParameters_log e3
  obtain ⟨r, m, c, p1, p2, rfl⟩ := createRequest_inv h
  unfold CuckooClient.createPlainRequests at p1
  obtain ⟨idx, p3, p1⟩ := bind_eq_ok.mp p1
  obtain ⟨⟨r', m', st⟩, p4, p1⟩ := bind_eq_ok.mp p1
  have hidx : idx.flatten.length = queries.length * params.numHashFunctions.toNat := by
    obtain ⟨i1, i2⟩ := mapRes_eq_ok.mp p3
    rw [← i1, ← List.flatMap_id]
    refine flatMap_length _ _ fun l hl => ?_
    obtain ⟨i, hi, rfl⟩ := List.mem_iff_getElem.mp hl
    rw [id, mapRes_length (i2 i (by omega) hi), e4]
  obtain ⟨q1, q2, q3, q4⟩ := dense_short hd p4
  rw [hidx] at q2
  rw [hidx] at q4
  cases p1
  rw [e1, e2] at p2
  exact ⟨⟨_, _, rfl, q2⟩, request_short (r := (setFingerprints client.fingerprint r' m').1)
    (m := (setFingerprints client.fingerprint r' m').2) h128 hb q1 q2 q3 (setFingerprints_short q4) (hgrow _ _ p2)⟩

/-- C85 for requests with simple hashing. -/
theorem C85_simple_request (fp : FpEnv) (ceilLog2 : CeilLog2) (sha : Sha256) (params : SimpleParams)
    (encrypter : CryptFn) (info : Bytes) (client : SimpleClient)
    (hclient : SimpleClient.create fp ceilLog2 sha (.simple params) (some encrypter) info = ok client)
    (growth : Nat) (hgrow : ∀ m c, encrypter m info = ok c → c.length ≤ m.length + growth)
    (limit : Nat) (env : Env) (queries : List Bytes)
    (hb : requestBytes queries.length (ceilLog2 params.numBuckets).toNat growth < 2 ^ 31) (seeds : Nat → U128 × U128)
    (random : Nat → BitVec 8) (request : PirRequest) (state : ClientState)
    (h : client.createRequest (helperCodec limit) env queries seeds random = ok (request, state)) :
    (∃ r c, request = some (.leader (some r) (some c)) ∧ r.dpfKeys.length = queries.length) ∧
      (wire (putRequest request)).length ≤ requestBytes queries.length (ceilLog2 params.numBuckets).toNat growth := by
  obtain ⟨e1, e2, e3⟩ := simpleClient_parts hclient
  obtain ⟨h128, hd⟩ := pirParameters_log e3
  obtain ⟨r, m, c, p1, p2, rfl⟩ := createRequest_inv h
  unfold SimpleClient.createPlainRequests at p1
  obtain ⟨idx, p3, p1⟩ := bind_eq_ok.mp p1
  obtain ⟨⟨r', m', st⟩, p4, p1⟩ := bind_eq_ok.mp p1
  have hidx := mapRes_length p3
  obtain ⟨q1, q2, q3, q4⟩ := dense_short hd p4
  rw [hidx] at q2
  rw [hidx] at q4
  cases p1
  rw [e1, e2] at p2
  exact ⟨⟨_, _, rfl, q2⟩, request_short (r := (setFingerprints client.fingerprint r' m').1)
    (m := (setFingerprints client.fingerprint r' m').2) h128 hb q1 q2 q3 (setFingerprints_short q4) (hgrow _ _ p2)⟩

/-- C85 for responses of a leader with a dense database: one string for each key, as long as the longest record, whatever
the helper sends. Missing: responses of 2 GB and more, and what is missing in `C60_dense_partial`. -/
theorem C85_dense_response_partial (fp : FpEnv) (ceilLog2 : CeilLog2) (config : PirConfig) (records : List Bytes)
    (db : DenseDb) (hdb : BuiltFrom records db) (hc : ExactAt ceilLog2 records.length) (simd : SimdEnv)
    (hsimd : SimdOk simd) (hcan : CanServe records.length simd) (sender : Option Sender) (leader : DenseServer)
    (hleader : DenseServer.createLeader fp ceilLog2 config (some db) sender = ok leader) (codec : HelperCodec)
    (aes : AesBlock) (env : Env) (request : PirRequest) (response : PirResponse)
    (h : leader.handleRequest codec aes env simd request = ok response) :
    ∃ r c, request = some (.leader (some r) (some c)) ∧
      (responseBytes r.dpfKeys.length [maxLength records] < 2 ^ 31 →
        (wire (putResponse response)).length ≤ responseBytes r.dpfKeys.length [maxLength records]) := by
  have ans := (C60_dense_partial fp ceilLog2 config records db hdb hc simd hsimd hcan leader (Or.inr (Or.inl ⟨_, hleader⟩))
    env).1
  obtain ⟨s, hr⟩ := denseLeader_role hleader
  unfold DenseServer.handleRequest at h
  rw [hr] at h
  exact response_short ans h

/-- C85 for responses of a leader with cuckoo hashing: two strings for each key. -/
theorem C85_cuckoo_response_partial (fp : FpEnv) (ceilLog2 : CeilLog2) (sha : Sha256) (random : Nat → Nat)
    (seed : Bytes) (k n : Nat) (records : List (Bytes × Bytes)) (db : CuckooDb)
    (hr : ∀ i, random i < k) (h1 : n < 2 ^ 31) (hrec : records.length < 2 ^ 31)
    (hdb : CuckooBuiltFrom sha random (cuckooParams seed k n) records db) (K V : List Bytes)
    (hKV : CuckooHolds db K V) (hc : ExactAt ceilLog2 n) (simd : SimdEnv) (hsimd : SimdOk simd)
    (hcan : CanServe n simd) (params : CuckooParams) (sender : Option Sender) (leader : CuckooServer)
    (hleader : CuckooServer.createLeader fp ceilLog2 sha params (some db) sender = ok leader) (codec : HelperCodec)
    (aes : AesBlock) (env : Env) (request : PirRequest) (response : PirResponse)
    (h : leader.handleRequest codec aes env simd request = ok response) :
    ∃ r c, request = some (.leader (some r) (some c)) ∧
      (responseBytes r.dpfKeys.length [maxLength K, maxLength V] < 2 ^ 31 →
        (wire (putResponse response)).length ≤ responseBytes r.dpfKeys.length [maxLength K, maxLength V]) := by
  have ans := (C60_cuckoo_partial fp ceilLog2 sha random seed k n records db hr h1 hrec hdb K V hKV hc simd hsimd hcan
    params leader (Or.inr (Or.inl ⟨_, hleader⟩)) env).1
  obtain ⟨s, hr⟩ := cuckooLeader_role hleader
  unfold CuckooServer.handleRequest at h
  rw [hr] at h
  exact response_short ans h

/-- C85 for responses of a leader with simple hashing: one string for each key, as long as the longest bucket. -/
theorem C85_simple_response_partial (fp : FpEnv) (ceilLog2 : CeilLog2) (sha : Sha256) (bucketCodec : BucketCodec)
    (seed : Bytes) (n : Nat) (records : List (Bytes × Bytes)) (db : SimpleDb) (h1 : n < 2 ^ 31)
    (hdb : SimpleBuiltFrom sha bucketCodec (simpleParams seed n) records db) (hc : ExactAt ceilLog2 n)
    (simd : SimdEnv) (hsimd : SimdOk simd) (hcan : CanServe n simd) (params : SimpleParams) (sender : Option Sender)
    (leader : SimpleServer)
    (hleader : SimpleServer.createLeader fp ceilLog2 sha params (some db) sender = ok leader) (codec : HelperCodec)
    (aes : AesBlock) (env : Env) (request : PirRequest) (response : PirResponse)
    (h : leader.handleRequest codec aes env simd request = ok response) (bucket : Nat)
    (hbucket : bucket = maxLength ((List.range n).map fun i =>
      (bucketCodec.serialize (simpleBucket sha seed n records i)).getD [])) :
    ∃ r c, request = some (.leader (some r) (some c)) ∧
      (responseBytes r.dpfKeys.length [bucket] < 2 ^ 31 →
        (wire (putResponse response)).length ≤ responseBytes r.dpfKeys.length [bucket]) := by
  have ans := (C60_simple_partial fp ceilLog2 sha bucketCodec seed n records db h1 hdb hc simd hsimd hcan
    params leader (Or.inr (Or.inl ⟨_, hleader⟩)) env).1
  rw [← hbucket] at ans
  obtain ⟨s, hr⟩ := simpleLeader_role hleader
  unfold SimpleServer.handleRequest at h
  rw [hr] at h
  exact response_short ans h

/-- C85 on an example: two numbers, three records of at most 19 bytes. -/
example : ∃ (client : DenseClient) (leader : DenseServer) (request : PirRequest) (state : ClientState)
    (response : PirResponse),
    client.createRequest (helperCodec 100) exEnv [2, 0] (fun _ => (1, 2)) (fun _ => 5) = ok (request, state) ∧
    leader.handleRequest (helperCodec 100) exAes exEnv exSimd request = ok response ∧
    (wire (putRequest request)).length ≤ 608 ∧ (wire (putResponse response)).length ≤ 56 := by
  have hdb : BuiltFrom exRecords ((exRecords.foldl DenseBuilder.insert DenseBuilder.new).build.1.getD
    ⟨0, [], 0, []⟩) := Res.eq_ok_getD (by decide +kernel) _
  have hexact : ExactAt exCeilLog2 exRecords.length := ⟨2, by decide, by decide, by decide⟩
  have main := C36_end_to_end_partial exFp exEnv exAes (helperCodec 100) exCeilLog2 exSimd exSimd exSimd_ok
    exSimd_ok exRecords _ hdb ⟨[4, 5, 6], by simp [exRecords], by simp⟩ hexact (Or.inl (by decide))
    (fun m _ => ok (m.map (~~~ ·))) (fun m _ => ok (m.map (~~~ ·)))
    (fun m => ⟨m.map (~~~ ·), rfl, by simp [Function.comp_def]⟩)
  obtain ⟨_, helper, _, _, h2, _, _⟩ := main fun _ => (true, ok none)
  obtain ⟨leader, helper', client, g1, g2, g3, g4⟩ := main fun request =>
    (true, helper.handleRequest (helperCodec 100) exAes exEnv exSimd request)
  rw [h2] at g2
  cases g2
  obtain ⟨request, state, response, f1, f2, _⟩ := g4 (fun _ => rfl) [2, 0] (by decide) (by decide)
    (fun m hm => HelperMessage.parse hm (by decide) (by decide)) (fun _ => (1, 2)) (fun _ => 5)
  obtain ⟨⟨r, c, e1, e2⟩, e3⟩ := C85_dense_request _ _ _ _ _ client g3 0 (fun m c hc => by
    rw [← ok.inj hc, List.length_map]; exact Nat.le_refl _) 100 _ _ (by decide) _ _ request state f1
  obtain ⟨r', c', e4, e5⟩ := C85_dense_response_partial exFp exCeilLog2 _ exRecords _ hdb hexact exSimd exSimd_ok
    (Or.inl (by decide)) _ leader g1 _ _ _ request response f2
  rw [e1] at e4
  cases e4
  rw [e2] at e5
  have e6 : requestBytes 2 2 0 = 608 := by decide
  exact ⟨client, leader, request, state, response, f1, f2, by rw [← e6]; exact e3, e5 (by decide)⟩

/-- C85 on an example: three queries with three hash functions, seven buckets. -/
example : ∃ (client : CuckooClient) (leader : CuckooServer) (request : PirRequest) (state : ClientState)
    (response : PirResponse),
    client.createRequest (helperCodec 100) exEnv [[2, 2], [5], [1]] (fun _ => (1, 2)) (fun _ => 5) =
      ok (request, state) ∧
    leader.handleRequest (helperCodec 100) exAes exEnv exSimd request = ok response ∧
    (wire (putRequest request)).length ≤ 3124 ∧ (wire (putResponse response)).length ≤ 150 := by
  obtain ⟨helper, leader, client, _, g2, g3, g4⟩ := C46_answers exSetting (fun i => i % 3) [9] 3 7 exPairs exCuckooDb
    (fun i => Nat.mod_lt i (by decide)) (by decide) exCuckooDb_ok _ _ exCuckooDb_holds
    ⟨[30], by decide, by decide⟩ [[2, 2], [5], [1]] (by decide) (exSetting_works _ _ (by decide))
  obtain ⟨request, state, response, f1, f2, _⟩ := g4 (fun _ => (1, 2)) (fun _ => 5)
  obtain ⟨⟨r, c, e1, e2⟩, e3⟩ := C85_cuckoo_request _ _ _ _ _ _ client g3 0 (fun m c hc => by
    rw [← ok.inj hc, List.length_map]; exact Nat.le_refl _) 100 _ _ (by decide) _ _ request state f1
  obtain ⟨r', c', e4, e5⟩ := C85_cuckoo_response_partial exFp exCeilLog2 exSha (fun i => i % 3) [9] 3 7 exPairs exCuckooDb
    (fun i => Nat.mod_lt i (by decide)) (by decide) (by decide) exCuckooDb_ok _ _ exCuckooDb_holds
    (exCeilLog2_exact 7 (by decide)) exSimd exSimd_ok (Or.inl (by decide)) _ _ leader g2 _ _ _ request response f2
  rw [e1] at e4
  cases e4
  rw [e2] at e5
  have e6 : requestBytes 9 3 0 = 3124 := by decide
  exact ⟨client, leader, request, state, response, f1, f2, by rw [← e6]; exact e3, e5 (by decide +kernel)⟩

/-- C85 on an example: two queries, seven buckets. -/
example : ∃ (client : SimpleClient) (leader : SimpleServer) (request : PirRequest) (state : ClientState)
    (response : PirResponse),
    client.createRequest (helperCodec 100) exEnv [[2, 2], [5]] (fun _ => (1, 2)) (fun _ => 5) =
      ok (request, state) ∧
    leader.handleRequest (helperCodec 100) exAes exEnv exSimd request = ok response ∧
    (wire (putRequest request)).length ≤ 744 ∧ (wire (putResponse response)).length ≤ 100 := by
  have hdb : SimpleBuiltFrom exSha wireCodec (simpleParams [9] 7) exPairs exSimpleDb :=
    Res.eq_ok_getD (by decide +kernel) _
  obtain ⟨helper, leader, client, _, g2, g3, g4⟩ := C47_end_to_end_partial exSetting [9] 7 exPairs exSimpleDb hdb
    (by decide) [[2, 2], [5]] (by decide) (exSetting_works _ _ (by decide))
  obtain ⟨request, state, response, f1, f2, _⟩ := g4 (fun _ => (1, 2)) (fun _ => 5)
  obtain ⟨⟨r, c, e1, e2⟩, e3⟩ := C85_simple_request _ _ _ _ _ _ client g3 0 (fun m c hc => by
    rw [← ok.inj hc, List.length_map]; exact Nat.le_refl _) 100 _ _ (by decide) _ _ request state f1
  obtain ⟨r', c', e4, e5⟩ := C85_simple_response_partial exFp exCeilLog2 exSha wireCodec [9] 7 exPairs exSimpleDb
    (by decide) hdb (exCeilLog2_exact 7 (by decide)) exSimd exSimd_ok (Or.inl (by decide)) _ _ leader g2 _ _ _ request
    response f2 _ rfl
  rw [e1] at e4
  cases e4
  rw [e2] at e5
  have e6 : requestBytes 2 3 0 = 744 := by decide
  have e7 : responseBytes 2 [maxLength ((List.range 7).map fun i =>
      (wireCodec.serialize (simpleBucket exSha [9] 7 exPairs i)).getD [])] ≤ 100 := by decide +kernel
  exact ⟨client, leader, request, state, response, f1, f2, by rw [← e6]; exact e3,
    Nat.le_trans (e5 (Nat.lt_of_le_of_lt e7 (by decide))) e7⟩

end Verif
