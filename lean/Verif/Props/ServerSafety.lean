import Verif.Lemmas.ServerSafety
import Verif.Props.DensePir
import Verif.Props.SparsePir
/-!
# Property C60: PIR servers and clients survive arbitrary input
-/
namespace Verif
open Res Spec

/-! ## Creation -/

/-- C60: whatever configuration, database and functions they are given, servers are created or an error is
returned. -/
theorem C60_create_server (fp : FpEnv) (ceilLog2 : CeilLog2) (sha : Sha256) (config : PirConfig)
    (cuckoo : CuckooParams) (simple : SimpleParams) (db : Option DenseDb) (cuckooDb : Option CuckooDb)
    (simpleDb : Option SimpleDb) (sender : Option Sender) (decrypter : Option CryptFn) :
    (Safe (DenseServer.createPlain fp ceilLog2 config db) ∧
      Safe (DenseServer.createLeader fp ceilLog2 config db sender) ∧
      Safe (DenseServer.createHelper fp ceilLog2 config db decrypter)) ∧
    (Safe (CuckooServer.createPlain fp ceilLog2 sha cuckoo cuckooDb) ∧
      Safe (CuckooServer.createLeader fp ceilLog2 sha cuckoo cuckooDb sender) ∧
      Safe (CuckooServer.createHelper fp ceilLog2 sha cuckoo cuckooDb decrypter)) ∧
    Safe (SimpleServer.createPlain fp ceilLog2 sha simple simpleDb) ∧
      Safe (SimpleServer.createLeader fp ceilLog2 sha simple simpleDb sender) ∧
      Safe (SimpleServer.createHelper fp ceilLog2 sha simple simpleDb decrypter) := by
  have a := densePlain_safe fp ceilLog2 config db
  have b := cuckooPlain_safe fp ceilLog2 sha cuckoo cuckooDb
  have c := simplePlain_safe fp ceilLog2 sha simple simpleDb
  exact ⟨⟨a, a.bind fun _ _ => (makeLeader_safe _).bind fun _ _ => .ok _,
      a.bind fun _ _ => (makeHelper_safe _ _).bind fun _ _ => .ok _⟩,
    ⟨b, b.bind fun _ _ => (makeLeader_safe _).bind fun _ _ => .ok _,
      b.bind fun _ _ => (makeHelper_safe _ _).bind fun _ _ => .ok _⟩,
    c, c.bind fun _ _ => (makeLeader_safe _).bind fun _ _ => .ok _,
      c.bind fun _ _ => (makeHelper_safe _ _).bind fun _ _ => .ok _⟩

/-- C60: the same for clients. -/
theorem C60_create_client (fp : FpEnv) (ceilLog2 : CeilLog2) (sha : Sha256) (config : PirConfig)
    (params : PublicParams) (encrypter : Option CryptFn) (info : Bytes) :
    Safe (DenseClient.create fp ceilLog2 config encrypter info) ∧
    Safe (CuckooClient.create fp ceilLog2 sha params encrypter info) ∧
    Safe (SimpleClient.create fp ceilLog2 sha params encrypter info) := by
  refine ⟨denseClient_safe fp ceilLog2 config encrypter info, ?_, ?_⟩
  · unfold CuckooClient.create
    cases encrypter with
    | none => exact .err _
    | some enc =>
      cases params with
      | cuckoo p =>
        exact (Safe.failIf _ _).bind fun _ _ => (Safe.failIf _ _).bind fun _ _ =>
          (family_safe _ _).bind fun _ _ => (fingerprint_safe _ _).bind fun _ _ =>
          (functions_safe _ _).bind fun _ _ => (denseClient_safe _ _ _ _ _).bind fun _ _ => .ok _
      | _ => exact .err _
  · unfold SimpleClient.create
    cases encrypter with
    | none => exact .err _
    | some enc =>
      cases params with
      | simple p =>
        refine (Safe.failIf _ _).bind fun _ _ =>
          (family_safe _ _).bind fun _ e => (fingerprint_safe _ _).bind fun _ _ =>
          (functions_safe _ _).bind fun fs hf => ?_
        have hl := (functions_sha e hf).1
        exact (Dpf.rd_safe (by rw [hl]; decide)).bind fun _ _ =>
          (denseClient_safe _ _ _ _ _).bind fun _ _ => .ok _
      | _ => exact .err _

/-! ## Servers -/

/-- C60 for the dense server: whatever request it is given (with keys of any shape), a server created for a
database rejects it or answers with one string per key, as long as the longest record. In every role, the
server returns if the functions it was given return.
Missing: databases with more than 2^24 and at most 2^30 records on machines without vectors, for which the
statement is false (`C60_scalar_refuted`). -/
theorem C60_dense_partial (fp : FpEnv) (ceilLog2 : CeilLog2) (config : PirConfig) (records : List Bytes)
    (db : DenseDb) (hdb : BuiltFrom records db) (hc : ExactAt ceilLog2 records.length) (simd : SimdEnv)
    (hsimd : SimdOk simd) (hcan : CanServe records.length simd) (server : DenseServer)
    (hserver : DenseServerFor fp ceilLog2 config (some db) server) (env : Env) :
    (∀ request, AnswersOrRejects request [maxLength records]
      (server.handlePlainRequest env simd request)) ∧
    (RoleReturns server.role → ∀ codec aes request,
      Safe (server.handleRequest codec aes env simd request)) := by
  have hh := builtFrom_holds hdb
  obtain ⟨n, d, role, rfl, _, h2, h3, rfl⟩ := denseServer_inv hserver
  have hn : n = records.length := by rw [← h2, hh.size]
  subst hn
  obtain ⟨l, a2, a3, a4⟩ := pirDpf_inv fp hc hcan h3
  have main := dense_plain hh a3 hsimd a4 a2 role env
  exact ⟨main, fun hr codec aes request =>
    handleRequest_safe codec aes (fun r => AnswersOrRejects_safe (main r)) hr request⟩

/-- C60 on an example: a helper for three records. -/
example (key : DpfKey) : AnswersOrRejects (some (.plain ⟨[key, key], 0⟩)) [19]
      (exHelper.handlePlainRequest exEnv exSimd (some (.plain ⟨[key, key], 0⟩))) ∧
    ∀ request, Safe (exHelper.handleRequest exCodec exAes exEnv exSimd request) := by
  have h := C60_dense_partial exFp exCeilLog2 (.dense 3) exRecords ((exRecords.foldl DenseBuilder.insert
    DenseBuilder.new).build.1.getD ⟨0, [], 0, []⟩) (Res.eq_ok_getD (by decide +kernel) _)
    ⟨2, by decide, by decide, by decide⟩ exSimd exSimd_ok (Or.inl (by decide)) exHelper
    (Or.inr (Or.inr ⟨some fun m _ => ok (m.map (~~~ ·)), Res.eq_ok_getD (by decide +kernel) _⟩)) exEnv
  exact ⟨h.1 _, fun request => h.2 (fun m _ => .ok (m.map (~~~ ·))) exCodec exAes request⟩

/-- C60 for the server with cuckoo hashing; the parameters of the server need not be those of the
database. For each key the answer has a string as long as the longest key and one as long as the longest
value. Missing: as above. (Databases with 2^31 or more buckets are never built: `C64_cuckoo_huge`.) -/
theorem C60_cuckoo_partial (fp : FpEnv) (ceilLog2 : CeilLog2) (sha : Sha256) (random : Nat → Nat)
    (seed : Bytes) (k n : Nat) (records : List (Bytes × Bytes)) (db : CuckooDb)
    (hr : ∀ i, random i < k) (h1 : n < 2 ^ 31) (hrec : records.length < 2 ^ 31)
    (hdb : CuckooBuiltFrom sha random (cuckooParams seed k n) records db) (K V : List Bytes)
    (hKV : CuckooHolds db K V) (hc : ExactAt ceilLog2 n) (simd : SimdEnv) (hsimd : SimdOk simd)
    (hcan : CanServe n simd) (params : CuckooParams) (server : CuckooServer)
    (hserver : CuckooServerFor fp ceilLog2 sha params (some db) server) (env : Env) :
    (∀ request, AnswersOrRejects request [maxLength K, maxLength V]
      (server.handlePlainRequest env simd request)) ∧
    (RoleReturns server.role → ∀ codec aes request,
      Safe (server.handleRequest codec aes env simd request)) := by
  obtain ⟨table, stash, a1, a2, a3, a4, _⟩ := cuckoo_table hr h1 hrec hdb
  have eK : table.map (·.getD []) = K := ok.inj (a1.content.symm.trans hKV.1)
  have eV : table.map (bucketValue records) = V := ok.inj (a2.content.symm.trans hKV.2)
  rw [eK] at a1
  rw [eV] at a2
  have lK : K.length = n := by rw [← eK, List.length_map, a4]
  have lV : V.length = n := by rw [← eV, List.length_map, a4]
  obtain ⟨d, f, role, b1, b2, rfl⟩ := cuckooServer_inv hserver
  rw [← b1, a3] at b2
  obtain ⟨l, c2, c3, c4⟩ := pirDpf_inv fp hc hcan b2
  have main := cuckoo_plain a1 a2 c3 hsimd c4 (by omega) (by omega) (.cuckoo params) f role env
  exact ⟨main, fun hr codec aes request =>
    handleRequest_safe codec aes (fun r => AnswersOrRejects_safe (main r)) hr request⟩

/-- C60 on an example: a leader for three records in seven buckets. -/
example (response : Res PirResponse) (hresp : Safe response) (server : CuckooServer)
    (hserver : CuckooServer.createLeader exFp exCeilLog2 exSha (cuckooParams [9] 3 7) (some exCuckooDb)
      (some fun _ => (true, response)) = ok server) (request : PirRequest) :
    Safe (server.handleRequest exCodec exAes exEnv exSimd request) := by
  have h := C60_cuckoo_partial exFp exCeilLog2 exSha (fun i => i % 3) [9] 3 7 exPairs exCuckooDb
    (fun i => Nat.mod_lt i (by decide)) (by decide) (by decide) exCuckooDb_ok _ _ exCuckooDb_holds
    ⟨3, by decide, by decide, by decide⟩ exSimd exSimd_ok (Or.inl (by decide)) _ server
    (Or.inr (Or.inl ⟨_, hserver⟩)) exEnv
  refine h.2 ?_ _ _ _
  unfold CuckooServer.createLeader at hserver
  obtain ⟨s, _, hs⟩ := bind_eq_ok.mp hserver
  obtain ⟨role, e, hs⟩ := bind_eq_ok.mp hs
  rw [← ok.inj hs]
  rw [← ok.inj e]
  exact fun _ => hresp

/-- Such a server exists. -/
example : ∃ server, CuckooServer.createLeader exFp exCeilLog2 exSha (cuckooParams [9] 3 7)
    (some exCuckooDb) (some fun _ => (true, ok none)) = ok server := by
  obtain ⟨l, d, _, _, _, hd, _⟩ := pirDpf_of_exact exFp (c := exCeilLog2) (n := 7)
    ⟨3, by decide, by decide, by decide⟩ (by decide)
  obtain ⟨f, hf⟩ := fingerprint_ok exSha ⟨1, [9]⟩
  have h := CuckooServer.createPlain_ok (seed := [9]) (k := 3) (n := 7) (db := exCuckooDb) (sha := exSha)
    (by decide) (by decide) (by decide +kernel) hd hf
  unfold CuckooServer.createLeader
  rw [h]
  exact ⟨_, rfl⟩

/-- C60 for the server with simple hashing. For each key the answer has one string, as long as the longest
serialized bucket. Missing: as above. (Other values of `n` give the same databases: `C64_simple_huge`.) -/
theorem C60_simple_partial (fp : FpEnv) (ceilLog2 : CeilLog2) (sha : Sha256) (bucketCodec : BucketCodec)
    (seed : Bytes) (n : Nat) (records : List (Bytes × Bytes)) (db : SimpleDb)
    (h1 : n < 2 ^ 31)
    (hdb : SimpleBuiltFrom sha bucketCodec (simpleParams seed n) records db) (hc : ExactAt ceilLog2 n)
    (simd : SimdEnv) (hsimd : SimdOk simd) (hcan : CanServe n simd) (params : SimpleParams)
    (server : SimpleServer) (hserver : SimpleServerFor fp ceilLog2 sha params (some db) server) (env : Env) :
    (∀ request, AnswersOrRejects request [maxLength ((List.range n).map fun i =>
        (bucketCodec.serialize (simpleBucket sha seed n records i)).getD [])]
      (server.handlePlainRequest env simd request)) ∧
    (RoleReturns server.role → ∀ codec aes request,
      Safe (server.handleRequest codec aes env simd request)) := by
  obtain ⟨a1, a2, a3, ss, a4⟩ := simple_built_inv h1 hdb
  obtain ⟨db', b1, b2, b3⟩ := simple_build_ok sha bucketCodec a1 a2 h1 records a3 ss a4
  have : db' = db := by
    unfold SimpleBuiltFrom at b1 hdb
    rw [b1] at hdb
    exact ok.inj hdb
  subst this
  have hss : ((List.range n).map fun i =>
      (bucketCodec.serialize (simpleBucket sha seed n records i)).getD []) = ss := by
    have := congrArg (List.map fun o : Option Bytes => o.getD []) a4
    simpa [Function.comp_def] using this
  rw [hss]
  have lss : ss.length = n := by rw [← hss]; simp
  obtain ⟨d, f, role, c1, c2, rfl⟩ := simpleServer_inv hserver
  rw [← c1, b3] at c2
  obtain ⟨l, d2, d3, d4⟩ := pirDpf_inv fp hc hcan c2
  have main := simple_plain b2 d3 hsimd d4 (by omega) (.simple params) f role env
  exact ⟨main, fun hr codec aes request =>
    handleRequest_safe codec aes (fun r => AnswersOrRejects_safe (main r)) hr request⟩

/-- C60 on an example: three records in seven buckets. -/
example (server : SimpleServer) (hserver : SimpleServer.createPlain exFp exCeilLog2 exSha
    (simpleParams [9] 7) (some exSimpleDb) = ok server) (key : DpfKey) :
    ∃ n, AnswersOrRejects (some (.plain ⟨[key], 5⟩)) [n]
      (server.handlePlainRequest exEnv exSimd (some (.plain ⟨[key], 5⟩))) :=
  ⟨_, (C60_simple_partial exFp exCeilLog2 exSha wireCodec [9] 7 exPairs exSimpleDb (by decide)
    (Res.eq_ok_getD (by decide +kernel) _) ⟨3, by decide, by decide, by decide⟩ exSimd exSimd_ok
    (Or.inl (by decide)) _ server (Or.inl hserver) exEnv).1 _⟩

/-- Without vectors, the full C60 is false for every database with more than 2^24 records one of which is
not empty: the request the client makes for any of the records is undefined behaviour at the server. -/
theorem C60_scalar_refuted (fp : FpEnv) (ceilLog2 : CeilLog2) (records : List Bytes) (db : DenseDb)
    (hdb : BuiltFrom records db) (hpos : 0 < maxLength records) (hc : ExactAt ceilLog2 records.length)
    (h1 : 2 ^ 24 < records.length) (h2 : records.length ≤ 2 ^ 30) (simd : SimdEnv)
    (hscalar : simd.scalar = true) (env : Env) (encrypter : CryptFn) (info : Bytes) :
    ∃ server client,
      DenseServer.createPlain fp ceilLog2 (.dense records.length) (some db) = ok server ∧
      DenseClient.create fp ceilLog2 (.dense records.length) (some encrypter) info = ok client ∧
      ∀ (i : Nat), i < records.length → ∀ (seeds : Nat → U128 × U128) (random : Nat → BitVec 8),
        ∃ request helper state,
          client.createPlainRequests env [(i : Int)] seeds random = ok (request, helper, state) ∧
          server.handlePlainRequest env simd (some (.plain request)) = ub := by
  have hh := builtFrom_holds hdb
  obtain ⟨l, d, hl, hle, hl31, hd, hd'⟩ := pirDpf_of_exact fp hc (by omega)
  have hlL : 2 ^ l ≤ 2 ^ 30 := by
    obtain ⟨l', e1, e2, e3⟩ := hc.small 30 h2
    have : l' = l := by omega
    subst this
    exact Nat.pow_le_pow_right (by decide) e3
  refine ⟨_, _, DenseServer.createPlain_ok (by omega) hh.size hd,
    DenseClient.create_ok (by omega) (by omega) hd encrypter info, ?_⟩
  intro i hi seeds random
  obtain ⟨keys, s0, s1, a1, a2, a3, _, a5, _, a7, _⟩ := keysAll_ok (by omega) hd' env seeds [i] 0 (by
    intro m hm
    rw [List.mem_singleton] at hm
    subst hm
    exact Nat.lt_of_le_of_lt (Nat.div_le_self _ _) (by omega))
  refine ⟨_, _, _, createPlainRequests_eq (c := ⟨d, encrypter, info, records.length⟩) rfl env [i] (by
    simpa using hi) seeds random a1, ?_⟩
  unfold DenseServer.handlePlainRequest
  dsimp only
  have hk : (keys.map (·.1)).length = 1 := by rw [List.length_map, a2]; rfl
  have hs0 : s0 ≠ [] := by
    rintro rfl
    simp at a5
  rw [failIf_false (by rw [hk]; decide), bind_ok, a3, bind_ok]
  unfold DenseDb.innerProductWith
  rw [hh.content, bind_ok, hh.max, innerProduct_overflow hscalar hs0 hpos a7 (by omega) (by omega)
    (by omega) (by omega) (fun v hv => length_le_maxLength hv)]
  rfl

/-- The hypotheses of `C60_scalar_refuted` on an example: 2^24 + 1 records of one byte. -/
example : ∃ (records : List Bytes) (db : DenseDb), BuiltFrom records db ∧ 0 < maxLength records ∧
    ExactAt (fun _ => 25) records.length ∧ 2 ^ 24 < records.length ∧ records.length ≤ 2 ^ 30 := by
  have gen : ∀ n, 2 ^ 24 < n → n ≤ 2 ^ 25 → ∃ (records : List Bytes) (db : DenseDb), BuiltFrom records db ∧
      0 < maxLength records ∧ ExactAt (fun _ => 25) records.length ∧ 2 ^ 24 < records.length ∧
      records.length ≤ 2 ^ 30 := by
    intro n h1 h2
    have h0 : DenseBuilder.new.Ready [] := ⟨rfl, rfl, rfl⟩
    obtain ⟨db, e1, e2⟩ := (h0.insertAll (List.replicate n [1])).build
    have hlen : (List.replicate n ([1] : Bytes)).length = n := List.length_replicate
    refine ⟨List.replicate n [1], db, e1, ?_, ⟨25, rfl, by rw [hlen]; exact h2, Or.inr ?_⟩, ?_, ?_⟩
    · exact length_le_maxLength (r := [1]) (List.mem_replicate.mpr ⟨by omega, rfl⟩)
    · rw [hlen]; exact h1
    · rw [hlen]; exact h1
    · rw [hlen]; exact Nat.le_trans h2 (by decide)
  exact gen (2 ^ 24 + 1) (by decide) (by decide)

/-! ## Clients -/

/-- C60 for the dense client: whatever indices it is given, it makes a request or returns an error if the
encryption function returns. -/
theorem C60_dense_client (fp : FpEnv) (ceilLog2 : CeilLog2) (config : PirConfig) (encrypter : CryptFn)
    (info : Bytes) (client : DenseClient)
    (hclient : DenseClient.create fp ceilLog2 config (some encrypter) info = ok client)
    (henc : ∀ m i, Safe (encrypter m i)) (codec : HelperCodec) (env : Env) (queries : List Int)
    (seeds : Nat → U128 × U128) (random : Nat → BitVec 8) :
    Safe (client.createRequest codec env queries seeds random) := by
  obtain ⟨h1, n, h2⟩ := denseClient_inv hclient
  unfold DenseClient.createRequest
  rw [h1]
  exact createRequest_safe codec henc (denseRequests_safe h2 env queries seeds random)

/-- C60 for the client with cuckoo hashing, if the number of buckets is not a multiple of 2^32. Missing:
multiples of 2^32, for which the statement is false (`C60_cuckoo_client_refuted`). -/
theorem C60_cuckoo_client_partial (fp : FpEnv) (ceilLog2 : CeilLog2) (sha : Sha256) (params : CuckooParams)
    (encrypter : CryptFn) (info : Bytes) (client : CuckooClient)
    (hclient : CuckooClient.create fp ceilLog2 sha (.cuckoo params) (some encrypter) info = ok client)
    (henc : ∀ m i, Safe (encrypter m i)) (hn : params.numBuckets % 2 ^ 32 ≠ 0) (codec : HelperCodec)
    (env : Env) (queries : List Bytes) (seeds : Nat → U128 × U128) (random : Nat → BitVec 8) :
    Safe (client.createRequest codec env queries seeds random) := by
  obtain ⟨p, h0, h1, h2, h3, h4, n, h5⟩ := cuckooClient_inv hclient
  cases h0
  unfold CuckooClient.createRequest
  rw [h1]
  refine createRequest_safe codec henc ?_
  unfold CuckooClient.createPlainRequests
  refine (mapRes_safe fun q _ => mapRes_safe fun f hf => ?_).bind fun _ _ =>
    (denseRequests_safe h5 env _ seeds random).bind fun _ _ => .ok _
  obtain ⟨s, rfl⟩ := h4 f hf
  exact sha_safe sha _ _ (by rw [h2]; exact fun h => hn (wrapInt32_zero.mp h))

/-- With a positive multiple of 2^32 buckets the client is created (the number is converted to `int`), but
every request with a query is undefined behaviour: a remainder modulo zero. -/
theorem C60_cuckoo_client_refuted (fp : FpEnv) (ceilLog2 : CeilLog2) (sha : Sha256) (params : CuckooParams)
    (encrypter : CryptFn) (info : Bytes) (client : CuckooClient)
    (hclient : CuckooClient.create fp ceilLog2 sha (.cuckoo params) (some encrypter) info = ok client)
    (hn : params.numBuckets % 2 ^ 32 = 0) (codec : HelperCodec)
    (env : Env) (queries : List Bytes) (hq : queries ≠ []) (seeds : Nat → U128 × U128)
    (random : Nat → BitVec 8) : client.createRequest codec env queries seeds random = ub := by
  obtain ⟨p, h0, h1, h2, h3, h4, n, h5⟩ := cuckooClient_inv hclient
  cases h0
  rw [wrapInt32_zero.mpr hn] at h2
  unfold CuckooClient.createRequest PirClient.createRequest CuckooClient.createPlainRequests
  cases queries with
  | nil => exact absurd rfl hq
  | cons q qs =>
    have : client.hashes q = ub := by
      unfold CuckooClient.hashes
      cases hf : client.hashFunctions with
      | nil => rw [hf] at h3; exact absurd h3 (by decide)
      | cons f fs =>
        obtain ⟨s, rfl⟩ := h4 f (by rw [hf]; simp)
        rw [mapRes_cons, h2, sha_zero]
        rfl
    rw [mapRes_cons, this]
    rfl

/-- Such a client: 2^32 buckets. -/
example : ∃ client, CuckooClient.create exFp (fun _ => 32) exSha
    (.cuckoo (cuckooParams [9] 3 (2 ^ 32))) (some fun m _ => ok m) [] = ok client ∧
    client.createRequest exCodec exEnv [[1, 2]] (fun _ => (1, 2)) (fun _ => 5) = ub := by
  obtain ⟨d, hd⟩ := pirDpf_exists exFp (l := 32) (by decide)
  obtain ⟨f, hf⟩ := fingerprint_ok exSha ⟨1, [9]⟩
  have h : ∃ client, CuckooClient.create exFp (fun _ => 32) exSha
    (.cuckoo (cuckooParams [9] 3 (2 ^ 32))) (some fun m _ => ok m) [] = ok client := by
    unfold CuckooClient.create
    dsimp only [cuckooParams]
    rw [failIf_false (by decide), bind_ok, failIf_false (by decide), bind_ok, family_ok exSha (by decide),
      bind_ok, hf, bind_ok, show ((3 : Nat) : Int) = ((3 : Nat) : Int) from rfl, functions_ok, bind_ok]
    unfold DenseClient.create
    dsimp only
    rw [failIf_false (by decide), bind_ok]
    show ∃ client, ((Dpf.create exFp (pirParams 32) >>= fun dpf => _) >>= _) = ok client
    rw [hd]
    exact ⟨_, rfl⟩
  obtain ⟨client, h⟩ := h
  exact ⟨client, h, C60_cuckoo_client_refuted _ _ _ _ _ _ client h (by decide) _ _ _ (by simp) _ _⟩

/-- C60 for the client with simple hashing, if the number of buckets is not a multiple of 2^32. Missing:
multiples of 2^32, for which the statement is false (`C60_simple_client_refuted`). -/
theorem C60_simple_client_partial (fp : FpEnv) (ceilLog2 : CeilLog2) (sha : Sha256) (params : SimpleParams)
    (encrypter : CryptFn) (info : Bytes) (client : SimpleClient)
    (hclient : SimpleClient.create fp ceilLog2 sha (.simple params) (some encrypter) info = ok client)
    (henc : ∀ m i, Safe (encrypter m i)) (hn : params.numBuckets % 2 ^ 32 ≠ 0) (codec : HelperCodec)
    (env : Env) (queries : List Bytes) (seeds : Nat → U128 × U128) (random : Nat → BitVec 8) :
    Safe (client.createRequest codec env queries seeds random) := by
  obtain ⟨p, h0, h1, h2, ⟨s, h4⟩, n, h5⟩ := simpleClient_inv hclient
  cases h0
  unfold SimpleClient.createRequest
  rw [h1]
  refine createRequest_safe codec henc ?_
  unfold SimpleClient.createPlainRequests
  refine (mapRes_safe fun q _ => ?_).bind fun _ _ =>
    (denseRequests_safe h5 env _ seeds random).bind fun _ _ => .ok _
  rw [h4]
  exact sha_safe sha _ _ (by rw [h2]; exact fun h => hn (wrapInt32_zero.mp h))

/-- The same defect in the client with simple hashing. -/
theorem C60_simple_client_refuted (fp : FpEnv) (ceilLog2 : CeilLog2) (sha : Sha256) (params : SimpleParams)
    (encrypter : CryptFn) (info : Bytes) (client : SimpleClient)
    (hclient : SimpleClient.create fp ceilLog2 sha (.simple params) (some encrypter) info = ok client)
    (hn : params.numBuckets % 2 ^ 32 = 0) (codec : HelperCodec)
    (env : Env) (queries : List Bytes) (hq : queries ≠ []) (seeds : Nat → U128 × U128)
    (random : Nat → BitVec 8) : client.createRequest codec env queries seeds random = ub := by
  obtain ⟨p, h0, h1, h2, ⟨s, h4⟩, n, h5⟩ := simpleClient_inv hclient
  cases h0
  rw [wrapInt32_zero.mpr hn] at h2
  unfold SimpleClient.createRequest PirClient.createRequest SimpleClient.createPlainRequests
  cases queries with
  | nil => exact absurd rfl hq
  | cons q qs =>
    rw [mapRes_cons, h4, h2, sha_zero]
    rfl

/-- Such a client: 2^32 buckets. -/
example : ∃ client, SimpleClient.create exFp (fun _ => 32) exSha
    (.simple (simpleParams [9] (2 ^ 32))) (some fun m _ => ok m) [] = ok client ∧
    client.createRequest exCodec exEnv [[1, 2]] (fun _ => (1, 2)) (fun _ => 5) = ub := by
  obtain ⟨d, hd⟩ := pirDpf_exists exFp (l := 32) (by decide)
  obtain ⟨f, hf⟩ := fingerprint_ok exSha ⟨1, [9]⟩
  have h : ∃ client, SimpleClient.create exFp (fun _ => 32) exSha
    (.simple (simpleParams [9] (2 ^ 32))) (some fun m _ => ok m) [] = ok client := by
    unfold SimpleClient.create
    dsimp only [simpleParams]
    rw [failIf_false (by decide), bind_ok, family_ok exSha (by decide), bind_ok, hf, bind_ok,
      show (1 : Int) = ((1 : Nat) : Int) from rfl, functions_ok, bind_ok]
    unfold DenseClient.create
    dsimp only
    rw [failIf_false (by decide), bind_ok]
    show ∃ client, (rd _ _ >>= fun _ => ((Dpf.create exFp (pirParams 32) >>= fun dpf => _) >>= _)) = ok client
    rw [hd]
    exact ⟨_, rfl⟩
  obtain ⟨client, h⟩ := h
  exact ⟨client, h, C60_simple_client_refuted _ _ _ _ _ _ client h (by decide) _ _ _ (by simp) _ _⟩

/-- C60 on examples: clients for 7 buckets or records, with any queries. -/
example (dense : DenseClient) (hd : DenseClient.create exFp exCeilLog2 (.dense 7) (some fun m _ => ok m) [] =
      ok dense) (cuckoo : CuckooClient) (hc : CuckooClient.create exFp exCeilLog2 exSha
      (.cuckoo (cuckooParams [9] 3 7)) (some fun m _ => ok m) [] = ok cuckoo) (queries : List Int)
    (strings : List Bytes) (seeds : Nat → U128 × U128) (random : Nat → BitVec 8) :
    Safe (dense.createRequest exCodec exEnv queries seeds random) ∧
    Safe (cuckoo.createRequest exCodec exEnv strings seeds random) :=
  ⟨C60_dense_client _ _ _ _ _ dense hd (fun m _ => .ok m) _ _ _ _ _,
   C60_cuckoo_client_partial _ _ _ _ _ _ cuckoo hc (fun m _ => .ok m) (by decide) _ _ _ _ _⟩

example (simple : SimpleClient) (hc : SimpleClient.create exFp exCeilLog2 exSha (.simple (simpleParams [9] 7))
      (some fun m _ => ok m) [] = ok simple) (strings : List Bytes) (seeds : Nat → U128 × U128) (random : Nat → BitVec 8) :
    Safe (simple.createRequest exCodec exEnv strings seeds random) :=
  C60_simple_client_partial _ _ _ _ _ _ simple hc (fun m _ => .ok m) (by decide) _ _ _ _ _

end Verif
