import Verif.Lemmas.LeaderHelper
import Verif.Lemmas.WireKeys
import Verif.Lemmas.Codec
import Verif.Props.InnerProduct
import Verif.Props.Prng
/-!
# C34 - C37: dense PIR
-/
namespace Verif
open Res Spec

/-! ## C34 -/

/-- C34 for databases with a non-empty record, of up to 2^24 records, or up to 2^30 if the servers use
vectors. Client and servers are created from the number of records; the client accepts any list of
numbers of records; both servers answer its requests; the answers have the same shape, and XORing them
gives the records asked for, padded to the longest record, in order.

Missing: databases of empty records only, and larger ones. For these the statement is false, see
`C34_empty_refuted` and `C34_large_refuted`; without vectors, more than 2^24 records are undefined
behaviour (`C32_scalar_refuted`). -/
theorem C34_dense_partial (fp : FpEnv) (env : Env) (ceilLog2 : CeilLog2) (simd0 simd1 : SimdEnv)
    (ok0 : SimdOk simd0) (ok1 : SimdOk simd1) (records : List Bytes) (db : DenseDb)
    (hdb : BuiltFrom records db) (hne : ∃ r ∈ records, r ≠ []) (hc : ExactAt ceilLog2 records.length)
    (hman : Manageable records.length simd0 simd1) (encrypter : CryptFn) (info : Bytes) :
    ∃ server client,
      DenseServer.createPlain fp ceilLog2 (.dense records.length) (some db) = ok server ∧
      DenseClient.create fp ceilLog2 (.dense records.length) (some encrypter) info = ok client ∧
      ∀ queries : List Nat, queries ≠ [] → (∀ q ∈ queries, q < records.length) →
      ∀ (seeds : Nat → U128 × U128) (random : Nat → BitVec 8),
        ∃ request0 request1 seed state response0 response1,
          client.createPlainRequests env (queries.map fun q : Nat => (q : Int)) seeds random =
            ok (request0, ⟨some request1, seed⟩, state) ∧
          server.handlePlainRequest env simd0 (some (.plain request0)) = ok (some response0) ∧
          server.handlePlainRequest env simd1 (some (.plain request1)) = ok (some response1) ∧
          response0.length = queries.length ∧ response1.length = queries.length ∧
          (∀ r, r ∈ response0 ∨ r ∈ response1 → r.length = maxLength records) ∧
          xorResponses response0 response1 = answer records queries := by
  have hpos : 0 < records.length := by
    obtain ⟨r, hr, _⟩ := hne
    exact List.length_pos_of_mem hr
  have hmax : 0 < maxLength records := by
    obtain ⟨r, hr, h0⟩ := hne
    have := length_le_maxLength hr
    have := List.length_pos_iff.mpr h0
    omega
  have h31 : records.length < 2 ^ 31 := by
    rcases hman with h | ⟨_, _, h⟩ <;> omega
  have hh := builtFrom_holds hdb
  obtain ⟨l, d, hl, hle, _, hd, hd'⟩ := pirDpf_of_exact fp hc (by omega)
  refine ⟨_, _, DenseServer.createPlain_ok hpos hh.size hd, DenseClient.create_ok hpos h31 hd _ _, ?_⟩
  intro queries hqn hq seeds random
  obtain ⟨keys, s0, s1, r0, r1, a1, a2, a3, a4, a5, a6, a7, a8, a9, a10, a11⟩ :=
    pir_core hd' env hh hmax (by omega) (by omega) ok0 ok1 (manageable_pow hman hc hl).2 queries hq seeds
  have hql : 0 < queries.length := List.length_pos_iff.mpr hqn
  have hk : keys ≠ [] := by rintro rfl; simp at a2; omega
  have hr0 : r0 ≠ [] := by rintro rfl; simp at a7; omega
  have hr1 : r1 ≠ [] := by rintro rfl; simp at a8; omega
  refine ⟨⟨keys.map (·.1), 0⟩, ⟨keys.map (·.2), 0⟩, Prng.generateSeed random,
    .dense (Prng.generateSeed random), r0, r1, ?_, ?_, ?_, a7, a8, ?_, a11⟩
  · rw [createPlainRequests_eq rfl env queries hq seeds random a1, if_neg hk]
  · unfold DenseServer.handlePlainRequest
    dsimp only
    rw [failIf_false (by rw [List.length_map]; omega), bind_ok, a3, bind_ok, a5, bind_ok, if_neg hr0]
  · unfold DenseServer.handlePlainRequest
    dsimp only
    rw [failIf_false (by rw [List.length_map]; omega), bind_ok, a4, bind_ok, a6, bind_ok, if_neg hr1]
  · rintro r (hr | hr)
    · exact a9 r hr
    · exact a10 r hr

/-- A ceiling of the logarithm for the examples. -/
def exCeilLog2 : CeilLog2 := fun n => if n ≤ 1 then 0 else Nat.log2 (n.toNat - 1) + 1

/-- C34 on an example: the third and the first of three records. -/
example : ∃ server client request0 request1 seed state response0 response1,
    DenseServer.createPlain exFp exCeilLog2 (.dense 3) (some ((exRecords.foldl DenseBuilder.insert
      DenseBuilder.new).build.1.getD ⟨0, [], 0, []⟩)) = ok server ∧
    DenseClient.create exFp exCeilLog2 (.dense 3) (some fun m _ => ok m) [] = ok client ∧
    client.createPlainRequests exEnv [2, 0] (fun i => (BitVec.ofNat 128 i, 77)) (fun _ => 5) =
      ok (request0, ⟨some request1, seed⟩, state) ∧
    server.handlePlainRequest exEnv exSimd (some (.plain request0)) = ok (some response0) ∧
    server.handlePlainRequest exEnv exSimd (some (.plain request1)) = ok (some response1) ∧
    xorResponses response0 response1 =
      [[4, 5, 6] ++ List.replicate 16 0, List.replicate 19 1] := by
  have hdb : BuiltFrom exRecords ((exRecords.foldl DenseBuilder.insert DenseBuilder.new).build.1.getD
      ⟨0, [], 0, []⟩) := Res.eq_ok_getD (by decide +kernel) _
  obtain ⟨server, client, h1, h2, h3⟩ := C34_dense_partial exFp exEnv exCeilLog2 exSimd exSimd exSimd_ok
    exSimd_ok exRecords _ hdb ⟨[4, 5, 6], by simp [exRecords], by simp⟩ ⟨2, by decide, by decide, by decide⟩
    (Or.inl (by decide)) (fun m _ => ok m) []
  obtain ⟨a, b, c, d, e, f, h4, h5, h6, _, _, _, h7⟩ := h3 [2, 0] (by simp) (by decide)
    (fun i => (BitVec.ofNat 128 i, 77)) (fun _ => 5)
  exact ⟨server, client, a, b, c, d, e, f, h1, h2, h4, h5, h6, h7.trans (by decide +kernel)⟩

/-- Client, server and a request for the first record, for any database. -/
theorem first_record (fp : FpEnv) (env : Env) {ceilLog2 : CeilLog2} {records : List Bytes} {db : DenseDb}
    (hdb : BuiltFrom records db) (hpos : 0 < records.length) (h31 : records.length < 2 ^ 31)
    (hc : ExactAt ceilLog2 records.length) (encrypter : CryptFn) (info : Bytes) (seeds : Nat → U128 × U128)
    (random : Nat → BitVec 8) :
    ∃ server client request0 request1 seed state,
      DenseServer.createPlain fp ceilLog2 (.dense records.length) (some db) = ok server ∧
      DenseClient.create fp ceilLog2 (.dense records.length) (some encrypter) info = ok client ∧
      client.createPlainRequests env [0] seeds random = ok (request0, ⟨some request1, seed⟩, state) ∧
      ∀ simd, (∀ sel, (sel.length : Int) = 2 ^ (ceilLog2 records.length).toNat →
          innerProduct simd records [sel] (maxLength records) = err .invalidArgument) →
        server.handlePlainRequest env simd (some (.plain request0)) = err .invalidArgument ∧
        server.handlePlainRequest env simd (some (.plain request1)) = err .invalidArgument := by
  have hh := builtFrom_holds hdb
  obtain ⟨l, d, hl, hle, hl31, hd, hd'⟩ := pirDpf_of_exact fp hc (by omega)
  obtain ⟨keys, s0, s1, b1, b2, b3, b4, b5, b6, b7, b8, _⟩ :=
    keysAll_ok (by omega) hd' env seeds [0] 0 (by intro m hm; simp at hm; subst hm; exact Nat.two_pow_pos l)
  have hk : keys ≠ [] := by rintro rfl; simp at b2
  have hk0 : ¬ keys.length = 0 := by rw [b2]; simp
  refine ⟨_, _, ⟨keys.map (·.1), 0⟩, ⟨keys.map (·.2), 0⟩, Prng.generateSeed random,
    .dense (Prng.generateSeed random), DenseServer.createPlain_ok hpos hh.size hd,
    DenseClient.create_ok hpos h31 hd _ _, ?_, ?_⟩
  · have := createPlainRequests_eq (c := ⟨d, encrypter, info, records.length⟩) rfl env [0]
      (by intro q hq; simp at hq; omega) seeds random b1
    rw [if_neg hk] at this
    exact this
  · intro simd hsel
    obtain ⟨t0, rfl⟩ := List.length_eq_one_iff.mp b5
    obtain ⟨t1, rfl⟩ := List.length_eq_one_iff.mp b6
    have e0 := hsel t0 (by rw [b7 t0 (by simp), hl]; simp)
    have e1 := hsel t1 (by rw [b8 t1 (by simp), hl]; simp)
    constructor
    · unfold DenseServer.handlePlainRequest DenseDb.innerProductWith
      dsimp only
      rw [failIf_false (by rw [List.length_map]; exact hk0), bind_ok, b3, bind_ok, hh.content, bind_ok,
        hh.max, e0]
      rfl
    · unfold DenseServer.handlePlainRequest DenseDb.innerProductWith
      dsimp only
      rw [failIf_false (by rw [List.length_map]; exact hk0), bind_ok, b4, bind_ok, hh.content, bind_ok,
        hh.max, e1]
      rfl

/-- C34 is false for every database of empty records: the servers reject the client's requests. -/
theorem C34_empty_refuted (fp : FpEnv) (env : Env) (ceilLog2 : CeilLog2) (records : List Bytes)
    (db : DenseDb) (hdb : BuiltFrom records db) (hpos : 0 < records.length)
    (h31 : records.length < 2 ^ 31) (hc : ExactAt ceilLog2 records.length)
    (hempty : ∀ r ∈ records, r = []) (encrypter : CryptFn) (info : Bytes) (seeds : Nat → U128 × U128)
    (random : Nat → BitVec 8) (simd : SimdEnv) :
    ∃ server client request0 request1 seed state,
      DenseServer.createPlain fp ceilLog2 (.dense records.length) (some db) = ok server ∧
      DenseClient.create fp ceilLog2 (.dense records.length) (some encrypter) info = ok client ∧
      client.createPlainRequests env [0] seeds random = ok (request0, ⟨some request1, seed⟩, state) ∧
      server.handlePlainRequest env simd (some (.plain request0)) = err .invalidArgument ∧
      server.handlePlainRequest env simd (some (.plain request1)) = err .invalidArgument := by
  obtain ⟨server, client, r0, r1, seed, state, h1, h2, h3, h4⟩ :=
    first_record fp env hdb hpos h31 hc encrypter info seeds random
  refine ⟨server, client, r0, r1, seed, state, h1, h2, h3, h4 simd ?_⟩
  intro sel _
  apply C32_rejects simd records [sel] _ (by simp)
  refine Or.inr (Or.inr (Or.inl ?_))
  have : maxLength records = 0 := by
    unfold maxLength
    rw [show records.map List.length = records.map fun _ => 0 from
      List.map_congr_left fun r hr => by rw [hempty r hr]; rfl]
    generalize records = l
    induction l with
    | nil => rfl
    | cons r rs ih => exact ih
  omega

/-- C34 is false for every database of more than 2^30 records: the number 2^31 of blocks is not an `int`,
and the servers reject the client's requests. -/
theorem C34_large_refuted (fp : FpEnv) (env : Env) (ceilLog2 : CeilLog2) (records : List Bytes)
    (db : DenseDb) (hdb : BuiltFrom records db) (h30 : 2 ^ 30 < records.length)
    (h31 : records.length < 2 ^ 31) (hc : ExactAt ceilLog2 records.length) (encrypter : CryptFn)
    (info : Bytes) (seeds : Nat → U128 × U128) (random : Nat → BitVec 8) (simd : SimdEnv) :
    ∃ server client request0 request1 seed state,
      DenseServer.createPlain fp ceilLog2 (.dense records.length) (some db) = ok server ∧
      DenseClient.create fp ceilLog2 (.dense records.length) (some encrypter) info = ok client ∧
      client.createPlainRequests env [0] seeds random = ok (request0, ⟨some request1, seed⟩, state) ∧
      server.handlePlainRequest env simd (some (.plain request0)) = err .invalidArgument ∧
      server.handlePlainRequest env simd (some (.plain request1)) = err .invalidArgument := by
  obtain ⟨server, client, r0, r1, seed, state, h1, h2, h3, h4⟩ :=
    first_record fp env hdb (by omega) h31 hc encrypter info seeds random
  refine ⟨server, client, r0, r1, seed, state, h1, h2, h3, h4 simd ?_⟩
  obtain ⟨l, e1, e2, e3⟩ := hc.small 31 (by omega)
  have hl : l = 31 := by
    have := (Nat.pow_lt_pow_iff_right (by decide : 1 < 2)).mp (Nat.lt_of_lt_of_le h30 e2)
    omega
  subst hl
  intro sel hsel
  rw [e1] at hsel
  have hlen : sel.length = 2147483648 := by
    have : (2 : Int) ^ ((31 : Nat) : Int).toNat = 2147483648 := by decide
    omega
  unfold innerProduct
  dsimp only
  rw [mapRes_cons]
  have hw : wrapInt32 ((2147483648 : Nat) : Int) = -2147483648 := by decide
  have : checkSelection records.length (wrapInt32 sel.length) (maxLength records) sel =
      err .invalidArgument := by
    unfold checkSelection
    rw [hlen, hw, failIf_false (by omega), bind_ok, failIf_true (by decide)]
    rfl
  rw [this]
  rfl

/-! ## C35 -/

/-- C35 for databases of fewer than 2^31 records: the client creates requests if all indices are in
range, and fails with INVALID_ARGUMENT otherwise. Missing: larger databases, for which this is false
(`C35_refuted`). -/
theorem C35_client_partial (fp : FpEnv) (env : Env) (ceilLog2 : CeilLog2) (n : Nat) (hpos : 0 < n)
    (h31 : n < 2 ^ 31) (hc : ExactAt ceilLog2 n) (encrypter : CryptFn) (info : Bytes) :
    ∃ client, DenseClient.create fp ceilLog2 (.dense n) (some encrypter) info = ok client ∧
      ∀ (queries : List Int) (seeds : Nat → U128 × U128) (random : Nat → BitVec 8),
        ((∀ q ∈ queries, 0 ≤ q ∧ q < n) →
          ∃ r, client.createPlainRequests env queries seeds random = ok r) ∧
        ((∃ q ∈ queries, q < 0 ∨ n ≤ q) →
          client.createPlainRequests env queries seeds random = err .invalidArgument) := by
  obtain ⟨l, d, hl, hle, hl31, hd, hd'⟩ := pirDpf_of_exact fp hc (by omega)
  refine ⟨_, DenseClient.create_ok hpos h31 hd _ _, ?_⟩
  intro queries seeds random
  constructor
  · intro hq
    have hmap : queries = (queries.map Int.toNat).map fun m : Nat => (m : Int) := by
      rw [List.map_map]
      conv => lhs; rw [← List.map_id queries]
      apply List.map_congr_left
      intro q hmem
      have := (hq q hmem).1
      simp only [id, Function.comp]
      omega
    have hlt : ∀ m ∈ queries.map Int.toNat, m < n := by
      intro m hm
      obtain ⟨q, hmem, rfl⟩ := List.mem_map.mp hm
      have := hq q hmem
      omega
    obtain ⟨keys, _, _, b1, _⟩ := keysAll_ok (by omega) hd' env seeds (queries.map Int.toNat) 0 (by
      intro m hm
      have := hlt m hm
      exact Nat.lt_of_le_of_lt (Nat.div_le_self _ _) (by omega))
    rw [hmap]
    exact ⟨_, createPlainRequests_eq (c := ⟨d, encrypter, info, n⟩) rfl env _ hlt seeds random b1⟩
  · rintro ⟨q, hmem, hbad⟩
    unfold DenseClient.createPlainRequests
    rw [Dpf.mapRes_err (c := .invalidArgument)]
    · rfl
    · intro x hx
      exact OkOrInvalid.bind (OkOrInvalid.failIf _) (fun _ _ => OkOrInvalid.failIf _)
    · refine ⟨q, hmem, ?_⟩
      rcases hbad with h | h
      · rw [failIf_true (by omega)]; rfl
      · by_cases h0 : q < 0
        · rw [failIf_true (by omega)]; rfl
        · rw [failIf_false (by omega), bind_ok, failIf_true (by show (n : Int) ≤ q; omega)]

/-- C35 on the example: three records, and a query for a fourth one. -/
example : ∃ client, DenseClient.create exFp exCeilLog2 (.dense 3) (some fun m _ => ok m) [] = ok client ∧
    (∃ r, client.createPlainRequests exEnv [2, 0] (fun _ => (1, 2)) (fun _ => 5) = ok r) ∧
    client.createPlainRequests exEnv [2, 3] (fun _ => (1, 2)) (fun _ => 5) = err .invalidArgument := by
  obtain ⟨client, h1, h2⟩ := C35_client_partial exFp exEnv exCeilLog2 3 (by decide) (by decide) ⟨2, by decide, by decide, by decide⟩
    (fun m _ => ok m) []
  exact ⟨client, h1, (h2 [2, 0] _ _).1 (by decide), (h2 [2, 3] _ _).2 ⟨3, by simp, Or.inr (by decide)⟩⟩

/-- C35 is false for larger databases: the size is converted to `int`, and with 2^32 records every query
is rejected. -/
theorem C35_refuted (fp : FpEnv) (env : Env) (ceilLog2 : CeilLog2) (hc : ExactAt ceilLog2 (2 ^ 32))
    (encrypter : CryptFn) (info : Bytes) :
    ∃ client, DenseClient.create fp ceilLog2 (.dense (2 ^ 32)) (some encrypter) info = ok client ∧
      ∀ seeds random, client.createPlainRequests env [0] seeds random = err .invalidArgument := by
  obtain ⟨l, e1, e2, e3⟩ := hc.small 32 (by omega)
  obtain ⟨d, hd⟩ := pirDpf_exists fp (l := l) (by omega)
  refine ⟨⟨d, encrypter, info, 0⟩, ?_, ?_⟩
  · unfold DenseClient.create
    dsimp only
    rw [failIf_false (by decide), bind_ok]
    have : Dpf.create fp (pirParameters ceilLog2 (2 ^ 32)) = ok d := by
      unfold pirParameters
      have e1' : ceilLog2 (2 ^ 32) = l := e1
      rw [e1']
      exact hd
    rw [this, bind_ok]
    rfl
  · intro seeds random
    rfl

/-- C35: a server rejects a plain request without keys, and everything that is not a plain request. -/
theorem C35_server (env : Env) (simd : SimdEnv) (server : DenseServer) (request : PirRequest)
    (h : ∀ key keys fingerprint, request ≠ some (.plain ⟨key :: keys, fingerprint⟩)) :
    server.handlePlainRequest env simd request = err .invalidArgument := by
  unfold DenseServer.handlePlainRequest
  match request, h with
  | none, _ => rfl
  | some (.plain ⟨[], _⟩), _ => rfl
  | some (.plain ⟨k :: ks, f⟩), h => exact absurd rfl (h k ks f)
  | some .notSet, _ => rfl
  | some (.leader _ _), _ => rfl
  | some (.encrypted _), _ => rfl

/-! ## C36 -/

/-- C36 for the databases of C34. A leader, a helper and a client are created for the same database; the
leader's sender runs the leader's own computation and returns the helper's answer; the helper decrypts
what the client encrypted; messages to the helper with as many keys as queries can be parsed after
serialization (`C70_helper_message`). Then the client creates a request
for any list of numbers of records, the leader answers it, and the client gets from the answer exactly
the records asked for, padded to the longest record, in order. -/
theorem C36_end_to_end_partial (fp : FpEnv) (env : Env) (aes : AesBlock) (codec : HelperCodec)
    (ceilLog2 : CeilLog2)
    (simd0 simd1 : SimdEnv) (ok0 : SimdOk simd0) (ok1 : SimdOk simd1) (records : List Bytes)
    (db : DenseDb) (hdb : BuiltFrom records db) (hne : ∃ r ∈ records, r ≠ [])
    (hc : ExactAt ceilLog2 records.length) (hman : Manageable records.length simd0 simd1)
    (encrypter decrypter : CryptFn) (hcrypt : Decrypts encrypter decrypter DenseServer.contextInfo)
    (sender : Sender) :
    ∃ leader helper client,
      DenseServer.createLeader fp ceilLog2 (.dense records.length) (some db) (some sender) = ok leader ∧
      DenseServer.createHelper fp ceilLog2 (.dense records.length) (some db) (some decrypter) =
        ok helper ∧
      DenseClient.create fp ceilLog2 (.dense records.length) (some encrypter) DenseServer.contextInfo =
        ok client ∧
      ((∀ request, sender request = (true, helper.handleRequest codec aes env simd1 request)) →
        ∀ queries : List Nat, queries ≠ [] → (∀ q ∈ queries, q < records.length) →
        (∀ m, HelperMessage queries.length m → codec.parse (codec.serialize m) = some m) →
        ∀ (seeds : Nat → U128 × U128) (random : Nat → BitVec 8),
          ∃ request state response,
            client.createRequest codec env (queries.map fun q : Nat => (q : Int)) seeds random =
              ok (request, state) ∧
            leader.handleRequest codec aes env simd0 request = ok response ∧
            DenseClient.handleResponse aes response state = ok (answer records queries)) := by
  obtain ⟨server, client, h1, h2, h3⟩ := C34_dense_partial fp env ceilLog2 simd0 simd1 ok0 ok1 records db
    hdb hne hc hman encrypter DenseServer.contextInfo
  have h31 : records.length < 2 ^ 31 := by
    rcases hman with h | ⟨_, _, h⟩ <;> omega
  obtain ⟨l, d, _, hle, hl31, hd, hd'⟩ := pirDpf_of_exact fp hc (by omega)
  have hcl : client.encrypter = encrypter ∧ client.contextInfo = DenseServer.contextInfo ∧ client.dpf = d := by
    obtain ⟨r, hr, _⟩ := hne
    rw [DenseClient.create_ok (List.length_pos_of_mem hr) h31 hd] at h2
    simp only [ok.injEq] at h2
    rw [← h2]
    exact ⟨rfl, rfl, rfl⟩
  refine ⟨{ server with role := .leader sender },
    { server with role := .helper decrypter DenseServer.contextInfo }, client, ?_, ?_, h2, ?_⟩
  · unfold DenseServer.createLeader; rw [h1]; rfl
  · unfold DenseServer.createHelper; rw [h1]; rfl
  intro hsend queries hqn hq hcodec seeds random
  obtain ⟨req0, req1, seed, state, r0, r1, a1, a2, a3, a4, a5, a6, a7⟩ := h3 queries hqn hq seeds random
  have hmsg := denseMessage (c := client) (l := l) (by omega) (hcl.2.2 ▸ hd') env (fun m hm => by
    have := hq m hm
    exact Nat.lt_of_le_of_lt (Nat.div_le_self m 128) (by omega)) a1
  have hseed : state = .dense seed ∧ seed.length = 16 := by
    unfold DenseClient.createPlainRequests at a1
    obtain ⟨_, _, a1⟩ := bind_eq_ok.mp a1
    obtain ⟨_, _, a1⟩ := bind_eq_ok.mp a1
    simp only [ok.injEq, Prod.mk.injEq, HelperRequest.mk.injEq] at a1
    obtain ⟨_, ⟨_, e⟩, e'⟩ := a1
    rw [← e', ← e]
    exact ⟨rfl, by simp [Prng.generateSeed, Prng.seedSize]⟩
  obtain ⟨rfl, hlen⟩ := hseed
  have hshape : r1.map List.length = r0.map List.length := by
    have e0 : r0.map List.length = r0.map fun _ => maxLength records :=
      List.map_congr_left fun r hr => a6 r (Or.inl hr)
    have e1 : r1.map List.length = r1.map fun _ => maxLength records :=
      List.map_congr_left fun r hr => a6 r (Or.inr hr)
    rw [e0, e1, List.map_const', List.map_const', a4, a5]
  have hr0 : r0 ≠ [] := by
    have hql : 0 < queries.length := List.length_pos_iff.mpr hqn
    rintro rfl
    simp at a4
    omega
  obtain ⟨c, response, b1, b2, _, b4⟩ := leaderHelper aes (hcodec _ hmsg)
    (plain0 := DenseServer.handlePlainRequest env simd0 { server with role := .leader sender })
    (plain1 := DenseServer.handlePlainRequest env simd1
      { server with role := .helper decrypter DenseServer.contextInfo })
    a2 a3 hr0 hshape hlen hcrypt (sender := sender) hsend
  refine ⟨some (.leader (some req0) (some c)), .dense seed, some response, ?_, b2, ?_⟩
  · unfold DenseClient.createRequest PirClient.createRequest
    rw [a1, bind_ok]
    dsimp only
    unfold PirClient.plainRequestsToLeaderRequest
    rw [hcl.1, hcl.2.1, b1]
    rfl
  · rw [b4, a7]

/-- The helper of the example, whose encryption flips all bits. -/
def exHelper : DenseServer :=
  (DenseServer.createHelper exFp exCeilLog2 (.dense 3) (some ((exRecords.foldl DenseBuilder.insert
    DenseBuilder.new).build.1.getD ⟨0, [], 0, []⟩)) (some fun m _ => ok (m.map (~~~ ·)))).getD
    ⟨exDpf, ⟨0, [], 0, []⟩, .plain⟩

/-- C36 on an example: leader, helper and client for three records. -/
example : ∃ leader client request state response,
    DenseServer.createLeader exFp exCeilLog2 (.dense 3) (some ((exRecords.foldl DenseBuilder.insert
      DenseBuilder.new).build.1.getD ⟨0, [], 0, []⟩))
      (some fun request => (true, exHelper.handleRequest (Wire.helperCodec 100) exAes exEnv exSimd request)) = ok leader ∧
    DenseClient.create exFp exCeilLog2 (.dense 3) (some fun m _ => ok (m.map (~~~ ·)))
      DenseServer.contextInfo = ok client ∧
    client.createRequest (Wire.helperCodec 100) exEnv [2, 0] (fun i => (BitVec.ofNat 128 i, 77)) (fun _ => 5) =
      ok (request, state) ∧
    leader.handleRequest (Wire.helperCodec 100) exAes exEnv exSimd request = ok response ∧
    DenseClient.handleResponse exAes response state =
      ok [[4, 5, 6] ++ List.replicate 16 0, List.replicate 19 1] := by
  have hdb : BuiltFrom exRecords ((exRecords.foldl DenseBuilder.insert DenseBuilder.new).build.1.getD
      ⟨0, [], 0, []⟩) := Res.eq_ok_getD (by decide +kernel) _
  obtain ⟨leader, helper, client, h1, h2, h3, h4⟩ := C36_end_to_end_partial exFp exEnv exAes (Wire.helperCodec 100)
    exCeilLog2 exSimd exSimd exSimd_ok exSimd_ok exRecords _ hdb
    ⟨[4, 5, 6], by simp [exRecords], by simp⟩ ⟨2, by decide, by decide, by decide⟩ (Or.inl (by decide))
    (fun m _ => ok (m.map (~~~ ·))) (fun m _ => ok (m.map (~~~ ·)))
    (fun m => ⟨m.map (~~~ ·), rfl, by simp [Function.comp_def]⟩)
    (fun request => (true, exHelper.handleRequest (Wire.helperCodec 100) exAes exEnv exSimd request))
  have hh : exHelper = helper := by
    unfold exHelper
    rw [show ((exRecords.length : Nat) : Int) = 3 from rfl] at h2
    rw [h2]; rfl
  obtain ⟨a, b, c, h5, h6, h7⟩ := h4 (fun _ => by rw [hh]) [2, 0] (by simp) (by decide) (fun _ _ => HelperMessage.parse ‹_› (by decide) (by decide))
    (fun i => (BitVec.ofNat 128 i, 77)) (fun _ => 5)
  exact ⟨leader, client, a, b, c, h1, h3, h5, h6, h7.trans (congrArg _ (by decide +kernel))⟩

/-! ## C37 -/

/-- C37: the leader returns a response only if the sender succeeded and ran the leader's own computation,
this succeeded, and the helper's answer has the same shape; the response is then the XOR of the two
answers. -/
theorem C37_response (handlePlain : PirRequest → Res PirResponse) (sender : Sender) (request : PirRequest)
    (response : PirResponse)
    (h : PirServer.handleLeaderRequest handlePlain sender request = ok response) :
    ∃ plain encrypted own helper,
      request = some (.leader (some plain) (some encrypted)) ∧
      sender (some (.encrypted encrypted)) = (true, ok helper) ∧
      handlePlain (some (.plain plain)) = ok own ∧
      helper.masked.map List.length = own.masked.map List.length ∧
      response.masked = xorResponses own.masked helper.masked := by
  unfold PirServer.handleLeaderRequest at h
  match request, h with
  | none, h => cases h
  | some .notSet, h => cases h
  | some (.plain _), h => cases h
  | some (.encrypted _), h => cases h
  | some (.leader none _), h => cases h
  | some (.leader (some _) none), h => cases h
  | some (.leader (some plain) (some encrypted)), h =>
    simp only [PirRequest.dpf, Option.getD_some] at h
    obtain ⟨ran, sent, hs⟩ : ∃ ran sent, sender (some (.encrypted encrypted)) = (ran, sent) := ⟨_, _, rfl⟩
    rw [hs] at h
    dsimp only at h
    have key : ∀ own : Res PirResponse, (do
        let helperResponse ← sent
        failIf (ran = false) .failedPrecondition
        let leaderResponse ← own
        failIf (helperResponse.masked.length ≠ leaderResponse.masked.length) .internal
        let combined ← PirServer.combine leaderResponse.masked helperResponse.masked
        ok (if combined = [] then leaderResponse else some combined)) = ok response →
        ∃ own' helper, ran = true ∧ sent = ok helper ∧ own = ok own' ∧
          helper.masked.map List.length = own'.masked.map List.length ∧
          response.masked = xorResponses own'.masked helper.masked := by
      intro own h
      obtain ⟨helper, h1, h⟩ := bind_eq_ok.mp h
      obtain ⟨_, h2, h⟩ := bind_eq_ok.mp h
      obtain ⟨own', h3, h⟩ := bind_eq_ok.mp h
      obtain ⟨_, h4, h⟩ := bind_eq_ok.mp h
      obtain ⟨combined, h5, h⟩ := bind_eq_ok.mp h
      have hran := failIf_eq_ok.mp h2
      have hlen : helper.masked.length = own'.masked.length := by
        have := failIf_eq_ok.mp h4; omega
      have hshape : helper.masked.map List.length = own'.masked.map List.length := by
        apply List.ext_getElem (by simpa using hlen)
        intro i hi1 hi2
        simp only [List.length_map] at hi1 hi2
        unfold PirServer.combine at h5
        obtain ⟨b, hb⟩ := mapRes_exists_of_ok h5 (List.mem_range.mpr hi1)
        rw [rd_getD hi2 [], bind_ok, rd_getD hi1 [], bind_ok] at hb
        obtain ⟨_, hb, _⟩ := bind_eq_ok.mp hb
        have := failIf_eq_ok.mp hb
        simp only [List.getD_eq_getElem?_getD, List.getElem?_eq_getElem hi1,
          List.getElem?_eq_getElem hi2, Option.getD_some, ne_eq, Decidable.not_not] at this
        rw [List.getElem_map, List.getElem_map, this]
      rw [combine_ok hshape] at h5
      simp only [ok.injEq] at h h5
      refine ⟨own', helper, by simpa using hran, h1, h3, hshape, ?_⟩
      rw [← h, h5]
      by_cases hc : combined = []
      · rw [if_pos hc]
        rw [← h5] at hc
        have : own'.masked = [] := by
          rcases List.zipWith_eq_nil_iff.mp hc with h | h
          · exact h
          · rw [h] at hlen; exact List.length_eq_zero_iff.mp hlen.symm
        rw [this]
        rw [← h5, hc]
      · rw [if_neg hc]; rfl
    have : ∃ own' helper, ran = true ∧ sent = ok helper ∧ handlePlain (some (.plain plain)) = ok own' ∧
        helper.masked.map List.length = own'.masked.map List.length ∧
        response.masked = xorResponses own'.masked helper.masked := by
      split at h
      · cases h
      · cases h
      · exact key _ h
    obtain ⟨own, helper, h1, h2, h3, h4, h5⟩ := this
    exact ⟨plain, encrypted, own, helper, rfl, by rw [hs, h1, h2], h3, h4, h5⟩

/-- C37: what is reported otherwise. `own` is the result of the leader's own computation, if the sender
runs it. -/
theorem C37_errors (handlePlain : PirRequest → Res PirResponse) (sender : Sender) (plain : PlainRequest)
    (encrypted : Bytes) (ran : Bool) (sent own : Res PirResponse)
    (hs : sender (some (.encrypted encrypted)) = (ran, sent))
    (ho : handlePlain (some (.plain plain)) = own) (hsafe : (∃ r, own = ok r) ∨ ∃ c, own = err c) :
    let result := PirServer.handleLeaderRequest handlePlain sender
      (some (.leader (some plain) (some encrypted)))
    (∀ c, sent = err c → result = err c) ∧
    (∀ r, sent = ok r → ran = false → result = err .failedPrecondition) ∧
    (∀ r c, sent = ok r → ran = true → own = err c → result = err c) ∧
    (∀ r l, sent = ok r → ran = true → own = ok l → r.masked.map List.length ≠ l.masked.map List.length →
      result = err .internal) := by
  have e : PirServer.handleLeaderRequest handlePlain sender
      (some (.leader (some plain) (some encrypted))) = (do
        let helperResponse ← sent
        failIf (ran = false) .failedPrecondition
        let leaderResponse ← own
        failIf (helperResponse.masked.length ≠ leaderResponse.masked.length) .internal
        let combined ← PirServer.combine leaderResponse.masked helperResponse.masked
        ok (if combined = [] then leaderResponse else some combined)) := by
    unfold PirServer.handleLeaderRequest
    simp only [PirRequest.dpf, Option.getD_some]
    rw [hs, ho]
    rcases hsafe with ⟨r, rfl⟩ | ⟨c, rfl⟩ <;> cases ran <;> rfl
  intro result
  refine ⟨?_, ?_, ?_, ?_⟩
  · rintro c rfl; exact e
  · rintro r rfl rfl; exact e
  · rintro r c rfl rfl rfl; exact e
  · rintro r l rfl rfl rfl hne
    refine e.trans ?_
    rw [bind_ok, failIf_false (by simp), bind_ok, bind_ok]
    by_cases hlen : r.masked.length = l.masked.length
    · rw [failIf_false (by omega), bind_ok]
      have : PirServer.combine l.masked r.masked = err .internal := by
        unfold PirServer.combine
        apply Dpf.mapRes_err
        · intro i hi
          rw [List.mem_range] at hi
          rw [rd_getD hi [], rd_getD (by omega) [], bind_ok, bind_ok]
          by_cases h : (r.masked.getD i []).length = (l.masked.getD i []).length
          · rw [failIf_false (by omega), bind_ok, xorString_ok h]; exact Or.inl ⟨_, rfl⟩
          · rw [failIf_true h]; exact Or.inr rfl
        · apply Classical.byContradiction
          intro hno
          apply hne
          apply List.ext_getElem (by simpa using hlen)
          intro i hi1 hi2
          simp only [List.length_map] at hi1 hi2
          rw [List.getElem_map, List.getElem_map]
          apply Classical.byContradiction
          intro h
          apply hno
          refine ⟨i, List.mem_range.mpr hi1, ?_⟩
          rw [rd_getD hi1 [], rd_getD hi2 [], bind_ok, bind_ok, failIf_true]
          · rfl
          · simpa [List.getD_eq_getElem?_getD, hi1, hi2] using h
      rw [this]; rfl
    · rw [failIf_true hlen]; rfl

/-- C37: a request without one of its parts, or of another kind, is rejected. -/
theorem C37_malformed (handlePlain : PirRequest → Res PirResponse) (sender : Sender) (request : PirRequest)
    (h : ∀ plain encrypted, request ≠ some (.leader (some plain) (some encrypted))) :
    PirServer.handleLeaderRequest handlePlain sender request = err .invalidArgument := by
  unfold PirServer.handleLeaderRequest
  match request, h with
  | none, _ => rfl
  | some .notSet, _ => rfl
  | some (.plain _), _ => rfl
  | some (.encrypted _), _ => rfl
  | some (.leader none _), _ => rfl
  | some (.leader (some _) none), _ => rfl
  | some (.leader (some plain) (some encrypted)), h => exact absurd rfl (h plain encrypted)

/-- C37: two records of different lengths from the helper in an arbitrary leader, and a request for a helper. -/
example (handlePlain : PirRequest → Res PirResponse) (own : PirResponse) (plain : PlainRequest)
    (ho : handlePlain (some (.plain plain)) = ok own) (hm : own.masked = [[1, 2], [3, 4]]) :
    (∀ response, PirServer.handleLeaderRequest handlePlain (fun _ => (true, ok (some [[7, 7], [8]])))
      (some (.leader (some plain) (some []))) ≠ ok response) ∧
    PirServer.handleLeaderRequest handlePlain (fun _ => (true, ok none)) (some (.encrypted [])) = err .invalidArgument := by
  refine ⟨fun response h => ?_, C37_malformed _ _ _ (by simp)⟩
  obtain ⟨p, e, o, he, h1, h2, h3, h4, _⟩ := C37_response _ _ _ _ h
  cases h1; cases h2
  rw [ho] at h3
  cases h3
  rw [hm] at h4
  exact absurd h4 (by decide)

/-- C37 on an example: the helper's second answer is too short. -/
example : PirServer.handleLeaderRequest (fun _ => ok (some [[1, 2], [3, 4]]))
    (fun _ => (true, ok (some [[5, 6], [7]]))) (some (.leader (some ⟨[], 0⟩) (some [9]))) =
    err .internal :=
  (C37_errors _ (fun _ => (true, ok (some [[5, 6], [7]]))) ⟨[], 0⟩ [9] true _ (ok (some [[1, 2], [3, 4]]))
    rfl rfl (Or.inl ⟨_, rfl⟩)).2.2.2 _ _ rfl rfl rfl (by decide)

/-! ## C52 -/

/-- C52: a plain server is created for a database with a positive number of records if the configuration
is a dense one with this number; otherwise the result is INVALID_ARGUMENT. -/
theorem C52_server (fp : FpEnv) (ceilLog2 : CeilLog2) (config : PirConfig) (db : Option DenseDb)
    (hc : Plausible ceilLog2) :
    (∀ d, db = some d → 0 < d.size → d.size < 2 ^ 63 → config = .dense d.size →
      ∃ server, DenseServer.createPlain fp ceilLog2 config db = ok server ∧ server.db = d) ∧
    ((∀ d, db = some d → 0 < d.size → config ≠ .dense d.size) →
      DenseServer.createPlain fp ceilLog2 config db = err .invalidArgument) := by
  constructor
  · rintro d rfl hpos h63 rfl
    obtain ⟨l, e1, e3⟩ := hc.nat _ hpos h63
    obtain ⟨dpf, hd⟩ := pirDpf_exists fp (l := l) (by omega)
    refine ⟨⟨dpf, d, .plain⟩, DenseServer.createPlain_ok hpos rfl ?_, rfl⟩
    unfold pirParameters
    rw [e1]
    exact hd
  · intro h
    unfold DenseServer.createPlain
    match config, db, h with
    | .notSet, _, _ => rfl
    | .cuckoo _ _, _, _ => rfl
    | .simple _ _, _, _ => rfl
    | .dense _, none, _ => rfl
    | .dense n, some d, h =>
      dsimp only
      by_cases h0 : n ≤ 0
      · rw [failIf_true h0]; rfl
      · rw [failIf_false h0, bind_ok]
        by_cases h1 : (d.size : Int) = n
        · exact absurd (by rw [h1]) (h d rfl (by omega))
        · rw [failIf_true h1]; rfl

/-- C52: leaders need a sender and helpers a decrypter; otherwise they are created like plain servers. -/
theorem C52_roles (fp : FpEnv) (ceilLog2 : CeilLog2) (config : PirConfig) (db : Option DenseDb)
    (server : DenseServer) (h : DenseServer.createPlain fp ceilLog2 config db = ok server) :
    DenseServer.createLeader fp ceilLog2 config db none = err .invalidArgument ∧
    DenseServer.createHelper fp ceilLog2 config db none = err .invalidArgument ∧
    (∀ sender, ∃ leader, DenseServer.createLeader fp ceilLog2 config db (some sender) = ok leader ∧
      leader.db = server.db ∧ leader.dpf = server.dpf) ∧
    (∀ decrypter, ∃ helper, DenseServer.createHelper fp ceilLog2 config db (some decrypter) = ok helper ∧
      helper.db = server.db ∧ helper.dpf = server.dpf) := by
  unfold DenseServer.createLeader DenseServer.createHelper
  rw [h]
  exact ⟨rfl, rfl, fun s => ⟨_, rfl, rfl, rfl⟩, fun s => ⟨_, rfl, rfl, rfl⟩⟩

/-- C52 on the example: a leader and a helper with the database of a plain server. -/
example : ∃ server leader, DenseServer.createPlain exFp exCeilLog2 (.dense 3) (some ((exRecords.foldl DenseBuilder.insert
      DenseBuilder.new).build.1.getD ⟨0, [], 0, []⟩)) = ok server ∧
    DenseServer.createLeader exFp exCeilLog2 (.dense 3) (some ((exRecords.foldl DenseBuilder.insert
      DenseBuilder.new).build.1.getD ⟨0, [], 0, []⟩)) (some fun _ => (true, err .internal)) = ok leader ∧
    leader.db = server.db := by
  have h := Res.eq_ok_getD (r := DenseServer.createPlain exFp exCeilLog2 (.dense 3) (some ((exRecords.foldl
    DenseBuilder.insert DenseBuilder.new).build.1.getD ⟨0, [], 0, []⟩))) (by decide +kernel) exHelper
  obtain ⟨_, _, h3, _⟩ := C52_roles _ _ _ _ _ h
  obtain ⟨leader, h4, h5, _⟩ := h3 fun _ => (true, err .internal)
  exact ⟨_, leader, h, h4, h5⟩

/-- C52: a client is created for a dense configuration with a positive number of records and an
encrypter; otherwise the result is INVALID_ARGUMENT. -/
theorem C52_client (fp : FpEnv) (ceilLog2 : CeilLog2) (config : PirConfig) (encrypter : Option CryptFn)
    (info : Bytes) (hc : Plausible ceilLog2) :
    (∀ (n : Nat) f, config = .dense n → 0 < n → n < 2 ^ 63 → encrypter = some f →
      ∃ client, DenseClient.create fp ceilLog2 config encrypter info = ok client) ∧
    ((∀ (n : Int) f, 0 < n → config = .dense n → encrypter ≠ some f) →
      DenseClient.create fp ceilLog2 config encrypter info = err .invalidArgument) := by
  constructor
  · rintro n f rfl hpos h63 rfl
    obtain ⟨l, e1, e3⟩ := hc.nat _ hpos h63
    obtain ⟨dpf, hd⟩ := pirDpf_exists fp (l := l) (by omega)
    refine ⟨⟨dpf, f, info, wrapInt32 n⟩, ?_⟩
    unfold DenseClient.create
    dsimp only
    rw [failIf_false (by omega), bind_ok, show Dpf.create fp (pirParameters ceilLog2 n) = ok dpf by
      unfold pirParameters; rw [e1]; exact hd]
    rfl
  · intro h
    unfold DenseClient.create
    match config, encrypter, h with
    | .notSet, _, _ => rfl
    | .cuckoo _ _, _, _ => rfl
    | .simple _ _, _, _ => rfl
    | .dense n, e, h =>
      dsimp only
      by_cases h0 : n ≤ 0
      · rw [failIf_true h0]; rfl
      · rw [failIf_false h0, bind_ok]
        cases e with
        | none => rfl
        | some f => exact absurd rfl (h n f (by omega) rfl)

/-- The ceiling of the examples is exact. -/
theorem exCeilLog2_exact (n : Nat) (hpos : 0 < n) : ExactAt exCeilLog2 n := by
  unfold ExactAt exCeilLog2
  by_cases h : n = 1
  · exact ⟨0, by simp [h], by simp [h], Or.inl rfl⟩
  · refine ⟨Nat.log2 (n - 1) + 1, ?_, ?_, Or.inr ?_⟩
    · rw [if_neg (by omega)]
      simp
    · have := Nat.lt_log2_self (n := n - 1)
      omega
    · have := Nat.log2_self_le (n := n - 1) (by omega)
      rw [Nat.add_sub_cancel]
      omega

theorem exCeilLog2_plausible : Plausible exCeilLog2 := Plausible.of_exact fun n hn _ => exCeilLog2_exact n hn

/-- C52 on an example: a configuration for four records does not fit a database of three. -/
example (db : DenseDb) (h : db.size = 3) :
    DenseServer.createPlain exFp exCeilLog2 (.dense 4) (some db) = err .invalidArgument :=
  (C52_server exFp exCeilLog2 (.dense 4) (some db) exCeilLog2_plausible).2
    (by rintro d hd _ he; cases hd; rw [h] at he; cases he)

/-- C35 on the example: a request without keys, and none at all. -/
example : exHelper.handlePlainRequest exEnv exSimd (some (.plain ⟨[], 0⟩)) = err .invalidArgument ∧
    exHelper.handlePlainRequest exEnv exSimd none = err .invalidArgument :=
  ⟨C35_server exEnv exSimd exHelper _ (by simp), C35_server exEnv exSimd exHelper _ (by simp)⟩

/-- C52 on the example: a client for 2^40 records, and one without a way to encrypt. -/
example : (∃ client, DenseClient.create exFp exCeilLog2 (.dense (2 ^ 40 : Nat)) (some fun m _ => ok m) [] = ok client) ∧
    DenseClient.create exFp exCeilLog2 (.dense 3) none [] = err .invalidArgument :=
  ⟨(C52_client exFp exCeilLog2 _ _ [] exCeilLog2_plausible).1 (2 ^ 40) _ rfl (by decide) (by decide) rfl,
   (C52_client exFp exCeilLog2 _ _ [] exCeilLog2_plausible).2 (by simp)⟩

end Verif
