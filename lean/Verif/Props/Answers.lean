import Verif.Lemmas.Answers
import Verif.Props.ServerSafety
/-!
# C78: what a server answers to keys that need not come from a client
-/
namespace Verif
open Res Spec

theorem pirDpf_small (fp : FpEnv) {c : CeilLog2} {n : Nat} {d : Dpf} (hc : ExactAt c n) (hn : n ≤ 2 ^ 24)
    (hd : Dpf.create fp (pirParameters c n) = ok d) :
    ∃ l, n ≤ 2 ^ l ∧ 2 ^ l ≤ 2 ^ 24 ∧ l < 63 ∧ Dpf.create fp (pirParams l) = ok d := by
  obtain ⟨l, e1, e2, e3⟩ := hc
  have hl : l ≤ 24 := by
    rcases Nat.lt_or_ge 24 l with h | h
    · have h1 : 2 ^ (l - 1) < n := by omega
      have : 2 ^ 24 ≤ 2 ^ (l - 1) := Nat.pow_le_pow_right (by decide) (by omega)
      omega
    · exact h
  refine ⟨l, e2, Nat.pow_le_pow_right (by decide) hl, by omega, ?_⟩
  unfold pirParameters at hd
  rw [e1] at hd
  exact hd

/-- C78: a server for a dense database, in any role, rejects requests that are not plain requests, requests without
keys, requests with a key it cannot evaluate, and all requests if all records are empty. To any other request, also if
the keys were made by an attacker, the answer is one string per key: the XOR of exactly the records for which the key
has a one.
Missing: databases with more than 2^24 records, for which this is false (`C32_scalar_refuted`, `C32_refuted`). -/
theorem C78_dense_partial (fp : FpEnv) (ceilLog2 : CeilLog2) (config : PirConfig) (records : List Bytes)
    (db : DenseDb) (hdb : BuiltFrom records db) (hc : ExactAt ceilLog2 records.length) (simd : SimdEnv)
    (hsimd : SimdOk simd) (hn : records.length ≤ 2 ^ 24) (server : DenseServer)
    (hserver : DenseServerFor fp ceilLog2 config (some db) server) (env : Env) :
    (∀ request : PirRequest, (∀ r, request ≠ some (.plain r)) →
      server.handlePlainRequest env simd request = err .invalidArgument) ∧
    ∀ r : PlainRequest,
      (r.dpfKeys = [] ∨ (∃ key ∈ r.dpfKeys, ¬ Evaluable server.dpf env key) ∨ maxLength records = 0 →
        server.handlePlainRequest env simd (some (.plain r)) = err .invalidArgument) ∧
      (r.dpfKeys ≠ [] → (∀ key ∈ r.dpfKeys, Evaluable server.dpf env key) → 0 < maxLength records →
        server.handlePlainRequest env simd (some (.plain r)) =
          ok (some (r.dpfKeys.map (answerTo records server.dpf env)))) := by
  have hh := builtFrom_holds hdb
  obtain ⟨n, d, role, rfl, _, h2, h3, rfl⟩ := denseServer_inv hserver
  have hn' : n = records.length := by rw [← h2, hh.size]
  subst hn'
  obtain ⟨l, a1, a2, a3, a4⟩ := pirDpf_small fp hc hn h3
  refine ⟨?_, fun r => ⟨fun hbad => ?_, fun hne hk hpos => ?_⟩⟩
  · intro request hr
    unfold DenseServer.handlePlainRequest
    match request, hr with
    | none, _ => rfl
    | some .notSet, _ => rfl
    | some (.plain r), hr => exact absurd rfl (hr r)
    | some (.leader _ _), _ => rfl
    | some (.encrypted b), _ => rfl
  · unfold DenseServer.handlePlainRequest
    dsimp only
    by_cases h0 : r.dpfKeys.length = 0
    · rw [failIf_true h0]; rfl
    rw [failIf_false h0, bind_ok]
    have hkeys : r.dpfKeys ≠ [] := by rintro e; rw [e] at h0; exact h0 rfl
    by_cases hk : ∀ key ∈ r.dpfKeys, Evaluable d env key
    · obtain ⟨sels, e1, e2, _⟩ := selections_good a4 env a3 hk
      have hsel : sels ≠ [] := by rintro rfl; exact h0 (mapRes_length e1).symm
      have hm : maxLength records = 0 := by
        rcases hbad with h | ⟨k, h, h'⟩ | h
        · exact absurd h hkeys
        · exact absurd (hk k h) h'
        · exact h
      rw [e1, bind_ok, dense_product_empty hh hsel hm]
      rfl
    · rw [selections_bad a4 env a3 (by
        rcases Classical.not_forall.mp hk with ⟨k, hk⟩
        rcases Classical.not_imp.mp hk with ⟨h, h'⟩
        exact ⟨k, h, h'⟩)]
      rfl
  · obtain ⟨sels, e1, e2, e3⟩ := selections_good a4 env a3 hk
    unfold DenseServer.handlePlainRequest
    dsimp only
    have h0 : r.dpfKeys.length ≠ 0 := fun h => hne (List.length_eq_zero_iff.mp h)
    rw [failIf_false h0, bind_ok, e1, bind_ok, dense_product_small hh hsimd a2 a1 e2 hpos, bind_ok, e3 records a1,
      if_neg (by simpa using hne)]

/-- A key for four points that no client has made. -/
def exForeignKey : DpfKey :=
  ⟨some 5, [⟨9, true, false, []⟩, ⟨3, true, true, []⟩], 1, [.xorWrapper (.u128 0 7)]⟩

theorem exForeignKey_evaluable : Evaluable exHelper.dpf exEnv exForeignKey :=
  ⟨_, Res.eq_ok_getD (by decide +kernel) []⟩

/-- C78 on an example: three records and a key that no client has made. -/
example : exHelper.handlePlainRequest exEnv exSimd (some (.plain ⟨[exForeignKey, exForeignKey], 0⟩)) =
      ok (some [answerTo exRecords exHelper.dpf exEnv exForeignKey,
        answerTo exRecords exHelper.dpf exEnv exForeignKey]) ∧
    exHelper.handlePlainRequest exEnv exSimd (some (.plain ⟨[exForeignKey, DpfKey.default], 0⟩)) =
      err .invalidArgument := by
  have h := (C78_dense_partial exFp exCeilLog2 (.dense 3) exRecords ((exRecords.foldl DenseBuilder.insert
    DenseBuilder.new).build.1.getD ⟨0, [], 0, []⟩) (Res.eq_ok_getD (by decide +kernel) _)
    ⟨2, by decide, by decide, by decide⟩ exSimd exSimd_ok (by decide) exHelper
    (Or.inr (Or.inr ⟨some fun m _ => ok (m.map (~~~ ·)), Res.eq_ok_getD (by decide +kernel) _⟩)) exEnv).2
  refine ⟨(h ⟨[exForeignKey, exForeignKey], 0⟩).2 (by simp) ?_ (by decide),
    (h ⟨[exForeignKey, DpfKey.default], 0⟩).1 (Or.inr (Or.inl ⟨DpfKey.default, by simp, ?_⟩))⟩
  · intro k hk
    simp only [List.mem_cons, List.not_mem_nil, or_false, or_self] at hk
    rw [hk]
    exact exForeignKey_evaluable
  · rintro ⟨v, hv⟩
    have : (exHelper.dpf.evaluateAt exEnv pirTy.helper DpfKey.default 0 [0]).isOk = false := by
      decide +kernel
    rw [hv] at this
    cases this

/-- C78 for the server with cuckoo hashing (`K` and `V` are the keys and values in the buckets). Requests with a
fingerprint other than zero and that of the server's seed are rejected, too. For each DPF key the answer has the XOR of
the keys and the XOR of the values in the buckets for which the DPF key has a one. Missing: as above. -/
theorem C78_cuckoo_partial (fp : FpEnv) (ceilLog2 : CeilLog2) (sha : Sha256) (random : Nat → Nat)
    (seed : Bytes) (k n : Nat) (records : List (Bytes × Bytes)) (db : CuckooDb)
    (hr : ∀ i, random i < k) (hrec : records.length < 2 ^ 31)
    (hdb : CuckooBuiltFrom sha random (cuckooParams seed k n) records db) (K V : List Bytes)
    (hKV : CuckooHolds db K V) (hc : ExactAt ceilLog2 n) (simd : SimdEnv) (hsimd : SimdOk simd)
    (hn : n ≤ 2 ^ 24) (params : CuckooParams) (server : CuckooServer)
    (hserver : CuckooServerFor fp ceilLog2 sha params (some db) server) (env : Env) :
    (∀ request : PirRequest, (∀ r, request ≠ some (.plain r)) →
      server.handlePlainRequest env simd request = err .invalidArgument) ∧
    ∀ r : PlainRequest,
      (r.dpfKeys = [] ∨ (r.seedFingerprint ≠ 0 ∧ r.seedFingerprint ≠ BitVec.ofInt 32 server.fingerprint) ∨
        (∃ key ∈ r.dpfKeys, ¬ Evaluable server.dpf env key) ∨ maxLength K = 0 ∨ maxLength V = 0 →
        server.handlePlainRequest env simd (some (.plain r)) = err .invalidArgument) ∧
      (r.dpfKeys ≠ [] → (r.seedFingerprint = 0 ∨ r.seedFingerprint = BitVec.ofInt 32 server.fingerprint) →
        (∀ key ∈ r.dpfKeys, Evaluable server.dpf env key) → 0 < maxLength K → 0 < maxLength V →
        server.handlePlainRequest env simd (some (.plain r)) =
          ok (some (r.dpfKeys.flatMap fun key =>
            [answerTo K server.dpf env key, answerTo V server.dpf env key]))) := by
  obtain ⟨table, stash, a1, a2, a3, a4, _⟩ := cuckoo_table hr (by omega) hrec hdb
  have eK : table.map (·.getD []) = K := ok.inj (a1.content.symm.trans hKV.1)
  have eV : table.map (bucketValue records) = V := ok.inj (a2.content.symm.trans hKV.2)
  rw [eK] at a1
  rw [eV] at a2
  have lK : K.length = n := by rw [← eK, List.length_map, a4]
  have lV : V.length = n := by rw [← eV, List.length_map, a4]
  obtain ⟨d, f, role, b1, b2, rfl⟩ := cuckooServer_inv hserver
  rw [← b1, a3] at b2
  obtain ⟨l, c1, c2, c3, c4⟩ := pirDpf_small fp hc hn b2
  refine ⟨?_, fun r => ⟨fun hbad => ?_, fun hne hf hk hK hV => ?_⟩⟩
  · intro request hr
    unfold CuckooServer.handlePlainRequest
    match request, hr with
    | none, _ => rfl
    | some .notSet, _ => rfl
    | some (.plain r), hr => exact absurd rfl (hr r)
    | some (.leader _ _), _ => rfl
    | some (.encrypted b), _ => rfl
  · unfold CuckooServer.handlePlainRequest
    dsimp only at hbad ⊢
    by_cases h0 : r.dpfKeys.length = 0
    · rw [failIf_true h0]; rfl
    rw [failIf_false h0, bind_ok]
    have hkeys : r.dpfKeys ≠ [] := by rintro e; rw [e] at h0; exact h0 rfl
    unfold checkFingerprint
    by_cases hfp : r.seedFingerprint ≠ 0 ∧ r.seedFingerprint ≠ BitVec.ofInt 32 f
    · rw [failIf_true hfp]; rfl
    rw [failIf_false hfp, bind_ok]
    by_cases hk : ∀ key ∈ r.dpfKeys, Evaluable d env key
    · obtain ⟨sels, e1, e2, _⟩ := selections_good c4 env c3 hk
      have hsel : sels ≠ [] := by rintro rfl; exact h0 (mapRes_length e1).symm
      have hm : maxLength K = 0 ∨ maxLength V = 0 := by
        rcases hbad with h | h | ⟨k, h, h'⟩ | h
        · exact absurd h hkeys
        · exact absurd h hfp
        · exact absurd (hk k h) h'
        · exact h
      rw [e1, bind_ok]
      unfold CuckooDb.innerProductWith
      rcases Nat.eq_zero_or_pos (maxLength K) with hK | hK
      · rw [dense_product_empty a1 hsel hK]; rfl
      · rw [dense_product_small a1 hsimd c2 (by omega) e2 hK, bind_ok, dense_product_empty a2 hsel (by omega)]
        rfl
    · rw [selections_bad c4 env c3 (by
        rcases Classical.not_forall.mp hk with ⟨k, hk⟩
        rcases Classical.not_imp.mp hk with ⟨h, h'⟩
        exact ⟨k, h, h'⟩)]
      rfl
  · obtain ⟨sels, e1, e2, e3⟩ := selections_good c4 env c3 hk
    unfold CuckooServer.handlePlainRequest
    dsimp only at hf ⊢
    have h0 : r.dpfKeys.length ≠ 0 := fun h => hne (List.length_eq_zero_iff.mp h)
    unfold checkFingerprint CuckooDb.innerProductWith
    rw [failIf_false h0, bind_ok, failIf_false (fun h => hf.elim h.1 h.2), bind_ok, e1, bind_ok,
      dense_product_small a1 hsimd c2 (by omega) e2 hK, bind_ok,
      dense_product_small a2 hsimd c2 (by omega) e2 hV, bind_ok, e3 K (by omega), e3 V (by omega),
      failIf_false (by simp [mapRes_length e1]), bind_ok, bind_ok, pairUp_eq_zip, List.zip_map', List.flatMap_map]

/-- A key for eight points that no client has made. -/
def exForeignKey3 : DpfKey := ⟨some 5, [⟨9, true, false, []⟩, ⟨3, true, true, []⟩, ⟨4, false, false, []⟩], 1,
  [.xorWrapper (.u128 1 7)]⟩

/-- A server with three records in seven buckets. -/
def exForeignCuckoo : CuckooServer :=
  (CuckooServer.createPlain exFp exCeilLog2 exSha (cuckooParams [9] 3 7) (some exCuckooDb)).getD
    ⟨.cuckoo (cuckooParams [9] 3 7), exDpf, exCuckooDb, 0, .plain⟩

/-- C78 on an example: three records in seven buckets and a key that no client has made. -/
example : exForeignCuckoo.handlePlainRequest exEnv exSimd (some (.plain ⟨[exForeignKey3], 0⟩)) =
    ok (some [answerTo [[3], [], [2, 2], [], [], [], [1]] exForeignCuckoo.dpf exEnv exForeignKey3,
      answerTo [[30], [], [20, 21], [], [], [], [10]] exForeignCuckoo.dpf exEnv exForeignKey3]) := by
  refine ((C78_cuckoo_partial exFp exCeilLog2 exSha (fun i => i % 3) [9] 3 7 exPairs exCuckooDb
    (fun i => Nat.mod_lt i (by decide)) (by decide) exCuckooDb_ok _ _ exCuckooDb_holds
    ⟨3, by decide, by decide, by decide⟩ exSimd exSimd_ok (by decide) (cuckooParams [9] 3 7) exForeignCuckoo
    (Or.inl (Res.eq_ok_getD (by decide +kernel) _)) exEnv).2 ⟨[exForeignKey3], 0⟩).2 (by simp) (Or.inl rfl) ?_
    (by decide) (by decide)
  intro k hk
  rw [List.mem_singleton.mp hk]
  exact ⟨_, Res.eq_ok_getD (by decide +kernel) []⟩

/-- C78 for the server with simple hashing: the records are the serialized buckets. Missing: as above. -/
theorem C78_simple_partial (fp : FpEnv) (ceilLog2 : CeilLog2) (sha : Sha256) (bucketCodec : BucketCodec)
    (seed : Bytes) (n : Nat) (records : List (Bytes × Bytes)) (db : SimpleDb)
    (hdb : SimpleBuiltFrom sha bucketCodec (simpleParams seed n) records db) (hc : ExactAt ceilLog2 n)
    (simd : SimdEnv) (hsimd : SimdOk simd) (hn : n ≤ 2 ^ 24) (params : SimpleParams)
    (server : SimpleServer) (hserver : SimpleServerFor fp ceilLog2 sha params (some db) server) (env : Env)
    (buckets : List Bytes) (hb : buckets = (List.range n).map fun i =>
      (bucketCodec.serialize (simpleBucket sha seed n records i)).getD []) :
    (∀ request : PirRequest, (∀ r, request ≠ some (.plain r)) →
      server.handlePlainRequest env simd request = err .invalidArgument) ∧
    ∀ r : PlainRequest,
      (r.dpfKeys = [] ∨ (r.seedFingerprint ≠ 0 ∧ r.seedFingerprint ≠ BitVec.ofInt 32 server.fingerprint) ∨
        (∃ key ∈ r.dpfKeys, ¬ Evaluable server.dpf env key) ∨ maxLength buckets = 0 →
        server.handlePlainRequest env simd (some (.plain r)) = err .invalidArgument) ∧
      (r.dpfKeys ≠ [] → (r.seedFingerprint = 0 ∨ r.seedFingerprint = BitVec.ofInt 32 server.fingerprint) →
        (∀ key ∈ r.dpfKeys, Evaluable server.dpf env key) → 0 < maxLength buckets →
        server.handlePlainRequest env simd (some (.plain r)) =
          ok (some (r.dpfKeys.map (answerTo buckets server.dpf env)))) := by
  have hn31 : n < 2 ^ 31 := by omega
  obtain ⟨a1, a2, a3, ss, a4⟩ := simple_built_inv hn31 hdb
  obtain ⟨db', b1, b2, b3⟩ := simple_build_ok sha bucketCodec a1 a2 hn31 records a3 ss a4
  have : db' = db := by
    unfold SimpleBuiltFrom at b1 hdb
    rw [b1] at hdb
    exact ok.inj hdb
  subst this
  have hss : buckets = ss := by
    have := congrArg (List.map fun o : Option Bytes => o.getD []) a4
    rw [hb]
    simpa [Function.comp_def] using this
  clear hb
  subst hss
  have lss : buckets.length = n := by simpa using (congrArg List.length a4).symm
  obtain ⟨d, f, role, d1, d2, rfl⟩ := simpleServer_inv hserver
  rw [← d1, b3] at d2
  obtain ⟨l, c1, c2, c3, c4⟩ := pirDpf_small fp hc hn d2
  refine ⟨?_, fun r => ⟨fun hbad => ?_, fun hne hf hk hpos => ?_⟩⟩
  · intro request hr
    unfold SimpleServer.handlePlainRequest
    match request, hr with
    | none, _ => rfl
    | some .notSet, _ => rfl
    | some (.plain r), hr => exact absurd rfl (hr r)
    | some (.leader _ _), _ => rfl
    | some (.encrypted b), _ => rfl
  · unfold SimpleServer.handlePlainRequest
    dsimp only at hbad ⊢
    by_cases h0 : r.dpfKeys.length = 0
    · rw [failIf_true h0]; rfl
    rw [failIf_false h0, bind_ok]
    have hkeys : r.dpfKeys ≠ [] := by rintro e; rw [e] at h0; exact h0 rfl
    unfold checkFingerprint
    by_cases hfp : r.seedFingerprint ≠ 0 ∧ r.seedFingerprint ≠ BitVec.ofInt 32 f
    · rw [failIf_true hfp]; rfl
    rw [failIf_false hfp, bind_ok]
    by_cases hk : ∀ key ∈ r.dpfKeys, Evaluable d env key
    · obtain ⟨sels, e1, e2, _⟩ := selections_good c4 env c3 hk
      have hsel : sels ≠ [] := by rintro rfl; exact h0 (mapRes_length e1).symm
      have hm : maxLength buckets = 0 := by
        rcases hbad with h | h | ⟨k, h, h'⟩ | h
        · exact absurd h hkeys
        · exact absurd h hfp
        · exact absurd (hk k h) h'
        · exact h
      rw [e1, bind_ok]
      unfold SimpleDb.innerProductWith
      rw [dense_product_empty b2 hsel hm]
      rfl
    · rw [selections_bad c4 env c3 (by
        rcases Classical.not_forall.mp hk with ⟨k, hk⟩
        rcases Classical.not_imp.mp hk with ⟨h, h'⟩
        exact ⟨k, h, h'⟩)]
      rfl
  · obtain ⟨sels, e1, e2, e3⟩ := selections_good c4 env c3 hk
    unfold SimpleServer.handlePlainRequest
    dsimp only at hf ⊢
    have h0 : r.dpfKeys.length ≠ 0 := fun h => hne (List.length_eq_zero_iff.mp h)
    unfold checkFingerprint SimpleDb.innerProductWith
    rw [failIf_false h0, bind_ok, failIf_false (fun h => hf.elim h.1 h.2), bind_ok, e1, bind_ok,
      dense_product_small b2 hsimd c2 (by omega) e2 hpos, bind_ok, e3 buckets (by omega)]

/-- A server with three records in seven buckets. -/
def exForeignSimple : SimpleServer :=
  (SimpleServer.createPlain exFp exCeilLog2 exSha (simpleParams [9] 7) (some exSimpleDb)).getD
    ⟨.simple (simpleParams [9] 7), exDpf, exSimpleDb, 0, .plain⟩

/-- C78 on an example: three records in seven buckets and a key that no client has made. -/
example : exForeignSimple.handlePlainRequest exEnv exSimd (some (.plain ⟨[exForeignKey3], 0⟩)) =
    ok (some [answerTo ((List.range 7).map fun i => (wireCodec.serialize (simpleBucket exSha [9] 7 exPairs i)).getD [])
      exForeignSimple.dpf exEnv exForeignKey3]) := by
  refine ((C78_simple_partial exFp exCeilLog2 exSha wireCodec [9] 7 exPairs exSimpleDb
    (Res.eq_ok_getD (by decide +kernel) _) ⟨3, by decide, by decide, by decide⟩ exSimd exSimd_ok (by decide)
    (simpleParams [9] 7) exForeignSimple (Or.inl (Res.eq_ok_getD (by decide +kernel) _)) exEnv _ rfl).2
    ⟨[exForeignKey3], 0⟩).2 (by simp) (Or.inl rfl) ?_ (by decide +kernel)
  intro k hk
  rw [List.mem_singleton.mp hk]
  exact ⟨_, Res.eq_ok_getD (by decide +kernel) []⟩

end Verif
