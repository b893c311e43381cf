import Verif.Lemmas.Network
import Verif.Props.Wire
import Verif.Props.DcfExact
import Verif.Props.Machine
import Verif.Props.Interchange
/-!
# C76: participants on different machines that exchange bytes
-/
namespace Verif
open Res Spec Wire

theorem Spec.Manageable.canServe {n : Nat} {simd0 simd1 : SimdEnv} (h : Manageable n simd0 simd1) :
    CanServe n simd0 ∧ CanServe n simd1 := by
  rcases h with h | ⟨h0, h1, _⟩
  · exact ⟨Or.inl h, Or.inl h⟩
  · exact ⟨Or.inr (Or.inl h0), Or.inr (Or.inl h1)⟩

theorem Spec.Manageable.small {n : Nat} {simd0 simd1 : SimdEnv} (h : Manageable n simd0 simd1) : n < 2 ^ 31 := by
  rcases h with h | ⟨_, _, h⟩ <;> omega

theorem serialize_helper (limit : Nat) (m : HelperRequest) : (helperCodec limit).serialize m = wire (putHelper m) := rfl

/-! ## Private information retrieval -/

/-- C76 for dense databases: leader, helper and client on three machines, all messages, the configuration and the state of
the client as bytes, give the records asked for. Missing: more than 2^18 queries and responses of about 2 GB and more. -/
theorem C76_dense_partial (W : Network) (records : List Bytes) (db : DenseDb) (hdb : BuiltFrom records db)
    (hne : ∃ r ∈ records, r ≠ []) (hW : W.Works DenseServer.contextInfo records.length) (queries : List Nat)
    (hqn : queries ≠ []) (hq : ∀ q ∈ queries, q < records.length) (hkeys : queries.length ≤ 2 ^ 18)
    (hsz : queries.length * (maxLength records + 6) ≤ 2 ^ 31 - 100) :
    DenseNetworkRun W records.length db queries (answer records queries) := by
  have h31 := hW.manageable.small
  have hpos : 0 < records.length := by
    obtain ⟨r, hr, _⟩ := hne
    exact List.length_pos_of_mem hr
  obtain ⟨c0, c1⟩ := hW.manageable.canServe
  have main := C36_end_to_end_partial W.S.fp W.S.env W.S.aes W.S.codec W.S.ceilLog2 W.S.simd0 W.S.simd1 hW.simd0Ok
    hW.simd1Ok records db hdb hne hW.exact hW.manageable W.S.encrypter W.S.decrypter hW.decrypts
  obtain ⟨_, helper, _, _, h2, _, _⟩ := main fun _ => (true, ok none)
  obtain ⟨leader, helper', client, g1, g2, g3, g4⟩ := main fun request =>
    (true, helper.handleRequest W.S.codec W.S.aes W.S.env W.S.simd1 request)
  rw [h2] at g2
  cases g2
  have g5 := g4 (fun _ => rfl) queries hqn hq (fun m hm => by
    rw [hW.codec]
    exact HelperMessage.parse hm (by omega) (by have := hW.limit; omega))
  have hS1 : DenseServerFor W.S.fp W.S.ceilLog2 (.dense records.length) (some db) helper := Or.inr (Or.inr ⟨_, h2⟩)
  have hS0 : DenseServerFor W.S.fp W.S.ceilLog2 (.dense records.length) (some db) leader := Or.inr (Or.inl ⟨_, g1⟩)
  have m1 : (fun request => (true, helper.handleRequest W.S.codec W.S.aes W.S.env W.S.simd1 request)) =
      fun request => (true, helper.handleRequest W.S.codec W.S.aes W.env1 W.S.simd1 request) := by
    funext request
    rw [C68_dense_partial W.S.fp W.S.ceilLog2 _ records db hdb hW.exact _ _ hW.simd1Ok hW.simd1Ok c1 c1 helper hS1 _ _
      hW.aes1]
  have m0 := C68_dense_partial W.S.fp W.S.ceilLog2 _ records db hdb hW.exact _ _ hW.simd0Ok hW.simd0Ok c0 c0 leader hS0
    W.S.env W.env0 hW.aes0 W.S.codec W.S.aes
  have ans := (C60_dense_partial W.S.fp W.S.ceilLog2 _ records db hdb hW.exact W.S.simd0 hW.simd0Ok c0 leader hS0
    W.env0).1
  unfold DenseServer.createLeader at g1
  obtain ⟨s, e1, g1⟩ := bind_eq_ok.mp g1
  cases g1
  obtain ⟨l, d, _, hle, hl31, hd, hd'⟩ := pirDpf_of_exact W.S.fp hW.exact (by omega)
  have hcl := g3
  rw [DenseClient.create_ok hpos h31 hd] at hcl
  refine ⟨helper, { s with role := .leader fun request =>
      (true, remote W.limit (helper.handleRequest W.S.codec W.S.aes W.env1 W.S.simd1) request) }, _, client, h2, ?_,
    dense_config_parse (by have := hW.limit; omega) (by omega), g3, ?_⟩
  · unfold DenseServer.createLeader; rw [e1]; rfl
  intro seeds random
  obtain ⟨request, state, response, f1, f2, f3⟩ := g5 seeds random
  refine ⟨request, state, response, state, f1, ?_, ?_, f3⟩
  all_goals
    cases hcl
    obtain ⟨r, m, c, p1, p2, rfl⟩ := createRequest_inv f1
    obtain ⟨q1, q2, q3, q4⟩ := dense_requests (l := l) (by omega)
      (c := ⟨d, W.S.encrypter, DenseServer.contextInfo, (records.length : Nat)⟩) hd' (by
        show ((records.length : Nat) : Int) ≤ 2 ^ l
        have := Int.ofNat_le.mpr hle
        simpa using this) (by simpa using hqn) p1
    rw [List.length_map] at q1 q2
  · have hc := hW.short _ _ p2
    rw [hW.codec, serialize_helper] at hc
    have hm := HelperMessage.length q1 (by omega)
    rw [m0] at f2
    refine network_leader hW.limit ans q3 (by omega) ?_ ?_ ?_
    · rw [q2]
      omega
    · rw [q2]; simpa using hsz
    · rw [← m1]; exact f2
  · rw [q4]
    exact dense_state_parse (by have := hW.limit; omega) q1.1

/-- A network that works is a setting that works. -/
theorem Spec.Network.Works.setting {W : Network} {info : Bytes} {n keys : Nat} (hW : W.Works info n)
    (hk : keys ≤ 2 ^ 18) : W.S.Works info n keys where
  parses m hm := by
    rw [hW.codec]
    exact HelperMessage.parse hm (by omega) (by have := hW.limit; omega)
  simd0Ok := hW.simd0Ok
  simd1Ok := hW.simd1Ok
  decrypts := hW.decrypts
  exact := hW.exact
  manageable := hW.manageable

/-- C76 for cuckoo hashing: whatever answers the client gets when it calls the leader, and this the helper, directly
(`C46_answers`), it also gets when all three have machines of their own and requests, responses, public parameters and
the state of the client travel as bytes. Missing: more than 2^18 keys, messages of about 2 GB and more. -/
theorem C76_cuckoo_partial (W : Network) (random : Nat → Nat) (seed : Bytes) (k n : Nat)
    (records : List (Bytes × Bytes)) (db : CuckooDb) (hr : ∀ i, random i < k) (hrec : records.length < 2 ^ 31)
    (hdb : CuckooBuiltFrom W.S.sha random (cuckooParams seed k n) records db) (K V : List Bytes)
    (hKV : CuckooHolds db K V) (hW : W.Works CuckooServer.contextInfo n) (queries : List Bytes) (hq : queries ≠ [])
    (hseed : seed.length ≤ 2 ^ 30) (hkeys : queries.length * k ≤ 2 ^ 18)
    (hsz : queries.length * k * (maxLength K + maxLength V + 12) ≤ 2 ^ 31 - 100)
    (hstate : totalBytes queries ≤ 2 ^ 31 - 200) (answers : List (Option Bytes))
    (hrun : CuckooRun W.S (cuckooParams seed k n) db queries answers) :
    CuckooNetworkRun W (cuckooParams seed k n) db queries answers := by
  have h31 := hW.manageable.small
  obtain ⟨c0, c1⟩ := hW.manageable.canServe
  obtain ⟨hs, hk, hn, _⟩ := cuckoo_built_inv h31 hdb
  have hk31 : k < 2 ^ 31 := by
    have : 1 * k ≤ queries.length * k := Nat.mul_le_mul_right k (List.length_pos_iff.mpr hq)
    omega
  obtain ⟨helper, leader, client, h2, g1, g3, g5⟩ := hrun
  have hS1 : CuckooServerFor W.S.fp W.S.ceilLog2 W.S.sha (cuckooParams seed k n) (some db) helper :=
    Or.inr (Or.inr ⟨_, h2⟩)
  have hS0 : CuckooServerFor W.S.fp W.S.ceilLog2 W.S.sha (cuckooParams seed k n) (some db) leader :=
    Or.inr (Or.inl ⟨_, g1⟩)
  have m1 : (fun request => (true, helper.handleRequest W.S.codec W.S.aes W.S.env W.S.simd1 request)) =
      fun request => (true, helper.handleRequest W.S.codec W.S.aes W.env1 W.S.simd1 request) := by
    funext request
    rw [C68_cuckoo_partial W.S.fp W.S.ceilLog2 W.S.sha random seed k n records db hr h31 hrec hdb hW.exact _ _ hW.simd1Ok
      hW.simd1Ok c1 c1 _ helper hS1 _ _ hW.aes1]
  have m0 := C68_cuckoo_partial W.S.fp W.S.ceilLog2 W.S.sha random seed k n records db hr h31 hrec hdb hW.exact _ _
    hW.simd0Ok hW.simd0Ok c0 c0 _ leader hS0 W.S.env W.env0 hW.aes0 W.S.codec W.S.aes
  have ans := (C60_cuckoo_partial W.S.fp W.S.ceilLog2 W.S.sha random seed k n records db hr h31 hrec hdb K V hKV hW.exact
    W.S.simd0 hW.simd0Ok c0 _ leader hS0 W.env0).1
  unfold CuckooServer.createLeader at g1
  obtain ⟨s, e1, g1⟩ := bind_eq_ok.mp g1
  cases g1
  obtain ⟨l, d, _, hle, hl31, hd, hd'⟩ := pirDpf_of_exact W.S.fp hW.exact (by omega)
  obtain ⟨f, hf⟩ := fingerprint_ok W.S.sha ⟨1, seed⟩
  have hcl := g3
  rw [CuckooClient.create_ok hs (by omega) hn h31 hd hf] at hcl
  have hparams : s.params = .cuckoo (cuckooParams seed k n) := by
    obtain ⟨table, stash, _, _, a3, _⟩ := cuckoo_table hr h31 hrec hdb
    rw [CuckooServer.createPlain_ok (by omega) hn a3 hd hf] at e1
    cases e1
    rfl
  refine ⟨helper, { s with role := .leader fun request =>
      (true, remote W.limit (helper.handleRequest W.S.codec W.S.aes W.env1 W.S.simd1) request) }, _, client, h2, ?_, ?_,
    g3, ?_⟩
  · unfold CuckooServer.createLeader; rw [e1]; rfl
  · show parsePublic W.limit (wire (putPublic s.params)) = _
    rw [hparams]
    exact cuckoo_public_parse (by have := hW.limit; omega) hseed hk31 (by omega)
  intro seeds random'
  obtain ⟨request, state, response, f1, f2, f3⟩ := g5 seeds random'
  refine ⟨request, state, response, state, f1, ?_, ?_, f3⟩
  all_goals
    cases hcl
    obtain ⟨r, m, c, p1, p2, rfl⟩ := createRequest_inv f1
    unfold CuckooClient.createPlainRequests at p1
    obtain ⟨idx, p3, p1⟩ := bind_eq_ok.mp p1
    obtain ⟨⟨r', m', st⟩, p4, p1⟩ := bind_eq_ok.mp p1
    have hidx : idx.flatten.length = queries.length * k := by
      obtain ⟨i1, i2⟩ := mapRes_eq_ok.mp p3
      rw [← i1, ← List.flatMap_id]
      refine flatMap_length _ _ fun l hl => ?_
      obtain ⟨i, hi, rfl⟩ := List.mem_iff_getElem.mp hl
      rw [id, mapRes_length (i2 i (by omega) hi)]
      simp [shaFunctions]
    obtain ⟨q1, q2, q3, q4⟩ := dense_requests (l := l) (by omega)
      (c := ⟨d, dummyEncrypter, [], (n : Nat)⟩) hd' (by
        show ((n : Nat) : Int) ≤ 2 ^ l
        have := Int.ofNat_le.mpr hle
        simpa using this) (by
          intro h0
          rw [h0] at hidx
          have : 1 * k ≤ queries.length * k := Nat.mul_le_mul_right k (List.length_pos_iff.mpr hq)
          simp at hidx
          omega) p4
    obtain ⟨q1', q2', q3'⟩ := setFingerprints_shape (f := f) q1 q2 q3
    cases p1
    rw [hidx] at q1' q2'
  · have hc := hW.short _ _ p2
    rw [hW.codec, serialize_helper] at hc
    have hm := HelperMessage.length q1' (by omega)
    dsimp only at hc hm
    rw [m0] at f2
    refine network_leader hW.limit ans q3' (by omega) ?_ ?_ ?_
    · rw [q2']
      omega
    · rw [q2']
      refine Nat.le_trans (Nat.le_of_eq ?_) hsz
      simp only [List.map_cons, List.map_nil, List.sum_cons, List.sum_nil]
      congr 1
      omega
    · rw [← m1]; exact f2
  · rw [q4]
    exact cuckoo_state_parse (by have := hW.limit; omega) q1.1 hstate

/-- C76 with C46: the client gets the values of its queries. -/
theorem C76_cuckoo_end_to_end_partial (W : Network) (random : Nat → Nat) (seed : Bytes) (k n : Nat)
    (records : List (Bytes × Bytes)) (db : CuckooDb) (hr : ∀ i, random i < k) (hrec : records.length < 2 ^ 31)
    (hdb : CuckooBuiltFrom W.S.sha random (cuckooParams seed k n) records db) (K V : List Bytes)
    (hKV : CuckooHolds db K V) (hall : NoneInStash db K) (hV : ∃ v ∈ V, v ≠ [])
    (hW : W.Works CuckooServer.contextInfo n) (queries : List Bytes) (hq : queries ≠ [])
    (hlen : ∀ q ∈ queries, q.length ≤ maxLength K) (hzero : ∀ q ∈ queries, ¬ SameUpToZeros [] q)
    (hsame : ∀ q ∈ queries, ∀ r ∈ records, SameUpToZeros r.1 q → r.1 = q)
    (hseed : seed.length ≤ 2 ^ 30) (hkeys : queries.length * k ≤ 2 ^ 18)
    (hsz : queries.length * k * (maxLength K + maxLength V + 12) ≤ 2 ^ 31 - 100)
    (hstate : totalBytes queries ≤ 2 ^ 31 - 200) :
    CuckooNetworkRun W (cuckooParams seed k n) db queries
      (queries.map fun q => (firstValue records q).map (padded (maxLength V))) :=
  C76_cuckoo_partial W random seed k n records db hr hrec hdb K V hKV hW queries hq hseed hkeys hsz hstate _
    (C46_end_to_end_partial W.S random seed k n records db hr hrec hdb K V hKV hall hV queries hq (hW.setting hkeys) hlen
      hzero hsame)

/-- C76 for simple hashing. Missing: more than 2^18 queries, messages of about 2 GB and more. -/
theorem C76_simple_partial (W : Network) (seed : Bytes) (n : Nat) (records : List (Bytes × Bytes)) (db : SimpleDb)
    (hdb : SimpleBuiltFrom W.S.sha wireCodec (simpleParams seed n) records db) (hne : records ≠ [])
    (hW : W.Works SimpleServer.contextInfo n) (queries : List Bytes) (hq : queries ≠ [])
    (hseed : seed.length ≤ 2 ^ 30) (hkeys : queries.length ≤ 2 ^ 18)
    (hsz : queries.length * (maxLength ((List.range n).map fun i =>
      (wireCodec.serialize (simpleBucket W.S.sha seed n records i)).getD []) + 6) ≤ 2 ^ 31 - 100)
    (hstate : totalBytes queries ≤ 2 ^ 31 - 200) :
    SimpleNetworkRun W wireCodec (simpleParams seed n) db queries (queries.map (firstValue records)) := by
  have h31 := hW.manageable.small
  obtain ⟨c0, c1⟩ := hW.manageable.canServe
  obtain ⟨hs, hn, hkeys', ss, hss⟩ := simple_built_inv h31 hdb
  obtain ⟨helper, leader, client, h2, g1, g3, g5⟩ := C47_end_to_end_partial W.S seed n records db hdb hne queries hq
    (hW.setting hkeys)
  have hS1 : SimpleServerFor W.S.fp W.S.ceilLog2 W.S.sha (simpleParams seed n) (some db) helper :=
    Or.inr (Or.inr ⟨_, h2⟩)
  have hS0 : SimpleServerFor W.S.fp W.S.ceilLog2 W.S.sha (simpleParams seed n) (some db) leader :=
    Or.inr (Or.inl ⟨_, g1⟩)
  have m1 : (fun request => (true, helper.handleRequest W.S.codec W.S.aes W.S.env W.S.simd1 request)) =
      fun request => (true, helper.handleRequest W.S.codec W.S.aes W.env1 W.S.simd1 request) := by
    funext request
    rw [C68_simple_partial W.S.fp W.S.ceilLog2 W.S.sha wireCodec seed n records db h31 hdb hW.exact _ _ hW.simd1Ok
      hW.simd1Ok c1 c1 _ helper hS1 _ _ hW.aes1]
  have m0 := C68_simple_partial W.S.fp W.S.ceilLog2 W.S.sha wireCodec seed n records db h31 hdb hW.exact _ _ hW.simd0Ok
    hW.simd0Ok c0 c0 _ leader hS0 W.S.env W.env0 hW.aes0 W.S.codec W.S.aes
  have ans := (C60_simple_partial W.S.fp W.S.ceilLog2 W.S.sha wireCodec seed n records db h31 hdb hW.exact W.S.simd0
    hW.simd0Ok c0 _ leader hS0 W.env0).1
  unfold SimpleServer.createLeader at g1
  obtain ⟨s, e1, g1⟩ := bind_eq_ok.mp g1
  cases g1
  obtain ⟨l, d, _, hle, hl31, hd, hd'⟩ := pirDpf_of_exact W.S.fp hW.exact (by omega)
  obtain ⟨f, hf⟩ := fingerprint_ok W.S.sha ⟨1, seed⟩
  have hcl := g3
  rw [SimpleClient.create_ok hs hn h31 hd hf] at hcl
  have hparams : s.params = .simple (simpleParams seed n) := by
    obtain ⟨db', a1, _, a3⟩ := simple_build_ok W.S.sha wireCodec hs hn h31 records hkeys' ss hss
    have : db' = db := by
      unfold SimpleBuiltFrom at a1 hdb
      rw [a1] at hdb
      exact ok.inj hdb
    subst this
    rw [SimpleServer.createPlain_ok hn a3 hd hf] at e1
    cases e1
    rfl
  refine ⟨helper, { s with role := .leader fun request =>
      (true, remote W.limit (helper.handleRequest W.S.codec W.S.aes W.env1 W.S.simd1) request) }, _, client, h2, ?_, ?_,
    g3, ?_⟩
  · unfold SimpleServer.createLeader; rw [e1]; rfl
  · show parsePublic W.limit (wire (putPublic s.params)) = _
    rw [hparams]
    exact simple_public_parse (by have := hW.limit; omega) hseed (by omega)
  intro seeds random'
  obtain ⟨request, state, response, f1, f2, f3⟩ := g5 seeds random'
  refine ⟨request, state, response, state, f1, ?_, ?_, f3⟩
  all_goals
    cases hcl
    obtain ⟨r, m, c, p1, p2, rfl⟩ := createRequest_inv f1
    unfold SimpleClient.createPlainRequests at p1
    obtain ⟨idx, p3, p1⟩ := bind_eq_ok.mp p1
    obtain ⟨⟨r', m', st⟩, p4, p1⟩ := bind_eq_ok.mp p1
    have hidx : idx.length = queries.length := mapRes_length p3
    obtain ⟨q1, q2, q3, q4⟩ := dense_requests (l := l) (by omega)
      (c := ⟨d, dummyEncrypter, [], (n : Nat)⟩) hd' (by
        show ((n : Nat) : Int) ≤ 2 ^ l
        have := Int.ofNat_le.mpr hle
        simpa using this) (by
          intro h0
          rw [h0] at hidx
          exact hq (List.length_eq_zero_iff.mp hidx.symm)) p4
    obtain ⟨q1', q2', q3'⟩ := setFingerprints_shape (f := f) q1 q2 q3
    cases p1
    rw [hidx] at q1' q2'
  · have hc := hW.short _ _ p2
    rw [hW.codec, serialize_helper] at hc
    have hm := HelperMessage.length q1' (by omega)
    dsimp only at hc hm
    rw [m0] at f2
    refine network_leader hW.limit ans q3' (by omega) ?_ ?_ ?_
    · rw [q2']
      omega
    · rw [q2']
      simpa using hsz
    · rw [← m1]; exact f2
  · rw [q4]
    exact simple_state_parse (by have := hW.limit; omega) q1.1 hstate

/-! ## Keys and contexts -/

/-- C76 for point functions: keys are made by one object on one machine and sent as bytes to two parties, each with an
object and a machine of its own. The results of the parties add up to the point function. Missing: types nested too deep
for the parser (`C70_deep_refuted`) and of several megabytes. -/
theorem C76_point_function_partial (limit : Nat) (fp fp0 fp1 : FpEnv) (params params0 params1 : List DpfParameters)
    (d d0 d1 : Dpf) (hc : Created fp params d) (hc0 : Created fp0 params0 d0) (hc1 : Created fp1 params1 d1)
    (hs0 : SameLevels params params0) (hs1 : SameLevels params params1) (env env0 env1 : Env)
    (haes0 : env0.aes = env.aes) (haes1 : env1.aes = env.aes)
    (hty : ∀ p ∈ params, ∀ S : Ty, p.valueType = some S.helper.toValueType →
      nestingTy S + 2 ≤ limit ∧ messageBytes S ≤ 1000000)
    (alpha : U128) (beta : List Value) (seed0 seed1 : U128) (k0 k1 : DpfKey)
    (hk : d.generateKeysIncremental env alpha beta seed0 seed1 = ok (k0, k1)) :
    ∃ r0 r1, parseKey limit (serializeKey k0) = some r0 ∧ parseKey limit (serializeKey k1) = some r1 ∧
      ∃ (T : Nat → Ty) (b : (h : Nat) → (T h).den), BetasRepresent params T beta b ∧
        (∀ h p, params[h]? = some p → p.valueType = some (T h).helper.toValueType) ∧
        ∀ h, h < params.length → ∀ points : List U128, (∀ x ∈ points, x.toNat < 2 ^ logSize params h) →
          ∃ v0 v1, d0.evaluateAt env0 (T h).helper r0 h points = ok v0 ∧
            d1.evaluateAt env1 (T h).helper r1 h points = ok v1 ∧
            List.zipWith (T h).helper.add v0 v1 = points.map fun x =>
              if x.toNat = alphaPrefix params alpha h then b h else (T h).helper.zero := by
  obtain ⟨T, hset⟩ := hc.setup_of_generateKeys hk
  obtain ⟨ha, b, hb⟩ := hset.of_generateKeys hk
  have hT : ∀ h < params.length, nestingTy (T h) + 2 ≤ limit ∧ messageBytes (T h) ≤ 1000000 := fun h hh =>
    hty _ (List.getElem_mem hh) (T h) (hset.types h _ (List.getElem?_eq_getElem hh))
  obtain ⟨k0', k1', hk', p0, p1⟩ := C70_generated limit fp params T d hset env alpha ha beta b hb seed0 seed1
    (fun h hh => (hT h hh).1) (fun h hh => (hT h hh).2)
  rw [hk] at hk'
  cases hk'
  refine ⟨k0, k1, p0, p1, T, b, hb, hset.types, fun h hh points hp => ?_⟩
  obtain ⟨k0', k1', hk', hall⟩ := C01_point_function_partial fp params T d hset env alpha ha beta b hb seed0 seed1
  rw [hk] at hk'
  cases hk'
  obtain ⟨v0, v1, e0, e1, _, _, e⟩ := hall h hh points hp
  refine ⟨v0, v1, ?_, ?_, e⟩
  · rw [hc0.wf.evaluateAt_aes haes0, C73_at fp fp0 params params0 d d0 hc hc0 hs0, e0]
  · rw [hc1.wf.evaluateAt_aes haes1, C73_at fp fp1 params params1 d d1 hc hc1 hs1, e1]

/-- A call on another machine. -/
theorem Dpf.WF.run_aes {d : Dpf} (wf : d.WF) {env env' : Env} (h : env.aes = env'.aes) (ctx : EvaluationContext)
    (c : ContextCall) : c.run d env ctx = c.run d env' ctx := by
  cases c with
  | evalUntil S l ps => simp only [ContextCall.run, wf.evaluateUntil_aes h]
  | evalNext S ps => simp only [ContextCall.run, Dpf.evaluateNext, wf.evaluateUntil_aes h]
  | evalAt S l ps => simp only [ContextCall.run, wf.evaluateAtCtx_aes h]

theorem Dpf.WF.run_ctxOk {d : Dpf} (wf : d.WF) {env : Env} {key : DpfKey} {ctx : EvaluationContext}
    (hc : d.CtxOk env key ctx) (c : ContextCall) : d.CtxOk env key (c.run d env ctx).2 := by
  cases c with
  | evalUntil S l ps => exact wf.evaluateUntil_ctxOk env hc S.helper l ps
  | evalNext S ps =>
    show d.CtxOk env key (d.evaluateNext env S.helper ps ctx).2
    unfold Dpf.evaluateNext
    split <;> exact wf.evaluateUntil_ctxOk env hc S.helper _ ps
  | evalAt S l ps => exact (wf.evaluateAtCtx_cases env hc S.helper l ps).2

/-- There are at most 129 levels. -/
theorem Dpf.WF.n_le {d : Dpf} (wf : d.WF) : d.n ≤ 129 := by
  have h : ∀ i, i < d.n → i ≤ d.logAt i := by
    intro i hi
    induction i with
    | zero => omega
    | succ i ih => have := wf.log_asc i (i + 1) (by omega) hi; have := ih (by omega); omega
  have h1 := wf.pos
  have h2 := h (d.n - 1) (by omega)
  have h3 := wf.log_le (d.n - 1)
  omega

theorem validBits_int {b : Int} (h : ValidBits b) : IsInt32 b := by
  simp only [ValidBits, List.mem_cons, List.not_mem_nil, or_false] at h
  unfold IsInt32
  omega

mutual
theorem typeInRange_of_valid : (t : ValueType) → ValidType t → TypeInRange t
  | .notSet, _ => trivial
  | .integer b, h => validBits_int h
  | .xorWrapper b, h => validBits_int h
  | .intModN b m, h => validBits_int h.1
  | .tuple els, h => by
    simp only [ValidType, TypeInRange] at *
    exact typesInRange_of_valid els h
theorem typesInRange_of_valid : (ts : List ValueType) → ValidTypes ts → TypesInRange ts
  | [], _ => trivial
  | t :: ts, h => by
    simp only [ValidTypes, TypesInRange] at *
    exact ⟨typeInRange_of_valid t h.1, typesInRange_of_valid ts h.2⟩
end

/-- C76 for contexts: a sequence of calls, each made by another worker who gets the context as bytes and passes it on as
bytes, returns what the calls return when they are made one after the other with the same object and context. Levels,
points and output types are arbitrary, some or all calls may fail. Contexts of 2 GB are the limit of protocol buffers. -/
theorem C76_contexts_partial (bits : DoubleBits) (limit : Nat) (fp : FpEnv) (params : List DpfParameters) (d : Dpf)
    (hc : Created fp params d) (env : Env) (key : DpfKey) (hparty : IsInt32 key.party) (ctx : EvaluationContext)
    (hctx : d.createEvaluationContext key = ok ctx)
    (hbits : ∀ p ∈ ctx.parameters, DoubleOk bits p.securityParameter) (hl : nestingContext ctx ≤ limit)
    (workers : List (Dpf × Env × ContextCall))
    (hw : ∀ w ∈ workers, w.2.1.aes = env.aes ∧ ∃ fp' params', Created fp' params' w.1 ∧ SameLevels params params' ∧
      SameParameters params' ctx.parameters)
    (hsize : ∀ c ∈ contextsOf d env (workers.map (·.2.2)) ctx, (wire (putContext bits c)).length < maxMessage) :
    relayed bits limit workers (wire (putContext bits ctx)) =
      some (callResults d env (workers.map (·.2.2)) ctx) := by
  have hok := (hc.wf.create_ctxOk env hctx).2
  have hv : ValidParams params := by
    obtain ⟨d0, Ts, h1, _⟩ := hc
    obtain ⟨hpv, _, _⟩ := createIncremental_spec h1
    exact (create_spec hpv).1
  have hps : ∀ p ∈ ctx.parameters, ParametersInRange p := by
    intro p hp
    rw [hok.params, hc.params] at hp
    obtain ⟨q, hq, rfl⟩ := List.mem_map.mp hp
    refine ⟨?_, fun t ht => ?_⟩
    · rw [withDefaultSecurity_log]
      have := hv.log_range q hq
      unfold IsInt32
      omega
    · rw [withDefaultSecurity_vt] at ht
      obtain ⟨t', e, h'⟩ := hv.types q hq
      rw [e] at ht
      cases ht
      exact typeInRange_of_valid _ h'
  have hn := hc.wf.n_le
  clear hctx
  induction workers generalizing ctx with
  | nil => rfl
  | cons w ws ih =>
    obtain ⟨d', env', c⟩ := w
    obtain ⟨haes, fp', params', hc', hs, hsp⟩ := hw _ (List.mem_cons_self ..)
    dsimp only at haes hc'
    have hself : SameParameters params ctx.parameters := by
      rw [hok.params]
      refine hc.sameParameters_self fun i p hp => ?_
      have hi : i < params'.length := by rw [hs.count]; exact (List.getElem?_eq_some_iff.mp hp).1
      obtain ⟨c, h1, _⟩ := hs.type i p _ hp (List.getElem?_eq_getElem hi)
      exact ⟨c, h1⟩
    have hr : ContextInRange ctx := by
      refine ⟨hps, fun k hk => ?_, ?_, ?_⟩
      · rw [hok.key_eq] at hk; cases hk; exact hparty
      · have := hok.prev; unfold IsInt32; omega
      · have := hok.pel; unfold IsInt32; omega
    have hrun : c.run d' env' ctx = c.run d env ctx := by
      rw [hc'.wf.run_aes haes]
      have := (hc.alike hc' hs).run env ctx ctx.parameters (hc.validate_alike hc' hs hself hsp) c
      have h2 := d.run_withParams env ctx ctx.parameters rfl c
      exact this.trans h2.symm
    have hok' := hc.wf.run_ctxOk hok c
    have hpar : (c.run d env ctx).2.parameters = ctx.parameters := by rw [hok'.params, hok.params]
    have hkey : (c.run d env ctx).2.key = ctx.key := by rw [hok'.key_eq, hok.key_eq]
    have hrest := ih (c.run d env ctx).2 (by rw [hpar]; exact hbits)
      (by unfold nestingContext at hl ⊢; rw [hpar, hkey]; exact hl)
      (fun w hw' => by rw [hpar]; exact hw w (List.mem_cons_of_mem _ hw'))
      (fun c' hc'' => hsize c' (by simp only [List.map_cons, contextsOf]; exact List.mem_cons_of_mem _ hc'')) hok'
      (by rw [hpar]; exact hps)
    have hparse : parseContext bits limit (wire (putContext bits ctx)) = some ctx :=
      C70_context bits limit ctx hbits hr hl (hsize ctx (List.mem_cons_self ..))
    simp only [relayed, hparse, hrun, hrest, List.map_cons, callResults, Option.map_some]

/-! ## Comparison functions and interval gates -/

/-- Comparison functions made by different parties, for the same domain and, up to its encoding, the same type. -/
theorem Dcf.created_alike {fp fp' : FpEnv} {p p' : DpfParameters} {c0 c0' : Dcf} (hc : Dcf.create fp p = ok c0)
    (hc' : Dcf.create fp' p' = ok c0') (hlog : p'.logDomainSize = p.logDomainSize) (ht : SameType p.vt p'.vt)
    (Ts Ts' : List Ty) : (c0.registerAll Ts).dpf.Alike (c0'.registerAll Ts').dpf ∧
      c0'.logDomainSize = c0.logDomainSize ∧ (c0'.registerAll Ts').dpf.WF := by
  have get : ∀ {fp : FpEnv} {p : DpfParameters} {c0 : Dcf} (Ts : List Ty), Dcf.create fp p = ok c0 →
      Created fp (Dcf.dpfParameters p) (c0.registerAll Ts).dpf ∧ c0.logDomainSize = p.logDomainSize := by
    intro fp p c0 Ts hc
    unfold Dcf.create at hc
    obtain ⟨_, _, hc⟩ := bind_eq_ok.mp hc
    obtain ⟨_, _, hc⟩ := bind_eq_ok.mp hc
    obtain ⟨d, hd, hc⟩ := bind_eq_ok.mp hc
    exact ⟨⟨d, Ts, hd, by rw [← ok.inj hc]; rfl⟩, by rw [← ok.inj hc]⟩
  obtain ⟨h1, e1⟩ := get Ts hc
  obtain ⟨h2, e2⟩ := get Ts' hc'
  refine ⟨h1.alike h2 ⟨?_, ?_, ?_⟩, by rw [e1, e2, hlog], h2.wf⟩
  · simp [Dcf.dpfParameters, hlog]
  all_goals
    intro i a b ha hb
    simp only [Dcf.dpfParameters, List.getElem?_map, Option.map_eq_some_iff] at ha hb
    obtain ⟨x, hx, rfl⟩ := ha
    obtain ⟨y, hy, rfl⟩ := hb
    rw [List.getElem?_range (by
      rw [List.getElem?_eq_some_iff] at hx; simpa using hx.1)] at hx
    rw [List.getElem?_range (by
      rw [List.getElem?_eq_some_iff] at hy; simpa using hy.1)] at hy
    cases hx
    cases hy
  · rfl
  · exact ht

theorem Dcf.batchEvaluateInto_alike {c c' : Dcf} (ha : c.dpf.Alike c'.dpf) (hl : c'.logDomainSize = c.logDomainSize)
    (env : Env) {α : Type} (H : Helper α) : c'.batchEvaluateInto env H = c.batchEvaluateInto env H := by
  funext keys points output
  unfold Dcf.batchEvaluateInto Dcf.batchRun
  rw [hl]
  simp only [ha.evaluateAndApply]

theorem Dcf.evaluate_alike {c c' : Dcf} (ha : c.dpf.Alike c'.dpf) (hl : c'.logDomainSize = c.logDomainSize)
    (env : Env) {α : Type} (H : Helper α) : c'.evaluate env H = c.evaluate env H := by
  funext key x
  unfold Dcf.evaluate
  rw [Dcf.batchEvaluateInto_alike ha hl]

/-- C76 for comparison functions of every type: keys are made by one party and sent as bytes to two other parties, each
with an object and a machine of its own and the type possibly encoded otherwise. Their results add up to the same as in
one process (`C27_exact`). -/
theorem C76_comparison_exact (limit : Nat) (fp fp0 fp1 : FpEnv) (p p0 p1 : DpfParameters) (T : Ty)
    (c c0 c1 : Dcf) (hs : DcfSetup fp p T c) (hc0 : Dcf.create fp0 p0 = ok c0)
    (hc1 : Dcf.create fp1 p1 = ok c1) (hl0 : p0.logDomainSize = p.logDomainSize)
    (hl1 : p1.logDomainSize = p.logDomainSize) (ht0 : SameType p.vt p0.vt) (ht1 : SameType p.vt p1.vt)
    (env env0 env1 : Env) (haes0 : env0.aes = env.aes) (haes1 : env1.aes = env.aes) (alpha : U128)
    (halpha : alpha.toNat < 2 ^ p.logDomainSize.toNat) (beta : Value) (b : T.den) (hb : AcceptedBeta T alpha beta b)
    (seed0 seed1 : U128) (hl : nestingTy T + 3 ≤ limit) (hsz : messageBytes T ≤ 1000000) :
    ∃ k0 k1 r0 r1, c.generateKeys env alpha beta seed0 seed1 = ok (k0, k1) ∧
      parseDcfKey limit (wire (putDcfKey k0)) = some r0 ∧ parseDcfKey limit (wire (putDcfKey k1)) = some r1 ∧
      ∀ x : U128, x.toNat < 2 ^ p.logDomainSize.toNat →
        ∃ v0 v1, c0.evaluate env0 T.helper r0 x = ok v0 ∧ c1.evaluate env1 T.helper r1 x = ok v1 ∧
          T.helper.add v0 v1 = compared T b (decide (x.toNat < alpha.toNat))
            (decide (sharedZeros p.logDomainSize.toNat x.toNat alpha.toNat p.logDomainSize.toNat % 2 = 1)) := by
  obtain ⟨k0, k1, hk, q0, q1⟩ := C70_dcf_generated limit fp p T c hs env alpha halpha beta b hb seed0 seed1 hl hsz
  obtain ⟨k0', k1', hk', hall⟩ := C27_exact fp p T c hs env alpha halpha beta b hb seed0 seed1
  rw [hk] at hk'
  cases hk'
  refine ⟨k0, k1, k0, k1, hk, q0, q1, fun x hxx => ?_⟩
  obtain ⟨v0, v1, e0, e1, e⟩ := hall x hxx
  obtain ⟨cc, Ts, hcc, rfl, _⟩ := hs.created
  obtain ⟨a0, l0, w0⟩ := Dcf.created_alike hcc hc0 hl0 ht0 Ts []
  obtain ⟨a1, l1, w1⟩ := Dcf.created_alike hcc hc1 hl1 ht1 Ts []
  refine ⟨v0, v1, ?_, ?_, e⟩
  · rw [Dcf.evaluate_aes (c := c0) w0 haes0, Dcf.evaluate_alike (c' := c0) a0 l0, e0]
  · rw [Dcf.evaluate_aes (c := c1) w1 haes1, Dcf.evaluate_alike (c' := c1) a1 l1, e1]

/-- C76 for comparison functions, as `C76_comparison_exact`: the results add up to beta below alpha and to zero elsewhere.
Missing: types with `XorWrapper` (`C27_refuted`), types nested too deep or of several megabytes. -/
theorem C76_comparison_partial (limit : Nat) (fp fp0 fp1 : FpEnv) (p p0 p1 : DpfParameters) (T : Ty)
    (hx : T.noXor = true) (c c0 c1 : Dcf) (hs : DcfSetup fp p T c) (hc0 : Dcf.create fp0 p0 = ok c0)
    (hc1 : Dcf.create fp1 p1 = ok c1) (hl0 : p0.logDomainSize = p.logDomainSize)
    (hl1 : p1.logDomainSize = p.logDomainSize) (ht0 : SameType p.vt p0.vt) (ht1 : SameType p.vt p1.vt)
    (env env0 env1 : Env) (haes0 : env0.aes = env.aes) (haes1 : env1.aes = env.aes) (alpha : U128)
    (halpha : alpha.toNat < 2 ^ p.logDomainSize.toNat) (beta : Value) (b : T.den) (hb : Represents T beta b)
    (seed0 seed1 : U128) (hl : nestingTy T + 3 ≤ limit) (hsz : messageBytes T ≤ 1000000) :
    ∃ k0 k1 r0 r1, c.generateKeys env alpha beta seed0 seed1 = ok (k0, k1) ∧
      parseDcfKey limit (wire (putDcfKey k0)) = some r0 ∧ parseDcfKey limit (wire (putDcfKey k1)) = some r1 ∧
      ∀ x : U128, x.toNat < 2 ^ p.logDomainSize.toNat →
        ∃ v0 v1, c0.evaluate env0 T.helper r0 x = ok v0 ∧ c1.evaluate env1 T.helper r1 x = ok v1 ∧
          T.helper.add v0 v1 = if x.toNat < alpha.toNat then b else T.helper.zero := by
  obtain ⟨k0, k1, r0, r1, hk, q0, q1, hall⟩ := C76_comparison_exact limit fp fp0 fp1 p p0 p1 T c c0 c1 hs hc0 hc1 hl0 hl1
    ht0 ht1 env env0 env1 haes0 haes1 alpha halpha beta b hb.accepted seed0 seed1 hl hsz
  refine ⟨k0, k1, r0, r1, hk, q0, q1, fun x hxx => ?_⟩
  obtain ⟨v0, v1, e0, e1, e⟩ := hall x hxx
  refine ⟨v0, v1, e0, e1, e.trans ?_⟩
  rw [compared_noXor T hx]
  simp only [decide_eq_true_eq]

/-- Interval gates made by different parties with the same parameters. -/
theorem Spec.MicSetup.alike {fp fp' : FpEnv} {params : MicParameters} {g g' : Mic} (hs : MicSetup fp params g)
    (hs' : MicSetup fp' params g') (env : Env) (key : MicKey) (x : U128) : g'.eval env key x = g.eval env key x := by
  obtain ⟨g0, Ts, h, rfl⟩ := hs.created
  obtain ⟨g0', Ts', h', rfl⟩ := hs'.created
  unfold Mic.create at h h'
  obtain ⟨_, _, h⟩ := bind_eq_ok.mp h
  obtain ⟨_, _, h⟩ := bind_eq_ok.mp h
  obtain ⟨_, _, h⟩ := bind_eq_ok.mp h
  obtain ⟨c0, hc0, h⟩ := bind_eq_ok.mp h
  obtain ⟨_, _, h'⟩ := bind_eq_ok.mp h'
  obtain ⟨_, _, h'⟩ := bind_eq_ok.mp h'
  obtain ⟨_, _, h'⟩ := bind_eq_ok.mp h'
  obtain ⟨c0', hc0', h'⟩ := bind_eq_ok.mp h'
  have e := ok.inj h
  have e' := ok.inj h'
  subst e
  subst e'
  obtain ⟨a, l, _⟩ := Dcf.created_alike hc0 hc0' rfl (sameType_iff.mp (Ty.uint .w128).valueTypesAreEqual_self) Ts Ts'
  have hb : (c0'.registerAll Ts').batchEvaluate env (uintHelper 128) =
      (c0.registerAll Ts).batchEvaluate env (uintHelper 128) := by
    funext keys points
    unfold Dcf.batchEvaluate
    rw [Dcf.batchEvaluateInto_alike a l]
  unfold Mic.eval Mic.batchEval
  dsimp only
  rw [hb]
  rfl

/-- C76 for interval gates: keys are made by one party and sent as bytes to two other parties, each with a gate and a
machine of its own. Their results add up to the masked indicator of each interval. Missing: bounds given as 64-bit
numbers (`C30_refuted`) and more than 2^25 intervals. -/
theorem C76_containment_partial (limit : Nat) (fp fp0 fp1 : FpEnv) (params : MicParameters) (g g0 g1 : Mic)
    (hs : MicSetup fp params g) (hs0 : MicSetup fp0 params g0) (hs1 : MicSetup fp1 params g1)
    (env env0 env1 : Env) (haes0 : env0.aes = env.aes) (haes1 : env1.aes = env.aes) (rIn : U128)
    (hr : rIn.toNat < 2 ^ params.logGroupSize.toNat) (rOut : List U128)
    (hlen : rOut.length = params.intervals.length)
    (hro : ∀ r ∈ rOut, r.toNat < 2 ^ params.logGroupSize.toNat) (seed0 seed1 : U128) (rand : Nat → U128)
    (hl : 6 ≤ limit) (hsz : params.intervals.length ≤ 2 ^ 25) :
    ∃ k0 k1 r0 r1, (g.gen env rIn rOut seed0 seed1 rand).1 = ok (k0, k1) ∧
      parseMicKey limit (wire (putMicKey k0)) = some r0 ∧ parseMicKey limit (wire (putMicKey k1)) = some r1 ∧
      ∀ (x : Nat) (X : U128), x < 2 ^ params.logGroupSize.toNat →
        X.toNat = (x + rIn.toNat) % 2 ^ params.logGroupSize.toNat →
        ∃ ys0 ys1, g0.eval env0 r0 X = ok ys0 ∧ g1.eval env1 r1 X = ok ys1 ∧
          ys0.length = params.intervals.length ∧ ys1.length = params.intervals.length ∧
          ∀ (j : Nat) (iv : Interval) (r y0 y1 : U128) (p q : Nat), params.intervals[j]? = some iv →
            iv.Bounds p q → rOut[j]? = some r → ys0[j]? = some y0 → ys1[j]? = some y1 →
            (y0.toNat + y1.toNat) % 2 ^ params.logGroupSize.toNat =
              (r.toNat + if p ≤ x ∧ x ≤ q then 1 else 0) % 2 ^ params.logGroupSize.toNat := by
  obtain ⟨k0, k1, g', hg, q0, q1⟩ := C70_mic_generated limit fp params g hs env rIn hr rOut hlen hro seed0 seed1 rand hl hsz
  obtain ⟨k0', k1', g'', hg', hs'', hall⟩ := C30_containment_partial fp params g hs (by omega) env rIn hr rOut hlen hro
    seed0 seed1 rand
  rw [hg] at hg'
  cases hg'
  refine ⟨k0, k1, k0, k1, by rw [hg], q0, q1, fun x X h1 h2 => ?_⟩
  obtain ⟨ys0, ys1, e0, e1, h⟩ := hall x X h1 h2
  refine ⟨ys0, ys1, ?_, ?_, h⟩
  · rw [(C68_mic fp0 params g0 hs0 env0 env haes0).2.1, hs''.alike hs0, e0]
  · rw [(C68_mic fp1 params g1 hs1 env1 env haes1).2.1, hs''.alike hs1, e1]

/-! ## Examples: a client and a helper without vectors, and a leader with vectors of 32 bytes -/

/-- The network of the examples. -/
def exNetwork : Network := ⟨{ exSetting with env := exPlainEnv }, exHwyEnv, exPlainEnv, 100⟩

theorem exNetwork_works (info : Bytes) (n : Nat) (h : ExactAt exCeilLog2 n) (hn : n ≤ 2 ^ 24) : exNetwork.Works info n where
  codec := rfl
  limit := by decide
  aes0 := rfl
  aes1 := rfl
  simd0Ok := exSimd_ok
  simd1Ok := exSimd_ok
  decrypts m := ⟨m.map (~~~ ·), rfl, by
    show ok ((m.map (~~~ ·)).map (~~~ ·)) = ok m
    simp [Function.comp_def]⟩
  short m c hc := by
    have : m.map (~~~ ·) = c := Res.ok.inj hc
    rw [← this, List.length_map]
    omega
  exact := h
  manageable := Or.inl (by omega)

/-- C76 on an example: two of three records. -/
example : DenseNetworkRun exNetwork 3 ((exRecords.foldl DenseBuilder.insert DenseBuilder.new).build.1.getD
    ⟨0, [], 0, []⟩) [2, 0] [[4, 5, 6] ++ List.replicate 16 0, List.replicate 19 1] :=
  C76_dense_partial exNetwork exRecords _ (Res.eq_ok_getD (by decide +kernel) _)
    ⟨[4, 5, 6], by simp [exRecords], by simp⟩ (exNetwork_works _ 3 ⟨2, by decide, by decide, by decide⟩ (by decide))
    [2, 0] (by decide) (by decide) (by decide) (by decide +kernel)

/-- C76 on an example: two keys and a string that was not inserted. -/
example : CuckooNetworkRun exNetwork (cuckooParams [9] 3 7) exCuckooDb [[2, 2], [5], [1]]
    [some [20, 21], none, some [10, 0]] :=
  C76_cuckoo_end_to_end_partial exNetwork (fun i => i % 3) [9] 3 7 exPairs exCuckooDb
    (fun i => Nat.mod_lt i (by decide)) (by decide) exCuckooDb_ok _ _ exCuckooDb_holds (by decide +kernel)
    ⟨[30], by decide, by decide⟩ (exNetwork_works _ 7 (exCeilLog2_exact 7 (by decide)) (by decide)) [[2, 2], [5], [1]]
    (by decide) (by decide +kernel) (by decide +kernel) (by decide +kernel) (by decide) (by decide) (by decide +kernel)
    (by decide)

/-- C76 on an example: also strings for which cuckoo hashing gives a wrong answer. -/
example : SimpleNetworkRun exNetwork wireCodec (simpleParams [9] 7) exSimpleDb
    [[2, 2], [2, 2, 6], [1, 0], [], [1]] [some [20, 21], none, none, none, some [10]] :=
  C76_simple_partial exNetwork [9] 7 exPairs exSimpleDb (Res.eq_ok_getD (by decide +kernel) _) (by decide)
    (exNetwork_works _ 7 (exCeilLog2_exact 7 (by decide)) (by decide)) _ (by decide) (by decide) (by decide)
    (by decide +kernel) (by decide)

theorem exParams_sizes : ∀ p ∈ exParams, ∀ S : Ty, p.valueType = some S.helper.toValueType →
    nestingTy S + 2 ≤ 100 ∧ messageBytes S ≤ 1000000 := by
  intro p hp S hS
  have : ∃ i, i < 3 ∧ p.valueType = some (exT i).helper.toValueType := by
    simp only [exParams, List.mem_cons, List.not_mem_nil, or_false] at hp
    rcases hp with rfl | rfl | rfl
    · exact ⟨0, by decide, by decide +kernel⟩
    · exact ⟨1, by decide, by decide +kernel⟩
    · exact ⟨2, by decide, by decide +kernel⟩
  obtain ⟨i, hi, h⟩ := this
  rw [h] at hS
  have e : exT i = S := Ty.eq_of_equal _ _ (by rw [← Option.some.inj hS]; exact (exT i).valueTypesAreEqual_self)
  subst e
  match i, hi with
  | 0, _ => decide +kernel
  | 1, _ => decide +kernel
  | 2, _ => decide +kernel

/-- C76 on an example: the second party has an object made from other parameters that mean the same. -/
example : ∃ d d' k0 k1 r0 r1, Setup exFp exParams exT d ∧ Created exFp' exParamsOther d' ∧
    d.generateKeysIncremental exPlainEnv 12345 exBeta 1 2 = ok (k0, k1) ∧
    parseKey 100 (serializeKey k0) = some r0 ∧ parseKey 100 (serializeKey k1) = some r1 ∧
    ∃ (T : Ty) (v0 v1 : List T.den), d.evaluateAt exHwyEnv T.helper r0 (1 : Nat) [0, 5] = ok v0 ∧
      d'.evaluateAt exPlainEnv T.helper r1 (1 : Nat) [0, 5] = ok v1 ∧
      (List.zipWith T.helper.add v0 v1)[1]? = some T.helper.zero := by
  obtain ⟨d, hs⟩ := exSetup
  obtain ⟨d', hd'⟩ := exOther_created
  have hc' : Created exFp' exParamsOther d' := ⟨d', [], hd', rfl⟩
  obtain ⟨k0, k1, h1, _⟩ := C01_point_function_partial exFp exParams exT d hs exPlainEnv 12345 (by decide +kernel) exBeta
    exB exBetas 1 2
  have hself : SameLevels exParams exParams := by
    refine ⟨rfl, fun i p q hp hq => ?_, fun i p q hp hq => ?_⟩
    · rw [hp] at hq; cases hq; rfl
    · rw [hp] at hq
      cases hq
      have hi : i < exParams.length := (List.getElem?_eq_some_iff.mp hp).1
      obtain ⟨c, e, _⟩ := exOther_same.type i p _ hp
        (List.getElem?_eq_getElem (show i < exParamsOther.length from exOther_same.count ▸ hi))
      exact ⟨c, e, e⟩
  obtain ⟨r0, r1, q0, q1, T, b, _, _, h⟩ := C76_point_function_partial 100 exFp exFp exFp' exParams exParams exParamsOther
    d d d' hs.toCreated hs.toCreated hc' hself exOther_same exPlainEnv exHwyEnv exPlainEnv rfl rfl exParams_sizes 12345
    exBeta 1 2 k0 k1 h1
  obtain ⟨v0, v1, e0, e1, e⟩ := h 1 (by decide) [0, 5] (by
    intro x hx
    simp only [List.mem_cons, List.not_mem_nil, or_false] at hx
    rcases hx with rfl | rfl <;> decide +kernel)
  refine ⟨d, d', k0, k1, r0, r1, hs, hc', h1, q0, q1, T 1, v0, v1, e0, e1, ?_⟩
  rw [e]
  show some (if (5 : U128).toNat = alphaPrefix exParams 12345 1 then b 1 else (T 1).helper.zero) = _
  rw [if_neg (by decide +kernel)]

/-- The numbers 43, 45, 47 and 49 as `double`. -/
def exDouble8 : DoubleBits :=
  ⟨fun x => if x = .val 43 then 0x4045800000000000 else if x = .val 45 then 0x4046800000000000
    else if x = .val 47 then 0x4047800000000000 else if x = .val 49 then 0x4048800000000000 else 0,
   fun n => if n = 0x4045800000000000 then .val 43 else if n = 0x4046800000000000 then .val 45
    else if n = 0x4047800000000000 then .val 47 else if n = 0x4048800000000000 then .val 49 else .val 0⟩

/-- Calls by three workers; the third fails, as the prefix 200 is not in the domain. -/
def exWorkers : List (Dpf × Env × ContextCall) :=
  [(exDpf, { aes := exEnv.aes }, .evalUntil (.uint .w8) 0 []), (exDpf, exEnv, .evalAt (.uint .w8) 2 [77, 3]),
   (exDpf, exEnv, .evalNext (.uint .w8) [200]), (exDpf, exEnv, .evalUntil (.uint .w8) 1 [3, 0, 3])]

/-- C76 on an example. -/
example : relayed exDouble8 100 exWorkers (wire (putContext exDouble8 exCtx0)) =
    some (callResults exDpf exEnv (exWorkers.map (·.2.2)) exCtx0) := by
  have hc : Created exFp exParams8 exDpf := ⟨exDpf, [], exDpf_eq, rfl⟩
  have hp : exCtx0.parameters = exDpf.pv.parameters := (hc.wf.create_ctxOk exEnv exCtx0_eq).2.params
  have hsame : SameParameters exParams8 exCtx0.parameters := by
    rw [hp]
    refine hc.sameParameters_self fun i p hp => ?_
    match i, hp with
    | 0, hp => cases hp; exact ⟨_, rfl⟩
    | 1, hp => cases hp; exact ⟨_, rfl⟩
    | 2, hp => cases hp; exact ⟨_, rfl⟩
    | 3, hp => cases hp; exact ⟨_, rfl⟩
    | i + 4, hp => simp [exParams8] at hp
  have hl : SameLevels exParams8 exParams8 := by
    refine ⟨rfl, fun i p q hp hq => ?_, fun i p q hp hq => ?_⟩
    · rw [hp] at hq; cases hq; rfl
    · rw [hp] at hq
      cases hq
      have hi : i < exParams8.length := (List.getElem?_eq_some_iff.mp hp).1
      obtain ⟨c, e, _⟩ := hsame.type i p _ hp
        (List.getElem?_eq_getElem (show i < exCtx0.parameters.length from hsame.count ▸ hi))
      exact ⟨c, e, e⟩
  refine C76_contexts_partial exDouble8 100 exFp exParams8 exDpf hc exEnv exKey (by decide +kernel) exCtx0 exCtx0_eq ?_
    (by decide +kernel) exWorkers ?_ ?_
  · rw [hp, hc.params]
    intro p hp
    simp only [exParams8, List.map_cons, List.map_nil, List.mem_cons, List.not_mem_nil, or_false] at hp
    rcases hp with rfl | rfl | rfl | rfl <;> exact ⟨by decide +kernel, by decide +kernel, by decide +kernel⟩
  · intro w hw
    have : w.1 = exDpf ∧ w.2.1.aes = exEnv.aes := by
      simp only [exWorkers, List.mem_cons, List.not_mem_nil, or_false] at hw
      rcases hw with rfl | rfl | rfl | rfl <;> exact ⟨rfl, rfl⟩
    rw [this.1]
    exact ⟨this.2, exFp, exParams8, hc, hl, hsame⟩
  · have : ((contextsOf exDpf exEnv (exWorkers.map (·.2.2)) exCtx0).map
        fun c => (wire (putContext exDouble8 c)).length).all (· < 1000) = true := by decide +kernel
    intro c hc
    rw [List.all_eq_true] at this
    have := of_decide_eq_true (this _ (List.mem_map.mpr ⟨c, hc, rfl⟩))
    unfold maxMessage
    omega

/-- C76 on an example: two parties without registered types. -/
example : ∃ c0 k0 k1 r0 r1 v0 v1, Dcf.create exFp exDcfParams = ok c0 ∧
    exDcf.generateKeys exPlainEnv 37 (.tuple [.integer (.u64 7), .intModN (.u64 10)]) 1 2 = ok (k0, k1) ∧
    parseDcfKey 100 (wire (putDcfKey k0)) = some r0 ∧ parseDcfKey 100 (wire (putDcfKey k1)) = some r1 ∧
    c0.evaluate exHwyEnv exDcfTy.helper r0 36 = ok v0 ∧ c0.evaluate exPlainEnv exDcfTy.helper r1 36 = ok v1 ∧
    exDcfTy.helper.add v0 v1 = (7#8, ⟨10#32, by decide⟩) := by
  have ht : SameType exDcfParams.vt exDcfParams.vt := sameType_iff.mp exDcfTy.valueTypesAreEqual_self
  obtain ⟨k0, k1, r0, r1, hk, q0, q1, h⟩ := C76_comparison_partial 100 exFp exFp exFp exDcfParams exDcfParams exDcfParams
    exDcfTy rfl exDcf _ _ exDcf_setup exDcf_create exDcf_create rfl rfl ht ht exPlainEnv exHwyEnv exPlainEnv rfl rfl 37
    (by decide) (.tuple [.integer (.u64 7), .intModN (.u64 10)]) (7#8, ⟨10#32, by decide⟩)
    ⟨_, rfl, _, _, rfl, ⟨_, rfl, rfl⟩, _, rfl, _, rfl, rfl⟩ 1 2 (by decide +kernel) (by decide +kernel)
  obtain ⟨v0, v1, h0, h1, hs⟩ := h 36 (by decide)
  exact ⟨_, k0, k1, r0, r1, v0, v1, exDcf_create, hk, q0, q1, h0, h1, hs.trans (if_pos (by decide))⟩

/-- C76 on an example with two strings, from the run on one machine. -/
example (answers : List (Option Bytes)) (hrun : CuckooRun exNetwork.S (cuckooParams [9] 3 7) exCuckooDb [[2, 2], [5]] answers) :
    CuckooNetworkRun exNetwork (cuckooParams [9] 3 7) exCuckooDb [[2, 2], [5]] answers :=
  C76_cuckoo_partial exNetwork (fun i => i % 3) [9] 3 7 exPairs exCuckooDb (fun i => Nat.mod_lt i (by decide)) (by decide)
    exCuckooDb_ok _ _ exCuckooDb_holds (exNetwork_works _ 7 (exCeilLog2_exact 7 (by decide)) (by decide)) [[2, 2], [5]]
    (by decide) (by decide) (by decide) (by decide +kernel) (by decide) answers hrun

/-- C76 on an example: the input 10 masked with 60 is 6; the masks of the outputs are 5 and 63. -/
example : ∃ k0 k1 r0 r1 ys0 ys1,
    (exMic.gen exPlainEnv 60 [5, 63] 1 2 (fun i => BitVec.ofNat 128 i)).1 = ok (k0, k1) ∧
    parseMicKey 100 (wire (putMicKey k0)) = some r0 ∧ parseMicKey 100 (wire (putMicKey k1)) = some r1 ∧
    exMic.eval exHwyEnv r0 6 = ok ys0 ∧ exMic.eval exPlainEnv r1 6 = ok ys1 ∧
    ∀ y0 y1, ys0[1]? = some y0 → ys1[1]? = some y1 → (y0.toNat + y1.toNat) % 64 = 0 := by
  obtain ⟨k0, k1, r0, r1, hg, q0, q1, h⟩ := C76_containment_partial 100 exFp exFp exFp exMicParams exMic exMic exMic
    exMic_setup exMic_setup exMic_setup exPlainEnv exHwyEnv exPlainEnv rfl rfl 60 (by decide) [5, 63] rfl (by
      intro r hr
      simp only [List.mem_cons, List.not_mem_nil, or_false] at hr
      rcases hr with rfl | rfl <;> decide) 1 2 (fun i => BitVec.ofNat 128 i) (by decide) (by decide)
  obtain ⟨ys0, ys1, h0, h1, _, _, hy⟩ := h 10 6 (by decide) (by decide)
  refine ⟨k0, k1, r0, r1, ys0, ys1, hg, q0, q1, h0, h1, fun y0 y1 e0 e1 => ?_⟩
  exact hy 1 _ _ y0 y1 0 63 rfl ⟨0, 0, 0, 63, rfl, rfl, rfl, rfl⟩ rfl e0 e1

end Verif
