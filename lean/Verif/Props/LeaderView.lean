import Verif.Spec.LeaderView
import Verif.Props.Hiding
import Mathlib.Tactic.Choose
/-!
# C96: the length of the message to the helper

The leader forwards the message to the helper, which is encrypted, so it learns its length. Serialized messages have
different lengths, as small numbers take fewer bytes and zeros are left out. `C96_…_real`: the message to the helper is
the leader's own request with other root seeds, so its length depends on nothing else that is secret. `C96_hides`: so
the request to the leader together with this length has the same distribution for all lists of indices of the same
length, over uniform blocks in place of those that the helper computes from its root seeds, whatever these are.
-/
namespace Verif
open Res Spec

theorem keysFor_other {fp : FpEnv} {cl : CeilLog2} {n : Int} {d : Dpf} (hd : Dpf.create fp (pirParameters cl n) = ok d)
    (env : Env) {q : Int} (hq : 0 ≤ q) {seeds : U128 × U128} {k0 k1 : DpfKey}
    (h : DenseClient.keysFor d env q seeds = ok (k0, k1)) : k1 = { k0 with seed := some seeds.2, party := 1 } := by
  have hs := pirSetup hd
  unfold DenseClient.keysFor at h
  obtain ⟨beta, hb, h⟩ := bind_eq_ok.mp h
  have h1 := Int.tmod_nonneg 128 hq
  have h2 := Int.tmod_lt_of_pos q (b := 128) (by decide)
  rw [show q.tmod 128 = ((q.tmod 128).toNat : Int) by omega, shl128_ok (by omega)] at hb
  have hb := ok.inj hb
  subst hb
  have hr := C19_registered fp _ _ _ hs env (pirAlpha q)
    [pirTy.helper.toValue ((1 : U128) <<< (q.tmod 128).toNat : U128)] seeds.1 seeds.2
  obtain ⟨ha, _⟩ := hr.1.mp ⟨k0, k1, h⟩
  have hbeta : BetasRepresent [pirParameters cl n] (fun _ => pirTy)
      [pirTy.helper.toValue ((1 : U128) <<< (q.tmod 128).toNat : U128)]
      (fun _ => ((1 : U128) <<< (q.tmod 128).toNat : U128)) := by
    refine ⟨rfl, ?_⟩
    intro h v hv
    match h, hv with
    | 0, hv =>
      simp at hv
      rw [← hv]
      exact C20_encoded_represents pirTy _
  obtain ⟨cws, last, e⟩ := C18_keys_differ_only_in_seed fp _ _ _ hs env (pirAlpha q) _ _ hbeta seeds.1 seeds.2 ha
  have := ok.inj (h.symm.trans e)
  simp only [Prod.mk.injEq] at this
  obtain ⟨rfl, rfl⟩ := this
  rfl

theorem denseRequests_other {fp : FpEnv} {cl : CeilLog2} {n : Int} {client : DenseClient}
    (hd : Dpf.create fp (pirParameters cl n) = ok client.dpf) (env : Env) {queries : List Int}
    {seeds : Nat → U128 × U128} {random : Nat → BitVec 8} {leader : PlainRequest} {helper : HelperRequest}
    {state : ClientState} (h : client.createPlainRequests env queries seeds random = ok (leader, helper, state)) :
    helper = ⟨if queries = [] then none else some (helperRequest (fun i => (seeds i).2) leader),
      Prng.generateSeed random⟩ := by
  unfold DenseClient.createPlainRequests at h
  obtain ⟨us, hu, h⟩ := bind_eq_ok.mp h
  obtain ⟨keys, hk, h⟩ := bind_eq_ok.mp h
  have hpos : ∀ q ∈ queries, 0 ≤ q := by
    intro q hq
    obtain ⟨_, e⟩ := mapRes_exists_of_ok hu hq
    obtain ⟨_, e, _⟩ := bind_eq_ok.mp e
    have := failIf_eq_ok.mp e
    omega
  have hl : keys.length = queries.length := by
    have := mapRes_length hk
    simpa using this
  have h := ok.inj h
  simp only [Prod.mk.injEq] at h
  obtain ⟨rfl, rfl, _⟩ := h
  have he : keys = [] ↔ queries = [] := by
    rw [← List.length_eq_zero_iff, hl, List.length_eq_zero_iff]
  by_cases hq : queries = []
  · rw [if_pos hq, if_pos (he.mpr hq)]
  rw [if_neg hq, if_neg (mt he.mp hq)]
  congr 2
  unfold helperRequest
  congr 1
  apply List.ext_getElem (by simp)
  intro i h1 h2
  simp only [List.length_map] at h1
  have hi := (mapRes_eq_ok.mp hk).2 i (by simpa using (by omega : i < queries.length)) h1
  simp only [List.getElem_zipIdx, Nat.zero_add] at hi
  simpa using keysFor_other hd env (hpos _ (List.getElem_mem (by omega : i < queries.length))) (k0 := keys[i].1)
    (k1 := keys[i].2) hi

/-- C96: the message of the dense client to the helper is the leader's request with other root seeds. -/
theorem C96_dense_real (fp : FpEnv) (ceilLog2 : CeilLog2) (n : Int) (encrypter : CryptFn) (info : Bytes)
    (client : DenseClient) (hclient : DenseClient.create fp ceilLog2 (.dense n) (some encrypter) info = ok client)
    (env : Env) (queries : List Int) (seeds : Nat → U128 × U128) (random : Nat → BitVec 8) (leader : PlainRequest)
    (helper : HelperRequest) (state : ClientState)
    (h : client.createPlainRequests env queries seeds random = ok (leader, helper, state)) :
    helper = ⟨if queries = [] then none else some (helperRequest (fun i => (seeds i).2) leader),
      Prng.generateSeed random⟩ :=
  denseRequests_other (denseClient_dpf hclient) env h

theorem setFingerprints_other (f : Int) (queries : List Int) (l : PlainRequest) (hl : queries = [] → l.dpfKeys = [])
    (s : Nat → U128) (pad : Bytes) :
    (setFingerprints f l ⟨if queries = [] then none else some (helperRequest s l), pad⟩).2 =
      ⟨some (helperRequest s (setFingerprints f l ⟨none, pad⟩).1), pad⟩ := by
  unfold setFingerprints
  dsimp only
  congr 2
  split
  · rename_i e
    unfold helperRequest
    rw [hl e]
    rfl
  · rfl

/-- C96: the same for the client with cuckoo hashing. -/
theorem C96_cuckoo_real (fp : FpEnv) (ceilLog2 : CeilLog2) (sha : Sha256) (params : CuckooParams)
    (encrypter : CryptFn) (info : Bytes) (client : CuckooClient)
    (hclient : CuckooClient.create fp ceilLog2 sha (.cuckoo params) (some encrypter) info = ok client)
    (env : Env) (queries : List Bytes) (seeds : Nat → U128 × U128) (random : Nat → BitVec 8) (leader : PlainRequest)
    (helper : HelperRequest) (state : ClientState)
    (h : client.createPlainRequests env queries seeds random = ok (leader, helper, state)) :
    helper = ⟨some (helperRequest (fun i => (seeds i).2) leader), Prng.generateSeed random⟩ := by
  have hd := (C62_cuckoo_real fp ceilLog2 sha params encrypter info client hclient env queries seeds random leader helper
    state h).1
  unfold CuckooClient.createPlainRequests at h
  obtain ⟨indices, hi, h⟩ := bind_eq_ok.mp h
  obtain ⟨⟨l, hr, st⟩, hreq, h⟩ := bind_eq_ok.mp h
  have h1 := denseRequests_other hd env hreq
  have h2 := (denseRequests_real hd env hreq).2.2.2.1
  have h := ok.inj h
  simp only [Prod.mk.injEq] at h
  obtain ⟨h3, h4, _⟩ := h
  rw [← h4, h1, setFingerprints_other _ _ _ (fun e => by rw [h2, e]; rfl), ← h3]
  rfl

/-- C96: the same for the client with simple hashing. -/
theorem C96_simple_real (fp : FpEnv) (ceilLog2 : CeilLog2) (sha : Sha256) (params : SimpleParams)
    (encrypter : CryptFn) (info : Bytes) (client : SimpleClient)
    (hclient : SimpleClient.create fp ceilLog2 sha (.simple params) (some encrypter) info = ok client)
    (env : Env) (queries : List Bytes) (seeds : Nat → U128 × U128) (random : Nat → BitVec 8) (leader : PlainRequest)
    (helper : HelperRequest) (state : ClientState)
    (h : client.createPlainRequests env queries seeds random = ok (leader, helper, state)) :
    helper = ⟨some (helperRequest (fun i => (seeds i).2) leader), Prng.generateSeed random⟩ := by
  have hd := (C62_simple_real fp ceilLog2 sha params encrypter info client hclient env queries seeds random leader helper
    state h).1
  unfold SimpleClient.createPlainRequests at h
  obtain ⟨indices, hi, h⟩ := bind_eq_ok.mp h
  obtain ⟨⟨l, hr, st⟩, hreq, h⟩ := bind_eq_ok.mp h
  have h1 := denseRequests_other hd env hreq
  have h2 := (denseRequests_real hd env hreq).2.2.2.1
  have h := ok.inj h
  simp only [Prod.mk.injEq] at h
  obtain ⟨h3, h4, _⟩ := h
  rw [← h4, h1, setFingerprints_other _ _ _ (fun e => by rw [h2, e]; rfl), ← h3]
  rfl

/-- C96: over uniform bits, the request to the leader together with the length of the message to the helper has the
same distribution for all lists of indices of the same length. -/
theorem C96_hides (fp : FpEnv) (ceilLog2 : CeilLog2) (n : Int) (d : Dpf)
    (hd : Dpf.create fp (pirParameters ceilLog2 n) = ok d) (env : Env) (seeds : Nat → U128 × U128)
    (fingerprint : BitVec 32) (pad : Bytes) (queries queries' : List Int) {m : Nat} (hm : queries.length = m)
    (hm' : queries'.length = m) :
    (let d := d.registerValueType pirTy.helper
     let request := experimentRequest (n := m) d env (pirParameters ceilLog2 n) false (fun i => (seeds i).1) fingerprint
     let message := fun leader : PlainRequest => (⟨some (helperRequest (fun i => (seeds i).2) leader), pad⟩ : HelperRequest)
     SameView (fun r => (request queries r, helperLength (message (request queries r))))
      (fun r => (request queries' r, helperLength (message (request queries' r))))) :=
  (C62_request_hides fp ceilLog2 n d hd env false _ fingerprint queries queries' hm hm').map
    fun leader => (leader, helperLength ⟨some (helperRequest (fun i => (seeds i).2) leader), pad⟩)

theorem SameView.dependent {R S V W : Type} {v v' : R → V} {w w' : R → S → W} (h : SameView v v')
    (hw : ∀ r r', SameView (w r) (w' r')) :
    SameView (fun x : R × S => (v x.1, w x.1 x.2)) (fun x => (v' x.1, w' x.1 x.2)) := by
  obtain ⟨φ, ψ, h1, h2, h3⟩ := h
  choose a b ha hb hc using hw
  refine ⟨fun x => (φ x.1, a x.1 (φ x.1) x.2), fun y => (ψ y.1, b (ψ y.1) y.1 y.2), ?_, ?_, ?_⟩
  · rintro ⟨r, s⟩
    simp only [h1, ha]
  · rintro ⟨r, s⟩
    simp only [h2, hb]
  · rintro ⟨r, s⟩
    simp only [h3, hc]

/-- C96: everything that the leader sees: its request, the length of the message to the helper, and the helper's
response to it, which is masked by a pad (`C62_mask_real`). Over uniform bits and a uniform pad, the distribution is the
same for all lists of indices of the same length, whatever products the helper computes, as long as their lengths do
not depend on the indices. -/
theorem C96_view (fp : FpEnv) (ceilLog2 : CeilLog2) (n : Int) (d : Dpf)
    (hd : Dpf.create fp (pirParameters ceilLog2 n) = ok d) (env : Env) (seeds : Nat → U128 × U128)
    (fingerprint : BitVec 32) (padSeed : Bytes) (queries queries' : List Int) {m : Nat} (hm : queries.length = m)
    (hm' : queries'.length = m) (lengths : List Nat)
    (products products' : (Fin m → PirRand (d.registerValueType pirTy.helper)) → List Bytes)
    (hp : ∀ r, (products r).map List.length = lengths) (hp' : ∀ r, (products' r).map List.length = lengths) :
    (let d := d.registerValueType pirTy.helper
     let request := experimentRequest (n := m) d env (pirParameters ceilLog2 n) false (fun i => (seeds i).1) fingerprint
     let message := fun leader : PlainRequest =>
       (⟨some (helperRequest (fun i => (seeds i).2) leader), padSeed⟩ : HelperRequest)
     SameView
      (fun x : (Fin m → PirRand d) × (Fin lengths.sum → BitVec 8) =>
        ((request queries x.1, helperLength (message (request queries x.1))), xorPad (extend x.2 0) 0 (products x.1)))
      (fun x => ((request queries' x.1, helperLength (message (request queries' x.1))),
        xorPad (extend x.2 0) 0 (products' x.1)))) := by
  refine SameView.dependent (w := fun r pad => xorPad (extend pad 0) 0 (products r))
    (w' := fun r pad => xorPad (extend pad 0) 0 (products' r))
    (C96_hides fp ceilLog2 n d hd env seeds fingerprint padSeed queries queries' hm hm') ?_
  intro r r'
  refine C62_mask_hides (products r) (products' r') ((hp' r').trans (hp r).symm) ?_
  rw [List.length_flatten, hp r]

/-- C96 on the dense client of C34: indices 2 and 0 against 1 and 1. The length is not always the same. -/
example : ∃ client leader helper state,
    DenseClient.create exFp exCeilLog2 (.dense 3) (some fun m _ => ok m) [] = ok client ∧
    client.createPlainRequests exEnv [2, 0] (fun i => (BitVec.ofNat 128 i, 77)) (fun _ => 5) =
      ok (leader, helper, state) ∧
    helper = ⟨some (helperRequest (fun _ => 77) leader), Prng.generateSeed fun _ => 5⟩ ∧
    (let d := client.dpf.registerValueType pirTy.helper
     let request := experimentRequest (n := 2) d exEnv (pirParameters exCeilLog2 3) false (fun i => BitVec.ofNat 128 i) 0
     let message := fun leader : PlainRequest => (⟨some (helperRequest (fun _ => 77) leader), [1]⟩ : HelperRequest)
     SameView (fun r => (request [2, 0] r, helperLength (message (request [2, 0] r))))
      (fun r => (request [1, 1] r, helperLength (message (request [1, 1] r))))) := by
  have hdb : BuiltFrom exRecords ((exRecords.foldl DenseBuilder.insert DenseBuilder.new).build.1.getD
      ⟨0, [], 0, []⟩) := Res.eq_ok_getD (by decide +kernel) _
  obtain ⟨server, client, _, h2, h3⟩ := C34_dense_partial exFp exEnv exCeilLog2 exSimd exSimd exSimd_ok
    exSimd_ok exRecords _ hdb ⟨[4, 5, 6], by simp [exRecords], by simp⟩ ⟨2, by decide, by decide, by decide⟩
    (Or.inl (by decide)) (fun m _ => ok m) []
  obtain ⟨a, b, c, d, e, f, h4, _⟩ := h3 [2, 0] (by simp) (by decide)
    (fun i => (BitVec.ofNat 128 i, 77)) (fun _ => 5)
  have h := C96_dense_real exFp exCeilLog2 3 _ [] client h2 exEnv [2, 0] _ _ _ _ _ h4
  have hd := (C62_dense_real exFp exCeilLog2 3 _ [] client h2 exEnv [2, 0] _ _ _ _ _ h4).1
  exact ⟨client, _, _, _, h2, h4, h, C96_hides exFp exCeilLog2 3 client.dpf hd exEnv
    (fun i => (BitVec.ofNat 128 i, 77)) 0 [1] [2, 0] [1, 1] rfl rfl⟩

/-- C96 on the clients of C46 and C47: three queries, with three hash functions and with one. -/
example : ∃ client leader helper state, CuckooClient.create exSetting.fp exSetting.ceilLog2 exSetting.sha
      (.cuckoo (cuckooParams [9] 3 7)) (some exSetting.encrypter) CuckooServer.contextInfo = ok client ∧
    client.createPlainRequests exSetting.env [[2, 2], [5], [1]] (fun i => (BitVec.ofNat 128 i, 77)) (fun _ => 5) =
      ok (leader, helper, state) ∧
    helper = ⟨some (helperRequest (fun _ => 77) leader), Prng.generateSeed fun _ => 5⟩ := by
  have hrun : CuckooRun exSetting (cuckooParams [9] 3 7) exCuckooDb [[2, 2], [5], [1]]
      [some [20, 21], none, some [10, 0]] :=
    C46_end_to_end_partial exSetting (fun i => i % 3) [9] 3 7 exPairs exCuckooDb
      (fun i => Nat.mod_lt i (by decide)) (by decide) exCuckooDb_ok _ _ exCuckooDb_holds (by decide +kernel)
      ⟨[30], by decide, by decide⟩ [[2, 2], [5], [1]] (by decide) (exSetting_works _ _ (by decide)) (by decide +kernel)
      (by decide +kernel) (by decide +kernel)
  obtain ⟨_, _, client, _, _, h3, h4⟩ := hrun
  obtain ⟨_, _, _, h5, _⟩ := h4 (fun i => (BitVec.ofNat 128 i, 77)) (fun _ => 5)
  unfold CuckooClient.createRequest PirClient.createRequest at h5
  obtain ⟨⟨leader, helper, state⟩, h6, _⟩ := bind_eq_ok.mp h5
  exact ⟨client, leader, helper, state, h3, h6, C96_cuckoo_real _ _ _ _ _ _ client h3 _ _ _ _ _ _ _ h6⟩
example : ∃ client leader helper state, SimpleClient.create exSetting.fp exSetting.ceilLog2 exSetting.sha
      (.simple (simpleParams [9] 7)) (some exSetting.encrypter) SimpleServer.contextInfo = ok client ∧
    client.createPlainRequests exSetting.env [[2, 2], [5], [1]] (fun i => (BitVec.ofNat 128 i, 77)) (fun _ => 5) =
      ok (leader, helper, state) ∧
    helper = ⟨some (helperRequest (fun _ => 77) leader), Prng.generateSeed fun _ => 5⟩ := by
  have hrun : SimpleRun exSetting wireCodec (simpleParams [9] 7) exSimpleDb [[2, 2], [5], [1]]
      ([[2, 2], [5], [1]].map (firstValue exPairs)) :=
    C47_end_to_end_partial exSetting [9] 7 exPairs exSimpleDb (Res.eq_ok_getD (by decide +kernel) _)
      (by decide) _ (by decide) (exSetting_works _ _ (by decide))
  obtain ⟨_, _, client, _, _, h3, h4⟩ := hrun
  obtain ⟨_, _, _, h5, _⟩ := h4 (fun i => (BitVec.ofNat 128 i, 77)) (fun _ => 5)
  unfold SimpleClient.createRequest PirClient.createRequest at h5
  obtain ⟨⟨leader, helper, state⟩, h6, _⟩ := bind_eq_ok.mp h5
  exact ⟨client, leader, helper, state, h3, h6, C96_simple_real _ _ _ _ _ _ client h3 _ _ _ _ _ _ _ h6⟩

/-- C96 on an example: two indices; the products of the helper are any two bytes that depend on the indices. -/
example (products products' : BitVec 8 → Bytes × Bytes) (hp : ∀ b, (products b).1.length = 1 ∧ (products b).2.length = 1)
    (hp' : ∀ b, (products' b).1.length = 1 ∧ (products' b).2.length = 1) (d : Dpf)
    (hd : Dpf.create exFp (pirParameters exCeilLog2 3) = ok d) :
    (let d := d.registerValueType pirTy.helper
     let request := experimentRequest (n := 2) d exEnv (pirParameters exCeilLog2 3) false (fun i => BitVec.ofNat 128 i) 0
     let message := fun leader : PlainRequest => (⟨some (helperRequest (fun _ => 77) leader), [1]⟩ : HelperRequest)
     SameView
      (fun x : (Fin 2 → PirRand d) × (Fin 2 → BitVec 8) =>
        ((request [2, 0] x.1, helperLength (message (request [2, 0] x.1))),
          xorPad (extend x.2 0) 0 [(products 2).1, (products 0).2]))
      (fun x => ((request [1, 1] x.1, helperLength (message (request [1, 1] x.1))),
        xorPad (extend x.2 0) 0 [(products' 1).1, (products' 1).2]))) :=
  C96_view exFp exCeilLog2 3 d hd exEnv (fun i => (BitVec.ofNat 128 i, 77)) 0 [1] [2, 0] [1, 1] rfl rfl [1, 1]
    (fun _ => [(products 2).1, (products 0).2]) (fun _ => [(products' 1).1, (products' 1).2])
    (fun _ => by simp [hp]) (fun _ => by simp [hp'])

/-- The DPF of the example exists. -/
example : (Dpf.create exFp (pirParameters exCeilLog2 3)).isOk = true := by decide +kernel

/-- Lengths depend on the seeds. -/
example : helperLength ⟨some (helperRequest (fun _ => 77) ⟨[⟨some 3, [], 0, []⟩], 0⟩), [1]⟩ = 13 ∧
    helperLength ⟨some (helperRequest (fun _ => 0xFFFFFFFFFFFFFFFF) ⟨[⟨some 3, [], 0, []⟩], 0⟩), [1]⟩ = 22 := by
  decide +kernel

end Verif
