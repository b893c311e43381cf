import Verif.Spec.Network
import Verif.Lemmas.WireKeys
import Verif.Lemmas.SparsePir
import Verif.Props.DensePir
import Verif.Spec.ServerSafety
/-!
# Lemmas: requests and responses as bytes
-/
namespace Verif
open Res Spec Wire

/-! ### Sizes -/

theorem strings_length {i : Nat} (hi : i < 16) {l : List Bytes} (hl : totalBytes l < 2 ^ 31) :
    (wire (l.map fun b => ((i, .bytes b) : Record))).length ≤ totalBytes l := by
  induction l with
  | nil => simp [wire]
  | cons b l ih =>
    unfold totalBytes at hl ih ⊢
    rw [List.map_cons, List.sum_cons] at hl
    rw [List.map_cons, List.map_cons, List.sum_cons, wire_cons, List.length_append]
    have := ih (by omega)
    have h1 : (varint (8 * i + 2)).length ≤ 1 := varint_length_le (by omega) (by omega)
    have h2 : (varint b.length).length ≤ 5 := varint_length_le (by omega) (by omega)
    have h3 : (putRecord (i, .bytes b)).length = (varint (8 * i + 2)).length + (varint b.length).length + b.length := by
      rw [putRecord, List.length_append, List.length_append]
    omega

theorem totalBytes_congr {a b : List Bytes} (h : a.map List.length = b.map List.length) :
    totalBytes a = totalBytes b := by
  unfold totalBytes
  rw [show (fun s : Bytes => s.length + 6) = (· + 6) ∘ List.length from rfl, ← List.map_map, h, List.map_map]

theorem totalBytes_flatMap {α : Type} {out : List Bytes} {ks : List α} {lengths : List Nat}
    (h : out.map List.length = ks.flatMap fun _ => lengths) :
    totalBytes out = ks.length * (lengths.map (· + 6)).sum := by
  unfold totalBytes
  rw [show (fun s : Bytes => s.length + 6) = (· + 6) ∘ List.length from rfl, ← List.map_map, h]
  clear h
  induction ks with
  | nil => simp
  | cons k ks ih =>
    rw [List.flatMap_cons, List.map_append, List.sum_append, ih, List.length_cons, Nat.add_mul]
    omega

theorem response_parse {limit : Nat} (hl : 1 ≤ limit) {r : PirResponse} (h : totalBytes r.masked ≤ 2 ^ 31 - 100) :
    parseResponse limit (wire (putResponse r)) = some r := by
  refine response_law hl ?_
  cases r with
  | none => simp [putResponse, wire, maxMessage]
  | some l =>
    have h1 : (wire (putDpfResponse l)).length ≤ 2 ^ 31 - 100 :=
      Nat.le_trans (strings_length (by decide) (by
        have : totalBytes l ≤ 2 ^ 31 - 100 := h
        omega)) h
    have h2 := inner_length_bound (i := 1) (by decide) h1 (by decide)
    show (wire [inner 1 (putDpfResponse l)]).length < _
    rw [wire_single_length]
    unfold maxMessage
    omega

theorem encrypted_length {i : Nat} (hi : i < 16) {c : Bytes} {L : Nat} (hc : c.length ≤ L) (hL : L ≤ 2 ^ 32) :
    (putRecord (inner i (putEncrypted c))).length ≤ L + 12 := by
  have h1 : (wire (putEncrypted c)).length ≤ 6 + L := by
    unfold putEncrypted string
    split
    · simp [wire]
    · have h1 : (varint (8 * 1 + 2)).length ≤ 1 := varint_length_le (by omega) (by omega)
      have h2 : (varint c.length).length ≤ 5 := varint_length_le (by omega) (by omega)
      rw [wire_single_length, putRecord, List.length_append, List.length_append]
      omega
  have := inner_length_bound hi h1 (by omega)
  omega

theorem encrypted_parse {limit : Nat} (hl : 8 ≤ limit) {c : Bytes} (hc : c.length ≤ 2 ^ 31 - 100) :
    parseRequest limit (wire (putRequest (some (.encrypted c)))) = some (some (.encrypted c)) := by
  refine request_law (fun d p hd hp => ?_) (fun d hd => ?_) ?_
  · cases hd; cases hp
  · cases hd
    show 3 ≤ limit
    omega
  · have h1 := encrypted_length (i := 3) (by decide) hc (by decide)
    have h2 := inner_length_bound (i := 1) (rs := [inner 3 (putEncrypted c)]) (by decide)
      (by rw [wire_single_length]; exact h1) (by decide)
    show (wire [inner 1 [inner 3 (putEncrypted c)]]).length < _
    rw [wire_single_length]
    unfold maxMessage
    omega

theorem leader_parse {limit : Nat} (hl : 8 ≤ limit) {r : PlainRequest} {c : Bytes}
    (hk : ∀ k ∈ r.dpfKeys, PirKey k) (hn : r.dpfKeys.length ≤ 2 ^ 18)
    (hc : c.length ≤ r.dpfKeys.length * 4006 + 1000029) :
    parseRequest limit (wire (putRequest (some (.leader (some r) (some c))))) =
      some (some (.leader (some r) (some c))) := by
  have hnest := plain_nesting hk
  refine request_law (fun d p hd hp => ?_) (fun d hd => ?_) ?_
  · cases hd; cases hp
    exact plain_inRange hk
  · cases hd
    show 3 + nestingPlain r ≤ limit
    omega
  · have h1 := encrypted_length (i := 2) (by decide) hc (by omega)
    have h2 := inner_length_bound (i := 1) (by decide) (plain_length hk) (by omega)
    have h3 : (wire (putLeader (some r, some c))).length ≤ r.dpfKeys.length * 8012 + 1000052 := by
      show (wire [inner 1 (putPlain r), inner 2 (putEncrypted c)]).length ≤ _
      rw [wire_cons, List.length_append, wire_single_length]
      omega
    have h4 := inner_length_bound (i := 2) (by decide) h3 (by omega)
    have h5 := inner_length_bound (i := 1) (rs := [inner 2 (putLeader (some r, some c))]) (by decide)
      (by rw [wire_single_length]; exact h4) (by omega)
    show (wire [inner 1 [inner 2 (putLeader (some r, some c))]]).length < _
    rw [wire_single_length]
    unfold maxMessage
    omega

/-! ### The leader's answer -/

theorem xorResponses_lengths {a b : List Bytes} (h : b.map List.length = a.map List.length) :
    (xorResponses a b).map List.length = a.map List.length := by
  induction a generalizing b with
  | nil => rfl
  | cons x a ih =>
    cases b with
    | nil => simp at h
    | cons y b =>
      simp only [List.map_cons, List.cons.injEq] at h
      show ((List.zipWith (· ^^^ ·) x y).length :: (xorResponses a b).map List.length) = _
      rw [ih h.2, List.length_zipWith, h.1, Nat.min_self]
      rfl

theorem remote_ok {limit : Nat} {handle : PirRequest → Res PirResponse} {request : PirRequest} {response : PirResponse}
    (h1 : parseRequest limit (wire (putRequest request)) = some request) (h2 : handle request = ok response)
    (h3 : parseResponse limit (wire (putResponse response)) = some response) :
    remote limit handle request = ok response := by
  unfold remote
  rw [h1]
  dsimp only
  rw [h2]
  dsimp only
  rw [h3]

/-- If the leader answers a request when it calls the helper directly, it gives the same answer when request, message to
the helper and both responses travel as bytes. -/
theorem network_leader {limit : Nat} (hl : 8 ≤ limit) {plain helper : PirRequest → Res PirResponse}
    {lengths : List Nat} (hans : ∀ request, AnswersOrRejects request lengths (plain request))
    {r : PlainRequest} {c : Bytes} (hk : ∀ k ∈ r.dpfKeys, PirKey k) (hn : r.dpfKeys.length ≤ 2 ^ 18)
    (hc : c.length ≤ r.dpfKeys.length * 4006 + 1000029)
    (hsz : r.dpfKeys.length * (lengths.map (· + 6)).sum ≤ 2 ^ 31 - 100) {response : PirResponse}
    (h : PirServer.handleLeaderRequest plain (fun request => (true, helper request))
      (some (.leader (some r) (some c))) = ok response) :
    remote limit (PirServer.handleLeaderRequest plain fun request => (true, remote limit helper request))
      (some (.leader (some r) (some c))) = ok response := by
  obtain ⟨plain', encrypted, own, other, e1, e2, e3, e4, e5⟩ := C37_response _ _ _ _ h
  cases e1
  have hown : totalBytes own.masked ≤ 2 ^ 31 - 100 := by
    rcases hans (some (.plain r)) with h0 | ⟨r', out, h1, h2, h3, h4⟩
    · rw [h0] at e3; cases e3
    · cases h1
      rw [h3] at e3
      cases e3
      show totalBytes out ≤ _
      rw [totalBytes_flatMap h4]
      exact hsz
  have hother : totalBytes other.masked ≤ 2 ^ 31 - 100 := by rw [totalBytes_congr e4]; exact hown
  have hresp : totalBytes response.masked ≤ 2 ^ 31 - 100 := by
    rw [e5, totalBytes_congr (xorResponses_lengths e4)]; exact hown
  have hhelper : helper (some (.encrypted c)) = ok other := (Prod.mk.inj e2).2
  have hremote : remote limit helper (some (.encrypted c)) = ok other :=
    remote_ok (encrypted_parse hl (by omega)) hhelper (response_parse (by omega) hother)
  refine remote_ok (leader_parse hl hk hn hc) ?_ (response_parse (by omega) hresp)
  rw [← h]
  unfold PirServer.handleLeaderRequest
  simp only [PirRequest.dpf, Option.getD_some]
  rw [hremote, hhelper]

/-! ### Requests -/

/-- What the dense client makes of any numbers, if it succeeds. -/
theorem dense_requests {fp : FpEnv} {l : Nat} (hl : l < 63) {c : DenseClient}
    (h : Dpf.create fp (pirParams l) = ok c.dpf) (hsize : c.databaseSize ≤ 2 ^ l) {env : Env}
    {queries : List Int} {seeds : Nat → U128 × U128} {random : Nat → BitVec 8}
    {r0 : PlainRequest} {m : HelperRequest} {state : ClientState} (hq : queries ≠ [])
    (hr : c.createPlainRequests env queries seeds random = ok (r0, m, state)) :
    HelperMessage queries.length m ∧ r0.dpfKeys.length = queries.length ∧ (∀ k ∈ r0.dpfKeys, PirKey k) ∧
      state = .dense m.oneTimePadSeed := by
  unfold DenseClient.createPlainRequests at hr
  obtain ⟨us, hrange, hr⟩ := bind_eq_ok.mp hr
  obtain ⟨keys, hk, hr⟩ := bind_eq_ok.mp hr
  have hmem : ∀ q ∈ queries, 0 ≤ q ∧ q < c.databaseSize := by
    obtain ⟨e1, e2⟩ := mapRes_eq_ok.mp hrange
    intro q hq
    obtain ⟨i, hi, rfl⟩ := List.mem_iff_getElem.mp hq
    have e3 := e2 i hi (by omega)
    obtain ⟨_, e4, e5⟩ := bind_eq_ok.mp e3
    have e4 := failIf_eq_ok.mp e4
    have e5 := failIf_eq_ok.mp e5
    omega
  have hcast : queries = (queries.map Int.toNat).map fun m : Nat => (m : Int) := by
    rw [List.map_map]
    conv => lhs; rw [← List.map_id queries]
    apply List.map_congr_left
    intro q hq
    have := hmem q hq
    simp only [id, Function.comp]
    omega
  rw [hcast] at hk
  obtain ⟨e1, e2⟩ := keysAll_shape hl h env seeds (ms := queries.map Int.toNat) (fun n hn => by
    obtain ⟨q, hq, rfl⟩ := List.mem_map.mp hn
    have := hmem q hq
    have h2 : q.toNat < 2 ^ l := by
      have : q < ((2 ^ l : Nat) : Int) := by
        rw [Int.natCast_pow]
        exact Int.lt_of_lt_of_le this.2 hsize
      omega
    exact Nat.lt_of_le_of_lt (Nat.div_le_self _ _) h2) hk
  rw [List.length_map] at e1
  have hne : keys ≠ [] := by
    intro h0
    rw [h0] at e1
    exact hq (List.length_eq_zero_iff.mp e1.symm)
  rw [if_neg hne] at hr
  cases hr
  refine ⟨⟨by simp [Prng.generateSeed, Prng.seedSize], _, rfl, by simpa using e1, ?_⟩, by simpa using e1, ?_, rfl⟩
  · intro k hk'
    obtain ⟨p, hp, rfl⟩ := List.mem_map.mp hk'
    exact (e2 p hp).2
  · intro k hk'
    obtain ⟨p, hp, rfl⟩ := List.mem_map.mp hk'
    exact (e2 p hp).1

/-- The request of a client, given what its plain requests are. -/
theorem createRequest_inv {codec : HelperCodec} {encrypter : CryptFn} {info : Bytes}
    {plain : Res (PlainRequest × HelperRequest × ClientState)} {request : PirRequest} {state : ClientState}
    (h : PirClient.createRequest codec encrypter info plain = ok (request, state)) :
    ∃ r m c, plain = ok (r, m, state) ∧ encrypter (codec.serialize m) info = ok c ∧
      request = some (.leader (some r) (some c)) := by
  unfold PirClient.createRequest at h
  obtain ⟨⟨r, m, s⟩, h1, h⟩ := bind_eq_ok.mp h
  obtain ⟨q, h2, h⟩ := bind_eq_ok.mp h
  unfold PirClient.plainRequestsToLeaderRequest at h2
  obtain ⟨c, h3, h2⟩ := bind_eq_ok.mp h2
  cases h2
  cases h
  exact ⟨r, m, c, h1, h3, rfl⟩

theorem setFingerprints_shape {f : Int} {r : PlainRequest} {m : HelperRequest} {n : Nat}
    (h1 : HelperMessage n m) (h2 : r.dpfKeys.length = n) (h3 : ∀ k ∈ r.dpfKeys, PirKey k) :
    HelperMessage n (setFingerprints f r m).2 ∧ (setFingerprints f r m).1.dpfKeys.length = n ∧
      ∀ k ∈ (setFingerprints f r m).1.dpfKeys, PirKey k := by
  obtain ⟨a1, r', a2, a3, a4⟩ := h1
  refine ⟨⟨a1, _, rfl, ?_, ?_⟩, h2, h3⟩
  · rw [a2]; exact a3
  · rw [a2]; exact a4

/-! ### State and parameters -/

theorem seed_length {i : Nat} (hi : i < 16) {s : Bytes} (h : s.length ≤ 2 ^ 30) :
    (wire (string i s)).length ≤ s.length + 6 := by
  unfold string
  split
  · simp [wire]
  · have h1 : (varint (8 * i + 2)).length ≤ 1 := varint_length_le (by omega) (by omega)
    have h2 : (varint s.length).length ≤ 5 := varint_length_le (by omega) (by omega)
    rw [wire_single_length, putRecord, List.length_append, List.length_append]
    omega

theorem dense_state_parse {limit : Nat} (hl : 1 ≤ limit) {s : Bytes} (h : s.length = 16) :
    parseState limit (wire (putState (.dense s))) = some (.dense s) := by
  refine state_law hl ?_
  have h1 := seed_length (i := 1) (s := s) (by decide) (by omega)
  have h2 := inner_length_bound (i := 1) (by decide) h1 (by omega)
  show (wire [inner 1 (string 1 s)]).length < _
  rw [wire_single_length]
  unfold maxMessage
  omega

theorem queries_length {s : Bytes} (h : s.length = 16) {qs : List Bytes} (hq : totalBytes qs ≤ 2 ^ 31 - 200) :
    (wire (putQueries (s, qs))).length ≤ 2 ^ 31 - 178 := by
  have h1 := seed_length (i := 1) (s := s) (by decide) (by omega)
  have h2 := strings_length (i := 2) (by decide) (l := qs) (by omega)
  show (wire (string 1 s ++ qs.map fun b => ((2, .bytes b) : Record))).length ≤ _
  rw [wire_append, List.length_append]
  omega

theorem cuckoo_state_parse {limit : Nat} (hl : 1 ≤ limit) {s : Bytes} (h : s.length = 16) {qs : List Bytes}
    (hq : totalBytes qs ≤ 2 ^ 31 - 200) :
    parseState limit (wire (putState (.cuckoo s qs))) = some (.cuckoo s qs) := by
  refine state_law hl ?_
  have h2 := inner_length_bound (i := 2) (by decide) (queries_length h hq) (by omega)
  show (wire [inner 2 (putQueries (s, qs))]).length < _
  rw [wire_single_length]
  unfold maxMessage
  omega

theorem simple_state_parse {limit : Nat} (hl : 1 ≤ limit) {s : Bytes} (h : s.length = 16) {qs : List Bytes}
    (hq : totalBytes qs ≤ 2 ^ 31 - 200) :
    parseState limit (wire (putState (.simple s qs))) = some (.simple s qs) := by
  refine state_law hl ?_
  have h2 := inner_length_bound (i := 3) (by decide) (queries_length h hq) (by omega)
  show (wire [inner 3 (putQueries (s, qs))]).length < _
  rw [wire_single_length]
  unfold maxMessage
  omega

theorem family_length {seed : Bytes} (h : seed.length ≤ 2 ^ 30) :
    (wire (putFamily ⟨1, seed⟩)).length ≤ 2 ^ 30 + 17 := by
  have h1 := number_length_le (i := 1) (n := signed 1) (by decide) (signed_lt _)
  have h2 := seed_length (i := 2) (s := seed) (by decide) h
  show (wire (number 1 (signed 1) ++ string 2 seed)).length ≤ _
  rw [wire_append, List.length_append]
  omega

theorem cuckoo_public_parse {limit : Nat} (hl : 2 ≤ limit) {seed : Bytes} (h : seed.length ≤ 2 ^ 30) {k n : Nat}
    (hk : k < 2 ^ 31) (hn : n < 2 ^ 63) :
    parsePublic limit (wire (putPublic (.cuckoo (cuckooParams seed k n)))) =
      some (.cuckoo (cuckooParams seed k n)) := by
  refine public_law (c := .cuckoo (cuckooParams seed k n)) ⟨(by decide : IsInt32 1), ⟨?_, ?_⟩, ?_, ?_⟩ hl ?_
  · show _ ≤ (k : Int); omega
  · show (k : Int) < _; omega
  · show _ ≤ (n : Int); omega
  · show (n : Int) < _; omega
  have h1 := inner_length_bound (i := 1) (by decide) (family_length h) (by decide)
  have h2 := number_length_le (i := 2) (n := signed (k : Int)) (by decide) (signed_lt _)
  have h3 := number_length_le (i := 3) (n := signed (n : Int)) (by decide) (signed_lt _)
  have h4 : (wire (putCuckoo (cuckooParams seed k n))).length ≤ 2 ^ 30 + 100 := by
    show (wire ([inner 1 (putFamily ⟨1, seed⟩)] ++ number 2 (signed k) ++ number 3 (signed n))).length ≤ _
    rw [wire_append, wire_append, List.length_append, List.length_append, wire_single_length]
    omega
  have h5 := inner_length_bound (i := 1) (by decide) h4 (by decide)
  show (wire [inner 1 (putCuckoo (cuckooParams seed k n))]).length < _
  rw [wire_single_length]
  unfold maxMessage
  omega

theorem simple_public_parse {limit : Nat} (hl : 2 ≤ limit) {seed : Bytes} (h : seed.length ≤ 2 ^ 30) {n : Nat}
    (hn : n < 2 ^ 63) :
    parsePublic limit (wire (putPublic (.simple (simpleParams seed n)))) = some (.simple (simpleParams seed n)) := by
  refine public_law (c := .simple (simpleParams seed n)) ⟨(by decide : IsInt32 1), ?_, ?_⟩ hl ?_
  · show _ ≤ (n : Int); omega
  · show (n : Int) < _; omega
  have h1 := inner_length_bound (i := 1) (by decide) (family_length h) (by decide)
  have h2 := number_length_le (i := 2) (n := signed (n : Int)) (by decide) (signed_lt _)
  have h4 : (wire (putSimple (simpleParams seed n))).length ≤ 2 ^ 30 + 100 := by
    show (wire ([inner 1 (putFamily ⟨1, seed⟩)] ++ number 2 (signed n))).length ≤ _
    rw [wire_append, List.length_append, wire_single_length]
    omega
  have h5 := inner_length_bound (i := 2) (by decide) h4 (by decide)
  show (wire [inner 2 (putSimple (simpleParams seed n))]).length < _
  rw [wire_single_length]
  unfold maxMessage
  omega

theorem dense_config_parse {limit : Nat} (hl : 1 ≤ limit) {n : Nat} (hn : n < 2 ^ 63) :
    parseConfig limit (wire (putConfig (.dense n))) = some (.dense n) := by
  refine config_law (c := .dense n) ⟨?_, ?_⟩ hl ?_
  · show _ ≤ (n : Int); omega
  · show (n : Int) < _; omega
  have h2 := number_length_le (i := 1) (n := signed (n : Int)) (by decide) (signed_lt _)
  have h5 := inner_length_bound (i := 1) (rs := putDenseConfig n) (by decide) h2 (by decide)
  show (wire [inner 1 (putDenseConfig n)]).length < _
  rw [wire_single_length]
  unfold maxMessage
  omega

end Verif
