import Verif.Lemmas.Safe
import Verif.Props.SparsePir
/-!
# C54–C56: responses of any kind, creation of sparse servers and clients, fingerprints
-/
namespace Verif
open Res Spec

/-! ## C54 -/

theorem mapRes_total {α β : Type} {f : α → Res β} {l : List α} (h : ∀ a ∈ l, ∃ b, f a = ok b) :
    ∃ bs, mapRes f l = ok bs := by
  induction l with
  | nil => exact ⟨[], rfl⟩
  | cons a l ih =>
    obtain ⟨b, hb⟩ := h a (by simp)
    obtain ⟨bs, hbs⟩ := ih fun a ha => h a (by simp [ha])
    exact ⟨b :: bs, by rw [mapRes_cons, hb, bind_ok, hbs, bind_ok]⟩

theorem denseResponse_ok (aes : AesBlock) (masked : List Bytes) (seed : Bytes) (h1 : masked ≠ [])
    (h2 : seed.length = 16) :
    DenseClient.handleResponse aes (some masked) (.dense seed) =
      ok (maskWith (maskStream aes seed) 0 masked) := by
  obtain ⟨prng, hp1, hp2⟩ := Prng.create_ok (aes := aes) (seed := seed)
    (nonce := List.replicate Prng.seedSize 0) h2 (by simp [Prng.seedSize])
  unfold DenseClient.handleResponse
  dsimp only
  rw [failIf_false h1, bind_ok, failIf_false (by rintro rfl; simp at h2), bind_ok]
  unfold Prng.create
  rw [hp1, bind_ok, maskAll_ok hp2]

/-- C54: whatever response and state the dense client is given, the result is INVALID_ARGUMENT or one
string for each string of the response, of the same length. It is the latter exactly if the response has a
string and the state is one of dense PIR with a seed of 16 bytes. -/
theorem C54_dense (aes : AesBlock) (response : PirResponse) (state : ClientState) :
    (∃ masked seed raw, response = some masked ∧ masked ≠ [] ∧ state = .dense seed ∧ seed.length = 16 ∧
      DenseClient.handleResponse aes response state = ok raw ∧
      raw.map List.length = masked.map List.length) ∨
    ((∀ masked seed, response = some masked → masked ≠ [] → state = .dense seed → seed.length ≠ 16) ∧
      DenseClient.handleResponse aes response state = err .invalidArgument) := by
  cases response with
  | none => right; exact ⟨fun _ _ h => (by cases h), rfl⟩
  | some masked =>
    cases state with
    | dense seed =>
      by_cases h1 : masked = []
      · right
        refine ⟨fun m s h h' => by cases h; exact absurd h1 h', ?_⟩
        unfold DenseClient.handleResponse
        dsimp only
        rw [failIf_true h1]
        rfl
      · by_cases h2 : seed.length = 16
        · left
          exact ⟨masked, seed, _, rfl, h1, rfl, h2, denseResponse_ok aes masked seed h1 h2,
            maskWith_lengths _ _ _⟩
        · right
          refine ⟨fun m s _ _ h => by cases h; exact h2, ?_⟩
          unfold DenseClient.handleResponse
          dsimp only
          rw [failIf_false h1, bind_ok]
          by_cases h3 : seed = []
          · rw [failIf_true h3]; rfl
          · rw [failIf_false h3, bind_ok]
            unfold Prng.create Prng.createWithNonce
            rw [failIf_true (by simpa [Prng.seedSize] using h2)]
            rfl
    | _ => right; exact ⟨fun _ _ _ _ h => (by cases h), rfl⟩

/-- C54: whatever response and state a cuckoo-hashing client is given, the result is INVALID_ARGUMENT or one
answer for each query in the state. -/
theorem C54_cuckoo (fp : FpEnv) (ceilLog2 : CeilLog2) (sha : Sha256) (params : PublicParams)
    (encrypter : Option CryptFn) (info : Bytes) (client : CuckooClient)
    (hc : CuckooClient.create fp ceilLog2 sha params encrypter info = ok client) (aes : AesBlock)
    (response : PirResponse) (state : ClientState) :
    client.handleResponse aes response state = err .invalidArgument ∨
    ∃ seed queries answers, state = .cuckoo seed queries ∧
      client.handleResponse aes response state = ok answers ∧ answers.length = queries.length := by
  have hk : 0 < client.hashFunctions.length := by
    unfold CuckooClient.create at hc
    match encrypter, params, hc with
    | none, _, hc => cases hc
    | some _, .notSet, hc => cases hc
    | some _, .simple _, hc => cases hc
    | some _, .cuckoo p, hc =>
      dsimp only at hc
      obtain ⟨_, _, hc⟩ := bind_eq_ok.mp hc
      obtain ⟨_, e1, hc⟩ := bind_eq_ok.mp hc
      obtain ⟨_, _, hc⟩ := bind_eq_ok.mp hc
      obtain ⟨_, _, hc⟩ := bind_eq_ok.mp hc
      obtain ⟨fs, e2, hc⟩ := bind_eq_ok.mp hc
      obtain ⟨_, _, hc⟩ := bind_eq_ok.mp hc
      cases hc
      unfold createHashFunctions at e2
      obtain ⟨_, _, e2⟩ := bind_eq_ok.mp e2
      cases e2
      have := failIf_eq_ok.mp e1
      rw [List.length_map, List.length_range]
      omega
  unfold CuckooClient.handleResponse
  match response, state with
  | none, _ => exact Or.inl rfl
  | some _, .dense _ => exact Or.inl rfl
  | some _, .simple _ _ => exact Or.inl rfl
  | some _, .notSet => exact Or.inl rfl
  | some masked, .cuckoo seed queries =>
    dsimp only
    by_cases h1 : queries.length * client.hashFunctions.length * 2 ≠ masked.length
    · left; rw [failIf_true h1]; rfl
    rw [failIf_false h1, bind_ok]
    have h1 : masked.length = queries.length * client.hashFunctions.length * 2 := by omega
    rcases C54_dense aes (some masked) (.dense seed) with ⟨m, s, raw, e1, e2, e3, e4, e5, e6⟩ | ⟨_, e⟩
    · cases e1
      right
      rw [e5, bind_ok, if_neg (by omega)]
      have hraw : raw.length = queries.length * client.hashFunctions.length * 2 := by
        rw [← h1]; simpa using congrArg List.length e6
      have hcount : raw.length / client.hashFunctions.length / 2 = queries.length := by
        rw [hraw, Nat.mul_right_comm, Nat.mul_div_cancel _ hk]
        omega
      rw [hcount]
      have hall : ∀ i ∈ List.range queries.length, ∃ a,
          (do let query ← rd queries i
              CuckooClient.lookUp raw client.hashFunctions.length i query) = ok a := by
        intro i hi
        have hi : i < queries.length := List.mem_range.mp hi
        rw [rd_lt hi, bind_ok]
        unfold CuckooClient.lookUp
        apply foldRes_total
        intro result j hj
        have hj : j < client.hashFunctions.length := List.mem_range.mp hj
        have hb : 2 * (client.hashFunctions.length * i + j) + 1 < raw.length := by
          have : client.hashFunctions.length * i + client.hashFunctions.length ≤
              client.hashFunctions.length * queries.length := by
            rw [← Nat.mul_succ]; exact Nat.mul_le_mul_left _ hi
          rw [hraw, Nat.mul_comm queries.length]
          omega
        unfold CuckooClient.lookUpAt
        cases result with
        | some v => exact ⟨_, rfl⟩
        | none =>
          dsimp only
          rw [rd_lt (by omega), bind_ok]
          split
          · rw [rd_lt hb]; exact ⟨_, rfl⟩
          · exact ⟨_, rfl⟩
      obtain ⟨answers, ha⟩ := mapRes_total hall
      exact ⟨seed, queries, answers, rfl, ha, by rw [mapRes_length ha, List.length_range]⟩
    · left; rw [e]; rfl

/-- C54 for the simple-hashing client, if the unmasked response has only buckets with at least as many
values as keys: the result is INVALID_ARGUMENT or one answer for each query in the state.

Missing: buckets with fewer values than keys. For these the statement is false, see `C54_simple_refuted`. -/
theorem C54_simple_partial (aes : AesBlock) (codec : BucketCodec)
    (response : PirResponse) (state : ClientState)
    (hcodec : ∀ seed queries raw, state = .simple seed queries →
      DenseClient.handleResponse aes response (.dense seed) = ok raw →
      ∀ b ∈ raw, (codec.parse b).keys.length ≤ (codec.parse b).values.length) :
    SimpleClient.handleResponse aes codec response state = err .invalidArgument ∨
    ∃ seed queries answers, state = .simple seed queries ∧
      SimpleClient.handleResponse aes codec response state = ok answers ∧
      answers.length = queries.length := by
  unfold SimpleClient.handleResponse
  match response, state, hcodec with
  | none, _, _ => exact Or.inl rfl
  | some _, .dense _, _ => exact Or.inl rfl
  | some _, .cuckoo _ _, _ => exact Or.inl rfl
  | some _, .notSet, _ => exact Or.inl rfl
  | some masked, .simple seed queries, hcodec =>
    replace hcodec := fun raw => hcodec seed queries raw rfl
    dsimp only
    by_cases h1 : queries.length ≠ masked.length
    · left; rw [failIf_true h1]; rfl
    rw [failIf_false h1, bind_ok]
    rcases C54_dense aes (some masked) (.dense seed) with ⟨m, s, raw, e1, e2, e3, e4, e5, e6⟩ | ⟨_, e⟩
    · cases e1
      right
      rw [e5, bind_ok]
      have hraw : raw.length = queries.length := by
        have : raw.length = masked.length := by simpa using congrArg List.length e6
        omega
      have hlook : ∀ (q : Bytes) (keys values : List Bytes), keys.length ≤ values.length →
          ∃ a, SimpleClient.lookUp q keys values = ok a := by
        intro q keys
        induction keys with
        | nil => intro values _; exact ⟨_, rfl⟩
        | cons k keys ih =>
          intro values h
          cases values with
          | nil => simp at h
          | cons v values =>
            rw [SimpleClient.lookUp]
            split
            · exact ⟨_, rfl⟩
            · exact ih values (by simpa using h)
      have hall : ∀ i ∈ List.range raw.length, ∃ a,
          (do let bytes ← rd raw i
              let bucket := codec.parse bytes
              let query ← rd queries i
              SimpleClient.lookUp query bucket.keys bucket.values) = ok a := by
        intro i hi
        have hi : i < raw.length := List.mem_range.mp hi
        rw [rd_lt hi, bind_ok]
        rw [rd_lt (by omega : i < queries.length), bind_ok]
        exact hlook _ _ _ (hcodec _ e5 _ (List.getElem_mem _))
      obtain ⟨answers, ha⟩ := mapRes_total hall
      exact ⟨seed, queries, answers, rfl, ha, by rw [mapRes_length ha, List.length_range, hraw]⟩
    · left; rw [e]; rfl

theorem lookUp_exact (query : Bytes) : ∀ (keys values : List Bytes),
    (HasValue query ⟨keys, values⟩ → SimpleClient.lookUp query keys values = ok (valueIn query ⟨keys, values⟩)) ∧
    (¬ HasValue query ⟨keys, values⟩ → SimpleClient.lookUp query keys values = ub)
  | [], values => ⟨fun _ => rfl, fun h => absurd (fun h' => absurd h' List.not_mem_nil) h⟩
  | key :: keys, values => by
    rw [SimpleClient.lookUp]
    by_cases hk : key = query
    · subst hk
      rw [if_pos rfl]
      constructor
      · intro h
        have hv : 0 < values.length := by simpa [HasValue] using h
        rw [rd_lt hv]
        simp [valueIn, hv]
      · intro h
        have hv : ¬ 0 < values.length := by simpa [HasValue] using h
        have : values = [] := List.eq_nil_of_length_eq_zero (by omega)
        rw [this]; rfl
    · rw [if_neg hk]
      have ih := lookUp_exact query keys values.tail
      have hb : (key == query) = false := by simpa using hk
      have h1 : HasValue query ⟨key :: keys, values⟩ ↔ HasValue query ⟨keys, values.tail⟩ := by
        simp only [HasValue, List.mem_cons, List.idxOf_cons, hb, cond_false, List.length_tail]
        constructor
        · intro h h'; have := h (Or.inr h'); omega
        · rintro h (h' | h')
          · exact absurd h'.symm hk
          · have := h h'; simp; omega
      have h2 : valueIn query ⟨key :: keys, values⟩ = valueIn query ⟨keys, values.tail⟩ := by
        have : query ∈ key :: keys ↔ query ∈ keys := by
          simp [show ¬ query = key from fun h => hk h.symm]
        simp [valueIn, this, List.idxOf_cons, hb]
      rw [h1, h2]
      exact ih

/-- C54 for the simple-hashing client, exactly: whatever the servers answer, if the buckets in the unmasked response
have a value wherever the query is found, these are the answers; otherwise the client reads out of bounds. -/
theorem C54_simple_exact (aes : AesBlock) (codec : BucketCodec) (masked : List Bytes) (seed : Bytes)
    (queries raw : List Bytes) (hlen : queries.length = masked.length)
    (hraw : DenseClient.handleResponse aes (some masked) (.dense seed) = ok raw) :
    ((∀ p ∈ queries.zip (raw.map codec.parse), HasValue p.1 p.2) →
      SimpleClient.handleResponse aes codec (some masked) (.simple seed queries) =
        ok ((queries.zip (raw.map codec.parse)).map fun p => valueIn p.1 p.2)) ∧
    ((∃ p ∈ queries.zip (raw.map codec.parse), ¬ HasValue p.1 p.2) →
      SimpleClient.handleResponse aes codec (some masked) (.simple seed queries) = ub) := by
  have hr : raw.length = queries.length := by
    rcases C54_dense aes (some masked) (.dense seed) with ⟨m, s, raw', e1, e2, e3, e4, e5, e6⟩ | ⟨_, e⟩
    · cases e1
      rw [hraw] at e5
      cases e5
      have : raw.length = masked.length := by simpa using congrArg List.length e6
      omega
    · rw [hraw] at e; cases e
  unfold SimpleClient.handleResponse
  dsimp only
  rw [failIf_false (by omega), bind_ok, hraw, bind_ok]
  have hstep : ∀ i (hi : i < raw.length),
      (do let bytes ← rd raw i
          let bucket := codec.parse bytes
          let query ← rd queries i
          SimpleClient.lookUp query bucket.keys bucket.values) =
        SimpleClient.lookUp (queries[i]'(by omega)) (codec.parse raw[i]).keys (codec.parse raw[i]).values := by
    intro i hi
    rw [rd_lt hi, bind_ok]
    dsimp only
    rw [rd_lt (by omega : i < queries.length), bind_ok]
  have hmem : ∀ i (hi : i < raw.length), (queries[i]'(by omega), codec.parse raw[i]) ∈
      queries.zip (raw.map codec.parse) := by
    intro i hi
    refine List.mem_iff_getElem.mpr ⟨i, by simp; omega, by simp⟩
  constructor
  · intro h
    rw [mapRes_eq_ok_map (g := fun i => valueIn (queries.getD i []) (codec.parse (raw.getD i [])))]
    · congr 1
      apply List.ext_getElem (by simp; omega)
      intro i h1 h2
      have h3 : i < raw.length := by simpa using h1
      have h4 : i < queries.length := by omega
      simp [h3, h4]
    · intro i hi
      have hi : i < raw.length := List.mem_range.mp hi
      have hq : i < queries.length := by omega
      rw [hstep i hi, (lookUp_exact _ _ _).1 (h _ (hmem i hi))]
      simp [hi, hq]
  · rintro ⟨p, hp, hnot⟩
    obtain ⟨i, hi, rfl⟩ := List.mem_iff_getElem.mp hp
    have hi' : i < raw.length := by simp at hi; omega
    refine mapRes_ub ?_ ⟨i, List.mem_range.mpr hi', ?_⟩
    · intro j hj
      rw [hstep j (List.mem_range.mp hj)]
      by_cases hv : HasValue (queries[j]'(by have := List.mem_range.mp hj; omega))
          ⟨(codec.parse (raw[j]'(List.mem_range.mp hj))).keys, (codec.parse (raw[j]'(List.mem_range.mp hj))).values⟩
      · exact Or.inl ⟨_, (lookUp_exact _ _ _).1 hv⟩
      · exact Or.inr ((lookUp_exact _ _ _).2 hv)
    · rw [hstep i hi']
      apply (lookUp_exact _ _ _).2
      simpa using hnot

/-- C54_simple_exact on an example: the second of two buckets has the query as its second key, but only one value. -/
example : SimpleClient.handleResponse exAes wireCodec (some (maskWith (maskStream exAes exSeed) 0
      [field 10 [1] ++ field 18 [7], field 10 [1] ++ field 10 [2] ++ field 18 [7]])) (.simple exSeed [[1], [2]]) = ub :=
  (C54_simple_exact exAes wireCodec _ exSeed [[1], [2]] _ (by decide +kernel)
    (Res.eq_ok_getD (by decide +kernel) [])).2 ⟨([2], ⟨[[1], [2]], [[7]]⟩), by decide +kernel, by
      unfold HasValue; decide +kernel⟩

/-- C54 on an example: an empty response string stands for a bucket without records. -/
example : SimpleClient.handleResponse exAes wireCodec (some [[]]) (.simple exSeed [[1]]) = ok [none] := by
  rcases C54_simple_partial exAes wireCodec (some [[]]) (.simple exSeed [[1]]) (by
      intro seed queries raw h1 h2
      cases h1
      rw [denseResponse_ok exAes [[]] exSeed (by simp) (by decide)] at h2
      cases h2
      decide) with h | ⟨_, _, _, _, _, _⟩
  · exact absurd h (by decide +kernel)
  · decide +kernel

/-- C54 on an example: the seed has the wrong length. -/
example : DenseClient.handleResponse exAes (some [[1, 2]]) (.dense [7]) = err .invalidArgument := by
  rcases C54_dense exAes (some [[1, 2]]) (.dense [7]) with ⟨_, _, _, _, _, h, h', _⟩ | ⟨_, h⟩
  · cases h; cases h'
  · exact h

/-- The full C54 is false for the simple-hashing client: for every state with a query there is a response
with which it reads beyond the values of the bucket. The bucket in it has the query as key but no value. -/
theorem C54_simple_refuted (aes : AesBlock) (seed : Bytes) (hs : seed.length = 16) (query : Bytes) :
    ∃ response, SimpleClient.handleResponse aes wireCodec response (.simple seed [query]) = ub := by
  refine ⟨some (maskWith (maskStream aes seed) 0 [field 10 query]), ?_⟩
  unfold SimpleClient.handleResponse
  dsimp only
  rw [failIf_false (by simp [maskWith]), bind_ok, denseResponse_ok aes _ seed (by simp [maskWith]) hs, bind_ok]
  have hun : maskWith (maskStream aes seed) 0 (maskWith (maskStream aes seed) 0 [field 10 query]) =
      [field 10 query] := by
    have := unmask (maskStream aes seed) [List.replicate (field 10 query).length 0] [field 10 query] 0
      (by simp)
    have hx : ∀ s : Bytes, List.zipWith (· ^^^ ·) (List.replicate s.length 0) s = s := by
      intro s
      induction s with
      | nil => rfl
      | cons b s ih => simpa [List.replicate_succ] using ih
    have e1 : xorResponses [List.replicate (field 10 query).length 0] [field 10 query] = [field 10 query] := by
      show [List.zipWith (· ^^^ ·) _ _] = _
      rw [hx]
    have e2 : xorResponses [List.replicate (field 10 query).length 0]
        (maskWith (maskStream aes seed) 0 [field 10 query]) =
        maskWith (maskStream aes seed) 0 [field 10 query] := by
      have hl := maskWith_lengths (maskStream aes seed) [field 10 query] 0
      generalize maskWith (maskStream aes seed) 0 [field 10 query] = m at hl
      match m, hl with
      | [], hl => simp at hl
      | _ :: _ :: _, hl => simp at hl
      | [m], hl =>
        have hl : m.length = (field 10 query).length := by simpa using hl
        show [List.zipWith (· ^^^ ·) _ _] = _
        rw [← hl, hx]
    rw [e1, e2] at this
    exact this
  rw [hun]
  have hparse : wireCodec.parse (field 10 query) = ⟨[query], []⟩ := by
    have := readFields_keys [query] ⟨[], []⟩ [] ((field 10 query).length - 1)
    have hl : [query].length + ((field 10 query).length - 1) = (field 10 query).length := by
      simp [field]; omega
    have hf : [query].flatMap (field 10) ++ [] = field 10 query := by simp
    rw [hl, hf] at this
    show readFields _ _ _ = _
    rw [this]
    have := readFields_zeros ((field 10 query).length - 1) 0 ⟨[] ++ [query], []⟩
    exact this
  show mapRes _ [0] = ub
  rw [mapRes_cons]
  show (SimpleClient.lookUp query (wireCodec.parse (field 10 query)).keys
    (wireCodec.parse (field 10 query)).values >>= _) = _
  rw [hparse]
  show (SimpleClient.lookUp query [query] [] >>= _) = _
  rw [SimpleClient.lookUp, if_pos rfl]
  rfl

/-! ## C55 -/

/-- C55: a plain cuckoo-hashing server is created exactly if there are a positive number of buckets, a
positive number of hash functions and a hash family, and a database with one selection bit for each bucket;
otherwise the result is INVALID_ARGUMENT. -/
theorem C55_cuckoo_server (fp : FpEnv) (ceilLog2 : CeilLog2) (sha : Sha256) (params : CuckooParams)
    (db : Option CuckooDb) (h63 : params.numBuckets < 2 ^ 63)
    (hc : Plausible ceilLog2) :
    if 0 < params.numBuckets ∧ 0 < params.numHashFunctions ∧ params.hashFamilyConfig.hashFamily ≠ 0 ∧
        ∃ d, db = some d ∧ (d.numSelectionBits : Int) = params.numBuckets then
      ∃ server, CuckooServer.createPlain fp ceilLog2 sha params db = ok server ∧
        server.params = .cuckoo params ∧ some server.db = db ∧ server.role = .plain
    else CuckooServer.createPlain fp ceilLog2 sha params db = err .invalidArgument := by
  unfold CuckooServer.createPlain
  by_cases h1 : params.numBuckets ≤ 0
  · rw [if_neg (by omega), failIf_true h1]; rfl
  rw [failIf_false h1, bind_ok]
  by_cases h2 : params.numHashFunctions ≤ 0
  · rw [if_neg (by omega), failIf_true h2]; rfl
  rw [failIf_false h2, bind_ok]
  by_cases h3 : params.hashFamilyConfig.hashFamily = 0
  · rw [if_neg (fun h => h.2.2.1 h3), failIf_true h3]; rfl
  rw [failIf_false h3, bind_ok]
  cases db with
  | none => rw [if_neg (by rintro ⟨_, _, _, d, h, _⟩; cases h)]
  | some d =>
    dsimp only
    by_cases h4 : (d.numSelectionBits : Int) ≠ params.numBuckets
    · rw [if_neg, failIf_true h4]
      · rfl
      · rintro ⟨_, _, _, d', h, h'⟩
        cases h
        exact h4 h'
    rw [if_pos ⟨by omega, by omega, h3, d, rfl, by omega⟩, failIf_false h4, bind_ok]
    obtain ⟨m, hm⟩ := Int.eq_ofNat_of_zero_le (by omega : 0 ≤ params.numBuckets)
    obtain ⟨l, e1, e3⟩ := hc.nat m (by omega) (by omega)
    obtain ⟨dpf, hd⟩ := pirDpf_exists fp (l := l) (by omega)
    have hd' : Dpf.create fp (pirParameters ceilLog2 params.numBuckets) = ok dpf := by
      rw [hm]
      unfold pirParameters
      rw [e1]
      exact hd
    obtain ⟨f, hf⟩ := fingerprint_ok sha params.hashFamilyConfig
    rw [hd', bind_ok, hf, bind_ok]
    exact ⟨_, rfl, rfl, rfl, rfl⟩

/-- C55: a plain simple-hashing server is created exactly if there are a positive number of buckets and a
hash family, and a database with one selection bit for each bucket; otherwise the result is
INVALID_ARGUMENT. -/
theorem C55_simple_server (fp : FpEnv) (ceilLog2 : CeilLog2) (sha : Sha256) (params : SimpleParams)
    (db : Option SimpleDb) (h63 : params.numBuckets < 2 ^ 63)
    (hc : Plausible ceilLog2) :
    if 0 < params.numBuckets ∧ params.hashFamilyConfig.hashFamily ≠ 0 ∧
        ∃ d, db = some d ∧ (d.numSelectionBits : Int) = params.numBuckets then
      ∃ server, SimpleServer.createPlain fp ceilLog2 sha params db = ok server ∧
        server.params = .simple params ∧ some server.db = db ∧ server.role = .plain
    else SimpleServer.createPlain fp ceilLog2 sha params db = err .invalidArgument := by
  unfold SimpleServer.createPlain
  by_cases h1 : params.numBuckets ≤ 0
  · rw [if_neg (by omega), failIf_true h1]; rfl
  rw [failIf_false h1, bind_ok]
  by_cases h3 : params.hashFamilyConfig.hashFamily = 0
  · rw [if_neg (fun h => h.2.1 h3), failIf_true h3]; rfl
  rw [failIf_false h3, bind_ok]
  cases db with
  | none => rw [if_neg (by rintro ⟨_, _, d, h, _⟩; cases h)]
  | some d =>
    dsimp only
    by_cases h4 : (d.numSelectionBits : Int) ≠ params.numBuckets
    · rw [if_neg, failIf_true h4]
      · rfl
      · rintro ⟨_, _, d', h, h'⟩
        cases h
        exact h4 h'
    rw [if_pos ⟨by omega, h3, d, rfl, by omega⟩, failIf_false h4, bind_ok]
    obtain ⟨m, hm⟩ := Int.eq_ofNat_of_zero_le (by omega : 0 ≤ params.numBuckets)
    obtain ⟨l, e1, e3⟩ := hc.nat m (by omega) (by omega)
    obtain ⟨dpf, hd⟩ := pirDpf_exists fp (l := l) (by omega)
    have hd' : Dpf.create fp (pirParameters ceilLog2 params.numBuckets) = ok dpf := by
      rw [hm]
      unfold pirParameters
      rw [e1]
      exact hd
    obtain ⟨f, hf⟩ := fingerprint_ok sha params.hashFamilyConfig
    rw [hd', bind_ok, hf, bind_ok]
    exact ⟨_, rfl, rfl, rfl, rfl⟩

/-- C55: leaders need a sender and helpers a decrypter; otherwise they are created like plain servers. -/
theorem C55_roles (fp : FpEnv) (ceilLog2 : CeilLog2) (sha : Sha256) :
    (∀ params db server, CuckooServer.createPlain fp ceilLog2 sha params db = ok server →
      CuckooServer.createLeader fp ceilLog2 sha params db none = err .invalidArgument ∧
      CuckooServer.createHelper fp ceilLog2 sha params db none = err .invalidArgument ∧
      (∀ sender, CuckooServer.createLeader fp ceilLog2 sha params db (some sender) =
        ok { server with role := .leader sender }) ∧
      (∀ decrypter, CuckooServer.createHelper fp ceilLog2 sha params db (some decrypter) =
        ok { server with role := .helper decrypter (stringBytes "CuckooHashingSparseDpfPirServer") })) ∧
    (∀ params db server, SimpleServer.createPlain fp ceilLog2 sha params db = ok server →
      SimpleServer.createLeader fp ceilLog2 sha params db none = err .invalidArgument ∧
      SimpleServer.createHelper fp ceilLog2 sha params db none = err .invalidArgument ∧
      (∀ sender, SimpleServer.createLeader fp ceilLog2 sha params db (some sender) =
        ok { server with role := .leader sender }) ∧
      (∀ decrypter, SimpleServer.createHelper fp ceilLog2 sha params db (some decrypter) =
        ok { server with role := .helper decrypter (stringBytes "SimpleHashingSparseDpfPirServer") })) := by
  constructor
  · intro params db server h
    unfold CuckooServer.createLeader CuckooServer.createHelper
    rw [h]
    exact ⟨rfl, rfl, fun _ => rfl, fun _ => rfl⟩
  · intro params db server h
    unfold SimpleServer.createLeader SimpleServer.createHelper
    rw [h]
    exact ⟨rfl, rfl, fun _ => rfl, fun _ => rfl⟩

theorem family_cases (sha : Sha256) (config : HashFamilyConfig) :
    if config.seed ≠ [] ∧ config.hashFamily = 1 then ∃ f, createHashFamilyFromConfig sha config = ok f
    else createHashFamilyFromConfig sha config = err .invalidArgument := by
  unfold createHashFamilyFromConfig
  by_cases h1 : config.seed = []
  · rw [if_neg (fun h => h.1 h1), failIf_true h1]; rfl
  rw [failIf_false h1, bind_ok]
  by_cases h2 : config.hashFamily = 1
  · rw [if_pos ⟨h1, h2⟩, if_pos h2]; exact ⟨_, rfl⟩
  · rw [if_neg (fun h => h2 h.2), if_neg h2]

open Classical in
/-- C55: a cuckoo-hashing client is created exactly if there is an encrypter and the parameters are those
of cuckoo hashing, with a positive number of buckets, a positive number of hash functions, the SHA-256 hash
family (1) and a seed; otherwise the result is INVALID_ARGUMENT. -/
theorem C55_cuckoo_client (fp : FpEnv) (ceilLog2 : CeilLog2) (sha : Sha256) (params : PublicParams)
    (encrypter : Option CryptFn) (info : Bytes)
    (h63 : ∀ p, params = .cuckoo p → p.numBuckets < 2 ^ 63)
    (hc : Plausible ceilLog2) :
    if encrypter ≠ none ∧ ∃ p, params = .cuckoo p ∧ 0 < p.numBuckets ∧ 0 < p.numHashFunctions ∧
        p.hashFamilyConfig.hashFamily = 1 ∧ p.hashFamilyConfig.seed ≠ [] then
      ∃ client, CuckooClient.create fp ceilLog2 sha params encrypter info = ok client
    else CuckooClient.create fp ceilLog2 sha params encrypter info = err .invalidArgument := by
  unfold CuckooClient.create
  match encrypter, params, h63 with
  | none, _, _ => rw [if_neg (fun h => h.1 rfl)]
  | some _, .notSet, _ => rw [if_neg (by rintro ⟨_, p, h, _⟩; cases h)]
  | some _, .simple _, _ => rw [if_neg (by rintro ⟨_, p, h, _⟩; cases h)]
  | some e, .cuckoo p, h63 =>
    have h63 := h63 p rfl
    dsimp only
    by_cases h1 : p.numBuckets ≤ 0
    · rw [if_neg (by rintro ⟨_, p', h, h', _⟩; cases h; omega), failIf_true h1]; rfl
    rw [failIf_false h1, bind_ok]
    by_cases h2 : p.numHashFunctions ≤ 0
    · rw [if_neg (by rintro ⟨_, p', h, _, h', _⟩; cases h; omega), failIf_true h2]; rfl
    rw [failIf_false h2, bind_ok]
    have hfam := family_cases sha p.hashFamilyConfig
    by_cases h3 : p.hashFamilyConfig.seed ≠ [] ∧ p.hashFamilyConfig.hashFamily = 1
    · rw [if_pos h3] at hfam
      obtain ⟨family, hfam⟩ := hfam
      rw [if_pos ⟨by simp, p, rfl, by omega, by omega, h3.2, h3.1⟩, hfam, bind_ok]
      obtain ⟨f, hf⟩ := fingerprint_ok sha p.hashFamilyConfig
      obtain ⟨m, hm⟩ := Int.eq_ofNat_of_zero_le (by omega : 0 ≤ p.numBuckets)
      obtain ⟨client, hcl⟩ := (C52_client fp ceilLog2 (.dense p.numBuckets) (some dummyEncrypter) [] hc).1
        m _ (by rw [hm]) (by omega) (by omega) rfl
      rw [hf, bind_ok]
      unfold createHashFunctions
      rw [failIf_false (by omega), bind_ok, bind_ok, hcl, bind_ok]
      exact ⟨_, rfl⟩
    · rw [if_neg h3] at hfam
      rw [if_neg, hfam]
      · rfl
      · rintro ⟨_, p', h, _, _, h5, h6⟩
        cases h
        exact h3 ⟨h6, h5⟩

open Classical in
/-- C55: a simple-hashing client is created exactly if there is an encrypter and the parameters are those
of simple hashing, with a positive number of buckets, the SHA-256 hash family (1) and a seed; otherwise the
result is INVALID_ARGUMENT. -/
theorem C55_simple_client (fp : FpEnv) (ceilLog2 : CeilLog2) (sha : Sha256) (params : PublicParams)
    (encrypter : Option CryptFn) (info : Bytes)
    (h63 : ∀ p, params = .simple p → p.numBuckets < 2 ^ 63)
    (hc : Plausible ceilLog2) :
    if encrypter ≠ none ∧ ∃ p, params = .simple p ∧ 0 < p.numBuckets ∧
        p.hashFamilyConfig.hashFamily = 1 ∧ p.hashFamilyConfig.seed ≠ [] then
      ∃ client, SimpleClient.create fp ceilLog2 sha params encrypter info = ok client
    else SimpleClient.create fp ceilLog2 sha params encrypter info = err .invalidArgument := by
  unfold SimpleClient.create
  match encrypter, params, h63 with
  | none, _, _ => rw [if_neg (fun h => h.1 rfl)]
  | some _, .notSet, _ => rw [if_neg (by rintro ⟨_, p, h, _⟩; cases h)]
  | some _, .cuckoo _, _ => rw [if_neg (by rintro ⟨_, p, h, _⟩; cases h)]
  | some e, .simple p, h63 =>
    have h63 := h63 p rfl
    dsimp only
    by_cases h1 : p.numBuckets ≤ 0
    · rw [if_neg (by rintro ⟨_, p', h, h', _⟩; cases h; omega), failIf_true h1]; rfl
    rw [failIf_false h1, bind_ok]
    have hfam := family_cases sha p.hashFamilyConfig
    by_cases h3 : p.hashFamilyConfig.seed ≠ [] ∧ p.hashFamilyConfig.hashFamily = 1
    · rw [if_pos h3] at hfam
      obtain ⟨family, hfam⟩ := hfam
      rw [if_pos ⟨by simp, p, rfl, by omega, h3.2, h3.1⟩, hfam, bind_ok]
      obtain ⟨f, hf⟩ := fingerprint_ok sha p.hashFamilyConfig
      obtain ⟨m, hm⟩ := Int.eq_ofNat_of_zero_le (by omega : 0 ≤ p.numBuckets)
      obtain ⟨client, hcl⟩ := (C52_client fp ceilLog2 (.dense p.numBuckets) (some dummyEncrypter) [] hc).1
        m _ (by rw [hm]) (by omega) (by omega) rfl
      rw [hf, bind_ok]
      unfold createHashFunctions
      rw [failIf_false (by omega), bind_ok, bind_ok]
      rw [show rd ((List.range (1 : Int).toNat).map fun i => family (stringBytes (toString i)))
        (((List.range (1 : Int).toNat).map fun i => family (stringBytes (toString i))).length - 1) =
        ok (family (stringBytes (toString 0))) from rfl, bind_ok, hcl, bind_ok]
      exact ⟨_, rfl⟩
    · rw [if_neg h3] at hfam
      rw [if_neg, hfam]
      · rfl
      · rintro ⟨_, p', h, _, h5, h6⟩
        cases h
        exact h3 ⟨h6, h5⟩

/-- C55 on an example: the client rejects parameters without a seed. -/
example : CuckooClient.create exFp exCeilLog2 exSha (.cuckoo (cuckooParams [] 3 7)) (some fun m _ => ok m) [] =
    err .invalidArgument := by
  have := C55_cuckoo_client exFp exCeilLog2 exSha (.cuckoo (cuckooParams [] 3 7)) (some fun m _ => ok m) []
    (by rintro p h; cases h; decide) (exCeilLog2_plausible)
  rwa [if_neg (by rintro ⟨_, p, h, _, _, _, h'⟩; cases h; exact h' rfl)] at this

/-! ## C56 -/

theorem seedFingerprint_eq (sha : Sha256) (config : HashFamilyConfig) :
    seedFingerprint sha config = ok ((fingerprintOf sha config.seed : Nat) : Int) :=
  sha_hashFunction_ok sha [] config.seed (n := 2147483647) (by decide) (by decide)

theorem fingerprint_lt (sha : Sha256) (seed : Bytes) : fingerprintOf sha seed < 2 ^ 31 := by
  have : fingerprintOf sha seed < 2 ^ 31 - 1 := Nat.mod_lt _ (by decide)
  omega

theorem checkFingerprint_err {r : PlainRequest} {a b : Nat} (ha : a < 2 ^ 31) (hb : b < 2 ^ 31)
    (h0 : a ≠ 0) (hab : a ≠ b) (hr : r.seedFingerprint = BitVec.ofInt 32 (a : Int)) :
    checkFingerprint r (b : Int) = err .invalidArgument := by
  unfold checkFingerprint
  rw [failIf_true]
  rw [hr]
  constructor
  · intro h
    have := congrArg BitVec.toNat h
    simp at this
    omega
  · intro h
    have := congrArg BitVec.toNat h
    simp at this
    omega

theorem setFingerprints_fst (f : Int) (r : PlainRequest) (h : HelperRequest) :
    (setFingerprints f r h).1.seedFingerprint = BitVec.ofInt 32 f := rfl

theorem CuckooServer.created_fingerprint {fp : FpEnv} {ceilLog2 : CeilLog2} {sha : Sha256}
    {params : CuckooParams} {db : Option CuckooDb} {server : CuckooServer}
    (h : CuckooServer.createPlain fp ceilLog2 sha params db = ok server) :
    server.fingerprint = (fingerprintOf sha params.hashFamilyConfig.seed : Nat) := by
  unfold CuckooServer.createPlain at h
  obtain ⟨_, _, h⟩ := bind_eq_ok.1 h
  obtain ⟨_, _, h⟩ := bind_eq_ok.1 h
  obtain ⟨_, _, h⟩ := bind_eq_ok.1 h
  cases db with
  | none => cases h
  | some d =>
    dsimp only at h
    obtain ⟨_, _, h⟩ := bind_eq_ok.1 h
    obtain ⟨_, _, h⟩ := bind_eq_ok.1 h
    rw [seedFingerprint_eq, bind_ok] at h
    cases h
    rfl

theorem SimpleServer.created_fingerprint {fp : FpEnv} {ceilLog2 : CeilLog2} {sha : Sha256}
    {params : SimpleParams} {db : Option SimpleDb} {server : SimpleServer}
    (h : SimpleServer.createPlain fp ceilLog2 sha params db = ok server) :
    server.fingerprint = (fingerprintOf sha params.hashFamilyConfig.seed : Nat) := by
  unfold SimpleServer.createPlain at h
  obtain ⟨_, _, h⟩ := bind_eq_ok.1 h
  obtain ⟨_, _, h⟩ := bind_eq_ok.1 h
  cases db with
  | none => cases h
  | some d =>
    dsimp only at h
    obtain ⟨_, _, h⟩ := bind_eq_ok.1 h
    obtain ⟨_, _, h⟩ := bind_eq_ok.1 h
    rw [seedFingerprint_eq, bind_ok] at h
    cases h
    rfl

theorem CuckooClient.created_fingerprint {fp : FpEnv} {ceilLog2 : CeilLog2} {sha : Sha256}
    {params : CuckooParams} {encrypter : Option CryptFn} {info : Bytes} {client : CuckooClient}
    (h : CuckooClient.create fp ceilLog2 sha (.cuckoo params) encrypter info = ok client) :
    client.fingerprint = (fingerprintOf sha params.hashFamilyConfig.seed : Nat) := by
  unfold CuckooClient.create at h
  cases encrypter with
  | none => cases h
  | some e =>
    dsimp only at h
    obtain ⟨_, _, h⟩ := bind_eq_ok.1 h
    obtain ⟨_, _, h⟩ := bind_eq_ok.1 h
    obtain ⟨_, _, h⟩ := bind_eq_ok.1 h
    rw [seedFingerprint_eq, bind_ok] at h
    obtain ⟨_, _, h⟩ := bind_eq_ok.1 h
    obtain ⟨_, _, h⟩ := bind_eq_ok.1 h
    cases h
    rfl

theorem SimpleClient.created_fingerprint {fp : FpEnv} {ceilLog2 : CeilLog2} {sha : Sha256}
    {params : SimpleParams} {encrypter : Option CryptFn} {info : Bytes} {client : SimpleClient}
    (h : SimpleClient.create fp ceilLog2 sha (.simple params) encrypter info = ok client) :
    client.fingerprint = (fingerprintOf sha params.hashFamilyConfig.seed : Nat) := by
  unfold SimpleClient.create at h
  cases encrypter with
  | none => cases h
  | some e =>
    dsimp only at h
    obtain ⟨_, _, h⟩ := bind_eq_ok.1 h
    obtain ⟨_, _, h⟩ := bind_eq_ok.1 h
    rw [seedFingerprint_eq, bind_ok] at h
    obtain ⟨_, _, h⟩ := bind_eq_ok.1 h
    obtain ⟨_, _, h⟩ := bind_eq_ok.1 h
    obtain ⟨_, _, h⟩ := bind_eq_ok.1 h
    cases h
    rfl

theorem CuckooServer.rejects {env : Env} {simd : SimdEnv} {s : CuckooServer} {r : PlainRequest}
    (h : checkFingerprint r s.fingerprint = err .invalidArgument) :
    s.handlePlainRequest env simd (some (.plain r)) = err .invalidArgument := by
  unfold CuckooServer.handlePlainRequest
  dsimp only
  by_cases h1 : r.dpfKeys.length = 0
  · rw [failIf_true h1]; rfl
  · rw [failIf_false h1, bind_ok, h]; rfl

theorem SimpleServer.rejects {env : Env} {simd : SimdEnv} {s : SimpleServer} {r : PlainRequest}
    (h : checkFingerprint r s.fingerprint = err .invalidArgument) :
    s.handlePlainRequest env simd (some (.plain r)) = err .invalidArgument := by
  unfold SimpleServer.handlePlainRequest
  dsimp only
  by_cases h1 : r.dpfKeys.length = 0
  · rw [failIf_true h1]; rfl
  · rw [failIf_false h1, bind_ok, h]; rfl

/-- C56: a server and a client created with parameters that have different seeds. If the fingerprints of the
seeds differ (and the client's is not zero, which stands for no fingerprint), the server rejects all plain
requests of the client. -/
theorem C56_cuckoo (fp fp' : FpEnv) (ceilLog2 ceilLog2' : CeilLog2) (sha : Sha256)
    (params params' : CuckooParams) (db : Option CuckooDb) (encrypter : Option CryptFn) (info : Bytes)
    (server : CuckooServer) (client : CuckooClient)
    (hs : CuckooServer.createPlain fp ceilLog2 sha params db = ok server)
    (hcl : CuckooClient.create fp' ceilLog2' sha (.cuckoo params') encrypter info = ok client)
    (hdiff : fingerprintOf sha params'.hashFamilyConfig.seed ≠ fingerprintOf sha params.hashFamilyConfig.seed)
    (h0 : fingerprintOf sha params'.hashFamilyConfig.seed ≠ 0) (env env' : Env) (queries : List Bytes)
    (seeds : Nat → U128 × U128) (random : Nat → BitVec 8) (simd : SimdEnv) (request0 : PlainRequest)
    (helper : HelperRequest) (state : ClientState)
    (hr : client.createPlainRequests env' queries seeds random = ok (request0, helper, state)) :
    server.handlePlainRequest env simd (some (.plain request0)) = err .invalidArgument ∧
    ∃ request1, helper.plainRequest = some request1 ∧
      server.handlePlainRequest env simd (some (.plain request1)) = err .invalidArgument := by
  have q1 := CuckooServer.created_fingerprint hs
  have q2 := CuckooClient.created_fingerprint hcl
  have hlt := fingerprint_lt sha
  unfold CuckooClient.createPlainRequests at hr
  obtain ⟨_, _, hr⟩ := bind_eq_ok.1 hr
  obtain ⟨r, _, hr⟩ := bind_eq_ok.1 hr
  dsimp only at hr
  rw [q2] at hr
  cases hr
  refine ⟨CuckooServer.rejects ?_, _, rfl, CuckooServer.rejects ?_⟩ <;> rw [q1]
  · exact checkFingerprint_err (hlt _) (hlt _) h0 hdiff rfl
  · exact checkFingerprint_err (hlt _) (hlt _) h0 hdiff rfl

/-- C56 for simple hashing. -/
theorem C56_simple (fp fp' : FpEnv) (ceilLog2 ceilLog2' : CeilLog2) (sha : Sha256)
    (params params' : SimpleParams) (db : Option SimpleDb) (encrypter : Option CryptFn) (info : Bytes)
    (server : SimpleServer) (client : SimpleClient)
    (hs : SimpleServer.createPlain fp ceilLog2 sha params db = ok server)
    (hcl : SimpleClient.create fp' ceilLog2' sha (.simple params') encrypter info = ok client)
    (hdiff : fingerprintOf sha params'.hashFamilyConfig.seed ≠ fingerprintOf sha params.hashFamilyConfig.seed)
    (h0 : fingerprintOf sha params'.hashFamilyConfig.seed ≠ 0) (env env' : Env) (queries : List Bytes)
    (seeds : Nat → U128 × U128) (random : Nat → BitVec 8) (simd : SimdEnv) (request0 : PlainRequest)
    (helper : HelperRequest) (state : ClientState)
    (hr : client.createPlainRequests env' queries seeds random = ok (request0, helper, state)) :
    server.handlePlainRequest env simd (some (.plain request0)) = err .invalidArgument ∧
    ∃ request1, helper.plainRequest = some request1 ∧
      server.handlePlainRequest env simd (some (.plain request1)) = err .invalidArgument := by
  have q1 := SimpleServer.created_fingerprint hs
  have q2 := SimpleClient.created_fingerprint hcl
  have hlt := fingerprint_lt sha
  unfold SimpleClient.createPlainRequests at hr
  obtain ⟨_, _, hr⟩ := bind_eq_ok.1 hr
  obtain ⟨r, _, hr⟩ := bind_eq_ok.1 hr
  dsimp only at hr
  rw [q2] at hr
  cases hr
  refine ⟨SimpleServer.rejects ?_, _, rfl, SimpleServer.rejects ?_⟩ <;> rw [q1]
  · exact checkFingerprint_err (hlt _) (hlt _) h0 hdiff rfl
  · exact checkFingerprint_err (hlt _) (hlt _) h0 hdiff rfl

/-- C56 on an example: the database of C45 with the seed `[9]`, a client with the seed `[8]`. -/
example : ∃ server client request0 helper state,
    CuckooServer.createPlain exFp exCeilLog2 exSha (cuckooParams [9] 3 7) (some exCuckooDb) = ok server ∧
    CuckooClient.create exFp exCeilLog2 exSha (.cuckoo (cuckooParams [8] 3 7)) (some fun m _ => ok m) [] =
      ok client ∧
    client.createPlainRequests exEnv [[1], [2, 2]] (fun i => (BitVec.ofNat 128 i, 5#128)) (fun _ => 3) =
      ok (request0, helper, state) ∧
    server.handlePlainRequest exEnv exSimd (some (.plain request0)) = err .invalidArgument := by
  have key : ∀ d : CuckooDb, d.numSelectionBits = 7 → ∃ server,
      CuckooServer.createPlain exFp exCeilLog2 exSha (cuckooParams [9] 3 7) (some d) = ok server := by
    intro d hd
    have hs := C55_cuckoo_server exFp exCeilLog2 exSha (cuckooParams [9] 3 7) (some d)
      (by decide) (exCeilLog2_plausible)
    rw [if_pos ⟨by decide, by decide, by decide, d, rfl, by rw [hd]; rfl⟩] at hs
    obtain ⟨server, hs, _⟩ := hs
    exact ⟨server, hs⟩
  obtain ⟨server, hs⟩ := key exCuckooDb (by decide +kernel)
  let cl := CuckooClient.create exFp exCeilLog2 exSha (.cuckoo (cuckooParams [8] 3 7)) (some fun m _ => ok m) []
  have hr : ((do
      let client ← cl
      let r ← client.createPlainRequests exEnv [[1], [2, 2]] (fun i => (BitVec.ofNat 128 i, 5#128)) (fun _ => 3)
      ok r.1.dpfKeys.length) : Res Nat) = ok 6 := by decide +kernel
  obtain ⟨client, hcl, hr⟩ := bind_eq_ok.1 hr
  obtain ⟨⟨request0, helper, state⟩, hr, _⟩ := bind_eq_ok.1 hr
  exact ⟨server, client, request0, helper, state, hs, hcl, hr,
    (C56_cuckoo exFp exFp exCeilLog2 exCeilLog2 exSha _ _ _ _ [] server client hs hcl (by decide +kernel)
      (by decide +kernel) exEnv exEnv _ _ _ exSimd request0 helper state hr).1⟩

/-- C54 on an example: a cuckoo client and an arbitrary response. -/
example (aes : AesBlock) (response : PirResponse) : ∃ client,
    CuckooClient.create exFp exCeilLog2 exSha (.cuckoo (cuckooParams [8] 3 7)) (some fun m _ => ok m) [] = ok client ∧
    (client.handleResponse aes response (.cuckoo exSeed [[1], [2, 2]]) = err .invalidArgument ∨
      ∃ answers, client.handleResponse aes response (.cuckoo exSeed [[1], [2, 2]]) = ok answers ∧ answers.length = 2) := by
  have h := C55_cuckoo_client exFp exCeilLog2 exSha (.cuckoo (cuckooParams [8] 3 7)) (some fun m _ => ok m) []
    (by rintro p h; cases h; decide) (exCeilLog2_plausible)
  rw [if_pos ⟨by simp, _, rfl, by decide, by decide, by decide, by decide⟩] at h
  obtain ⟨client, h⟩ := h
  refine ⟨client, h, ?_⟩
  rcases C54_cuckoo _ _ _ _ _ _ client h aes response (.cuckoo exSeed [[1], [2, 2]]) with h1 | ⟨s, q, a, h1, h2, h3⟩
  · exact Or.inl h1
  · cases h1; exact Or.inr ⟨a, h2, h3⟩

/-- C55 and C56 on an example: server and client for simple hashing, and a client with another seed. -/
example (db : SimpleDb) (hn : db.numSelectionBits = 7) : ∃ server client,
    SimpleServer.createPlain exFp exCeilLog2 exSha (simpleParams [9] 7) (some db) = ok server ∧
    SimpleClient.create exFp exCeilLog2 exSha (.simple (simpleParams [8] 7)) (some fun m _ => ok m) [] = ok client ∧
    ∀ request0 helper state, client.createPlainRequests exEnv [[1]] (fun _ => (1, 2)) (fun _ => 3) =
        ok (request0, helper, state) →
      server.handlePlainRequest exEnv exSimd (some (.plain request0)) = err .invalidArgument := by
  have h := C55_simple_server exFp exCeilLog2 exSha (simpleParams [9] 7) (some db) (by decide) exCeilLog2_plausible
  rw [if_pos ⟨by decide, by decide, db, rfl, by rw [hn]; rfl⟩] at h
  obtain ⟨server, h, _⟩ := h
  have h' := C55_simple_client exFp exCeilLog2 exSha (.simple (simpleParams [8] 7)) (some fun m _ => ok m) []
    (by rintro p h; cases h; decide) exCeilLog2_plausible
  rw [if_pos ⟨by simp, _, rfl, by decide, by decide, by decide⟩] at h'
  obtain ⟨client, h'⟩ := h'
  refine ⟨server, client, h, h', fun request0 helper state hr => ?_⟩
  exact (C56_simple _ _ _ _ _ _ _ _ _ _ _ _ h h' (by decide +kernel) (by decide +kernel) _ _ _ _ _ _ _ _ _ hr).1

end Verif
