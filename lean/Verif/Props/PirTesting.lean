import Verif.Lemmas.PirTesting
import Verif.Lemmas.PirKeys
import Verif.Lemmas.Accept
import Verif.Props.DensePir
/-!
# Properties of the helpers for tests of PIR: C72
-/
namespace Verif
open Res Spec

/-! ### Selection bits -/

/-- C72: packing up to 2^31 bits gives the smallest number of blocks with room for them; bit `i` of the blocks is
bit `i` of the input, and the bits left over are zero. -/
theorem C72_pack_partial (bits : List Bool) (h : bits.length ≤ 2 ^ 31) :
    ∃ blocks, PirTesting.packSelectionBits bits = ok blocks ∧ blocks.length = (bits.length + 127) / 128 ∧
      ∀ i, selectionBit blocks i = bits.getD i false :=
  PirTesting.packSelectionBits_ok h

/-- 130 bits in two blocks. -/
example : ∃ blocks, PirTesting.packSelectionBits ((List.range 130).map fun i => i % 3 == 0) = ok blocks ∧
    blocks.length = 2 ∧ selectionBit blocks 129 = true := by
  obtain ⟨blocks, h1, h2, h3⟩ := C72_pack_partial ((List.range 130).map fun i => i % 3 == 0) (by simp)
  exact ⟨blocks, h1, by simpa using h2, by rw [h3]; decide⟩

/-- C72, refuted for more bits: the number of the first bit of a block, an `int`, overflows. -/
theorem C72_pack_refuted (bits : List Bool) (h : 2 ^ 31 < bits.length) (h' : bits.length ≤ 2 ^ 37) :
    PirTesting.packSelectionBits bits = ub := by
  unfold PirTesting.packSelectionBits
  have hw : wrapInt32 (((bits.length + 127) / 128 : Nat) : Int) = ((bits.length + 127) / 128 : Nat) :=
    wrapInt32_of_lt (by omega)
  rw [hw, if_neg (by omega), Int.toNat_natCast]
  apply mapRes_ub
  · intro i _
    by_cases hi : i * 128 < 2 ^ 31
    · obtain ⟨b, h1, _⟩ := PirTesting.packBlock_ok (bits := bits) hi
      exact Or.inl ⟨b, h1⟩
    · right
      unfold PirTesting.packBlock
      rw [if_pos (by omega)]
  · refine ⟨2 ^ 24, List.mem_range.mpr (by omega), ?_⟩
    unfold PirTesting.packBlock
    rw [if_pos (by decide)]

/-- C72: `InnerProductWithUnpacked` returns the XOR of the selected values, continued by zeros to the length of
the longest value, whether it is selected or not; different numbers of values and bits are rejected. -/
theorem C72_reference_partial (bits : List Bool) (values : List Bytes) :
    (values.length = bits.length → bits.length < 2 ^ 31 →
      PirTesting.innerProductWithUnpacked bits values =
        ok (xorPadded (maxLength values) (selectedRecords values fun i => bits.getD i false))) ∧
    (values.length ≠ bits.length →
      PirTesting.innerProductWithUnpacked bits values = err .invalidArgument) := by
  refine ⟨PirTesting.innerProductWithUnpacked_ok, fun h => ?_⟩
  unfold PirTesting.innerProductWithUnpacked
  rw [failIf_true h]; rfl

/-- C72: on a database with a record that is not empty, the inner product with the packed bits is the reference
result. -/
theorem C72_agrees_partial (simd : SimdEnv) (hs : SimdOk simd) (bits : List Bool) (values : List Bytes)
    (hlen : values.length = bits.length) (h31 : bits.length < 2 ^ 31) (hne : ∃ v ∈ values, v ≠ []) :
    ∃ blocks result, PirTesting.packSelectionBits bits = ok blocks ∧
      PirTesting.innerProductWithUnpacked bits values = ok result ∧
      innerProduct simd values [blocks] (maxLength values) = ok [result] := by
  obtain ⟨blocks, h1, h2, h3⟩ := C72_pack_partial bits (by omega)
  refine ⟨blocks, _, h1, (C72_reference_partial bits values).1 hlen h31, ?_⟩
  have hmax : 0 < maxLength values := by
    obtain ⟨r, hr, h0⟩ := hne
    have := length_le_maxLength hr
    have := List.length_pos_iff.mpr h0
    omega
  rw [C32_inner_product_partial simd hs values [blocks] (maxLength values) blocks.length hmax (by simp)
    (by omega) (by omega) (by omega) (fun v hv => length_le_maxLength hv), List.map_cons, List.map_nil]
  rw [show selectionBit blocks = fun i => bits.getD i false from funext h3]

/-- C72: random packed bits: as many blocks as needed, each of its own random number. -/
theorem C72_random_bits_partial (random : Nat → U128) (n : Nat) (h : n + 127 < 2 ^ 31) :
    ∃ blocks, PirTesting.generateRandomPackedSelectionBits random n = ok blocks ∧
      blocks.length = (n + 127) / 128 ∧ ∀ i b, blocks[i]? = some b → b = random i := by
  unfold PirTesting.generateRandomPackedSelectionBits
  have hi : intRange ((n : Int) + 127) = ok ((n : Int) + 127) := by
    unfold intRange
    rw [if_pos (by omega)]
  have hd : ((n : Int) + 127).tdiv 128 = ((n + 127) / 128 : Nat) := by
    rw [show (n : Int) + 127 = ((n + 127 : Nat) : Int) by omega]
    rfl
  rw [hi, bind_ok, hd, if_neg (by omega), Int.toNat_natCast]
  refine ⟨_, rfl, by simp, fun i b hb => ?_⟩
  rw [List.getElem?_map] at hb
  cases h2 : (List.range ((n + 127) / 128))[i]? with
  | none => rw [h2] at hb; cases hb
  | some j =>
    obtain ⟨h3, h4⟩ := List.getElem?_eq_some_iff.mp h2
    rw [List.getElem_range] at h4
    rw [h2] at hb
    cases hb
    rw [h4]

example (random : Nat → U128) : ∃ blocks, PirTesting.generateRandomPackedSelectionBits random 130 = ok blocks ∧
    blocks.length = 2 := by
  obtain ⟨blocks, h1, h2, _⟩ := C72_random_bits_partial random 130 (by decide)
  exact ⟨blocks, h1, h2⟩

/-- C72 on an example: 130 bits of which every third is set, and records of different lengths. -/
example : ∃ blocks result,
    PirTesting.packSelectionBits ((List.range 130).map fun i => i % 3 == 0) = ok blocks ∧
    PirTesting.innerProductWithUnpacked ((List.range 130).map fun i => i % 3 == 0)
      ((List.range 130).map fun i => List.replicate (i % 5) (BitVec.ofNat 8 i)) = ok result ∧
    innerProduct exSimd ((List.range 130).map fun i => List.replicate (i % 5) (BitVec.ofNat 8 i)) [blocks]
      (maxLength ((List.range 130).map fun i => List.replicate (i % 5) (BitVec.ofNat 8 i))) = ok [result] :=
  C72_agrees_partial exSimd exSimd_ok _ _ (by simp) (by simp)
    ⟨[1], List.mem_map.mpr ⟨1, List.mem_range.mpr (by decide), rfl⟩, by simp⟩

/-! ### Databases -/

/-- C72: counting strings are the prefix followed by the number in decimal; negative numbers of strings are
rejected. -/
theorem C72_counting (n : Int) (pre : Bytes) :
    (0 ≤ n → ∃ r, PirTesting.generateCountingStrings n pre = ok r ∧ r.length = n.toNat ∧
      ∀ i v, r[i]? = some v → ∃ t, v = pre ++ t ∧ IsDecimal t i) ∧
    (n < 0 → PirTesting.generateCountingStrings n pre = err .invalidArgument) := by
  unfold PirTesting.generateCountingStrings
  constructor
  · intro h
    rw [failIf_false (by omega), bind_ok]
    refine ⟨_, rfl, by simp, fun i v hv => ?_⟩
    rw [List.getElem?_map] at hv
    cases h2 : (List.range n.toNat)[i]? with
    | none => rw [h2] at hv; cases hv
    | some j =>
      obtain ⟨h3, h4⟩ := List.getElem?_eq_some_iff.mp h2
      rw [List.getElem_range] at h4
      rw [h2] at hv
      cases hv
      exact ⟨_, rfl, h4 ▸ PirTesting.decimal_toString i⟩
  · intro h
    rw [failIf_true h]; rfl

/-- C72 on an example. -/
example : ∃ r, PirTesting.generateCountingStrings 12 [120] = ok r ∧ r[11]? = some [120, 49, 49] :=
  ⟨_, rfl, by decide +kernel⟩

/-- C72: random strings have the sizes asked for; negative sizes are rejected. -/
theorem C72_random_strings (random : Nat → Nat → BitVec 8) (sizes : List Int) :
    ((∀ s ∈ sizes, 0 ≤ s) → ∃ r, PirTesting.generateRandomStrings random sizes = ok r ∧
      r.map (fun v => (v.length : Int)) = sizes) ∧
    ((∃ s ∈ sizes, s < 0) → PirTesting.generateRandomStrings random sizes = err .invalidArgument) :=
  ⟨PirTesting.generateRandomStrings_ok, PirTesting.generateRandomStrings_err⟩

/-- C72: random strings of one size. -/
theorem C72_equal_sizes (random : Nat → Nat → BitVec 8) (n size : Int) :
    (0 ≤ n → 0 ≤ size → ∃ r, PirTesting.generateRandomStringsEqualSize random n size = ok r ∧
      r.length = n.toNat ∧ ∀ v ∈ r, (v.length : Int) = size) ∧
    (n < 0 ∨ size < 0 → PirTesting.generateRandomStringsEqualSize random n size = err .invalidArgument) := by
  unfold PirTesting.generateRandomStringsEqualSize
  constructor
  · intro h0 h1
    rw [failIf_false (by omega), bind_ok, failIf_false (by omega), bind_ok]
    obtain ⟨r, e1, e2⟩ := PirTesting.generateRandomStrings_ok (random := random)
      (sizes := List.replicate n.toNat size) (fun s hs => by rw [(List.mem_replicate.mp hs).2]; exact h1)
    refine ⟨r, e1, by simpa using congrArg List.length e2, fun v hv => ?_⟩
    have : (v.length : Int) ∈ List.replicate n.toNat size := e2 ▸ List.mem_map.mpr ⟨v, hv, rfl⟩
    exact (List.mem_replicate.mp this).2
  · intro h
    by_cases h0 : n < 0
    · rw [failIf_true h0]; rfl
    · rw [failIf_false h0, bind_ok, failIf_true (by omega)]; rfl

/-- C72: random strings of different sizes. If the numbers drawn are at most `diff` in absolute value, `diff` is
at most `avg`, and `avg + diff` is an `int`, there are `n` strings whose sizes differ from `avg` by at most
`diff`. Negative arguments are rejected. -/
theorem C72_variable_sizes_partial (random : Nat → Nat → BitVec 8) (draws : Nat → Int) (n avg diff : Int)
    (hd : ∀ i, -diff ≤ draws i ∧ draws i ≤ diff) :
    (0 ≤ n → 0 ≤ diff → diff ≤ avg → avg + diff < 2 ^ 31 →
      ∃ r, PirTesting.generateRandomStringsVariableSize random draws n avg diff = ok r ∧
        r.length = n.toNat ∧ ∀ v ∈ r, avg - diff ≤ (v.length : Int) ∧ (v.length : Int) ≤ avg + diff) ∧
    (n < 0 ∨ avg < 0 ∨ diff < 0 →
      PirTesting.generateRandomStringsVariableSize random draws n avg diff = err .invalidArgument) := by
  unfold PirTesting.generateRandomStringsVariableSize
  constructor
  · intro h0 h1 h2 h3
    rw [failIf_false (by omega), bind_ok, failIf_false (by omega), bind_ok, failIf_false (by omega), bind_ok]
    have key : ∀ i ∈ List.range n.toNat, intRange (avg + draws i) = ok (avg + draws i) := by
      intro i _
      have := hd i
      unfold intRange
      rw [if_pos (by omega)]
    rw [mapRes_eq_ok_map key, bind_ok]
    obtain ⟨r, e1, e2⟩ := PirTesting.generateRandomStrings_ok (random := random)
      (sizes := (List.range n.toNat).map fun i => avg + draws i) (fun s hs => by
        obtain ⟨i, _, rfl⟩ := List.mem_map.mp hs
        have := hd i
        omega)
    refine ⟨r, e1, by simpa using congrArg List.length e2, fun v hv => ?_⟩
    have : (v.length : Int) ∈ (List.range n.toNat).map fun i => avg + draws i :=
      e2 ▸ List.mem_map.mpr ⟨v, hv, rfl⟩
    obtain ⟨i, _, e⟩ := List.mem_map.mp this
    have := hd i
    omega
  · intro h
    by_cases h0 : n < 0
    · rw [failIf_true h0]; rfl
    · rw [failIf_false h0, bind_ok]
      by_cases h1 : avg < 0
      · rw [failIf_true h1]; rfl
      · rw [failIf_false h1, bind_ok, failIf_true (by omega)]; rfl

/-- C72 on an example: five strings of two to three bytes. -/
example : ∃ r, PirTesting.generateRandomStringsVariableSize (fun i j => BitVec.ofNat 8 (7 * i + j))
    (fun i => if i % 2 = 0 then -1 else 0) 5 3 1 = ok r ∧ r.length = 5 ∧
      ∀ v ∈ r, (2 : Int) ≤ (v.length : Int) ∧ (v.length : Int) ≤ 4 :=
  (C72_variable_sizes_partial _ _ 5 3 1 (fun i => by split <;> omega)).1 (by decide) (by decide)
    (by decide) (by decide)

/-- C72, refuted for `diff > avg`: all arguments are acceptable, but if a number below `-avg` is drawn, the
result is an error. -/
theorem C72_variable_sizes_refuted (random : Nat → Nat → BitVec 8) :
    PirTesting.generateRandomStringsVariableSize random (fun _ => -2) 1 1 2 = err .invalidArgument := by
  unfold PirTesting.generateRandomStringsVariableSize
  rw [failIf_false (by decide), bind_ok, failIf_false (by decide), bind_ok]
  exact PirTesting.generateRandomStrings_err (random := random) (sizes := [-1]) ⟨-1, by simp, by decide⟩

/-- C72: a fake database without a builder of the caller's own is the database of the given elements; with one, it
is what this builder makes after inserting the elements, and the builder is used up. -/
theorem C72_database (elements : List Bytes) (db : DenseDb) (builder : DenseBuilder) :
    ((PirTesting.createFakeDatabase elements none).1 = ok db ↔ BuiltFrom elements db) ∧
    (∀ before, builder = before.foldl DenseBuilder.insert DenseBuilder.new →
      ((PirTesting.createFakeDatabase elements (some builder)).1 = ok db ↔ BuiltFrom (before ++ elements) db) ∧
      ∃ b, (PirTesting.createFakeDatabase elements (some builder)).2 = some b ∧
        ∀ more, (PirTesting.createFakeDatabase more (some b)).1 = err .failedPrecondition) := by
  refine ⟨Iff.rfl, ?_⟩
  rintro before rfl
  have hb : ∀ (l : List Bytes) (b : DenseBuilder), (l.foldl DenseBuilder.insert b).built = b.built := by
    intro l
    induction l with
    | nil => intro b; rfl
    | cons a l ih => intro b; rw [List.foldl_cons, ih]; rfl
  constructor
  · unfold BuiltFrom PirTesting.createFakeDatabase
    rw [List.foldl_append]
    rfl
  · refine ⟨_, rfl, fun more => ?_⟩
    unfold PirTesting.createFakeDatabase
    dsimp only
    have : ∀ b : DenseBuilder, b.built = true → b.build.1 = err .failedPrecondition := by
      intro b h
      unfold DenseBuilder.build
      rw [if_pos h]
    apply this
    rw [hb, Option.getD_some]
    unfold DenseBuilder.build
    rw [hb, Option.getD_some, hb]
    rfl

/-! ### Requests -/

/-- C72: a request generator made for the number of records makes the requests a client makes with the same random
numbers: both servers answer, and XORing the answers gives the records asked for. -/
theorem C72_requests_partial (fp : FpEnv) (env : Env) (ceilLog2 : CeilLog2) (simd0 simd1 : SimdEnv)
    (ok0 : SimdOk simd0) (ok1 : SimdOk simd1) (records : List Bytes) (db : DenseDb)
    (hdb : BuiltFrom records db) (hne : ∃ r ∈ records, r ≠ []) (hc : ExactAt ceilLog2 records.length)
    (hman : Manageable records.length simd0 simd1) (info : Bytes) (random : Nat → BitVec 8) :
    ∃ server g,
      DenseServer.createPlain fp ceilLog2 (.dense records.length) (some db) = ok server ∧
      PirTesting.RequestGenerator.create fp ceilLog2 random records.length info = ok g ∧
      ∀ queries : List Nat, queries ≠ [] → (∀ q ∈ queries, q < records.length) →
      ∀ seeds : Nat → U128 × U128,
        ∃ request0 request1 response0 response1,
          g.createPlainRequests env (queries.map fun q : Nat => (q : Int)) seeds = ok (request0, request1) ∧
          server.handlePlainRequest env simd0 (some (.plain request0)) = ok (some response0) ∧
          server.handlePlainRequest env simd1 (some (.plain request1)) = ok (some response1) ∧
          xorResponses response0 response1 = answer records queries := by
  obtain ⟨server, client, h1, h2, h3⟩ := C34_dense_partial fp env ceilLog2 simd0 simd1 ok0 ok1 records db
    hdb hne hc hman (fun m _ => ok m) info
  have h31 : records.length < 2 ^ 31 := by
    rcases hman with h | ⟨_, _, h⟩ <;> omega
  obtain ⟨l, d, _, hle, hl31, hd, hd'⟩ := pirDpf_of_exact fp hc (by omega)
  have hpos : 0 < records.length := by
    obtain ⟨r, hr, _⟩ := hne
    exact List.length_pos_of_mem hr
  rw [DenseClient.create_ok hpos h31 hd] at h2
  cases h2
  refine ⟨server, ⟨d, Prng.generateSeed random, info, records.length⟩, h1, ?_, ?_⟩
  · unfold PirTesting.RequestGenerator.create
    rw [failIf_false (by omega), bind_ok, hd, bind_ok]
  intro queries hqn hq seeds
  obtain ⟨req0, req1, seed, state, r0, r1, a1, a2, a3, _, _, _, a7⟩ := h3 queries hqn hq seeds random
  refine ⟨req0, req1, r0, r1, PirTesting.createPlainRequests_of_client rfl rfl (fun q hq' => ?_) a1, a2, a3, a7⟩
  have := hq q hq'
  show (q : Int) < (records.length : Int)
  omega

/-- C72 on an example: requests for the third and the first of three records. -/
example : ∃ server g request0 request1 response0 response1,
    DenseServer.createPlain exFp exCeilLog2 (.dense 3) (some ((exRecords.foldl DenseBuilder.insert
      DenseBuilder.new).build.1.getD ⟨0, [], 0, []⟩)) = ok server ∧
    PirTesting.RequestGenerator.create exFp exCeilLog2 (fun _ => 5) 3 [] = ok g ∧
    g.createPlainRequests exEnv [2, 0] (fun i => (BitVec.ofNat 128 i, 77)) = ok (request0, request1) ∧
    server.handlePlainRequest exEnv exSimd (some (.plain request0)) = ok (some response0) ∧
    server.handlePlainRequest exEnv exSimd (some (.plain request1)) = ok (some response1) ∧
    xorResponses response0 response1 =
      [[4, 5, 6] ++ List.replicate 16 0, List.replicate 19 1] := by
  have hdb : BuiltFrom exRecords ((exRecords.foldl DenseBuilder.insert DenseBuilder.new).build.1.getD
      ⟨0, [], 0, []⟩) := Res.eq_ok_getD (by decide +kernel) _
  obtain ⟨server, g, h1, h2, h3⟩ := C72_requests_partial exFp exEnv exCeilLog2 exSimd exSimd exSimd_ok
    exSimd_ok exRecords _ hdb ⟨[4, 5, 6], by simp [exRecords], by simp⟩ ⟨2, by decide, by decide, by decide⟩
    (Or.inl (by decide)) [] (fun _ => 5)
  obtain ⟨a, b, e, f, h4, h5, h6, h7⟩ := h3 [2, 0] (by simp) (by decide) (fun i => (BitVec.ofNat 128 i, 77))
  exact ⟨server, g, a, b, e, f, h1, h2, h4, h5, h6, h7.trans (by decide +kernel)⟩

/-- C72: request generators for databases without elements, and requests with an index outside of the database, are
rejected. -/
theorem C72_rejects (fp : FpEnv) (env : Env) (ceilLog2 : CeilLog2) (random : Nat → BitVec 8) (info : Bytes) :
    (∀ n ≤ 0, PirTesting.RequestGenerator.create fp ceilLog2 random n info = err .invalidArgument) ∧
    ∀ n : Nat, n < 2 ^ 31 → ExactAt ceilLog2 n → ∀ g,
      PirTesting.RequestGenerator.create fp ceilLog2 random n info = ok g →
      ∀ indices : List Int, (∃ i ∈ indices, i < 0 ∨ (n : Int) ≤ i) → ∀ seeds,
        g.createPlainRequests env indices seeds = err .invalidArgument := by
  constructor
  · intro n hn
    unfold PirTesting.RequestGenerator.create
    rw [failIf_true (by omega)]; rfl
  · intro n hn hc g hg indices hi seeds
    obtain ⟨l, d, _, hle, hl31, hd, hd'⟩ := pirDpf_of_exact fp hc (by omega)
    unfold PirTesting.RequestGenerator.create at hg
    obtain ⟨_, _, hg⟩ := bind_eq_ok.mp hg
    rw [hd, bind_ok] at hg
    cases hg
    have hbad : ∀ x : Int × Nat, (x.1 < 0 ∨ (n : Int) ≤ x.1) →
        PirTesting.RequestGenerator.keysAt ⟨d, Prng.generateSeed random, info, n⟩ env seeds x =
          err .invalidArgument := by
      intro x hx
      unfold PirTesting.RequestGenerator.keysAt
      by_cases h0 : x.1 < 0
      · rw [failIf_true h0]; rfl
      · rw [failIf_false h0, bind_ok, failIf_true (show x.1 ≥ (n : Int) by omega)]; rfl
    unfold PirTesting.RequestGenerator.createPlainRequests
    rw [Dpf.mapRes_err (c := .invalidArgument)]
    · rfl
    · intro x _
      by_cases hx : x.1 < 0 ∨ (n : Int) ≤ x.1
      · exact Or.inr (hbad x hx)
      · left
        rw [PirTesting.keysAt_eq (by omega) (show x.1 < (n : Int) by omega)]
        have hx' : x.1 = ((x.1.toNat : Nat) : Int) := by omega
        rw [hx']
        obtain ⟨k0, k1, _, _, h1, _⟩ := keysFor_ok (by omega) hd' env (m := x.1.toNat)
          (Nat.lt_of_le_of_lt (Nat.div_le_self _ 128) (by omega)) (seeds x.2)
        exact ⟨_, h1⟩
    · obtain ⟨i, hi, h0⟩ := hi
      obtain ⟨j, hj, rfl⟩ := List.mem_iff_getElem.mp hi
      refine ⟨(indices[j], j), ?_, hbad _ h0⟩
      rw [List.mem_zipIdx_iff_getElem?]
      exact List.getElem?_eq_getElem hj

/-- C72: the leader request of a request generator, sent to a leader that asks a helper, gets an answer from which
the generator's one-time-pad seed recovers the records asked for. -/
theorem C72_leader_partial (fp : FpEnv) (env : Env) (aes : AesBlock) (codec : HelperCodec)
    (ceilLog2 : CeilLog2) (simd0 simd1 : SimdEnv) (ok0 : SimdOk simd0) (ok1 : SimdOk simd1)
    (records : List Bytes) (db : DenseDb) (hdb : BuiltFrom records db) (hne : ∃ r ∈ records, r ≠ [])
    (hc : ExactAt ceilLog2 records.length) (hman : Manageable records.length simd0 simd1)
    (encrypter decrypter : CryptFn) (hcrypt : Decrypts encrypter decrypter DenseServer.contextInfo)
    (sender : Sender) (random : Nat → BitVec 8) :
    ∃ leader helper g,
      DenseServer.createLeader fp ceilLog2 (.dense records.length) (some db) (some sender) = ok leader ∧
      DenseServer.createHelper fp ceilLog2 (.dense records.length) (some db) (some decrypter) =
        ok helper ∧
      PirTesting.RequestGenerator.create fp ceilLog2 random records.length DenseServer.contextInfo = ok g ∧
      ((∀ request, sender request = (true, helper.handleRequest codec aes env simd1 request)) →
        ∀ queries : List Nat, queries ≠ [] → (∀ q ∈ queries, q < records.length) →
        (∀ m, HelperMessage queries.length m → codec.parse (codec.serialize m) = some m) →
        ∀ seeds : Nat → U128 × U128,
          ∃ request response,
            PirTesting.RequestGenerator.createLeaderRequest codec (ok encrypter) g env
              (queries.map fun q : Nat => (q : Int)) seeds = ok request ∧
            leader.handleRequest codec aes env simd0 (some request) = ok response ∧
            DenseClient.handleResponse aes response (.dense g.otpSeed) = ok (answer records queries)) := by
  obtain ⟨leader, helper, client, h1, h2, h3, h4⟩ := C36_end_to_end_partial fp env aes codec ceilLog2 simd0
    simd1 ok0 ok1 records db hdb hne hc hman encrypter decrypter hcrypt sender
  have h31 : records.length < 2 ^ 31 := by
    rcases hman with h | ⟨_, _, h⟩ <;> omega
  obtain ⟨l, d, _, hle, hl31, hd, hd'⟩ := pirDpf_of_exact fp hc (by omega)
  have hpos : 0 < records.length := by
    obtain ⟨r, hr, _⟩ := hne
    exact List.length_pos_of_mem hr
  rw [DenseClient.create_ok hpos h31 hd] at h3
  cases h3
  refine ⟨leader, helper, ⟨d, Prng.generateSeed random, DenseServer.contextInfo, records.length⟩, h1, h2, ?_, ?_⟩
  · unfold PirTesting.RequestGenerator.create
    rw [failIf_false (by omega), bind_ok, hd, bind_ok]
  intro hsend queries hqn hq hcodec seeds
  obtain ⟨request, state, response, b1, b2, b3⟩ := h4 hsend queries hqn hq hcodec seeds random
  obtain ⟨keys, _, _, k1, k2, _⟩ := keysAll_ok (by omega : l < 63) hd' env seeds queries 0 (fun q hq' => by
    have := hq q hq'
    exact Nat.lt_of_le_of_lt (Nat.div_le_self _ 128) (by omega))
  have hk : keys ≠ [] := by
    rintro rfl
    exact hqn (List.length_eq_zero_iff.mp k2.symm)
  have a1 := createPlainRequests_eq (c := ⟨d, encrypter, DenseServer.contextInfo, records.length⟩) rfl env queries
    hq seeds random k1
  rw [if_neg hk] at a1
  unfold DenseClient.createRequest PirClient.createRequest at b1
  rw [a1, bind_ok] at b1
  unfold PirClient.plainRequestsToLeaderRequest at b1
  obtain ⟨req', b4, b5⟩ := bind_eq_ok.mp b1
  obtain ⟨c, b6, b7⟩ := bind_eq_ok.mp b4
  cases b7
  simp only [ok.injEq, Prod.mk.injEq] at b5
  obtain ⟨rfl, rfl⟩ := b5
  refine ⟨_, response, ?_, b2, b3⟩
  unfold PirTesting.RequestGenerator.createLeaderRequest
  rw [PirTesting.createPlainRequests_of_client (c := ⟨d, encrypter, DenseServer.contextInfo, records.length⟩)
    rfl rfl (fun q hq' => by have := hq q hq'; show (q : Int) < (records.length : Int); omega) a1, bind_ok,
    bind_ok]
  dsimp only at b6 ⊢
  rw [b6, bind_ok]

/-- C72 on an example: leader, helper and request generator for three records. -/
example : ∃ leader g request response,
    DenseServer.createLeader exFp exCeilLog2 (.dense 3) (some ((exRecords.foldl DenseBuilder.insert
      DenseBuilder.new).build.1.getD ⟨0, [], 0, []⟩))
      (some fun request => (true, exHelper.handleRequest (Wire.helperCodec 100) exAes exEnv exSimd request)) = ok leader ∧
    PirTesting.RequestGenerator.create exFp exCeilLog2 (fun _ => 5) 3 DenseServer.contextInfo = ok g ∧
    PirTesting.RequestGenerator.createLeaderRequest (Wire.helperCodec 100) (ok fun m _ => ok (m.map (~~~ ·))) g exEnv
      [2, 0] (fun i => (BitVec.ofNat 128 i, 77)) = ok request ∧
    leader.handleRequest (Wire.helperCodec 100) exAes exEnv exSimd (some request) = ok response ∧
    DenseClient.handleResponse exAes response (.dense g.otpSeed) =
      ok [[4, 5, 6] ++ List.replicate 16 0, List.replicate 19 1] := by
  have hdb : BuiltFrom exRecords ((exRecords.foldl DenseBuilder.insert DenseBuilder.new).build.1.getD
      ⟨0, [], 0, []⟩) := Res.eq_ok_getD (by decide +kernel) _
  obtain ⟨leader, helper, g, h1, h2, h3, h4⟩ := C72_leader_partial exFp exEnv exAes (Wire.helperCodec 100)
    exCeilLog2 exSimd exSimd exSimd_ok exSimd_ok exRecords _ hdb
    ⟨[4, 5, 6], by simp [exRecords], by simp⟩ ⟨2, by decide, by decide, by decide⟩ (Or.inl (by decide))
    (fun m _ => ok (m.map (~~~ ·))) (fun m _ => ok (m.map (~~~ ·)))
    (fun m => ⟨m.map (~~~ ·), rfl, by simp [Function.comp_def]⟩)
    (fun request => (true, exHelper.handleRequest (Wire.helperCodec 100) exAes exEnv exSimd request)) (fun _ => 5)
  have hh : exHelper = helper := by
    unfold exHelper
    rw [show ((exRecords.length : Nat) : Int) = 3 from rfl] at h2
    rw [h2]; rfl
  obtain ⟨a, c, h5, h6, h7⟩ := h4 (fun _ => by rw [hh]) [2, 0] (by simp) (by decide)
    (fun _ _ => HelperMessage.parse ‹_› (by decide) (by decide)) (fun i => (BitVec.ofNat 128 i, 77))
  exact ⟨leader, g, a, c, h1, h3, h5, h6, h7.trans (congrArg _ (by decide +kernel))⟩

end Verif
