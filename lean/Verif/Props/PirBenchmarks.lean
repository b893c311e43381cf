import Verif.Props.Buckets
import Verif.Lemmas.PirBenchmarks
import Verif.Props.PirTesting
import Verif.Props.SparsePir
import Verif.Props.HashedBuild
/-!
# C83: benchmarks of PIR
-/
namespace Verif
open Res Spec PirBenchmarks

/-! ## Databases -/

theorem exists_drawn {random : Nat → Nat → BitVec 8} {n : Nat} {size : Nat → Nat} {i : Nat} (hi : i < n)
    (h : 0 < size i) : ∃ v ∈ drawnStrings random n size, v ≠ [] := by
  refine ⟨(List.range (size i)).map (random i), List.mem_map.mpr ⟨i, List.mem_range.mpr hi, rfl⟩, ?_⟩
  intro h0
  have := congrArg List.length h0
  simp at this
  omega

/-- C83: with values of equal size, the benchmark computes in every round the XOR of the values whose random selection
bit is set. -/
theorem C83_equal (simd : SimdEnv) (hs : SimdOk simd) (random : Nat → Nat → BitVec 8) (bits : Nat → U128)
    (n size : Nat) (hn : 1 ≤ n) (hsize : 1 ≤ size) (h31 : n + 127 < 2 ^ 31) :
    innerProductEqualSize simd random bits n size =
      ok (ok [xorPadded size (selectedRecords (drawnStrings random n fun _ => size) (drawnBit bits))]) := by
  unfold innerProductEqualSize
  rw [equalSize_eq, bind_ok]
  obtain ⟨db, h1, h2⟩ := product_ok hs (values := drawnStrings random n fun _ => size)
    (by rw [drawnStrings_length]; exact h31) (exists_drawn (i := 0) (by omega) (by omega)) bits 1
  rw [drawnStrings_length, maxLength_drawn random (by omega)] at h2
  rw [h1, bind_ok, packed_ok h31, bind_ok]
  exact congrArg ok h2

/-- C83: with values of zero bytes every round fails, and the benchmark measures that without notice. -/
theorem C83_equal_empty (simd : SimdEnv) (random : Nat → Nat → BitVec 8) (bits : Nat → U128) (n : Nat)
    (h31 : n + 127 < 2 ^ 31) :
    innerProductEqualSize simd random bits n 0 = ok (err .invalidArgument) := by
  unfold innerProductEqualSize
  rw [show (0 : Int) = ((0 : Nat) : Int) from rfl, equalSize_eq, bind_ok]
  obtain ⟨db, hdb⟩ := builtFrom_exists (drawnStrings random n fun _ => 0)
  have h0 : maxLength (drawnStrings random n fun _ => 0) = 0 := by
    apply maxLength_zero
    intro v hv
    obtain ⟨_, _, h⟩ := mem_drawnStrings hv
    exact List.length_eq_zero_iff.mp h
  rw [show databaseOf (drawnStrings random n fun _ => 0) = ok db from hdb, bind_ok, packed_ok h31, bind_ok,
    dense_product_empty (builtFrom_holds hdb) (by simp) h0]

/-- C83 on an example: three empty values. -/
example : innerProductEqualSize exSimd (fun _ _ => 1) (fun _ => 5) 3 0 = ok (err .invalidArgument) :=
  C83_equal_empty exSimd (fun _ _ => 1) (fun _ => 5) 3 (by decide)

/-- C83: with values of random sizes none of which is negative and one of which is positive, the benchmarks compute the
XOR of the selected values, padded to the longest value, once or as often as the batch size says. -/
theorem C83_variable (simd : SimdEnv) (hs : SimdOk simd) (random : Nat → Nat → BitVec 8) (draws : Nat → Int)
    (bits : Nat → U128) (n avg batch : Nat) (h31 : n + 127 < 2 ^ 31)
    (hsize : ∀ i, i < n → 0 ≤ (avg : Int) + draws i ∧ (avg : Int) + draws i < 2 ^ 31)
    (hpos : ∃ i, i < n ∧ 0 < (avg : Int) + draws i) :
    let values := drawnStrings random n fun i => ((avg : Int) + draws i).toNat
    let xor := xorPadded (maxLength values) (selectedRecords values (drawnBit bits))
    innerProductVariableSize simd random draws bits n avg = ok (ok [xor]) ∧
    batchedInnerProduct simd random draws bits n avg batch = ok (ok (List.replicate batch xor)) := by
  intro values xor
  obtain ⟨i, hi, hp⟩ := hpos
  have hv := variableSize_eq random (n := n) (avg := avg) (draws := draws) (diff := maxSizeDiff) (by decide)
    (fun i hi => (hsize i hi).1) (fun i hi => (hsize i hi).2)
  have hlen : values.length = n := drawnStrings_length _ _ _
  have hprod := fun k => product_ok hs (values := values) (by rw [hlen]; exact h31)
    (exists_drawn (i := i) hi (by omega)) bits k
  constructor
  · obtain ⟨db, h1, h2⟩ := hprod 1
    unfold innerProductVariableSize
    rw [hv, bind_ok, h1, bind_ok, packed_ok h31, bind_ok]
    rw [hlen] at h2
    exact congrArg ok h2
  · obtain ⟨db, h1, h2⟩ := hprod batch
    unfold batchedInnerProduct
    rw [hv, bind_ok, h1, bind_ok, packed_ok h31, bind_ok, if_neg (by omega), Int.toNat_natCast]
    rw [hlen] at h2
    exact congrArg ok h2

/-- C83: when one of the random sizes is negative, the benchmarks end with an error before the first round. -/
theorem C83_variable_negative (simd : SimdEnv) (random : Nat → Nat → BitVec 8) (draws : Nat → Int)
    (bits : Nat → U128) (n avg : Nat) (batch : Int) (hdraws : ∀ i, -8 ≤ draws i ∧ draws i ≤ 8)
    (havg : avg + 8 < 2 ^ 31) (hneg : ∃ i, i < n ∧ (avg : Int) + draws i < 0) :
    innerProductVariableSize simd random draws bits n avg = err .invalidArgument ∧
    batchedInnerProduct simd random draws bits n avg batch = err .invalidArgument := by
  have hv := variableSize_err random (n := n) (avg := avg) (draws := draws) (diff := maxSizeDiff) (by decide)
    (fun i _ => by have := hdraws i; omega) hneg
  unfold innerProductVariableSize batchedInnerProduct
  rw [hv]
  exact ⟨rfl, rfl⟩

/-- C83: with the registered arguments 2^16, 2 and 1 the benchmark is not meant to fail, but fails as soon as one of the
random differences, which lie between -8 and 8, is less than -2. -/
theorem C83_registered_refuted (simd : SimdEnv) (random : Nat → Nat → BitVec 8) (bits : Nat → U128) :
    ∃ draws : Nat → Int, (∀ i, -8 ≤ draws i ∧ draws i ≤ 8) ∧
      batchedInnerProduct simd random draws bits (2 ^ 16) 2 1 = err .invalidArgument :=
  ⟨fun i => if i = 0 then -3 else 0, by intro i; dsimp only; split <;> omega,
    (C83_variable_negative simd random _ bits (2 ^ 16) 2 1 (by intro i; split <;> omega) (by decide)
      ⟨0, by decide, by decide⟩).2⟩

/-- Bytes for the examples: string `i` is `10 * i, 10 * i + 1, …`. -/
def exDrawn : Nat → Nat → BitVec 8 := fun i j => BitVec.ofNat 8 (10 * i + j)

/-- C83 on an example: three values of two bytes, the first and the third are selected. -/
example : innerProductEqualSize exSimd exDrawn (fun _ => 5) 3 2 = ok (ok [[20, 20]]) :=
  (C83_equal exSimd exSimd_ok exDrawn (fun _ => 5) 3 2 (by decide) (by decide) (by decide)).trans (by decide +kernel)

/-- C83 on an example: three values of one, two and three bytes, the last two are selected. -/
example : batchedInnerProduct exSimd exDrawn (fun i => (i : Int) % 3 - 1) (fun _ => 6) 3 2 2 =
    ok (ok [[30, 30, 22], [30, 30, 22]]) :=
  (C83_variable exSimd exSimd_ok exDrawn (fun i => (i : Int) % 3 - 1) (fun _ => 6) 3 2 2 (by decide)
    (by intro i _; omega) ⟨0, by decide, by decide⟩).2.trans (by decide +kernel)

/-- C83 on an example: the size of the first value is negative. -/
example : innerProductVariableSize exSimd exDrawn (fun i => (i : Int) % 3 - 1) (fun _ => 6) 3 0 =
    err .invalidArgument :=
  (C83_variable_negative exSimd exDrawn (fun i => (i : Int) % 3 - 1) (fun _ => 6) 3 0 0 (by intro i; omega) (by decide)
    ⟨0, by decide, by decide⟩).1

/-! ## Server for dense databases -/

theorem drawn_casts {n : Nat} {draws : Nat → Int} (h : DrawnBelow n draws) (k : Nat) :
    (List.range k).map draws = ((List.range k).map fun i => (draws i).toNat).map fun m : Nat => (m : Int) := by
  rw [List.map_map]
  apply List.map_congr_left
  intro i _
  have := h i
  show draws i = ((draws i).toNat : Int)
  omega

theorem padded_self {n : Nat} {r : Bytes} (h : r.length = n) : padded n r = r := by
  unfold padded
  simp [h]

theorem length_drawn (random : Nat → Nat → BitVec 8) {n size i : Nat} (h : i < n) :
    ((drawnStrings random n fun _ => size).getD i []).length = size := by
  rw [List.getD_eq_getElem?_getD, drawnStrings_getElem? random _ h]
  simp

/-- C83: the benchmark of the server for dense databases sets up a server and a request generator. Every round makes
requests for random indices and measures how long the server takes to answer the first of them. Its response is the
one that belongs to the request: XORed with what the server answers to the second request it gives the values at
these indices. -/
theorem C83_dense_partial (fp : FpEnv) (codec : HelperCodec) (aes : AesBlock) (env : Env) (ceilLog2 : CeilLog2)
    (simd : SimdEnv) (hs : SimdOk simd) (random : Nat → Nat → BitVec 8) (otp : Nat → BitVec 8) (n size : Nat)
    (hn : 1 ≤ n) (hsize : 1 ≤ size) (hc : ExactAt ceilLog2 n) (hman : Manageable n simd simd) :
    ∃ s, denseSetup fp ceilLog2 random otp n size = ok s ∧
      ∀ k : Nat, 1 ≤ k → ∀ draws, DrawnBelow n draws → ∀ seeds, ∃ other response response',
        denseRound codec aes env simd s k draws seeds = ok (other, ok (some response)) ∧
        s.1.handleRequest codec aes env simd (some (.plain other)) = ok (some response') ∧
        xorResponses response response' =
          (List.range k).map fun i => (drawnStrings random n fun _ => size).getD (draws i).toNat [] := by
  have hlen : (drawnStrings random n fun _ => size).length = n := drawnStrings_length _ _ _
  obtain ⟨db, hdb⟩ := builtFrom_exists (drawnStrings random n fun _ => size)
  obtain ⟨server, g, h1, h2, h3⟩ := C72_requests_partial fp env ceilLog2 simd simd hs hs
    (drawnStrings random n fun _ => size) db hdb (exists_drawn (i := 0) (by omega) (by omega))
    (by rw [hlen]; exact hc) (by rw [hlen]; exact hman) DenseServer.contextInfo otp
  rw [hlen] at h1 h2 h3
  have hrole : server.role = .plain := by
    unfold DenseServer.createPlain at h1
    dsimp only at h1
    obtain ⟨_, _, h1⟩ := bind_eq_ok.mp h1
    obtain ⟨_, _, h1⟩ := bind_eq_ok.mp h1
    obtain ⟨_, _, h1⟩ := bind_eq_ok.mp h1
    cases h1
    rfl
  have hhandle : ∀ request, server.handleRequest codec aes env simd request =
      server.handlePlainRequest env simd request := by
    intro request
    unfold DenseServer.handleRequest
    rw [hrole]
    rfl
  refine ⟨(server, g), ?_, ?_⟩
  · unfold denseSetup
    rw [equalSize_eq, bind_ok, show databaseOf _ = ok db from hdb, bind_ok, h1, bind_ok, h2, bind_ok]
  · intro k hk draws hd seeds
    obtain ⟨r0, r1, a0, a1, e1, e2, e3, e4⟩ := h3 ((List.range k).map fun i => (draws i).toNat)
      (by intro h; have := congrArg List.length h; simp at this; omega)
      (by
        intro q hq
        obtain ⟨i, _, rfl⟩ := List.mem_map.mp hq
        have := hd i
        omega) seeds
    refine ⟨r1, a0, a1, ?_, (hhandle _).trans e3, ?_⟩
    · unfold denseRound
      rw [if_neg (by omega), Int.toNat_natCast, drawn_casts hd k, e1, bind_ok]
      exact congrArg (fun r => ok (r1, r)) ((hhandle _).trans e2)
    · rw [e4]
      unfold answer
      rw [List.map_map]
      apply List.map_congr_left
      intro i _
      have hi : (draws i).toNat < n := by have := hd i; omega
      show padded _ ((drawnStrings random n fun _ => size).getD (draws i).toNat []) = _
      rw [maxLength_drawn random (by omega), padded_self (length_drawn random hi)]

/-- C83 on an example: requests for the third and the first of three records. -/
example : ∃ s, denseSetup exFp exCeilLog2 exDrawn (fun _ => 5) 3 2 = ok s ∧ ∃ other response response',
    denseRound (Wire.helperCodec 100) exAes exEnv exSimd s 2 (fun i => if i = 0 then 2 else 0)
      (fun i => (BitVec.ofNat 128 i, 77)) = ok (other, ok (some response)) ∧
    s.1.handleRequest (Wire.helperCodec 100) exAes exEnv exSimd (some (.plain other)) = ok (some response') ∧
    xorResponses response response' = [[20, 21], [0, 1]] := by
  obtain ⟨s, h1, h2⟩ := C83_dense_partial exFp (Wire.helperCodec 100) exAes exEnv exCeilLog2 exSimd exSimd_ok exDrawn
    (fun _ => 5) 3 2 (by decide) (by decide) (exCeilLog2_exact 3 (by decide)) (Or.inl (by decide))
  obtain ⟨a, b, c, h3, h4, h5⟩ := h2 2 (by decide) (fun i => if i = 0 then 2 else 0)
    (by intro i; dsimp only; split <;> omega) (fun i => (BitVec.ofNat 128 i, 77))
  exact ⟨s, h1, a, b, c, h3, h4, h5.trans (by decide +kernel)⟩

/-- C83: with no index in a request, every round fails, and the benchmark measures that without notice. -/
theorem C83_dense_no_index (fp : FpEnv) (codec : HelperCodec) (aes : AesBlock) (env : Env) (ceilLog2 : CeilLog2)
    (simd : SimdEnv) (random : Nat → Nat → BitVec 8) (otp : Nat → BitVec 8) (n size : Int)
    (s : DenseServer × PirTesting.RequestGenerator) (hsetup : denseSetup fp ceilLog2 random otp n size = ok s)
    (draws : Nat → Int) (seeds : Nat → U128 × U128) :
    ∃ other, denseRound codec aes env simd s 0 draws seeds = ok (other, err .invalidArgument) := by
  have hrole : s.1.role = .plain := by
    unfold denseSetup at hsetup
    obtain ⟨_, _, hsetup⟩ := bind_eq_ok.mp hsetup
    obtain ⟨_, _, hsetup⟩ := bind_eq_ok.mp hsetup
    obtain ⟨server, h1, hsetup⟩ := bind_eq_ok.mp hsetup
    obtain ⟨_, _, hsetup⟩ := bind_eq_ok.mp hsetup
    cases hsetup
    unfold DenseServer.createPlain at h1
    dsimp only at h1
    obtain ⟨_, _, h1⟩ := bind_eq_ok.mp h1
    obtain ⟨_, _, h1⟩ := bind_eq_ok.mp h1
    obtain ⟨_, _, h1⟩ := bind_eq_ok.mp h1
    cases h1
    rfl
  refine ⟨⟨[], 0⟩, ?_⟩
  unfold denseRound PirTesting.RequestGenerator.createPlainRequests DenseServer.handleRequest
  rw [if_neg (by decide), hrole]
  rfl

/-- C83 on an example: three records, but no index. -/
example : ∃ s other, denseSetup exFp exCeilLog2 exDrawn (fun _ => 5) 3 2 = ok s ∧
    denseRound (Wire.helperCodec 100) exAes exEnv exSimd s 0 (fun _ => 0) (fun _ => (1, 2)) =
      ok (other, err .invalidArgument) := by
  obtain ⟨s, h1, _⟩ := C83_dense_partial exFp (Wire.helperCodec 100) exAes exEnv exCeilLog2 exSimd exSimd_ok exDrawn
    (fun _ => 5) 3 2 (by decide) (by decide) (exCeilLog2_exact 3 (by decide)) (Or.inl (by decide))
  obtain ⟨other, h2⟩ := C83_dense_no_index exFp (Wire.helperCodec 100) exAes exEnv exCeilLog2 exSimd exDrawn
    (fun _ => 5) 3 2 s h1 (fun _ => 0) (fun _ => (1, 2))
  exact ⟨s, other, h1, h2⟩

/-! ## Servers for databases with keys -/

theorem drawnSeed_ne (seed : Nat → BitVec 8) : drawnSeed seed ≠ [] := by
  intro h
  have := congrArg List.length h
  simp [drawnSeed] at this

theorem drawnPairs_nonempty {rk rv : Nat → Nat → BitVec 8} {n ks vs : Nat} (h : 1 ≤ ks) :
    ∀ r ∈ drawnPairs rk rv n ks vs, r.1 ≠ [] := by
  intro r hr h0
  have := (mem_drawnPairs hr).1
  rw [h0] at this
  simp at this
  omega

theorem key_mem (rk rv : Nat → Nat → BitVec 8) {n ks vs i : Nat} (h : i < n) :
    ∃ r ∈ drawnPairs rk rv n ks vs, r.1 = (drawnStrings rk n fun _ => ks).getD i [] := by
  have : (drawnStrings rk n fun _ => ks).getD i [] ∈ (drawnPairs rk rv n ks vs).map (·.1) := by
    rw [drawnPairs_keys, List.getD_eq_getElem?_getD, drawnStrings_getElem? rk _ h]
    exact List.mem_map.mpr ⟨i, List.mem_range.mpr h, rfl⟩
  obtain ⟨r, hr, h⟩ := List.mem_map.mp this
  exact ⟨r, hr, h⟩

theorem firstValue_mem {records : List (Bytes × Bytes)} {key v : Bytes} (h : firstValue records key = some v) :
    (key, v) ∈ records := by
  unfold firstValue at h
  obtain ⟨r, hr, rfl⟩ := Option.map_eq_some_iff.mp h
  have h1 := List.mem_of_find?_eq_some hr
  have h2 := List.find?_some hr
  have : r.1 = key := by simpa using h2
  rw [← this]
  exact h1

theorem bucketNumber_lt (sha : Sha256) (seed : Bytes) {m : Nat} (hm : 0 < m) (j : Nat) (key : Bytes) :
    bucketNumber sha seed m j key < m := Nat.mod_lt _ hm

/-- C83: the benchmark of the server with cuckoo hashing sets up a database of random keys and values, a server, hash
functions and a request generator. Every round makes a request for the buckets of random keys and measures how long
the server takes to answer it. If no key was left in the stash, then the response, XORed with what the server answers
to the request that is not sent, has, for every key, this key and its value in one of three places. -/
theorem C83_cuckoo_partial (fp : FpEnv) (codec : HelperCodec) (aes : AesBlock) (env : Env) (ceilLog2 : CeilLog2)
    (sha : Sha256) (simd : SimdEnv) (hs : SimdOk simd) (seed : Nat → BitVec 8) (hops : Nat → Nat)
    (hr : ∀ i, hops i < 3) (randomKeys randomValues : Nat → Nat → BitVec 8) (otp : Nat → BitVec 8)
    (n m keySize valueSize : Nat) (hn : 1 ≤ n) (h31 : n < 2 ^ 31) (hm : m = 3 * n / 2)
    (hks : 1 ≤ keySize) (hvs : 1 ≤ valueSize) (hc : ExactAt ceilLog2 m) (hman : Manageable m simd simd) :
    let keys := drawnStrings randomKeys n fun _ => keySize
    let records := drawnPairs randomKeys randomValues n keySize valueSize
    ∃ s db K V, cuckooSetup fp ceilLog2 sha seed hops randomKeys randomValues otp n keySize valueSize = ok s ∧
      CuckooBuiltFrom sha hops (cuckooParams (drawnSeed seed) 3 m) records db ∧ CuckooHolds db K V ∧
      (NoneInStash db K → ∀ k : Nat, 1 ≤ k → ∀ draws, DrawnBelow n draws → ∀ seeds, ∃ other response response',
        cuckooRound codec aes env simd s k draws seeds = ok (other, some response) ∧
        s.server.handleRequest codec aes env simd (some (.plain other)) = ok (some response') ∧
        (xorResponses response response').length = 6 * k ∧
        ∀ i, i < k → ∃ j, j < 3 ∧
          (xorResponses response response')[6 * i + 2 * j]? = some (keys.getD (draws i).toNat []) ∧
          (xorResponses response response')[6 * i + 2 * j + 1]? =
            firstValue records (keys.getD (draws i).toNat [])) := by
  intro keys records
  have hm31 : m < 2 ^ 31 := by rcases hman with h | ⟨_, _, h⟩ <;> omega
  have hreclen : records.length < 2 ^ 31 := by
    show (drawnPairs _ _ _ _ _).length < _
    rw [drawnPairs_length]
    exact h31
  obtain ⟨db, table, stash, b0, b1, b2, b3, b4, b5, b6, b7, b8⟩ := cuckoo_build_ok sha (drawnSeed_ne seed)
    (by decide : 2 ≤ 3) hr (by omega : 0 < m) hm31 records hreclen (drawnPairs_nonempty hks)
  obtain ⟨d, f, c1, c2, c3⟩ := cuckoo_buckets (fp := fp) env (c := ceilLog2) (sha := sha) hs b1 b2
    (seed := drawnSeed seed) (k := 3) (by decide) (by simpa using b4) (by simpa using b4) b3 (by omega) hc hman
  have hparams : CuckooServer.generateParams seed (.cuckoo 1 n) = ok (cuckooParams (drawnSeed seed) 3 m) := by
    unfold CuckooServer.generateParams
    dsimp only
    rw [failIf_false (by omega), bind_ok, failIf_false (by decide), bind_ok, scaledBuckets_exact (by omega) (by omega),
      bind_ok, show 3 * (n : Int) / 2 = (m : Int) by omega]
    rfl
  refine ⟨⟨cuckooParams (drawnSeed seed) 3 m, keys, ⟨.cuckoo (cuckooParams (drawnSeed seed) 3 m), d, db, f, .plain⟩,
    shaFunctions sha (drawnSeed seed) 3, ⟨d, Prng.generateSeed otp, CuckooServer.contextInfo, m⟩⟩, db, _, _, ?_, b0,
    ⟨b1.content, b2.content⟩, ?_⟩
  · unfold cuckooSetup
    rw [hparams, bind_ok, equalSize_eq, bind_ok, equalSize_eq, bind_ok, pairs_ok, bind_ok]
    rw [show ((records.foldl CuckooBuilder.insert (CuckooBuilder.new.setParams (cuckooParams (drawnSeed seed) 3 m))).build
      sha hops).1 = ok db from b0, bind_ok, c1, bind_ok]
    show (createHashFamilyFromConfig sha ⟨1, drawnSeed seed⟩ >>= _) = _
    rw [family_ok sha (drawnSeed_ne seed), bind_ok]
    show (createHashFunctions _ ((3 : Nat) : Int) >>= _) = _
    rw [functions_ok, bind_ok]
    show (PirTesting.RequestGenerator.create fp ceilLog2 otp (wrapInt32 m) _ >>= _) = _
    rw [wrapInt32_small hm31, c2, bind_ok]
  intro hall k hk draws hd seeds
  generalize hK : table.map (·.getD []) = K at *
  generalize hV : table.map (bucketValue records) = V at *
  have hKV : CuckooHolds db K V := ⟨b1.content, b2.content⟩
  have hstored := fun r hr' => C45_stored_partial sha hops (drawnSeed seed) 3 m records db hr hm31 hreclen b0 K V
    hKV hall r hr'
  obtain ⟨K', V', hKV', hKl, hVl, hbuckets, _, _⟩ :=
    C45_buckets sha hops (drawnSeed seed) 3 m records db hr hm31 hreclen b0
  obtain rfl : K = K' := Res.ok.inj (hKV.1.symm.trans hKV'.1)
  obtain rfl : V = V' := Res.ok.inj (hKV.2.symm.trans hKV'.2)
  have hkeyOf : ∀ i, i < n → ∃ j, j < 3 ∧
      K.getD (bucketNumber sha (drawnSeed seed) m j (keys.getD i [])) [] = keys.getD i [] ∧
      some (V.getD (bucketNumber sha (drawnSeed seed) m j (keys.getD i [])) []) =
        firstValue records (keys.getD i []) := by
    intro i hi
    obtain ⟨r, hr', he⟩ := key_mem randomKeys randomValues (ks := keySize) (vs := valueSize) hi
    have := hstored r hr'
    rw [he] at this
    exact this
  have hlens : ∀ i, i < m → ((K.getD i []).length = keySize ∧ (V.getD i []).length = valueSize) ∨
      (K.getD i [] = [] ∧ V.getD i [] = []) := by
    intro i hi
    rcases hbuckets i hi with h | ⟨h, _⟩
    · exact Or.inr h
    · have := mem_drawnPairs (firstValue_mem h.symm)
      exact Or.inl this
  have hget : ∀ (L : List Bytes), L.length = m → ∀ v ∈ L, ∃ i, i < m ∧ v = L.getD i [] := by
    intro L hL v hv
    obtain ⟨i, hi, rfl⟩ := List.getElem_of_mem hv
    exact ⟨i, by omega, by simp [hi]⟩
  obtain ⟨j0, _, e1, e2⟩ := hkeyOf 0 (by omega)
  have hb0 := bucketNumber_lt sha (drawnSeed seed) (by omega : 0 < m) j0 (keys.getD 0 [])
  have hkl : ∀ i, i < n → (keys.getD i []).length = keySize := fun i hi => length_drawn randomKeys hi
  have hKmax : maxLength K = keySize := by
    apply maxLength_eq
    · refine ⟨_, ?_, hkl 0 (by omega)⟩
      rw [← e1, List.getD_eq_getElem?_getD, List.getElem?_eq_getElem (by omega)]
      exact List.getElem_mem _
    · intro v hv
      obtain ⟨i, hi, rfl⟩ := hget K hKl v hv
      rcases hlens i hi with h | h
      · omega
      · rw [h.1]; simp
  have hVmax : maxLength V = valueSize := by
    apply maxLength_eq
    · refine ⟨V.getD (bucketNumber sha (drawnSeed seed) m j0 (keys.getD 0 [])) [], ?_, ?_⟩
      · rw [List.getD_eq_getElem?_getD, List.getElem?_eq_getElem (by omega)]
        exact List.getElem_mem _
      · exact (mem_drawnPairs (firstValue_mem e2.symm)).2
    · intro v hv
      obtain ⟨i, hi, rfl⟩ := hget V hVl v hv
      rcases hlens i hi with h | h
      · omega
      · rw [h.2]; simp
  have hdn : ∀ i, (draws i).toNat < n := fun i => by have := hd i; omega
  obtain ⟨req0, req1, r0, r1, g1, g2, g3, g4⟩ := c3
    ((List.range k).flatMap fun i => (List.range 3).map fun j =>
      bucketNumber sha (drawnSeed seed) m j (keys.getD (draws i).toNat []))
    (by
      intro h
      have := congrArg List.length h
      rw [flatMap_length (k := 3) _ _ (by simp)] at this
      simp at this
      omega)
    (by
      intro q hq
      obtain ⟨i, _, hq⟩ := List.mem_flatMap.mp hq
      obtain ⟨j, _, rfl⟩ := List.mem_map.mp hq
      exact bucketNumber_lt _ _ (by omega) _ _)
    (by omega) (by omega) (Prng.generateSeed otp) CuckooServer.contextInfo seeds
  refine ⟨req1, r0, r1, ?_, g3, ?_, ?_⟩
  · unfold cuckooRound
    rw [if_neg (by omega), Int.toNat_natCast]
    rw [mapRes_eq_ok_map (g := fun i => (List.range 3).map fun j =>
      ((bucketNumber sha (drawnSeed seed) m j (keys.getD (draws i).toNat []) : Nat) : Int)), bind_ok]
    · have : ((List.range k).map fun i => (List.range 3).map fun j =>
          ((bucketNumber sha (drawnSeed seed) m j (keys.getD (draws i).toNat []) : Nat) : Int)).flatten =
          ((List.range k).flatMap fun i => (List.range 3).map fun j =>
            bucketNumber sha (drawnSeed seed) m j (keys.getD (draws i).toNat [])).map fun q : Nat => (q : Int) := by
        rw [List.map_flatMap]
        simp only [List.flatMap_def, List.map_map]
        rfl
      rw [this, g1, bind_ok]
      show (CuckooServer.handlePlainRequest env simd _ (some (.plain req0)) >>= _) = _
      rw [g2, bind_ok]
    · intro i _
      unfold cuckooIndices
      show (rdInt (drawnStrings randomKeys n fun _ => keySize) (draws i) >>= _) = _
      rw [rdInt_drawn randomKeys (hd i).1 (hd i).2, bind_ok]
      exact hashAll (by omega) hm31 3 _
  · rw [g4, interleave_length, List.length_map, flatMap_length (k := 3) _ _ (by simp), List.length_range]
    omega
  · intro i hi
    obtain ⟨j, hj, f1, f2⟩ := hkeyOf _ (hdn i)
    refine ⟨j, hj, ?_⟩
    rw [g4, hKmax, hVmax]
    have hlen3 : ((List.range k).flatMap fun i => (List.range 3).map fun j =>
        bucketNumber sha (drawnSeed seed) m j (keys.getD (draws i).toNat [])).length = k * 3 := by
      rw [flatMap_length (k := 3) _ _ (by simp), List.length_range]
    have hat := flatMap_getElem? (k := 3) (fun i => (List.range 3).map fun j =>
        bucketNumber sha (drawnSeed seed) m j (keys.getD (draws i).toNat [])) (List.range k) (by simp)
        (i := i) (by simpa using hi) hj
    rw [List.getElem_range, List.getElem?_map, List.getElem?_range hj, Option.map_some] at hat
    have hlt : 3 * i + j < ((List.range k).flatMap fun i => (List.range 3).map fun j =>
        bucketNumber sha (drawnSeed seed) m j (keys.getD (draws i).toNat [])).length := by omega
    have hat' := (List.getElem?_eq_getElem hlt).symm.trans hat
    have hat' := Option.some.inj hat'
    have k1 := interleave_key (l := ((List.range k).flatMap fun i => (List.range 3).map fun j =>
        bucketNumber sha (drawnSeed seed) m j (keys.getD (draws i).toNat [])).map fun m' =>
          (padded keySize (K.getD m' []), padded valueSize (V.getD m' []))) (i := 3 * i + j)
        (by rw [List.length_map]; exact hlt)
    have k2 := interleave_value (l := ((List.range k).flatMap fun i => (List.range 3).map fun j =>
        bucketNumber sha (drawnSeed seed) m j (keys.getD (draws i).toNat [])).map fun m' =>
          (padded keySize (K.getD m' []), padded valueSize (V.getD m' []))) (i := 3 * i + j)
        (by rw [List.length_map]; exact hlt)
    rw [List.getElem_map, hat'] at k1 k2
    constructor
    · rw [show 6 * i + 2 * j = 2 * (3 * i + j) by omega, k1]
      dsimp only
      rw [f1, padded_self (hkl _ (hdn i))]
    · rw [show 6 * i + 2 * j + 1 = 2 * (3 * i + j) + 1 by omega, k2]
      dsimp only
      rw [padded_self (mem_drawnPairs (firstValue_mem f2.symm)).2, f2]

/-- A function in place of SHA-256 that depends on all bytes. -/
def exSha' : Sha256 := ⟨fun m => blockBytes (BitVec.ofNat 128 (m.foldl (fun a b => 3 * a + b.toNat) 7)) ++
  blockBytes 0, fun m => by simp [blockBytes]⟩

/-- The database of three random records in four buckets. -/
def exDrawnDb : CuckooDb :=
  (cuckooBuild exSha' (fun i => i % 3) (cuckooParams (drawnSeed fun i => BitVec.ofNat 8 i) 3 4)
    (drawnPairs exDrawn exDrawn 3 1 2)).getD ⟨⟨0, [], 0, []⟩, ⟨0, [], 0, []⟩, 0, 0⟩

theorem exDrawnDb_ok : CuckooBuiltFrom exSha' (fun i => i % 3)
    (cuckooParams (drawnSeed fun i => BitVec.ofNat 8 i) 3 4) (drawnPairs exDrawn exDrawn 3 1 2) exDrawnDb :=
  Res.eq_ok_getD (by decide +kernel) _

theorem exDrawnDb_none : ∀ K V, CuckooHolds exDrawnDb K V → NoneInStash exDrawnDb K := by
  have h : CuckooHolds exDrawnDb [[10], [20], [], [0]] [[10, 11], [20, 21], [], [0, 1]] := by decide +kernel
  intro K V hKV
  obtain rfl := ok.inj (h.1.symm.trans hKV.1)
  decide +kernel

/-- C83 on an example: the round asks for the third key and the first; the result has the third key and its value in
one of the first three pairs. -/
example : ∃ s, cuckooSetup exFp exCeilLog2 exSha' (fun i => BitVec.ofNat 8 i) (fun i => i % 3)
      exDrawn exDrawn (fun _ => 5) 3 1 2 = ok s ∧ ∃ other response response',
    cuckooRound (Wire.helperCodec 100) exAes exEnv exSimd s 2 (fun i => if i = 0 then 2 else 0)
      (fun i => (BitVec.ofNat 128 i, 77)) = ok (other, some response) ∧
    s.server.handleRequest (Wire.helperCodec 100) exAes exEnv exSimd (some (.plain other)) = ok (some response') ∧
    ∃ j, j < 3 ∧ (xorResponses response response')[2 * j]? = some [20] ∧
      (xorResponses response response')[2 * j + 1]? = some [20, 21] := by
  obtain ⟨s, db, K, V, h1, h2, h3, h4⟩ := C83_cuckoo_partial exFp (Wire.helperCodec 100) exAes exEnv exCeilLog2 exSha'
    exSimd exSimd_ok (fun i => BitVec.ofNat 8 i) (fun i => i % 3)
    (fun i => Nat.mod_lt i (by decide)) exDrawn exDrawn (fun _ => 5) 3 4 1 2 (by decide) (by decide) (by decide)
    (by decide) (by decide) (exCeilLog2_exact 4 (by decide)) (Or.inl (by decide))
  have hdb : db = exDrawnDb := ok.inj (h2.symm.trans exDrawnDb_ok)
  rw [hdb] at h3 h4
  obtain ⟨a, b, c, h5, h6, _, h7⟩ := h4 (exDrawnDb_none _ _ h3) 2 (by decide) (fun i => if i = 0 then 2 else 0)
    (by intro i; dsimp only; split <;> omega) (fun i => (BitVec.ofNat 128 i, 77))
  obtain ⟨j, hj, e1, e2⟩ := h7 0 (by decide)
  refine ⟨s, h1, a, b, c, h5, h6, j, hj, ?_, ?_⟩
  · rw [Nat.mul_zero, Nat.zero_add] at e1
    exact e1.trans (by decide +kernel)
  · rw [Nat.mul_zero, Nat.zero_add] at e2
    exact e2.trans (by decide +kernel)

/-- C83: with keys of zero bytes the benchmarks with hashing end with an error before the first round. -/
theorem C83_empty_keys (fp : FpEnv) (ceilLog2 : CeilLog2) (sha : Sha256) (codec : BucketCodec)
    (seed : Nat → BitVec 8) (hops : Nat → Nat) (hr : ∀ i, hops i < 3) (randomKeys randomValues : Nat → Nat → BitVec 8)
    (otp : Nat → BitVec 8) (n m valueSize : Nat) (hn : 1 ≤ n) (h31 : 3 * n / 2 < 2 ^ 31) (hm : 1 ≤ m)
    (hm31 : m < 2 ^ 31) :
    cuckooSetup fp ceilLog2 sha seed hops randomKeys randomValues otp n 0 valueSize = err .invalidArgument ∧
    simpleSetup fp ceilLog2 sha codec seed randomKeys randomValues n m 0 valueSize = err .invalidArgument := by
  have hex : ¬ ∀ r ∈ drawnPairs randomKeys randomValues n 0 valueSize, r.1 ≠ [] := by
    intro h
    obtain ⟨r, hr', _⟩ := key_mem randomKeys randomValues (ks := 0) (vs := valueSize) (show 0 < n by omega)
    exact h r hr' (List.length_eq_zero_iff.mp (mem_drawnPairs hr').1)
  have hz : (0 : Int) = ((0 : Nat) : Int) := rfl
  constructor
  · have hb := C64_cuckoo sha hops (cuckooParams (drawnSeed seed) 3 (3 * n / 2))
      (drawnPairs randomKeys randomValues n 0 valueSize) (fun _ i => by have := hr i; simp [cuckooParams]; omega)
      (by simp [cuckooParams]; omega) (by rw [drawnPairs_length]; omega)
    rw [if_neg fun h => hex h.2.2.2] at hb
    unfold cuckooSetup CuckooServer.generateParams
    dsimp only
    rw [failIf_false (by omega), bind_ok, failIf_false (by decide), bind_ok, scaledBuckets_exact (by omega) (by omega),
      bind_ok, bind_ok, show 3 * (n : Int) / 2 = ((3 * n / 2 : Nat) : Int) by omega, hz, equalSize_eq, bind_ok,
      equalSize_eq, bind_ok, pairs_ok, bind_ok]
    unfold cuckooBuild at hb
    rw [show (⟨⟨1, hashSeed seed⟩, 3, ((3 * n / 2 : Nat) : Int)⟩ : CuckooParams) =
      cuckooParams (drawnSeed seed) 3 (3 * n / 2) from rfl, hb]
    rfl
  · have hb := C64_simple sha codec (simpleParams (drawnSeed seed) m)
      (drawnPairs randomKeys randomValues n 0 valueSize) (by simp [simpleParams]; omega)
    rw [if_neg fun h => hex h.2.2] at hb
    unfold simpleSetup SimpleServer.generateParams
    dsimp only
    rw [failIf_false (by omega), bind_ok, failIf_false (by decide), bind_ok, bind_ok, hz, equalSize_eq, bind_ok,
      equalSize_eq, bind_ok, pairs_ok, bind_ok]
    unfold simpleBuild at hb
    rw [show (⟨⟨1, hashSeed seed⟩, (m : Int)⟩ : SimpleParams) = simpleParams (drawnSeed seed) m from rfl, hb]
    rfl

/-- C83 on an example: three keys of zero bytes. -/
example : cuckooSetup exFp exCeilLog2 exSha' (fun i => BitVec.ofNat 8 i) (fun i => i % 3)
      exDrawn exDrawn (fun _ => 5) 3 0 2 = err .invalidArgument :=
  (C83_empty_keys exFp exCeilLog2 exSha' wireCodec (fun i => BitVec.ofNat 8 i) (fun i => i % 3)
    (fun i => Nat.mod_lt i (by decide)) exDrawn exDrawn (fun _ => 5) 3 4 2 (by decide) (by decide) (by decide)
    (by decide)).1

/-- C83: the benchmark of the server with simple hashing sets up a database of random keys and values, which fits into
messages, a server and a hash function. Every round makes a request for the buckets of random keys and measures how
long the server takes to answer it. The response, XORed with what the server answers to the request that is not sent,
has for every key a string from which the bucket with the key can be parsed, and the value of the key is in it. -/
theorem C83_simple_partial (fp : FpEnv) (codec : HelperCodec) (aes : AesBlock) (env : Env) (ceilLog2 : CeilLog2)
    (sha : Sha256) (simd : SimdEnv) (hs : SimdOk simd) (seed : Nat → BitVec 8)
    (randomKeys randomValues : Nat → Nat → BitVec 8) (otp : Nat → BitVec 8)
    (n m keySize valueSize : Nat) (hn : 1 ≤ n) (hm : 1 ≤ m)
    (hfit : n * (keySize + valueSize + 12) < 2 ^ 31)
    (hks : 1 ≤ keySize) (hc : ExactAt ceilLog2 m) (hman : Manageable m simd simd) :
    let keys := drawnStrings randomKeys n fun _ => keySize
    let records := drawnPairs randomKeys randomValues n keySize valueSize
    ∃ s, simpleSetup fp ceilLog2 sha wireCodec seed randomKeys randomValues n m keySize valueSize = ok s ∧
      ∀ k : Nat, 1 ≤ k → ∀ draws, DrawnBelow n draws → ∀ seeds, ∃ other response response',
        simpleRound fp ceilLog2 codec aes env simd otp s k draws seeds = ok (other, some response) ∧
        s.server.handleRequest codec aes env simd (some (.plain other)) = ok (some response') ∧
        (xorResponses response response').length = k ∧
        ∀ i, i < k → ∃ string, (xorResponses response response')[i]? = some string ∧
          wireCodec.parse string = simpleBucket sha (drawnSeed seed) m records
            (bucketNumber sha (drawnSeed seed) m 0 (keys.getD (draws i).toNat [])) ∧
          firstValue ((wireCodec.parse string).keys.zip (wireCodec.parse string).values)
            (keys.getD (draws i).toNat []) = firstValue records (keys.getD (draws i).toNat []) := by
  intro keys records
  have hm31 : m < 2 ^ 31 := by rcases hman with h | ⟨_, _, h⟩ <;> omega
  have hserial := fun i => bucket_serializes sha (drawnSeed seed) m (rk := randomKeys) (rv := randomValues) hfit hn i
  have hser : (List.range m).map (fun i => wireCodec.serialize (simpleBucket sha (drawnSeed seed) m records i)) =
      ((List.range m).map fun i =>
        (wireCodec.serialize (simpleBucket sha (drawnSeed seed) m records i)).getD []).map some := by
    rw [List.map_map]
    apply List.map_congr_left
    intro i _
    obtain ⟨s, h⟩ := hserial i
    show wireCodec.serialize (simpleBucket sha (drawnSeed seed) m (drawnPairs _ _ _ _ _) i) =
      some ((wireCodec.serialize (simpleBucket sha (drawnSeed seed) m (drawnPairs _ _ _ _ _) i)).getD [])
    rw [h]
    rfl
  obtain ⟨db, b0, b1, b2⟩ := simple_build_ok sha wireCodec (drawnSeed_ne seed) (by omega : 0 < m) hm31 records
    (drawnPairs_nonempty hks) _ hser
  generalize hss : ((List.range m).map fun i =>
    (wireCodec.serialize (simpleBucket sha (drawnSeed seed) m records i)).getD []) = ss at *
  have hssl : ss.length = m := by rw [← hss]; simp
  have hat : ∀ b, b < m → wireCodec.serialize (simpleBucket sha (drawnSeed seed) m records b) =
      some (ss.getD b []) := by
    intro b hb
    obtain ⟨s, h⟩ := hserial b
    rw [← hss, List.getD_eq_getElem?_getD, List.getElem?_map, List.getElem?_range hb]
    show wireCodec.serialize (simpleBucket sha (drawnSeed seed) m (drawnPairs _ _ _ _ _) b) =
      some ((wireCodec.serialize (simpleBucket sha (drawnSeed seed) m (drawnPairs _ _ _ _ _) b)).getD [])
    rw [h]
    rfl
  have hmax : 0 < maxLength ss := by
    obtain ⟨r, hr, he⟩ := key_mem randomKeys randomValues (ks := keySize) (vs := valueSize) (show 0 < n by omega)
    have hb := bucketNumber_lt sha (drawnSeed seed) (by omega : 0 < m) 0 r.1
    apply maxLength_pos
    refine ⟨ss.getD (bucketNumber sha (drawnSeed seed) m 0 r.1) [], ?_, ?_⟩
    · rw [List.getD_eq_getElem?_getD, List.getElem?_eq_getElem (by omega)]
      exact List.getElem_mem _
    · apply wireCodec_nonempty (hat _ hb)
      intro h0
      have : r.1 ∈ (simpleBucket sha (drawnSeed seed) m records
          (bucketNumber sha (drawnSeed seed) m 0 r.1)).keys := by
        unfold simpleBucket
        exact List.mem_map.mpr ⟨r, List.mem_filter.mpr ⟨hr, by simp⟩, rfl⟩
      rw [h0] at this
      cases this
  obtain ⟨d, f, c1, c2, c3⟩ := simple_buckets (fp := fp) env (c := ceilLog2) (sha := sha) hs b1
    (seed := drawnSeed seed) hssl b2 (by omega) hmax hc hman
  refine ⟨⟨simpleParams (drawnSeed seed) m, keys, ⟨.simple (simpleParams (drawnSeed seed) m), d, db, f, .plain⟩,
    shaFunctions sha (drawnSeed seed) 1⟩, ?_, ?_⟩
  · unfold simpleSetup SimpleServer.generateParams
    dsimp only
    rw [failIf_false (by omega), bind_ok, failIf_false (by decide), bind_ok, bind_ok, equalSize_eq, bind_ok,
      equalSize_eq, bind_ok, pairs_ok, bind_ok,
      show (⟨⟨1, hashSeed seed⟩, (m : Int)⟩ : SimpleParams) = simpleParams (drawnSeed seed) m from rfl,
      show ((records.foldl SimpleBuilder.insert (SimpleBuilder.new.setParams (simpleParams (drawnSeed seed) m))).build
      sha wireCodec).1 = ok db from b0, bind_ok, c1, bind_ok]
    show (createHashFamilyFromConfig sha ⟨1, drawnSeed seed⟩ >>= _) = _
    rw [family_ok sha (drawnSeed_ne seed), bind_ok]
    show (createHashFunctions _ ((1 : Nat) : Int) >>= _) = _
    rw [functions_ok, bind_ok]
  intro k hk draws hd seeds
  have hdn : ∀ i, (draws i).toNat < n := fun i => by have := hd i; omega
  obtain ⟨req0, req1, r0, r1, g1, g2, g3, g4⟩ := c3
    ((List.range k).map fun i => bucketNumber sha (drawnSeed seed) m 0 (keys.getD (draws i).toNat []))
    (by
      intro h
      have := congrArg List.length h
      simp at this
      omega)
    (by
      intro q hq
      obtain ⟨j, _, rfl⟩ := List.mem_map.mp hq
      exact bucketNumber_lt _ _ (by omega) _ _)
    (Prng.generateSeed otp) SimpleServer.contextInfo seeds
  refine ⟨req1, r0, r1, ?_, g3, ?_, ?_⟩
  · unfold simpleRound
    rw [if_neg (by omega), Int.toNat_natCast]
    rw [mapRes_eq_ok_map (g := fun i =>
      ((bucketNumber sha (drawnSeed seed) m 0 (keys.getD (draws i).toNat []) : Nat) : Int)), bind_ok]
    · show (PirTesting.RequestGenerator.create fp ceilLog2 otp (wrapInt32 m) _ >>= _) = _
      rw [wrapInt32_small hm31, c2, bind_ok]
      rw [List.map_map] at g1
      have g1' : PirTesting.RequestGenerator.createPlainRequests
          ⟨d, Prng.generateSeed otp, SimpleServer.contextInfo, m⟩ env ((List.range k).map fun i =>
            ((bucketNumber sha (drawnSeed seed) m 0 (keys.getD (draws i).toNat []) : Nat) : Int)) seeds =
            ok (req0, req1) := g1
      rw [g1', bind_ok]
      show (SimpleServer.handlePlainRequest env simd _ (some (.plain req0)) >>= _) = _
      rw [g2, bind_ok]
    · intro i _
      unfold simpleIndex
      show (rdInt (drawnStrings randomKeys n fun _ => keySize) (draws i) >>= _) = _
      rw [rdInt_drawn randomKeys (hd i).1 (hd i).2, bind_ok,
        show rd (shaFunctions sha (drawnSeed seed) 1) 0 =
          ok (sha.hashFunction (drawnSeed seed ++ stringBytes (toString 0))) from rfl, bind_ok]
      show sha.hashFunction _ _ (wrapInt32 m) = _
      rw [wrapInt32_small hm31]
      exact sha_hashFunction_ok sha _ _ (by omega) hm31
  · rw [g4]
    simp
  · intro i hi
    have hb := bucketNumber_lt sha (drawnSeed seed) (by omega : 0 < m) 0 (keys.getD (draws i).toNat [])
    have hparse := wireCodec_ok _ _ (hat _ hb) (maxLength ss -
      (ss.getD (bucketNumber sha (drawnSeed seed) m 0 (keys.getD (draws i).toNat [])) []).length)
    refine ⟨_, ?_, hparse, ?_⟩
    · rw [g4, List.getElem?_map, List.getElem?_map, List.getElem?_range hi]
      rfl
    · rw [hparse]
      unfold simpleBucket
      dsimp only
      rw [List.zip_map', List.map_id'']
      · exact firstValue_filter (fun x => bucketNumber sha (drawnSeed seed) m 0 x =
          bucketNumber sha (drawnSeed seed) m 0 (keys.getD (draws i).toNat [])) _ rfl records
      · intro r; rfl

/-- C83 on an example: for the third of three keys, the result has a bucket with its value. -/
example : ∃ s, simpleSetup exFp exCeilLog2 exSha' wireCodec (fun i => BitVec.ofNat 8 i) exDrawn exDrawn 3 4 1 2 = ok s ∧
    ∃ other response response' string,
    simpleRound exFp exCeilLog2 (Wire.helperCodec 100) exAes exEnv exSimd (fun _ => 5) s 2
      (fun i => if i = 0 then 2 else 0) (fun i => (BitVec.ofNat 128 i, 77)) = ok (other, some response) ∧
    s.server.handleRequest (Wire.helperCodec 100) exAes exEnv exSimd (some (.plain other)) = ok (some response') ∧
    (xorResponses response response')[0]? = some string ∧
    firstValue ((wireCodec.parse string).keys.zip (wireCodec.parse string).values) [20] = some [20, 21] := by
  obtain ⟨s, h1, h2⟩ := C83_simple_partial exFp (Wire.helperCodec 100) exAes exEnv exCeilLog2 exSha'
    exSimd exSimd_ok (fun i => BitVec.ofNat 8 i) exDrawn exDrawn (fun _ => 5) 3 4 1 2 (by decide) (by decide) (by decide)
    (by decide) (exCeilLog2_exact 4 (by decide)) (Or.inl (by decide))
  obtain ⟨a, b, c, h5, h6, _, h7⟩ := h2 2 (by decide) (fun i => if i = 0 then 2 else 0)
    (by intro i; dsimp only; split <;> omega) (fun i => (BitVec.ofNat 128 i, 77))
  obtain ⟨string, e1, _, e2⟩ := h7 0 (by decide)
  exact ⟨s, h1, a, b, c, string, h5, h6, e1, e2.trans (by decide +kernel)⟩

/-! ## Sampling -/

/-- C83: the benchmark of sampling integers modulo 2^32 - 5 computes in every round and for every iteration five
samples from the same bytes: the first 16 bytes and then four bytes each are the digits of a number that is divided
step by step. The hypothesis is about the security that the library computes for five samples; the exact value is
about 94.1 bits, so that up to 2^54 iterations would be accepted. -/
theorem C83_sample (fp : FpEnv) (random : Nat → BitVec 8) (n : Nat) (hn : n * 5 < 2 ^ 31)
    (hsec : roundDouble (40 + fp.log2 n) ≤ fp.secLevel 5 sampleModulus) :
    ∃ block : List (BitVec 32), sample fp random n = ok ((List.replicate n block).flatten) ∧
      block.length = 5 ∧ (∀ x ∈ block, x.toNat < 4294967291) ∧
      block.map (·.toNat) = residues 4294967291 32 (leAt ((List.range 32).map random) 0 16)
        ((List.range 4).map fun i => leAt ((List.range 32).map random) (16 + i * 4) 4) := by
  have hreq := getNumBytesRequired_of fp 5 .w32 sampleModulus (by decide) (by decide) (.val (roundDouble (40 + fp.log2 n))) (by decide)
    (by simp [IntModN.Sec.gt]; grind) (by decide)
  obtain ⟨samples, h1, h2⟩ := unsafeSample_ok (N := sampleModulus) (w := 32) (by decide) (by decide) (by decide)
    (by decide) ((List.range 32).map random) 5 (by decide) (by simp)
  refine ⟨samples, ?_, ?_, ?_, h2⟩
  · unfold sample
    rw [show IntModN.getNumBytesRequired fp 5 32 sampleModulus (.val (roundDouble (40 + fp.log2 n))) = ok 32 from hreq]
    dsimp only
    rw [bind_ok, if_neg (by decide)]
    have hi : intRange ((n : Int) * 5) = ok ((n : Int) * 5) := by
      unfold intRange
      rw [if_pos (by omega)]
    rw [hi, bind_ok, show Int.toNat 32 = 32 from rfl, mapRes_eq_ok_map (g := fun _ => samples) fun _ _ => h1, bind_ok,
      List.map_const', List.length_range]
  · have := congrArg List.length h2
    rw [List.length_map, residues_length, List.length_map, List.length_range] at this
    exact this
  · intro x hx
    exact residues_lt 32 (N := 4294967291) (by decide) _ _ _ (h2 ▸ List.mem_map.mpr ⟨x, hx, rfl⟩)

/-- C83 on an example: two iterations with the same five samples. -/
example : ∃ block, sample ⟨fun _ _ => 94, fun _ => 1⟩ (fun i => BitVec.ofNat 8 (200 + i)) 2 = ok (block ++ block) ∧
    block.map (·.toNat) = [3998332706, 1975852188, 1427301667, 2554797776, 1063373749] := by
  obtain ⟨block, h1, _, _, h2⟩ := C83_sample ⟨fun _ _ => 94, fun _ => 1⟩ (fun i => BitVec.ofNat 8 (200 + i)) 2
    (by decide) (by decide +kernel)
  refine ⟨block, h1.trans ?_, h2.trans (by decide +kernel)⟩
  simp [List.replicate_succ]

/-- C83: if the library computes less security than 40 bits more than the logarithm of the number of iterations, the
benchmark aborts. -/
theorem C83_sample_insecure (fp : FpEnv) (random : Nat → BitVec 8) (n : Nat)
    (hsec : fp.secLevel 5 sampleModulus < roundDouble (40 + fp.log2 n)) : sample fp random n = crash := by
  have hreq : IntModN.getNumBytesRequired fp 5 32 sampleModulus (.val (roundDouble (40 + fp.log2 n))) = err .invalidArgument := by
    have := getNumBytesRequired_width fp 5 .w32 sampleModulus (by decide) (.val (roundDouble (40 + fp.log2 n))) (by decide)
    rw [show ((5 : Nat) : Int) = 5 from rfl, show ((Width.w32.bits : Nat) : Int) = 32 from rfl] at this
    rw [this, if_neg (by omega), if_pos (by simp [IntModN.Sec.gt]; grind)]
  unfold sample
  rw [hreq]
  rfl

/-- C83 on an example: a library that computes 50 bits, and 2^11 iterations. -/
example : sample ⟨fun _ _ => 50, fun _ => 11⟩ (fun _ => 3) 2048 = crash :=
  C83_sample_insecure ⟨fun _ _ => 50, fun _ => 11⟩ (fun _ => 3) 2048 (by decide +kernel)

end Verif
