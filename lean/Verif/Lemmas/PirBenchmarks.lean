import Verif.Spec.PirBenchmarks
import Verif.Lemmas.PirTesting
import Verif.Lemmas.SparsePir
import Verif.Lemmas.Answers
import Verif.Lemmas.BucketWire
/-!
# Lemmas on the benchmarks of PIR
-/
namespace Verif
open Res Spec

namespace PirBenchmarks
open PirTesting

theorem generateRandomStrings_eq {random : Nat → Nat → BitVec 8} {n : Nat} {f : Nat → Int} (h : ∀ i, i < n → 0 ≤ f i) :
    generateRandomStrings random ((List.range n).map f) = ok (drawnStrings random n fun i => (f i).toNat) := by
  unfold generateRandomStrings drawnStrings
  have hz : ((List.range n).map f).zipIdx = (List.range n).map fun i => (f i, i) := by
    apply List.ext_getElem (by simp)
    intro i h1 h2
    simp
  rw [hz, mapRes_map]
  apply mapRes_eq_ok_map
  intro i hi
  have := h i (List.mem_range.mp hi)
  show (failIf _ _ >>= _) = _
  rw [failIf_false (by show ¬ f i < 0; omega), bind_ok]

theorem equalSize_eq (random : Nat → Nat → BitVec 8) (n size : Nat) :
    generateRandomStringsEqualSize random n size = ok (drawnStrings random n fun _ => size) := by
  unfold generateRandomStringsEqualSize
  rw [failIf_false (by omega), bind_ok, failIf_false (by omega), bind_ok, Int.toNat_natCast]
  have : List.replicate n (size : Int) = (List.range n).map fun _ => (size : Int) := by
    rw [List.map_const', List.length_range]
  rw [this, generateRandomStrings_eq (by intros; omega)]
  rfl

theorem variableSize_eq (random : Nat → Nat → BitVec 8) {draws : Nat → Int} {n avg : Nat} {diff : Int} (h0 : 0 ≤ diff)
    (h1 : ∀ i, i < n → 0 ≤ (avg : Int) + draws i) (h2 : ∀ i, i < n → (avg : Int) + draws i < 2 ^ 31) :
    generateRandomStringsVariableSize random draws n avg diff =
      ok (drawnStrings random n fun i => ((avg : Int) + draws i).toNat) := by
  unfold generateRandomStringsVariableSize
  rw [failIf_false (by omega), bind_ok, failIf_false (by omega), bind_ok, failIf_false (by omega), bind_ok,
    Int.toNat_natCast, mapRes_eq_ok_map (g := fun i => (avg : Int) + draws i), bind_ok, generateRandomStrings_eq h1]
  intro i hi
  have hi := List.mem_range.mp hi
  have := h1 i hi
  have := h2 i hi
  unfold intRange
  rw [if_pos (by omega)]

theorem variableSize_err (random : Nat → Nat → BitVec 8) {draws : Nat → Int} {n avg : Nat} {diff : Int} (h0 : 0 ≤ diff)
    (h1 : ∀ i, i < n → -2 ^ 31 ≤ (avg : Int) + draws i ∧ (avg : Int) + draws i < 2 ^ 31)
    (h2 : ∃ i, i < n ∧ (avg : Int) + draws i < 0) :
    generateRandomStringsVariableSize random draws n avg diff = err .invalidArgument := by
  unfold generateRandomStringsVariableSize
  rw [failIf_false (by omega), bind_ok, failIf_false (by omega), bind_ok, failIf_false (by omega), bind_ok,
    Int.toNat_natCast, mapRes_eq_ok_map (g := fun i => (avg : Int) + draws i), bind_ok]
  · apply generateRandomStrings_err
    obtain ⟨i, hi, h⟩ := h2
    exact ⟨_, List.mem_map.mpr ⟨i, List.mem_range.mpr hi, rfl⟩, h⟩
  · intro i hi
    have := h1 i (List.mem_range.mp hi)
    unfold intRange
    rw [if_pos (by omega)]

theorem drawnStrings_length (random : Nat → Nat → BitVec 8) (n : Nat) (size : Nat → Nat) :
    (drawnStrings random n size).length = n := by simp [drawnStrings]

theorem drawnStrings_getElem? (random : Nat → Nat → BitVec 8) {n : Nat} (size : Nat → Nat) {i : Nat} (h : i < n) :
    (drawnStrings random n size)[i]? = some ((List.range (size i)).map (random i)) := by
  simp [drawnStrings, h]

theorem mem_drawnStrings {random : Nat → Nat → BitVec 8} {n : Nat} {size : Nat → Nat} {v : Bytes}
    (h : v ∈ drawnStrings random n size) : ∃ i, i < n ∧ v.length = size i := by
  obtain ⟨i, hi, rfl⟩ := List.mem_map.mp h
  exact ⟨i, List.mem_range.mp hi, by simp⟩

theorem maxLength_eq {l : List Bytes} {s : Nat} (hex : ∃ v ∈ l, v.length = s) (h : ∀ v ∈ l, v.length ≤ s) :
    maxLength l = s := by
  obtain ⟨v, hv, hs⟩ := hex
  apply Nat.le_antisymm
  · unfold maxLength
    have : ∀ (m : List Nat) (a : Nat), a ≤ s → (∀ x ∈ m, x ≤ s) → m.foldl max a ≤ s := by
      intro m
      induction m with
      | nil => intro a ha _; exact ha
      | cons x m ih =>
        intro a ha hm
        rw [List.foldl_cons]
        exact ih _ (by have := hm x (by simp); omega) fun y hy => hm y (by simp [hy])
    apply this _ _ (by omega)
    intro x hx
    obtain ⟨v, hv, rfl⟩ := List.mem_map.mp hx
    exact h v hv
  · have := length_le_maxLength hv
    rw [hs] at this
    exact this

theorem maxLength_const {l : List Bytes} {s : Nat} (hne : l ≠ []) (h : ∀ v ∈ l, v.length = s) : maxLength l = s := by
  obtain ⟨v, hv⟩ := List.exists_mem_of_ne_nil l hne
  exact maxLength_eq ⟨v, hv, h v hv⟩ fun v hv => by rw [h v hv]; omega

theorem maxLength_drawn (random : Nat → Nat → BitVec 8) {n size : Nat} (hn : 0 < n) :
    maxLength (drawnStrings random n fun _ => size) = size := by
  apply maxLength_const
  · intro h
    have := congrArg List.length h
    rw [drawnStrings_length] at this
    simp at this
    omega
  · intro v hv
    obtain ⟨_, _, h⟩ := mem_drawnStrings hv
    exact h

theorem packed_ok {bits : Nat → U128} {n : Nat} (h : n + 127 < 2 ^ 31) :
    generateRandomPackedSelectionBits bits n = ok ((List.range ((n + 127) / 128)).map bits) := by
  unfold generateRandomPackedSelectionBits
  have hi : intRange ((n : Int) + 127) = ok ((n : Int) + 127) := by
    unfold intRange
    rw [if_pos (by omega)]
  have hd : ((n : Int) + 127).tdiv 128 = ((n + 127) / 128 : Nat) := by
    rw [show (n : Int) + 127 = ((n + 127 : Nat) : Int) by omega]
    rfl
  rw [hi, bind_ok, hd, if_neg (by omega), Int.toNat_natCast]

theorem packed_bit {bits : Nat → U128} {n i : Nat} (h : i < n) :
    selectionBit ((List.range ((n + 127) / 128)).map bits) i = drawnBit bits i := by
  unfold selectionBit drawnBit
  have : i / 128 < (n + 127) / 128 := by omega
  simp [this]

/-- Inner products with the same selection bits several times. -/
theorem product_ok {simd : SimdEnv} (hs : SimdOk simd) {values : List Bytes} (h : values.length + 127 < 2 ^ 31)
    (hne : ∃ v ∈ values, v ≠ []) (bits : Nat → U128) (k : Nat) :
    ∃ db, databaseOf values = ok db ∧
      db.innerProductWith simd (List.replicate k ((List.range ((values.length + 127) / 128)).map bits)) =
        ok (List.replicate k (xorPadded (maxLength values) (selectedRecords values (drawnBit bits)))) := by
  obtain ⟨db, hdb⟩ := builtFrom_exists values
  refine ⟨db, hdb, ?_⟩
  have hh := builtFrom_holds hdb
  unfold DenseDb.innerProductWith
  rw [hh.content, bind_ok, hh.max]
  have hpos : 0 < maxLength values := by
    obtain ⟨v, hv, h0⟩ := hne
    have := length_le_maxLength hv
    have := List.length_pos_iff.mpr h0
    omega
  rw [C32_inner_product_partial simd hs values _ _ ((values.length + 127) / 128) hpos (by simp) (by omega) (by omega)
    (by omega) fun v hv => length_le_maxLength hv, List.map_replicate]
  congr 2
  congr 1
  apply selectedRecords_congr
  intro i hi
  exact packed_bit hi

/-! ### Servers for databases with keys -/

theorem generator_ok {fp : FpEnv} {c : CeilLog2} {n : Nat} {d : Dpf} (hn : 0 < n)
    (hd : Dpf.create fp (pirParameters c n) = ok d) (otp : Nat → BitVec 8) (info : Bytes) :
    RequestGenerator.create fp c otp n info = ok ⟨d, Prng.generateSeed otp, info, n⟩ := by
  unfold RequestGenerator.create
  rw [failIf_false (by omega), bind_ok, hd, bind_ok]

theorem requests_ok {d : Dpf} {n : Nat} {env : Env} {ms : List Nat} (hm : ∀ m ∈ ms, m < n)
    {seeds : Nat → U128 × U128} {keys : List (DpfKey × DpfKey)}
    (h : mapRes (fun (q, i) => DenseClient.keysFor d env q (seeds i)) (ms.map fun m : Nat => (m : Int)).zipIdx =
      ok keys) (otp info : Bytes) :
    RequestGenerator.createPlainRequests ⟨d, otp, info, n⟩ env (ms.map fun m : Nat => (m : Int)) seeds =
      ok (⟨keys.map (·.1), 0⟩, ⟨keys.map (·.2), 0⟩) := by
  unfold RequestGenerator.createPlainRequests
  have hcongr : mapRes (RequestGenerator.keysAt ⟨d, otp, info, n⟩ env seeds) (ms.map fun m : Nat => (m : Int)).zipIdx =
      mapRes (fun (q, i) => DenseClient.keysFor d env q (seeds i)) (ms.map fun m : Nat => (m : Int)).zipIdx := by
    apply mapRes_congr
    intro x hx
    obtain ⟨q, hq', hx'⟩ := List.mem_map.mp (List.fst_mem_of_mem_zipIdx hx)
    have := hm q hq'
    rw [keysAt_eq (by omega) (show x.1 < (n : Int) by omega)]
  rw [hcongr, h, bind_ok]

theorem checkFingerprint_zero (keys : List DpfKey) (f : Int) : checkFingerprint ⟨keys, 0⟩ f = ok () := by
  unfold checkFingerprint
  rw [failIf_false (fun h => h.1 rfl)]

/-- Requests for buckets, with cuckoo hashing. -/
theorem cuckoo_buckets {fp : FpEnv} (env : Env) {c : CeilLog2} {sha : Sha256} {simd : SimdEnv} (hs : SimdOk simd)
    {db : CuckooDb} {K V : List Bytes} (hK : db.keys.Holds K) (hV : db.values.Holds V) {seed : Bytes} {k n : Nat}
    (hk : 0 < k) (hKn : K.length = n) (hVn : V.length = n) (hdb : db.numSelectionBits = n) (hn : 0 < n)
    (hc : ExactAt c n) (hman : Manageable n simd simd) :
    ∃ (d : Dpf) (f : Int),
      CuckooServer.createPlain fp c sha (cuckooParams seed k n) (some db) =
        ok ⟨.cuckoo (cuckooParams seed k n), d, db, f, .plain⟩ ∧
      (∀ otp info, RequestGenerator.create fp c otp n info = ok ⟨d, Prng.generateSeed otp, info, n⟩) ∧
      ∀ ms : List Nat, ms ≠ [] → (∀ m ∈ ms, m < n) → 0 < maxLength K → 0 < maxLength V →
      ∀ (otp info : Bytes) (seeds : Nat → U128 × U128),
        ∃ req0 req1 r0 r1,
          RequestGenerator.createPlainRequests ⟨d, otp, info, n⟩ env (ms.map fun m : Nat => (m : Int)) seeds =
            ok (req0, req1) ∧
          CuckooServer.handlePlainRequest env simd ⟨.cuckoo (cuckooParams seed k n), d, db, f, .plain⟩
            (some (.plain req0)) = ok (some r0) ∧
          CuckooServer.handlePlainRequest env simd ⟨.cuckoo (cuckooParams seed k n), d, db, f, .plain⟩
            (some (.plain req1)) = ok (some r1) ∧
          xorResponses r0 r1 = interleave (ms.map fun m =>
            (padded (maxLength K) (K.getD m []), padded (maxLength V) (V.getD m []))) := by
  have h31 : n < 2 ^ 31 := by rcases hman with h | ⟨_, _, h⟩ <;> omega
  obtain ⟨l, d, hl, hle, hl31, hd, hd'⟩ := pirDpf_of_exact fp hc (by omega)
  obtain ⟨f, hf⟩ := fingerprint_ok sha ⟨1, seed⟩
  obtain ⟨_, hL⟩ := manageable_pow hman hc hl
  refine ⟨d, f, CuckooServer.createPlain_ok hk hn hdb hd hf, fun otp info => generator_ok hn hd otp info, ?_⟩
  intro ms hms hlt hKpos hVpos otp info seeds
  have hmspos : 0 < ms.length := List.length_pos_iff.mpr hms
  obtain ⟨keys, s0, s1, rk0, rk1, a1, a2, a3, a4, a5, a6, a7, a8, a9, a10, a11⟩ :=
    pir_core hd' env hK hKpos (by omega) (by omega) hs hs hL ms (by rw [hKn]; exact hlt) seeds
  obtain ⟨keys', s0', s1', rv0, rv1, b1, b2, b3, b4, b5, b6, b7, b8, b9, b10, b11⟩ :=
    pir_core hd' env hV hVpos (by omega) (by omega) hs hs hL ms (by rw [hVn]; exact hlt) seeds
  rw [a1] at b1
  cases b1
  rw [a3] at b3
  cases b3
  rw [a4] at b4
  cases b4
  have hs0 : s0.length = ms.length := by rw [mapRes_length a3, List.length_map, a2]
  have hs1 : s1.length = ms.length := by rw [mapRes_length a4, List.length_map, a2]
  refine ⟨_, _, interleave (rk0.zip rv0), interleave (rk1.zip rv1), requests_ok hlt a1 otp info, ?_, ?_, ?_⟩
  · unfold CuckooServer.handlePlainRequest
    dsimp only
    rw [failIf_false (by rw [List.length_map]; omega), bind_ok, checkFingerprint_zero, bind_ok, a3, bind_ok]
    unfold CuckooDb.innerProductWith
    rw [a5, bind_ok, b5, bind_ok, failIf_false (by rw [a7, b7, hs0]; simp), bind_ok, bind_ok, pairUp_eq_zip]
    rfl
  · unfold CuckooServer.handlePlainRequest
    dsimp only
    rw [failIf_false (by rw [List.length_map]; omega), bind_ok, checkFingerprint_zero, bind_ok, a4, bind_ok]
    unfold CuckooDb.innerProductWith
    rw [a6, bind_ok, b6, bind_ok, failIf_false (by rw [a8, b8, hs1]; simp), bind_ok, bind_ok, pairUp_eq_zip]
    rfl
  · rw [interleave_xor (by rw [a7, b7]) (by rw [a7, a8]) (by rw [b7, b8])]
    unfold xorResponses
    rw [a11, b11, List.zip_map']

/-- Requests for buckets, with simple hashing. -/
theorem simple_buckets {fp : FpEnv} (env : Env) {c : CeilLog2} {sha : Sha256} {simd : SimdEnv} (hs : SimdOk simd)
    {db : SimpleDb} {ss : List Bytes} (hdb : db.dense.Holds ss) {seed : Bytes} {n : Nat} (hss : ss.length = n)
    (hsel : db.numSelectionBits = n) (hn : 0 < n) (hpos : 0 < maxLength ss) (hc : ExactAt c n)
    (hman : Manageable n simd simd) :
    ∃ (d : Dpf) (f : Int),
      SimpleServer.createPlain fp c sha (simpleParams seed n) (some db) =
        ok ⟨.simple (simpleParams seed n), d, db, f, .plain⟩ ∧
      (∀ otp info, RequestGenerator.create fp c otp n info = ok ⟨d, Prng.generateSeed otp, info, n⟩) ∧
      ∀ ms : List Nat, ms ≠ [] → (∀ m ∈ ms, m < n) → ∀ (otp info : Bytes) (seeds : Nat → U128 × U128),
        ∃ req0 req1 r0 r1,
          RequestGenerator.createPlainRequests ⟨d, otp, info, n⟩ env (ms.map fun m : Nat => (m : Int)) seeds =
            ok (req0, req1) ∧
          SimpleServer.handlePlainRequest env simd ⟨.simple (simpleParams seed n), d, db, f, .plain⟩
            (some (.plain req0)) = ok (some r0) ∧
          SimpleServer.handlePlainRequest env simd ⟨.simple (simpleParams seed n), d, db, f, .plain⟩
            (some (.plain req1)) = ok (some r1) ∧
          xorResponses r0 r1 = ms.map fun m => padded (maxLength ss) (ss.getD m []) := by
  have h31 : n < 2 ^ 31 := by rcases hman with h | ⟨_, _, h⟩ <;> omega
  obtain ⟨l, d, hl, hle, hl31, hd, hd'⟩ := pirDpf_of_exact fp hc (by omega)
  obtain ⟨f, hf⟩ := fingerprint_ok sha ⟨1, seed⟩
  obtain ⟨_, hL⟩ := manageable_pow hman hc hl
  refine ⟨d, f, SimpleServer.createPlain_ok hn hsel hd hf, fun otp info => generator_ok hn hd otp info, ?_⟩
  intro ms hms hlt otp info seeds
  have hmspos : 0 < ms.length := List.length_pos_iff.mpr hms
  obtain ⟨keys, s0, s1, r0, r1, a1, a2, a3, a4, a5, a6, a7, a8, a9, a10, a11⟩ :=
    pir_core hd' env hdb hpos (by omega) (by omega) hs hs hL ms (by rw [hss]; exact hlt) seeds
  refine ⟨_, _, r0, r1, requests_ok hlt a1 otp info, ?_, ?_, a11⟩
  · unfold SimpleServer.handlePlainRequest
    dsimp only
    rw [failIf_false (by rw [List.length_map]; omega), bind_ok, checkFingerprint_zero, bind_ok, a3, bind_ok]
    show (db.dense.innerProductWith simd s0 >>= _) = _
    rw [a5, bind_ok]
  · unfold SimpleServer.handlePlainRequest
    dsimp only
    rw [failIf_false (by rw [List.length_map]; omega), bind_ok, checkFingerprint_zero, bind_ok, a4, bind_ok]
    show (db.dense.innerProductWith simd s1 >>= _) = _
    rw [a6, bind_ok]

/-! ### Records -/

theorem pairs_ok (rk rv : Nat → Nat → BitVec 8) (n ks vs : Nat) :
    pairs (drawnStrings rk n fun _ => ks) (drawnStrings rv n fun _ => vs) n = ok (drawnPairs rk rv n ks vs) := by
  unfold pairs drawnPairs drawnStrings
  rw [Int.toNat_natCast, List.zip_map']
  apply mapRes_eq_ok_map
  intro i hi
  have hi := List.mem_range.mp hi
  rw [rd_lt (by simpa using hi), bind_ok, rd_lt (by simpa using hi), bind_ok]
  simp

theorem drawnPairs_length (rk rv : Nat → Nat → BitVec 8) (n ks vs : Nat) :
    (drawnPairs rk rv n ks vs).length = n := by
  simp [drawnPairs, drawnStrings_length]

theorem mem_drawnPairs {rk rv : Nat → Nat → BitVec 8} {n ks vs : Nat} {r : Bytes × Bytes}
    (h : r ∈ drawnPairs rk rv n ks vs) : r.1.length = ks ∧ r.2.length = vs := by
  unfold drawnPairs at h
  obtain ⟨_, _, h1⟩ := mem_drawnStrings (List.of_mem_zip h).1
  obtain ⟨_, _, h2⟩ := mem_drawnStrings (List.of_mem_zip h).2
  exact ⟨h1, h2⟩

theorem drawnPairs_keys (rk rv : Nat → Nat → BitVec 8) (n ks vs : Nat) :
    (drawnPairs rk rv n ks vs).map (·.1) = drawnStrings rk n fun _ => ks := by
  unfold drawnPairs
  exact List.map_fst_zip (by simp [drawnStrings_length])

theorem rdInt_drawn (rk : Nat → Nat → BitVec 8) {n ks : Nat} {i : Int} (h0 : 0 ≤ i) (h1 : i < n) :
    rdInt (drawnStrings rk n fun _ => ks) i = ok ((drawnStrings rk n fun _ => ks).getD i.toNat []) := by
  unfold rdInt
  rw [if_neg (by omega), rd_lt (by rw [drawnStrings_length]; omega)]
  congr 1
  simp [List.getD_eq_getElem?_getD, show i.toNat < (drawnStrings rk n fun _ => ks).length by
    rw [drawnStrings_length]; omega]

theorem hashAll {sha : Sha256} {seed : Bytes} {m : Nat} (hm : 0 < m) (hm31 : m < 2 ^ 31) (k : Nat) (key : Bytes) :
    mapRes (fun f : HashFunction => f key (wrapInt32 m)) (shaFunctions sha seed k) =
      ok ((List.range k).map fun j => ((bucketNumber sha seed m j key : Nat) : Int)) := by
  rw [wrapInt32_small hm31]
  unfold shaFunctions
  rw [mapRes_map]
  apply mapRes_eq_ok_map
  intro j _
  exact sha_hashFunction_ok sha _ key hm hm31

theorem varint_le {k n : Nat} (h : n < 128 ^ k) (h0 : 0 < k) : (varint n).length ≤ k := by
  induction k generalizing n with
  | zero => omega
  | succ k ih =>
    rw [varint]
    split
    · simp
    · rename_i hn
      rw [List.length_cons]
      have hk : 0 < k := by
        rcases Nat.eq_zero_or_pos k with rfl | hk
        · omega
        · exact hk
      have := ih (n := n / 128) (Nat.div_lt_of_lt_mul (by rw [Nat.pow_succ, Nat.mul_comm] at h; exact h)) hk
      omega

theorem fields_length (tag : BitVec 8) {size : Nat} (hsize : size < 2 ^ 31) (l : List Bytes)
    (h : ∀ v ∈ l, v.length = size) : (l.flatMap (field tag)).length ≤ l.length * (size + 6) := by
  induction l with
  | nil => simp
  | cons a l ih =>
    have h1 := ih fun v hv => h v (by simp [hv])
    have h2 : (varint a.length).length ≤ 5 := varint_le (k := 5) (n := a.length) (by rw [h a (by simp)]; omega) (by omega)
    have h3 := h a (by simp)
    rw [List.flatMap_cons, List.length_append, List.length_cons, Nat.succ_mul]
    have : (field tag a).length ≤ size + 6 := by
      unfold field
      rw [List.length_cons, List.length_append]
      omega
    omega

theorem bucket_serializes (sha : Sha256) (seed : Bytes) (m : Nat) {rk rv : Nat → Nat → BitVec 8} {n ks vs : Nat}
    (h : n * (ks + vs + 12) < 2 ^ 31) (hn : 1 ≤ n) (i : Nat) :
    ∃ s, wireCodec.serialize (simpleBucket sha seed m (drawnPairs rk rv n ks vs) i) = some s := by
  have hmem : ∀ r ∈ (drawnPairs rk rv n ks vs).filter (fun r => bucketNumber sha seed m 0 r.1 = i),
      r.1.length = ks ∧ r.2.length = vs := fun r hr => mem_drawnPairs (List.mem_filter.mp hr).1
  have hlen : ((drawnPairs rk rv n ks vs).filter (fun r => bucketNumber sha seed m 0 r.1 = i)).length ≤ n := by
    have := List.length_filter_le (fun r => decide (bucketNumber sha seed m 0 r.1 = i)) (drawnPairs rk rv n ks vs)
    rw [drawnPairs_length] at this
    exact this
  have hb : ks + vs + 12 ≤ n * (ks + vs + 12) := Nat.le_mul_of_pos_left _ hn
  unfold wireCodec simpleBucket
  dsimp only
  generalize (drawnPairs rk rv n ks vs).filter (fun r => bucketNumber sha seed m 0 r.1 = i) = rs at hmem hlen
  have h1 := fields_length 10 (show ks < 2 ^ 31 by omega) (rs.map (·.1)) (by
    intro v hv
    obtain ⟨r, hr, rfl⟩ := List.mem_map.mp hv
    exact (hmem r hr).1)
  have h2 := fields_length 18 (show vs < 2 ^ 31 by omega) (rs.map (·.2)) (by
    intro v hv
    obtain ⟨r, hr, rfl⟩ := List.mem_map.mp hv
    exact (hmem r hr).2)
  rw [List.length_map] at h1 h2
  have h3 := Nat.mul_le_mul_right (ks + 6) hlen
  have h4 := Nat.mul_le_mul_right (vs + 6) hlen
  have h5 : n * (ks + vs + 12) = n * (ks + 6) + n * (vs + 6) := by rw [← Nat.mul_add]; congr 1; omega
  rw [if_pos (by rw [List.length_append]; omega)]
  exact ⟨_, rfl⟩

end PirBenchmarks
end Verif
