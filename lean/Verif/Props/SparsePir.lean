import Verif.Lemmas.SparsePir
import Verif.Lemmas.BucketWire
import Verif.Lemmas.WireKeys
import Verif.Props.DensePir
/-!
# C45–C47: databases with keys, PIR by keys
-/
namespace Verif
open Res Spec

/-! ## C45 -/

/-- C45: whatever the records with non-empty keys, and whatever random numbers are drawn, a database can be
built. (Even if it has fewer buckets than there are keys, see `C45_refuted`.) -/
theorem C45_builds (sha : Sha256) (random : Nat → Nat) (seed : Bytes) (k n : Nat) (hs : seed ≠ [])
    (hk : 2 ≤ k) (hr : ∀ i, random i < k) (h0 : 0 < n) (h1 : n < 2 ^ 31) (records : List (Bytes × Bytes))
    (hrec : records.length < 2 ^ 31) (hkeys : ∀ r ∈ records, r.1 ≠ []) :
    ∃ db, CuckooBuiltFrom sha random (cuckooParams seed k n) records db := by
  obtain ⟨db, _, _, h, _⟩ := cuckoo_build_ok sha hs hk hr h0 h1 records hrec hkeys
  exact ⟨db, h⟩

/-- C45: the buckets of a built database. There are `n` keys and `n` values. Every bucket is empty or has
a key that was inserted and the value that was inserted first for this key, and one of the hash functions
maps the key to this bucket. No key is in two buckets. The size of the database is the number of different
keys. -/
theorem C45_buckets (sha : Sha256) (random : Nat → Nat) (seed : Bytes) (k n : Nat)
    (records : List (Bytes × Bytes)) (db : CuckooDb) (hr : ∀ i, random i < k) (h1 : n < 2 ^ 31)
    (hrec : records.length < 2 ^ 31)
    (hdb : CuckooBuiltFrom sha random (cuckooParams seed k n) records db) :
    ∃ K V, CuckooHolds db K V ∧ K.length = n ∧ V.length = n ∧
      (∀ i, i < n → (K.getD i [] = [] ∧ V.getD i [] = []) ∨
        (some (V.getD i []) = firstValue records (K.getD i []) ∧
          ∃ j, j < k ∧ bucketNumber sha seed n j (K.getD i []) = i)) ∧
      (∀ i j, K.getD i [] ≠ [] → K.getD i [] = K.getD j [] → i = j) ∧
      (∀ keys : List Bytes, keys.Nodup → (∀ x, x ∈ keys ↔ x ∈ records.map (·.1)) →
        db.size = keys.length) := by
  obtain ⟨table, stash, a1, a2, a3, a4, a5, a6, a7, a8⟩ := cuckoo_table hr h1 hrec hdb
  refine ⟨_, _, ⟨a1.content, a2.content⟩, by simpa using a4, by simpa using a4, ?_, ?_, ?_⟩
  · intro i hi
    have hi' : i < table.length := by omega
    cases hc : table[i] with
    | none => left; simp [hi', hc, bucketValue]
    | some x =>
      right
      have hx : table[i]? = some (some x) := by rw [List.getElem?_eq_getElem hi', hc]
      have hK : (table.map (·.getD [])).getD i [] = x := by simp [hi', hc]
      have hV : (table.map (bucketValue records)).getD i [] = (firstValue records x).getD [] := by
        simp [hi', hc, bucketValue]
      rw [hK, hV]
      refine ⟨?_, a5 i x hx⟩
      have hm : x ∈ records.map (·.1) :=
        (a7 x).mp (List.mem_append.mpr (Or.inl (mem_table.mpr ⟨i, hx⟩)))
      rw [firstValue_isSome] at hm
      cases hv : firstValue records x with
      | none => rw [hv] at hm; obtain ⟨_, hm⟩ := hm; cases hm
      | some v => rfl
  · intro i j hne he
    exact nodup_table (List.nodup_append.mp a6).1 (table_of_key hne rfl) (table_of_key hne he.symm)
  · intro keys hnd hmem
    rw [a8, ← List.length_append]
    apply Nat.le_antisymm
    · exact a6.length_le_of_subset fun x hx => (hmem x).mpr ((a7 x).mp hx)
    · exact hnd.length_le_of_subset fun x hx => (a7 x).mpr ((hmem x).mp hx)

/-- C45 for databases that have as many filled buckets as records: every inserted key is in one of the
buckets that the hash functions give, together with the value that was inserted first for it.

Missing: databases with keys in the stash. `Build` does not check for them, and they are not found, see
`C45_refuted`. -/
theorem C45_stored_partial (sha : Sha256) (random : Nat → Nat) (seed : Bytes) (k n : Nat)
    (records : List (Bytes × Bytes)) (db : CuckooDb) (hr : ∀ i, random i < k) (h1 : n < 2 ^ 31)
    (hrec : records.length < 2 ^ 31)
    (hdb : CuckooBuiltFrom sha random (cuckooParams seed k n) records db) (K V : List Bytes)
    (hKV : CuckooHolds db K V) (hall : NoneInStash db K) (r : Bytes × Bytes) (hmem : r ∈ records) :
    ∃ j, j < k ∧ K.getD (bucketNumber sha seed n j r.1) [] = r.1 ∧
      some (V.getD (bucketNumber sha seed n j r.1) []) = firstValue records r.1 := by
  obtain ⟨_, _, _, hkeys⟩ := cuckoo_built_inv h1 hdb
  obtain ⟨table, stash, a1, a2, a3, a4, a5, a6, a7, a8⟩ := cuckoo_table hr h1 hrec hdb
  obtain ⟨hK, hV⟩ := hKV
  rw [a1.content] at hK
  rw [a2.content] at hV
  cases hK
  cases hV
  unfold NoneInStash at hall
  rw [filled_count records hkeys table fun x hx => (a7 x).mp (List.mem_append.mpr (Or.inl hx)), a8] at hall
  have hst : stash = [] := List.eq_nil_of_length_eq_zero (by omega)
  have hm := (a7 r.1).mpr (List.mem_map.mpr ⟨r, hmem, rfl⟩)
  rw [hst, List.append_nil] at hm
  obtain ⟨i, hi⟩ := mem_table.mp hm
  obtain ⟨j, hj, hb⟩ := a5 i r.1 hi
  have hil : i < table.length := by
    rcases Nat.lt_or_ge i table.length with h | h
    · exact h
    · rw [List.getElem?_eq_none h] at hi; cases hi
  have hc : table[i] = some r.1 := by
    rw [List.getElem?_eq_getElem hil] at hi
    exact Option.some.inj hi
  refine ⟨j, hj, ?_, ?_⟩
  · rw [hb]; simp [hil, hc]
  · rw [hb]
    have := firstValue_isSome.mp (List.mem_map.mpr ⟨r, hmem, rfl⟩)
    cases hv : firstValue records r.1 with
    | none => rw [hv] at this; obtain ⟨_, this⟩ := this; cases this
    | some v => simp [hil, hc, bucketValue, hv]

/-- Four records for seven buckets. -/
def exPairs : List (Bytes × Bytes) := [([1], [10]), ([2, 2], [20, 21]), ([3], [30]), ([1], [11])]

/-- The database of these records. -/
def exCuckooDb : CuckooDb :=
  ((exPairs.foldl CuckooBuilder.insert (CuckooBuilder.new.setParams (cuckooParams [9] 3 7))).build exSha
    fun i => i % 3).1.getD ⟨⟨0, [], 0, []⟩, ⟨0, [], 0, []⟩, 0, 0⟩

theorem exCuckooDb_ok : CuckooBuiltFrom exSha (fun i => i % 3) (cuckooParams [9] 3 7) exPairs exCuckooDb :=
  Res.eq_ok_getD (by decide +kernel) _

/-- Its buckets. -/
theorem exCuckooDb_holds : CuckooHolds exCuckooDb [[3], [], [2, 2], [], [], [], [1]]
    [[30], [], [20, 21], [], [], [], [10]] := by decide +kernel

/-- C45 on an example: the second record with key `[1]` is ignored, all three keys have buckets. -/
example : ∃ j, j < 3 ∧ [[3], [], [2, 2], [], [], [], [1]].getD (bucketNumber exSha [9] 7 j [2, 2]) [] =
    ([2, 2] : Bytes) ∧ some ([[30], [], [20, 21], [], [], [], [10]].getD (bucketNumber exSha [9] 7 j [2, 2]) []) =
    firstValue exPairs [2, 2] :=
  C45_stored_partial exSha (fun i => i % 3) [9] 3 7 exPairs exCuckooDb (fun i => Nat.mod_lt i (by decide))
    (by decide) (by decide) exCuckooDb_ok _ _ exCuckooDb_holds (by decide +kernel) ([2, 2], [20, 21])
    (by decide)

/-- C45 on an example: the database has three records. -/
example : exCuckooDb.size = ([[1], [2, 2], [3]] : List Bytes).length := by
  obtain ⟨_, _, _, _, _, _, _, h⟩ := C45_buckets exSha (fun i => i % 3) [9] 3 7 exPairs exCuckooDb
    (fun i => Nat.mod_lt i (by decide)) (by decide) (by decide) exCuckooDb_ok
  refine h _ (by decide) ?_
  intro x
  simp only [exPairs, List.map_cons, List.map_nil, List.mem_cons, List.not_mem_nil, or_false]
  constructor
  · rintro (h | h | h) <;> simp [h]
  · rintro (h | h | h | h) <;> simp [h]

/-- C45 is false: a database with one bucket is built from two records without an error, and one of the
keys is in none of its buckets. -/
theorem C45_refuted : ∃ db K V,
    CuckooBuiltFrom exSha (fun i => i % 2) (cuckooParams [9] 2 1) [([1], [10]), ([2], [20])] db ∧
    CuckooHolds db K V ∧ db.size = 2 ∧ ([2] : Bytes) ∉ K :=
  ⟨((([([1], [10]), ([2], [20])] : List (Bytes × Bytes)).foldl CuckooBuilder.insert
      (CuckooBuilder.new.setParams (cuckooParams [9] 2 1))).build exSha
      fun i => i % 2).1.getD ⟨⟨0, [], 0, []⟩, ⟨0, [], 0, []⟩, 0, 0⟩, [[1]], [[10]],
    Res.eq_ok_getD (by decide +kernel) _, by decide +kernel, by decide +kernel, by decide⟩

/-! ## C46 -/

theorem maxLength_pos {l : List Bytes} (h : ∃ v ∈ l, v ≠ []) : 0 < maxLength l := by
  obtain ⟨v, hv, h0⟩ := h
  have := length_le_maxLength hv
  have := List.length_pos_iff.mpr h0
  omega

/-- C46: leader, helper and client for a built database in which some bucket has a non-empty value. For
every list of queries the client gets what `cuckooAnswer` says: the value, padded to the longest one, of
the first of the buckets given by the hash functions whose key, padded to the longest key, has the query
(padded with zero bytes) as prefix. -/
theorem C46_answers (S : PirSetting) (random : Nat → Nat) (seed : Bytes) (k n : Nat)
    (records : List (Bytes × Bytes)) (db : CuckooDb) (hr : ∀ i, random i < k)
    (hrec : records.length < 2 ^ 31)
    (hdb : CuckooBuiltFrom S.sha random (cuckooParams seed k n) records db) (K V : List Bytes)
    (hKV : CuckooHolds db K V) (hV : ∃ v ∈ V, v ≠ [])
    (queries : List Bytes) (hq : queries ≠ []) (hS : S.Works CuckooServer.contextInfo n (queries.length * k)) :
    CuckooRun S (cuckooParams seed k n) db queries
      (queries.map fun q =>
        cuckooAnswer K V ((List.range k).map fun j => bucketNumber S.sha seed n j q) q) := by
  have h1 : n < 2 ^ 31 := by rcases hS.manageable with h | ⟨_, _, h⟩ <;> omega
  obtain ⟨hs, hk, hn, hkeys⟩ := cuckoo_built_inv h1 hdb
  obtain ⟨table, stash, a1, a2, a3, a4, a5, a6, a7, a8⟩ := cuckoo_table hr h1 hrec hdb
  obtain ⟨hK', hV'⟩ := hKV
  rw [a1.content] at hK'
  rw [a2.content] at hV'
  cases hK'
  cases hV'
  refine cuckoo_run hq hS a1 a2 hs (by omega) (by simpa using a4) (by simpa using a4) a3 hn ?_
    (maxLength_pos hV)
  apply maxLength_pos
  obtain ⟨v, hv, hne⟩ := hV
  obtain ⟨c, hc, rfl⟩ := List.mem_map.mp hv
  cases c with
  | none => exact absurd rfl hne
  | some x =>
    refine ⟨x, List.mem_map.mpr ⟨some x, hc, rfl⟩, ?_⟩
    have hm : x ∈ records.map (·.1) :=
      (a7 x).mp (List.mem_append.mpr (Or.inl (List.mem_filterMap.mpr ⟨some x, hc, rfl⟩)))
    obtain ⟨r, hr, rfl⟩ := List.mem_map.mp hm
    exact hkeys r hr

/-- C46 for databases with no key in the stash and with a non-empty value, and for queries that are not
longer than the longest key and do not look like another key: a query of zero bytes only looks like an
empty bucket; a query that is the same as an inserted key up to zero bytes at the end looks like this key.
The client gets for every key the value that was inserted first for it, padded to the longest value, and
nothing for other queries.

Missing: other databases and queries. For these the statement is false: `C46_longer_refuted`,
`C46_zeros_refuted`, `C46_empty_refuted`, `C46_no_value_refuted`. -/
theorem C46_end_to_end_partial (S : PirSetting) (random : Nat → Nat) (seed : Bytes) (k n : Nat)
    (records : List (Bytes × Bytes)) (db : CuckooDb) (hr : ∀ i, random i < k)
    (hrec : records.length < 2 ^ 31)
    (hdb : CuckooBuiltFrom S.sha random (cuckooParams seed k n) records db) (K V : List Bytes)
    (hKV : CuckooHolds db K V) (hall : NoneInStash db K) (hV : ∃ v ∈ V, v ≠ [])
    (queries : List Bytes) (hq : queries ≠ []) (hS : S.Works CuckooServer.contextInfo n (queries.length * k))
    (hlen : ∀ q ∈ queries, q.length ≤ maxLength K)
    (hzero : ∀ q ∈ queries, ¬ SameUpToZeros [] q)
    (hsame : ∀ q ∈ queries, ∀ r ∈ records, SameUpToZeros r.1 q → r.1 = q) :
    CuckooRun S (cuckooParams seed k n) db queries
      (queries.map fun q => (firstValue records q).map (padded (maxLength V))) := by
  have h1 : n < 2 ^ 31 := by rcases hS.manageable with h | ⟨_, _, h⟩ <;> omega
  have main := C46_answers S random seed k n records db hr hrec hdb K V hKV hV queries hq hS
  have hmap : (queries.map fun q =>
      cuckooAnswer K V ((List.range k).map fun j => bucketNumber S.sha seed n j q) q) =
      queries.map fun q => (firstValue records q).map (padded (maxLength V)) := by
    apply List.map_congr_left
    intro q hqm
    have hn : 0 < n := (cuckoo_built_inv h1 hdb).2.2.1
    obtain ⟨K', V', hKV', hKl, hVl, hb, _, _⟩ :=
      C45_buckets S.sha random seed k n records db hr h1 hrec hdb
    have hK' : K = K' := by
      have := hKV.1
      rw [hKV'.1] at this
      exact (ok.inj this).symm
    have hV' : V = V' := by
      have := hKV.2
      rw [hKV'.2] at this
      exact (ok.inj this).symm
    subst hK'
    subst hV'
    have hKlen : ∀ h, (K.getD h []).length ≤ maxLength K := by
      intro h
      rw [List.getD_eq_getElem?_getD]
      cases hh : K[h]? with
      | none => simp
      | some x => exact length_le_maxLength (List.mem_of_getElem? hh)
    -- what a matching bucket has
    have hmatch : ∀ j, padded (maxLength K) (K.getD (bucketNumber S.sha seed n j q) []) =
        (q ++ List.replicate (maxLength K) 0).take (maxLength K) →
        some (V.getD (bucketNumber S.sha seed n j q) []) = firstValue records q := by
      intro j hp
      have hsm := (same_of_padded (hlen q hqm) (hKlen _)).mp hp
      have hlt : bucketNumber S.sha seed n j q < n := Nat.mod_lt _ hn
      rcases hb _ hlt with ⟨h0, _⟩ | ⟨hv, _⟩
      · rw [h0] at hsm
        exact absurd hsm (hzero q hqm)
      · have hm : K.getD (bucketNumber S.sha seed n j q) [] ∈ records.map (·.1) :=
          firstValue_isSome.mpr ⟨_, hv.symm⟩
        obtain ⟨r, hr, he⟩ := List.mem_map.mp hm
        rw [← he] at hsm hv
        rw [hv, hsame q hqm r hr hsm]
    unfold cuckooAnswer
    rw [List.findSome?_map]
    cases hfv : firstValue records q with
    | none =>
      rw [Option.map_none, List.findSome?_eq_none_iff]
      intro j _
      dsimp only [Function.comp]
      rw [if_neg]
      intro hp
      have := hmatch j hp
      rw [hfv] at this
      cases this
    | some v =>
      rw [Option.map_some]
      apply findSome?_const
      · intro j _
        dsimp only [Function.comp]
        by_cases hp : padded (maxLength K) (K.getD (bucketNumber S.sha seed n j q) []) =
            (q ++ List.replicate (maxLength K) 0).take (maxLength K)
        · right
          have := hmatch j hp
          rw [hfv] at this
          rw [if_pos hp, Option.some.inj this]
        · left
          rw [if_neg hp]
      · have hm : q ∈ records.map (·.1) := firstValue_isSome.mpr ⟨_, hfv⟩
        obtain ⟨r, hr', he⟩ := List.mem_map.mp hm
        obtain ⟨j, hj, hk1, _⟩ := C45_stored_partial S.sha random seed k n records db hr h1 hrec hdb K V
          hKV hall r hr'
        rw [he] at hk1
        refine ⟨j, List.mem_range.mpr hj, ?_⟩
        dsimp only [Function.comp]
        rw [if_pos]
        · simp
        · rw [hk1]
          exact (same_of_padded (hlen q hqm) (hlen q hqm)).mpr rfl
  rw [hmap] at main
  exact main

/-- A setting for examples; the encryption flips all bits. -/
def exSetting : PirSetting :=
  ⟨exFp, exEnv, exAes, Wire.helperCodec 100, exCeilLog2, exSha, exSimd, exSimd, fun m _ => ok (m.map (~~~ ·)),
    fun m _ => ok (m.map (~~~ ·))⟩

theorem exSetting_works (info : Bytes) (keys : Nat) (h : keys ≤ 2 ^ 19) : exSetting.Works info 7 keys :=
  ⟨fun _ hm => HelperMessage.parse hm h (by decide), exSimd_ok, exSimd_ok, fun m => ⟨m.map (~~~ ·), rfl, by
    show ok ((m.map (~~~ ·)).map (~~~ ·)) = ok m
    simp [Function.comp_def]⟩,
    exCeilLog2_exact 7 (by decide), Or.inl (by decide)⟩

/-- C46 on an example: queries for two stored keys and for a string that was not inserted. -/
example : CuckooRun exSetting (cuckooParams [9] 3 7) exCuckooDb [[2, 2], [5], [1]]
    [some [20, 21], none, some [10, 0]] :=
  C46_end_to_end_partial exSetting (fun i => i % 3) [9] 3 7 exPairs exCuckooDb
    (fun i => Nat.mod_lt i (by decide)) (by decide) exCuckooDb_ok _ _ exCuckooDb_holds (by decide +kernel)
    ⟨[30], by decide, by decide⟩ [[2, 2], [5], [1]] (by decide) (exSetting_works _ _ (by decide)) (by decide +kernel)
    (by decide +kernel) (by decide +kernel)

/-- The full C46 is false: the client gets a value for a query that was not inserted but begins with the
longest key. -/
theorem C46_longer_refuted : firstValue exPairs [2, 2, 6] = none ∧ NoneInStash exCuckooDb
      [[3], [], [2, 2], [], [], [], [1]] ∧
    CuckooRun exSetting (cuckooParams [9] 3 7) exCuckooDb [[2, 2, 6]] [some [20, 21]] :=
  ⟨by decide, by decide +kernel, C46_answers exSetting (fun i => i % 3) [9] 3 7 exPairs exCuckooDb
    (fun i => Nat.mod_lt i (by decide)) (by decide) exCuckooDb_ok _ _ exCuckooDb_holds
    ⟨[30], by decide, by decide⟩ [[2, 2, 6]] (by decide) (exSetting_works _ _ (by decide))⟩

/-- The full C46 is false: the client gets a value for a query that was not inserted but is the same as a
key up to zero bytes. -/
theorem C46_zeros_refuted : firstValue exPairs [1, 0] = none ∧ NoneInStash exCuckooDb
      [[3], [], [2, 2], [], [], [], [1]] ∧
    CuckooRun exSetting (cuckooParams [9] 3 7) exCuckooDb [[1, 0]] [some [10, 0]] :=
  ⟨by decide, by decide +kernel, C46_answers exSetting (fun i => i % 3) [9] 3 7 exPairs exCuckooDb
    (fun i => Nat.mod_lt i (by decide)) (by decide) exCuckooDb_ok _ _ exCuckooDb_holds
    ⟨[30], by decide, by decide⟩ [[1, 0]] (by decide) (exSetting_works _ _ (by decide))⟩

/-- The full C46 is false: the client gets a value of zero bytes for queries of zero bytes, among them the
empty string, though these were not inserted. -/
theorem C46_empty_refuted : firstValue exPairs [] = none ∧ firstValue exPairs [0] = none ∧
    NoneInStash exCuckooDb [[3], [], [2, 2], [], [], [], [1]] ∧
    CuckooRun exSetting (cuckooParams [9] 3 7) exCuckooDb [[], [0]] [some [0, 0], some [0, 0]] :=
  ⟨by decide, by decide, by decide +kernel, C46_answers exSetting (fun i => i % 3) [9] 3 7 exPairs exCuckooDb
    (fun i => Nat.mod_lt i (by decide)) (by decide) exCuckooDb_ok _ _ exCuckooDb_holds
    ⟨[30], by decide, by decide⟩ [[], [0]] (by decide) (exSetting_works _ _ (by decide))⟩

theorem maxLength_zero {l : List Bytes} (h : ∀ v ∈ l, v = []) : maxLength l = 0 := by
  unfold maxLength
  rw [show l.map List.length = l.map fun _ => 0 from
    List.map_congr_left fun r hr => by rw [h r hr]; rfl]
  clear h
  induction l with
  | nil => rfl
  | cons r rs ih => exact ih

/-- The full C46 is false for every database all of whose values are empty: servers are created for it, but
answer no plain request. -/
theorem C46_no_value_refuted (fp : FpEnv) (env : Env) (ceilLog2 : CeilLog2) (sha : Sha256)
    (random : Nat → Nat) (seed : Bytes) (k n : Nat) (records : List (Bytes × Bytes)) (db : CuckooDb)
    (hr : ∀ i, random i < k) (h1 : n < 2 ^ 31) (hc : ExactAt ceilLog2 n) (hrec : records.length < 2 ^ 31)
    (hdb : CuckooBuiltFrom sha random (cuckooParams seed k n) records db)
    (hempty : ∀ r ∈ records, r.2 = []) (simd : SimdEnv) :
    ∃ server, CuckooServer.createPlain fp ceilLog2 sha (cuckooParams seed k n) (some db) = ok server ∧
      ∀ request response, server.handlePlainRequest env simd request ≠ ok response := by
  obtain ⟨hs, hk, hn, hkeys⟩ := cuckoo_built_inv h1 hdb
  obtain ⟨table, stash, a1, a2, a3, a4, a5, a6, a7, a8⟩ := cuckoo_table hr h1 hrec hdb
  obtain ⟨l, d, _, _, _, hd, _⟩ := pirDpf_of_exact fp hc (by omega)
  obtain ⟨f, hf⟩ := fingerprint_ok sha ⟨1, seed⟩
  refine ⟨_, CuckooServer.createPlain_ok (by omega) hn a3 hd hf, ?_⟩
  intro request response h
  unfold CuckooServer.handlePlainRequest at h
  match request, h with
  | none, h => cases h
  | some (.leader _ _), h => cases h
  | some (.encrypted _), h => cases h
  | some (.plain r), h =>
    dsimp only at h
    obtain ⟨_, e1, h⟩ := bind_eq_ok.mp h
    obtain ⟨_, _, h⟩ := bind_eq_ok.mp h
    obtain ⟨sel, e2, h⟩ := bind_eq_ok.mp h
    obtain ⟨prods, e3, h⟩ := bind_eq_ok.mp h
    unfold CuckooDb.innerProductWith at e3
    obtain ⟨_, _, e3⟩ := bind_eq_ok.mp e3
    obtain ⟨_, e4, e3⟩ := bind_eq_ok.mp e3
    unfold DenseDb.innerProductWith at e4
    rw [a2.content, bind_ok, a2.max] at e4
    rw [C32_rejects] at e4
    · cases e4
    · intro hsel
      have := mapRes_length e2
      rw [hsel] at this
      exact failIf_eq_ok.mp e1 this.symm
    · refine Or.inr (Or.inr (Or.inl ?_))
      rw [maxLength_zero]
      · decide
      · intro v hv
        obtain ⟨c, _, rfl⟩ := List.mem_map.mp hv
        unfold bucketValue
        cases c with
        | none => rfl
        | some x =>
          cases hx : firstValue records x with
          | none => simp [hx]
          | some y =>
            unfold firstValue at hx
            obtain ⟨r, hr1, hr2⟩ := Option.map_eq_some_iff.mp hx
            have := hempty r (List.mem_of_find?_eq_some hr1)
            simp [firstValue, hr1, this]

/-- The hypotheses of `C46_no_value_refuted` on an example: one record with an empty value. -/
example : ∃ db, CuckooBuiltFrom exSha (fun i => i % 2) (cuckooParams [9] 2 3) [([1], [])] db :=
  C45_builds exSha (fun i => i % 2) [9] 2 3 (by decide) (by decide) (fun i => Nat.mod_lt i (by decide))
    (by decide) (by decide) [([1], [])] (by decide) (by decide)

/-! ## C47 -/

/-- C47 for every serialization of buckets that can be undone even if zero bytes follow, if the serialization
of some bucket is not empty: leader, helper and client for a built database. For every list of queries the
client gets for every key the value that was inserted first for it, and nothing for other strings. -/
theorem C47_answers (S : PirSetting) (codec : BucketCodec) (hcodec : CodecOk codec) (seed : Bytes) (n : Nat)
    (records : List (Bytes × Bytes)) (db : SimpleDb)
    (hdb : SimpleBuiltFrom S.sha codec (simpleParams seed n) records db)
    (hne : ∃ i, i < n ∧ codec.serialize (simpleBucket S.sha seed n records i) ≠ some [])
    (queries : List Bytes) (hq : queries ≠ []) (hS : S.Works SimpleServer.contextInfo n queries.length) :
    SimpleRun S codec (simpleParams seed n) db queries (queries.map (firstValue records)) := by
  have h1 : n < 2 ^ 31 := by rcases hS.manageable with h | ⟨_, _, h⟩ <;> omega
  obtain ⟨hs, hn, hkeys, ss, hss⟩ := simple_built_inv h1 hdb
  obtain ⟨db', a1, a2, a3⟩ := simple_build_ok S.sha codec hs hn h1 records hkeys ss hss
  have : db' = db := by
    unfold SimpleBuiltFrom at a1 hdb
    rw [a1] at hdb
    exact ok.inj hdb
  subst this
  refine simple_run hcodec hq hS a2 hss hs a3 hn (maxLength_pos ?_)
  obtain ⟨i, hi, hne⟩ := hne
  have hl : ss.length = n := by simpa using (congrArg List.length hss).symm
  have := congrArg (fun l => l[i]?) hss
  simp [hi, show i < ss.length by omega] at this
  refine ⟨ss[i]'(by omega), List.getElem_mem _, ?_⟩
  intro h
  rw [h] at this
  exact hne this

/-- C47 on an example, for every such serialization. -/
example (S : PirSetting) (codec : BucketCodec) (hcodec : CodecOk codec) (db : SimpleDb)
    (hdb : SimpleBuiltFrom S.sha codec (simpleParams [9] 7) exPairs db)
    (hne : ∃ i, i < 7 ∧ codec.serialize (simpleBucket S.sha [9] 7 exPairs i) ≠ some [])
    (hS : S.Works SimpleServer.contextInfo 7 2) :
    SimpleRun S codec (simpleParams [9] 7) db [[1], [5]] [some [10], none] :=
  C47_answers S codec hcodec [9] 7 exPairs db hdb hne [[1], [5]] (by simp) hS

/-- C47 for the protobuf wire format and databases with a record: the client gets for every key the value
that was inserted first for it, and nothing for other strings, without any restriction on keys, values and
queries.

Missing: databases without records. For these the servers answer no request, see
`C47_no_records_refuted`. -/
theorem C47_end_to_end_partial (S : PirSetting) (seed : Bytes) (n : Nat) (records : List (Bytes × Bytes))
    (db : SimpleDb) (hdb : SimpleBuiltFrom S.sha wireCodec (simpleParams seed n) records db)
    (hne : records ≠ []) (queries : List Bytes) (hq : queries ≠ [])
    (hS : S.Works SimpleServer.contextInfo n queries.length) :
    SimpleRun S wireCodec (simpleParams seed n) db queries (queries.map (firstValue records)) := by
  have h1 : n < 2 ^ 31 := by rcases hS.manageable with h | ⟨_, _, h⟩ <;> omega
  obtain ⟨hs, hn, hkeys, ss, hss⟩ := simple_built_inv h1 hdb
  refine C47_answers S wireCodec wireCodec_ok seed n records db hdb ?_ queries hq hS
  obtain ⟨r, hr⟩ := List.exists_mem_of_ne_nil records hne
  refine ⟨bucketNumber S.sha seed n 0 r.1, Nat.mod_lt _ hn, ?_⟩
  intro h
  refine wireCodec_nonempty h ?_ rfl
  intro h0
  have : r.1 ∈ (simpleBucket S.sha seed n records (bucketNumber S.sha seed n 0 r.1)).keys := by
    unfold simpleBucket
    exact List.mem_map.mpr ⟨r, List.mem_filter.mpr ⟨hr, by simp⟩, rfl⟩
  rw [h0] at this
  cases this

/-- The database of the example records with simple hashing. -/
def exSimpleDb : SimpleDb :=
  ((exPairs.foldl SimpleBuilder.insert (SimpleBuilder.new.setParams (simpleParams [9] 7))).build exSha
    wireCodec).1.getD ⟨⟨0, [], 0, []⟩, 0, 0⟩

/-- C47 on an example: two keys and other strings, among them some for which cuckoo hashing gives a wrong
answer. -/
example : SimpleRun exSetting wireCodec (simpleParams [9] 7) exSimpleDb
    [[2, 2], [2, 2, 6], [1, 0], [], [1]] [some [20, 21], none, none, none, some [10]] :=
  C47_end_to_end_partial exSetting [9] 7 exPairs exSimpleDb (Res.eq_ok_getD (by decide +kernel) _)
    (by decide) _ (by decide) (exSetting_works _ _ (by decide))

/-- The full C47 is false: a database can be built without records, and servers created for it, but these
answer no plain request. -/
theorem C47_no_records_refuted (fp : FpEnv) (env : Env) (ceilLog2 : CeilLog2) (sha : Sha256)
    (seed : Bytes) (hs : seed ≠ []) (n : Nat) (h0 : 0 < n) (h1 : n < 2 ^ 31) (hc : ExactAt ceilLog2 n)
    (simd : SimdEnv) :
    ∃ db server, SimpleBuiltFrom sha wireCodec (simpleParams seed n) [] db ∧
      SimpleServer.createPlain fp ceilLog2 sha (simpleParams seed n) (some db) = ok server ∧
      ∀ request response, server.handlePlainRequest env simd request ≠ ok response := by
  have hss : (List.range n).map (fun i => wireCodec.serialize (simpleBucket sha seed n [] i)) =
      (List.replicate n ([] : Bytes)).map some := by
    apply List.ext_getElem (by simp)
    intro i hi hi'
    rw [List.getElem_map, List.getElem_map, List.getElem_replicate]
    rfl
  obtain ⟨db, a1, a2, a3⟩ := simple_build_ok sha wireCodec hs h0 h1 [] (by simp) _ hss
  obtain ⟨l, d, _, _, _, hd, _⟩ := pirDpf_of_exact fp hc (by omega)
  obtain ⟨f, hf⟩ := fingerprint_ok sha ⟨1, seed⟩
  refine ⟨db, _, a1, SimpleServer.createPlain_ok h0 a3 hd hf, ?_⟩
  intro request response h
  unfold SimpleServer.handlePlainRequest at h
  match request, h with
  | none, h => cases h
  | some (.leader _ _), h => cases h
  | some (.encrypted _), h => cases h
  | some (.plain r), h =>
    dsimp only at h
    obtain ⟨_, e1, h⟩ := bind_eq_ok.mp h
    obtain ⟨_, _, h⟩ := bind_eq_ok.mp h
    obtain ⟨sel, e2, h⟩ := bind_eq_ok.mp h
    obtain ⟨prods, e3, h⟩ := bind_eq_ok.mp h
    change db.dense.innerProductWith simd sel = ok prods at e3
    unfold DenseDb.innerProductWith at e3
    rw [a2.content, bind_ok, a2.max] at e3
    rw [C32_rejects] at e3
    · cases e3
    · intro hsel
      have := mapRes_length e2
      rw [hsel] at this
      exact failIf_eq_ok.mp e1 this.symm
    · refine Or.inr (Or.inr (Or.inl ?_))
      rw [maxLength_zero]
      · decide
      · intro v hv
        exact List.eq_of_mem_replicate hv

end Verif
