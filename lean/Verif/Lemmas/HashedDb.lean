import Verif.Spec.SparsePir
import Verif.Lemmas.DenseDb
import Verif.Props.Hashing
/-!
# Lemmas: hashed databases
-/
namespace Verif
open Res Spec

/-! ### Sorted maps -/

theorem bytesLt_irrefl (a : Bytes) : bytesLt a a = false := by
  induction a with
  | nil => rfl
  | cons x a ih => simp [bytesLt, ih]

theorem bytesLt_trans {a b c : Bytes} (h1 : bytesLt a b = true) (h2 : bytesLt b c = true) :
    bytesLt a c = true := by
  induction a generalizing b c with
  | nil =>
    cases c with
    | nil => cases b <;> simp [bytesLt] at h1 h2
    | cons z c => rfl
  | cons x a ih =>
    cases b with
    | nil => simp [bytesLt] at h1
    | cons y b =>
      cases c with
      | nil => simp [bytesLt] at h2
      | cons z c =>
        simp only [bytesLt] at h1 h2 ⊢
        by_cases hxy : x = y
        · subst hxy
          rw [if_pos rfl] at h1
          by_cases hxz : x = z
          · subst hxz
            rw [if_pos rfl] at h2 ⊢
            exact ih h1 h2
          · rw [if_neg hxz] at h2 ⊢; exact h2
        · rw [if_neg hxy] at h1
          have h1 := of_decide_eq_true h1
          by_cases hyz : y = z
          · subst hyz
            rw [if_neg hxy]
            exact decide_eq_true h1
          · rw [if_neg hyz] at h2
            have h2 := of_decide_eq_true h2
            rw [if_neg (by rintro rfl; omega)]
            exact decide_eq_true (by omega)

theorem bytesLt_total {a b : Bytes} (h1 : bytesLt a b = false) (h2 : a ≠ b) : bytesLt b a = true := by
  induction a generalizing b with
  | nil =>
    cases b with
    | nil => exact absurd rfl h2
    | cons y b => simp [bytesLt] at h1
  | cons x a ih =>
    cases b with
    | nil => rfl
    | cons y b =>
      simp only [bytesLt] at h1 ⊢
      by_cases hxy : x = y
      · subst hxy
        rw [if_pos rfl] at h1 ⊢
        exact ih h1 (fun h => h2 (by rw [h]))
      · rw [if_neg hxy] at h1
        rw [if_neg (fun h => hxy h.symm)]
        have h1 := of_decide_eq_false h1
        have : x.toNat ≠ y.toNat := fun h => hxy (BitVec.eq_of_toNat_eq h)
        exact decide_eq_true (by omega)

/-- The keys are in ascending order. -/
def SortedMap (m : List (Bytes × Bytes)) : Prop := m.Pairwise fun a b => bytesLt a.1 b.1 = true

theorem firstValue_cons (k v : Bytes) (m : List (Bytes × Bytes)) (q : Bytes) :
    firstValue ((k, v) :: m) q = if k = q then some v else firstValue m q := by
  unfold firstValue
  rw [List.find?_cons]
  by_cases h : k = q
  · simp [h]
  · simp [h]

theorem firstValue_append (m m' : List (Bytes × Bytes)) (q : Bytes) :
    firstValue (m ++ m') q = (firstValue m q).or (firstValue m' q) := by
  induction m with
  | nil => simp [firstValue]
  | cons kv m ih =>
    obtain ⟨k, v⟩ := kv
    rw [List.cons_append, firstValue_cons, firstValue_cons, ih]
    by_cases h : k = q <;> simp [h]

theorem firstValue_eq_none {m : List (Bytes × Bytes)} {q : Bytes} :
    firstValue m q = none ↔ q ∉ m.map (·.1) := by
  induction m with
  | nil => simp [firstValue]
  | cons kv m ih =>
    obtain ⟨k, v⟩ := kv
    rw [firstValue_cons]
    by_cases h : k = q
    · simp [h]
    · rw [if_neg h, ih]
      simp only [List.map_cons, List.mem_cons, not_or]
      exact ⟨fun h' => ⟨fun e => h e.symm, h'⟩, fun h' => h'.2⟩

theorem firstValue_isSome {m : List (Bytes × Bytes)} {q : Bytes} :
    q ∈ m.map (·.1) ↔ ∃ v, firstValue m q = some v := by
  have := firstValue_eq_none (m := m) (q := q)
  cases h : firstValue m q with
  | none => rw [h] at this; simp at this; simpa using this
  | some v => rw [h] at this; simp at this; simpa using this

theorem SortedMap.not_mem_of_lt {k : Bytes} {kv : Bytes × Bytes} {m : List (Bytes × Bytes)}
    (h : SortedMap (kv :: m)) (hk : bytesLt k kv.1 = true) : k ∉ (kv :: m).map (·.1) := by
  intro hmem
  rw [List.map_cons, List.mem_cons] at hmem
  rcases hmem with rfl | hmem
  · rw [bytesLt_irrefl] at hk; cases hk
  · obtain ⟨p, hp, rfl⟩ := List.mem_map.mp hmem
    have := (List.pairwise_cons.mp h).1 p hp
    have := bytesLt_trans hk this
    rw [bytesLt_irrefl] at this; cases this

theorem mem_mapInsert {k v : Bytes} {m : List (Bytes × Bytes)} {p : Bytes × Bytes}
    (h : p ∈ mapInsert k v m) : p = (k, v) ∨ p ∈ m := by
  induction m with
  | nil => simpa [mapInsert] using h
  | cons kv m ih =>
    obtain ⟨k', v'⟩ := kv
    unfold mapInsert at h
    split at h
    · simpa using h
    · split at h
      · exact Or.inr h
      · rcases List.mem_cons.mp h with rfl | h
        · exact Or.inr (by simp)
        · rcases ih h with h | h
          · exact Or.inl h
          · exact Or.inr (by simp [h])

theorem mapInsert_ok {m : List (Bytes × Bytes)} (h : SortedMap m) (k v : Bytes) :
    SortedMap (mapInsert k v m) ∧
      ∀ q, firstValue (mapInsert k v m) q = firstValue (m ++ [(k, v)]) q := by
  induction m with
  | nil => exact ⟨by simp [mapInsert, SortedMap], fun q => rfl⟩
  | cons kv m ih =>
    obtain ⟨k', v'⟩ := kv
    obtain ⟨h1, h2⟩ := List.pairwise_cons.mp h
    obtain ⟨i1, i2⟩ := ih h2
    unfold mapInsert
    by_cases hlt : bytesLt k k' = true
    · rw [if_pos hlt]
      have hnm := h.not_mem_of_lt hlt
      constructor
      · refine List.pairwise_cons.mpr ⟨?_, h⟩
        intro p hp
        rcases List.mem_cons.mp hp with rfl | hp
        · exact hlt
        · exact bytesLt_trans hlt (h1 p hp)
      · intro q
        rw [firstValue_cons, firstValue_append, firstValue_cons k v []]
        by_cases hq : k = q
        · subst hq
          rw [firstValue_eq_none.mpr hnm]
          simp
        · rw [if_neg hq, if_neg hq]
          simp [firstValue]
    · rw [if_neg hlt]
      have hlt' : bytesLt k k' = false := by simpa using hlt
      by_cases he : k = k'
      · subst he
        rw [if_pos rfl]
        refine ⟨h, fun q => ?_⟩
        rw [firstValue_append, firstValue_cons k v []]
        by_cases hq : k = q
        · subst hq; simp [firstValue_cons]
        · simp [hq, firstValue]
      · rw [if_neg he]
        constructor
        · refine List.pairwise_cons.mpr ⟨?_, i1⟩
          intro p hp
          rcases mem_mapInsert hp with rfl | hp
          · exact bytesLt_total hlt' he
          · exact h1 p hp
        · intro q
          rw [List.cons_append, firstValue_cons, firstValue_cons, i2]

theorem SortedMap.nodup {m : List (Bytes × Bytes)} (h : SortedMap m) : (m.map (·.1)).Nodup := by
  induction m with
  | nil => simp
  | cons kv m ih =>
    obtain ⟨h1, h2⟩ := List.pairwise_cons.mp h
    rw [List.map_cons, List.nodup_cons]
    refine ⟨?_, ih h2⟩
    intro hmem
    obtain ⟨p, hp, he⟩ := List.mem_map.mp hmem
    have := h1 p hp
    rw [he, bytesLt_irrefl] at this
    cases this

theorem mapExtract_ok {m : List (Bytes × Bytes)} {k v : Bytes} (h : firstValue m k = some v) :
    ∃ m', mapExtract k m = ok (v, m') ∧ ∀ q, q ≠ k → firstValue m' q = firstValue m q := by
  induction m with
  | nil => cases h
  | cons kv m ih =>
    obtain ⟨k', v'⟩ := kv
    rw [firstValue_cons] at h
    unfold mapExtract
    by_cases he : k' = k
    · subst he
      rw [if_pos rfl] at h ⊢
      cases h
      refine ⟨m, rfl, fun q hq => ?_⟩
      rw [firstValue_cons, if_neg (fun e => hq e.symm)]
    · rw [if_neg he] at h
      rw [if_neg (fun e => he e.symm)]
      obtain ⟨m', e1, e2⟩ := ih h
      refine ⟨(k', v') :: m', by rw [e1]; rfl, fun q hq => ?_⟩
      rw [firstValue_cons, firstValue_cons, e2 q hq]

/-- What the builder's map holds after all insertions. -/
theorem records_ok (params : CuckooParams) (records : List (Bytes × Bytes)) :
    let b := records.foldl CuckooBuilder.insert (CuckooBuilder.new.setParams params)
    b.params = params ∧ b.keyBuilder = none ∧ b.valueBuilder = none ∧ b.built = false ∧
      SortedMap b.records ∧ ∀ q, firstValue b.records q = firstValue records q := by
  have main : ∀ (rs rs' : List (Bytes × Bytes)) (b : CuckooBuilder), b.params = params →
      b.keyBuilder = none → b.valueBuilder = none → b.built = false → SortedMap b.records →
      (∀ q, firstValue b.records q = firstValue rs' q) →
      let b := rs.foldl CuckooBuilder.insert b
      b.params = params ∧ b.keyBuilder = none ∧ b.valueBuilder = none ∧ b.built = false ∧
        SortedMap b.records ∧ ∀ q, firstValue b.records q = firstValue (rs' ++ rs) q := by
    intro rs
    induction rs with
    | nil => intro rs' b h1 h2 h3 h4 h5 h6; exact ⟨h1, h2, h3, h4, h5, by simpa using h6⟩
    | cons r rs ih =>
      intro rs' b h1 h2 h3 h4 h5 h6
      obtain ⟨g1, g2⟩ := mapInsert_ok h5 r.1 r.2
      have := ih (rs' ++ [r]) (b.insert r) h1 h2 h3 h4 g1 (by
        intro q
        show firstValue (mapInsert r.1 r.2 b.records) q = _
        rw [g2, firstValue_append, firstValue_append, h6])
      rw [List.append_assoc] at this
      exact this
  exact main records [] _ rfl rfl rfl rfl (by simp [SortedMap, CuckooBuilder.new, CuckooBuilder.setParams])
    (fun q => rfl)

/-! ### Hash functions from the parameters -/

/-- The hash functions. -/
def shaFunctions (sha : Sha256) (seed : Bytes) (k : Nat) : List HashFunction :=
  (List.range k).map fun j => sha.hashFunction (seed ++ stringBytes (toString j))

theorem family_ok (sha : Sha256) {seed : Bytes} (hs : seed ≠ []) :
    createHashFamilyFromConfig sha ⟨1, seed⟩ = ok (wrapWithSeed sha.hashFamily seed) := by
  unfold createHashFamilyFromConfig
  rw [failIf_false hs, bind_ok, if_pos rfl]

theorem functions_ok (sha : Sha256) (seed : Bytes) (k : Nat) :
    createHashFunctions (wrapWithSeed sha.hashFamily seed) k = ok (shaFunctions sha seed k) := by
  unfold createHashFunctions
  rw [failIf_false (by omega), bind_ok]
  rfl

theorem shaFunctions_hashes (sha : Sha256) (seed : Bytes) (k : Nat) {n : Nat} (h0 : 0 < n) (h1 : n < 2 ^ 31)
    (x : Bytes) :
    HashesTo (shaFunctions sha seed k) n x
      ((List.range k).map fun j => bucketNumber sha seed n j x) := by
  unfold HashesTo shaFunctions
  rw [List.map_map, List.map_map]
  apply List.map_congr_left
  intro j _
  exact sha_hashFunction_ok sha _ x h0 h1

theorem shaFunctions_mem {sha : Sha256} {seed : Bytes} {k : Nat} {f : HashFunction}
    (hf : f ∈ shaFunctions sha seed k) {n : Nat} (h0 : 0 < n) (h1 : n < 2 ^ 31) :
    ∃ j, j < k ∧ ∀ x, f x n = ok ((bucketNumber sha seed n j x : Nat) : Int) := by
  obtain ⟨j, hj, rfl⟩ := List.mem_map.mp hf
  exact ⟨j, List.mem_range.mp hj, fun x => sha_hashFunction_ok sha _ x h0 h1⟩

theorem shaFunctions_inRange {sha : Sha256} {seed : Bytes} {k n : Nat} (h0 : 0 < n) (h1 : n < 2 ^ 31) :
    ∀ f ∈ shaFunctions sha seed k, InRange n f := by
  intro f hf x
  obtain ⟨j, _, h⟩ := shaFunctions_mem hf h0 h1
  exact ⟨_, Nat.mod_lt _ h0, h x⟩

/-! ### Filling the databases -/

theorem insertKeys_ok {functions : List HashFunction} {n : Nat} {k : Int}
    (hf : ∀ f ∈ functions, InRange n f) {random : Nat → Nat} (hr : ∀ i, random i < functions.length)
    (records : List (Bytes × Bytes)) (hk : ∀ r ∈ records, r.1 ≠ []) (t : CuckooTable)
    (ht : t.Inv functions n k none) :
    foldRes (CuckooBuilder.insertKey random) t records =
      ok (insertAll (CuckooTable.insert random) t (records.map (·.1))).2 := by
  induction records generalizing t with
  | nil => rfl
  | cons r rs ih =>
    obtain ⟨_, _, h3, _⟩ := cuckoo_insertAll hf hr [r.1] t ht
    have hst : (t.insert random r.1).1 = ok () := h3 rfl _ (by simp [insertAll])
    have hinv := (cuckoo_insert_ok hf hr t ht r.1).1
    have hstep : CuckooBuilder.insertKey random t r = ok (t.insert random r.1).2 := by
      unfold CuckooBuilder.insertKey
      rw [failIf_false (hk r (by simp)), bind_ok]
      dsimp only
      rw [hst, bind_ok]
    rw [foldRes_cons, hstep, bind_ok, ih (fun r' h => hk r' (by simp [h])) _ hinv]
    rfl

/-- The value in the bucket. -/
def bucketValue (records : List (Bytes × Bytes)) (bucket : Option Bytes) : Bytes :=
  (bucket.bind (firstValue records)).getD []

theorem fill_ok (table : List (Option Bytes)) (hnd : (table.filterMap id).Nodup) :
    ∀ (m : List (Bytes × Bytes)) (kb vb : DenseBuilder) (K V : List Bytes), kb.Ready K → vb.Ready V →
    (∀ k ∈ table.filterMap id, k ∈ m.map (·.1)) →
    ∃ kb' vb' m', foldRes CuckooBuilder.fillBucket (kb, vb, m) table = ok (kb', vb', m') ∧
      kb'.Ready (K ++ table.map (·.getD [])) ∧ vb'.Ready (V ++ table.map (bucketValue m)) := by
  induction table with
  | nil => intro m kb vb K V hk hv _; exact ⟨kb, vb, m, rfl, by simpa using hk, by simpa using hv⟩
  | cons b table ih =>
    intro m kb vb K V hk hv hmem
    cases b with
    | none =>
      rw [List.filterMap_cons_none (by rfl)] at hnd hmem
      obtain ⟨kb', vb', m', h1, h2, h3⟩ := ih hnd m _ _ _ _ (hk.insert []) (hv.insert []) hmem
      refine ⟨kb', vb', m', ?_, ?_, ?_⟩
      · rw [foldRes_cons_ok (s' := (kb.insert [], vb.insert [], m)) rfl]
        exact h1
      · simpa using h2
      · simpa [bucketValue] using h3
    | some k =>
      rw [List.filterMap_cons_some (by rfl)] at hnd hmem
      obtain ⟨hnk, hnd⟩ := List.nodup_cons.mp hnd
      obtain ⟨v, hval⟩ := firstValue_isSome.mp (hmem k (by simp))
      obtain ⟨m1, e1, e2⟩ := mapExtract_ok hval
      obtain ⟨kb', vb', m', h1, h2, h3⟩ := ih hnd m1 _ _ _ _ (hk.insert k) (hv.insert v) (by
        intro q hq
        have hqk : q ≠ k := by rintro rfl; exact hnk hq
        rw [firstValue_isSome, e2 q hqk, ← firstValue_isSome]
        exact hmem q (by simp [hq]))
      refine ⟨kb', vb', m', ?_, ?_, ?_⟩
      · rw [foldRes_cons_ok (s' := (kb.insert k, vb.insert v, m1)) (by
          show (mapExtract k m >>= _) = _
          rw [e1]; rfl)]
        exact h1
      · simpa using h2
      · have hcong : table.map (bucketValue m1) = table.map (bucketValue m) := by
          apply List.map_congr_left
          intro b hb
          cases b with
          | none => rfl
          | some q =>
            have hq : q ∈ table.filterMap id := List.mem_filterMap.mpr ⟨some q, hb, rfl⟩
            have hqk : q ≠ k := by rintro rfl; exact hnk hq
            show (firstValue m1 q).getD [] = (firstValue m q).getD []
            rw [e2 q hqk]
        rw [hcong] at h3
        simpa [bucketValue, hval] using h3

theorem nodup_of_perm_append {a b l : List Bytes} (h : (a ++ b).Perm l) (hl : l.Nodup) : a.Nodup :=
  (List.nodup_append.mp (h.nodup_iff.mpr hl)).1

/-- A cuckoo-hashed database is built from valid records. -/
theorem cuckoo_build_ok (sha : Sha256) {random : Nat → Nat} {seed : Bytes} {k n : Nat} (hs : seed ≠ [])
    (hk : 2 ≤ k) (hr : ∀ i, random i < k) (h0 : 0 < n) (h1 : n < 2 ^ 31) (records : List (Bytes × Bytes))
    (hrec : records.length < 2 ^ 31) (hkeys : ∀ r ∈ records, r.1 ≠ []) :
    ∃ (db : CuckooDb) (table : List (Option Bytes)) (stash : List Bytes),
      CuckooBuiltFrom sha random (cuckooParams seed k n) records db ∧
      db.keys.Holds (table.map (·.getD [])) ∧ db.values.Holds (table.map (bucketValue records)) ∧
      db.numSelectionBits = n ∧ table.length = n ∧
      (∀ (i : Nat) (x : Bytes), table[i]? = some (some x) → ∃ j, j < k ∧ bucketNumber sha seed n j x = i) ∧
      (table.filterMap id ++ stash).Nodup ∧
      (∀ x, x ∈ table.filterMap id ++ stash ↔ x ∈ records.map (·.1)) ∧
      db.size = (table.filterMap id).length + stash.length := by
  obtain ⟨b1, b2, b3, b4, b5, b6⟩ := records_ok (cuckooParams seed k n) records
  generalize hb : records.foldl CuckooBuilder.insert (CuckooBuilder.new.setParams (cuckooParams seed k n)) = b
    at b1 b2 b3 b4 b5 b6
  have hmem : ∀ x, x ∈ b.records.map (·.1) ↔ x ∈ records.map (·.1) := by
    intro x; rw [firstValue_isSome, firstValue_isSome, b6]
  have hkeys' : ∀ r ∈ b.records, r.1 ≠ [] := by
    intro r hr
    have := (hmem r.1).mp (List.mem_map.mpr ⟨r, hr, rfl⟩)
    obtain ⟨r', hr', he⟩ := List.mem_map.mp this
    rw [← he]
    exact hkeys r' hr'
  have hlen : b.records.length ≤ records.length := by
    have := (b5.nodup).length_le_of_subset (l₂ := records.map (·.1)) (fun x hx => (hmem x).mp hx)
    simpa using this
  obtain ⟨t0, ht0⟩ : ∃ t0, CuckooTable.create (shaFunctions sha seed k) n (b.records.length : Nat) none =
      ok t0 := by
    have := C53_cuckoo (shaFunctions sha seed k) n (b.records.length : Nat) none
    rw [if_pos ⟨by omega, by simp [shaFunctions]; omega, by omega, by simp⟩] at this
    obtain ⟨t, h, _⟩ := this
    exact ⟨t, h⟩
  have hf := shaFunctions_inRange (sha := sha) (seed := seed) (k := k) h0 h1
  have hr' : ∀ i, random i < (shaFunctions sha seed k).length := by simpa [shaFunctions] using hr
  obtain ⟨inv0, _⟩ := cuckoo_create_inv ht0
  have hins := insertKeys_ok hf hr' b.records hkeys' t0 inv0
  obtain ⟨p1, p2, _, _, p5⟩ := C40_placement _ n hf _ _ t0 ht0 random hr' (b.records.map (·.1))
  have hperm := C40_contents _ n hf _ _ t0 ht0 random hr' (b.records.map (·.1)) (p5 rfl)
  generalize (insertAll (CuckooTable.insert random) t0 (b.records.map (·.1))).2 = t at hins p1 p2 hperm
  unfold contents at hperm
  have hnd := hperm.nodup_iff.mpr b5.nodup
  have hready : DenseBuilder.new.Ready [] := ⟨rfl, rfl, rfl⟩
  obtain ⟨kb, vb, m, f1, f2, f3⟩ := fill_ok t.table (List.nodup_append.mp hnd).1 b.records _ _ _ _ hready
    hready (fun x hx => hperm.mem_iff.mp (by simp [List.mem_append.mpr (Or.inl hx)]))
  rw [List.nil_append] at f2 f3
  obtain ⟨keys, g1, g2⟩ := f2.build
  obtain ⟨values, g3, g4⟩ := f3.build
  have hks : keys.size = n := by rw [g2.size, List.length_map, p1]
  have hvs : values.size = n := by rw [g4.size, List.length_map, p1]
  have hbv : t.table.map (bucketValue b.records) = t.table.map (bucketValue records) := by
    apply List.map_congr_left
    intro x _
    unfold bucketValue
    rw [show firstValue b.records = firstValue records from funext b6]
  rw [hbv] at g4
  refine ⟨⟨keys, values, b.records.length, keys.size⟩, t.table, t.stash, ?_, g2, g4, hks, p1, ?_, hnd, ?_, ?_⟩
  · unfold CuckooBuiltFrom
    rw [hb]
    unfold CuckooBuilder.build
    rw [b4]
    show CuckooBuilder.buildDb sha random b = _
    unfold CuckooBuilder.buildDb
    have q1 : b.params.numBuckets = n := by rw [b1]; rfl
    have q2 : b.params.numHashFunctions = k := by rw [b1]; rfl
    have q3 : b.params.hashFamilyConfig = ⟨1, seed⟩ := by rw [b1]; rfl
    rw [failIf_false (by rw [q1]; omega), bind_ok, failIf_false (by rw [q2]; omega), bind_ok, q3,
      family_ok sha hs, bind_ok, b2, b3, q1, q2]
    dsimp only [Option.getD_none]
    rw [wrapInt32_small (by omega), wrapInt32_small (by omega)]
    unfold CuckooTable.createFromFamily
    rw [functions_ok, bind_ok, ht0, bind_ok, hins, bind_ok, f1, bind_ok, g1, bind_ok, g3, bind_ok,
      failIf_false (by rw [hks, hvs]; simp), bind_ok]
  · intro i x hx
    obtain ⟨f, hfm, hfx⟩ := p2 i x hx
    obtain ⟨j, hj, hjx⟩ := shaFunctions_mem hfm h0 h1
    refine ⟨j, hj, ?_⟩
    rw [hjx x] at hfx
    have : ((bucketNumber sha seed n j x : Nat) : Int) = (i : Nat) := by injection hfx
    omega
  · intro x
    rw [hperm.mem_iff, hmem]
  · have := hperm.length_eq
    rw [List.length_append, List.length_map] at this
    exact this.symm

/-! ### Simple hashing -/

theorem simpleBucket_append (sha : Sha256) (seed : Bytes) (n : Nat) (rs : List (Bytes × Bytes))
    (r : Bytes × Bytes) (i : Nat) :
    simpleBucket sha seed n (rs ++ [r]) i =
      if bucketNumber sha seed n 0 r.1 = i then
        ⟨(simpleBucket sha seed n rs i).keys ++ [r.1], (simpleBucket sha seed n rs i).values ++ [r.2]⟩
      else simpleBucket sha seed n rs i := by
  unfold simpleBucket
  dsimp only
  rw [List.filter_append]
  by_cases h : bucketNumber sha seed n 0 r.1 = i
  · simp [h]
  · simp [h]

theorem addRecords_ok (sha : Sha256) (seed : Bytes) {n : Nat} (h0 : 0 < n) (h1 : n < 2 ^ 31)
    (rs done : List (Bytes × Bytes)) (hk : ∀ r ∈ rs, r.1 ≠ []) :
    foldRes (SimpleBuilder.addRecord (sha.hashFunction (seed ++ stringBytes (toString 0))) n)
      ((List.range n).map (simpleBucket sha seed n done)) rs =
      ok ((List.range n).map (simpleBucket sha seed n (done ++ rs))) := by
  induction rs generalizing done with
  | nil => rw [List.append_nil]; rfl
  | cons r rs ih =>
    have hb : bucketNumber sha seed n 0 r.1 < n := Nat.mod_lt _ h0
    have hstep : SimpleBuilder.addRecord (sha.hashFunction (seed ++ stringBytes (toString 0))) n
        ((List.range n).map (simpleBucket sha seed n done)) r =
        ok ((List.range n).map (simpleBucket sha seed n (done ++ [r]))) := by
      unfold SimpleBuilder.addRecord
      rw [failIf_false (hk r (by simp)), bind_ok, sha_hashFunction_ok sha _ _ h0 h1, bind_ok]
      show (rdInt _ ((bucketNumber sha seed n 0 r.1 : Nat) : Int) >>= _) = _
      have hrd : rdInt ((List.range n).map (simpleBucket sha seed n done))
          ((bucketNumber sha seed n 0 r.1 : Nat) : Int) =
          ok (simpleBucket sha seed n done (bucketNumber sha seed n 0 r.1)) := by
        unfold rdInt
        rw [if_neg (by omega), Int.toNat_natCast]
        unfold rd
        rw [List.getElem?_map, List.getElem?_range hb]
        rfl
      rw [hrd, bind_ok]
      show wrInt _ ((bucketNumber sha seed n 0 r.1 : Nat) : Int) _ = _
      unfold wrInt
      rw [if_neg (by simp; omega), Int.toNat_natCast]
      apply congrArg
      apply List.ext_getElem (by simp)
      intro i hi hi'
      rw [List.getElem_set]
      simp only [List.getElem_map, List.getElem_range]
      rw [simpleBucket_append]
      by_cases he : bucketNumber sha seed n 0 r.1 = i
      · simp [he]
      · simp [he]
    rw [foldRes_cons, hstep, bind_ok, ih (done ++ [r]) (fun r' h => hk r' (by simp [h]))]
    simp

theorem addBuckets_ok {codec : BucketCodec} (bs : List PirBucket) (ss : List Bytes)
    (h : bs.map codec.serialize = ss.map some) (d : DenseBuilder) (S : List Bytes) (hd : d.Ready S) :
    ∃ d', foldRes (SimpleBuilder.addBucket codec) d bs = ok d' ∧ d'.Ready (S ++ ss) := by
  induction bs generalizing ss d S with
  | nil =>
    cases ss with
    | nil => exact ⟨d, rfl, by simpa using hd⟩
    | cons s ss => simp at h
  | cons b bs ih =>
    cases ss with
    | nil => simp at h
    | cons s ss =>
      simp only [List.map_cons, List.cons.injEq] at h
      obtain ⟨d', h1, h2⟩ := ih ss h.2 (d.insert s) _ (hd.insert s)
      refine ⟨d', ?_, by simpa using h2⟩
      rw [foldRes_cons_ok (s' := d.insert s) (by unfold SimpleBuilder.addBucket; rw [h.1])]
      exact h1

theorem simple_records (params : SimpleParams) (records : List (Bytes × Bytes)) :
    records.foldl SimpleBuilder.insert (SimpleBuilder.new.setParams params) =
      ⟨params, none, records, false⟩ := by
  have : ∀ (rs : List (Bytes × Bytes)) (b : SimpleBuilder), rs.foldl SimpleBuilder.insert b =
      { b with records := b.records ++ rs } := by
    intro rs
    induction rs with
    | nil => intro b; simp
    | cons r rs ih => intro b; rw [List.foldl_cons, ih]; simp [SimpleBuilder.insert]
  rw [this]
  rfl

/-- A simple-hashed database is built from valid records whose buckets can be serialized. -/
theorem simple_build_ok (sha : Sha256) (codec : BucketCodec) {seed : Bytes} {n : Nat} (hs : seed ≠ [])
    (h0 : 0 < n) (h1 : n < 2 ^ 31) (records : List (Bytes × Bytes)) (hkeys : ∀ r ∈ records, r.1 ≠ [])
    (ss : List Bytes)
    (hser : (List.range n).map (fun i => codec.serialize (simpleBucket sha seed n records i)) = ss.map some) :
    ∃ db, SimpleBuiltFrom sha codec (simpleParams seed n) records db ∧ db.dense.Holds ss ∧
      db.numSelectionBits = n := by
  have hready : DenseBuilder.new.Ready [] := ⟨rfl, rfl, rfl⟩
  have hadd := addRecords_ok sha seed h0 h1 records [] hkeys
  rw [List.nil_append] at hadd
  have hempty : (List.range n).map (simpleBucket sha seed n []) = List.replicate n ⟨[], []⟩ := by
    apply List.ext_getElem (by simp)
    intro i hi hi'
    simp [simpleBucket]
  rw [hempty] at hadd
  obtain ⟨d, e1, e2⟩ := addBuckets_ok (codec := codec)
    ((List.range n).map (simpleBucket sha seed n records)) ss (by rw [List.map_map]; exact hser) _ _ hready
  rw [List.nil_append] at e2
  obtain ⟨db, g1, g2⟩ := e2.build
  refine ⟨⟨db, wrapInt32 records.length, n⟩, ?_, g2, rfl⟩
  unfold SimpleBuiltFrom
  rw [simple_records]
  show SimpleBuilder.buildDb sha codec _ = _
  unfold SimpleBuilder.buildDb
  dsimp only [simpleParams]
  rw [wrapInt32_small (by omega), failIf_false (by omega), bind_ok, family_ok sha hs, bind_ok,
    show (1 : Int) = ((1 : Nat) : Int) from rfl, functions_ok, bind_ok]
  show (rd (shaFunctions sha seed 1) 0 >>= _) = _
  rw [show rd (shaFunctions sha seed 1) 0 = ok (sha.hashFunction (seed ++ stringBytes (toString 0))) from rfl,
    bind_ok]
  dsimp only [Option.getD_none]
  rw [Int.toNat_natCast, hadd, bind_ok, e1, bind_ok, g1, bind_ok]

/-! ### What a successful build implies -/

theorem foldRes_mem_ok {α σ : Type} {f : σ → α → Res σ} {P : α → Prop}
    (h : ∀ s a s', f s a = ok s' → P a) {l : List α} {s s' : σ} (hf : foldRes f s l = ok s') :
    ∀ a ∈ l, P a := by
  induction l generalizing s with
  | nil => simp
  | cons a l ih =>
    rw [foldRes_cons] at hf
    obtain ⟨s1, h1, h2⟩ := bind_eq_ok.mp hf
    intro b hb
    rcases List.mem_cons.mp hb with rfl | hb
    · exact h _ _ _ h1
    · exact ih h2 b hb

theorem family_inv {sha : Sha256} {config : HashFamilyConfig} {family : HashFamily}
    (h : createHashFamilyFromConfig sha config = ok family) : config.seed ≠ [] := by
  unfold createHashFamilyFromConfig at h
  obtain ⟨_, h1, _⟩ := bind_eq_ok.mp h
  exact failIf_eq_ok.mp h1

theorem cuckoo_built_inv {sha : Sha256} {random : Nat → Nat} {seed : Bytes} {k n : Nat}
    {records : List (Bytes × Bytes)} {db : CuckooDb} (h1 : n < 2 ^ 31)
    (h : CuckooBuiltFrom sha random (cuckooParams seed k n) records db) :
    seed ≠ [] ∧ 2 ≤ k ∧ 0 < n ∧ ∀ r ∈ records, r.1 ≠ [] := by
  obtain ⟨b1, b2, b3, b4, b5, b6⟩ := records_ok (cuckooParams seed k n) records
  unfold CuckooBuiltFrom at h
  generalize hb : records.foldl CuckooBuilder.insert (CuckooBuilder.new.setParams (cuckooParams seed k n)) = b
    at b1 b2 b3 b4 b5 b6 h
  unfold CuckooBuilder.build at h
  rw [b4] at h
  change CuckooBuilder.buildDb sha random b = ok db at h
  unfold CuckooBuilder.buildDb at h
  have q1 : b.params.numBuckets = n := by rw [b1]; rfl
  have q2 : b.params.numHashFunctions = k := by rw [b1]; rfl
  have q3 : b.params.hashFamilyConfig = ⟨1, seed⟩ := by rw [b1]; rfl
  obtain ⟨_, e1, h⟩ := bind_eq_ok.mp h
  obtain ⟨_, e2, h⟩ := bind_eq_ok.mp h
  obtain ⟨family, e3, h⟩ := bind_eq_ok.mp h
  dsimp only at h
  obtain ⟨t, e4, h⟩ := bind_eq_ok.mp h
  obtain ⟨t', e5, h⟩ := bind_eq_ok.mp h
  have hn := failIf_eq_ok.mp e1
  rw [q1] at hn
  have hs := family_inv e3
  rw [q3] at hs
  unfold CuckooTable.createFromFamily at e4
  obtain ⟨fs, e6, e7⟩ := bind_eq_ok.mp e4
  unfold createHashFunctions at e6
  obtain ⟨_, e8, e9⟩ := bind_eq_ok.mp e6
  unfold CuckooTable.create at e7
  obtain ⟨_, _, e7⟩ := bind_eq_ok.mp e7
  obtain ⟨_, e10, e7⟩ := bind_eq_ok.mp e7
  have hk := failIf_eq_ok.mp e10
  simp only [ok.injEq] at e9
  rw [← e9, List.length_map, List.length_range, q2] at hk
  refine ⟨hs, by omega, by omega, ?_⟩
  have hkeys : ∀ r ∈ b.records, r.1 ≠ [] := by
    refine foldRes_mem_ok (P := fun r : Bytes × Bytes => r.1 ≠ []) ?_ e5
    intro s a s' he
    unfold CuckooBuilder.insertKey at he
    obtain ⟨_, he, _⟩ := bind_eq_ok.mp he
    exact failIf_eq_ok.mp he
  intro r hr
  have hm : r.1 ∈ b.records.map (·.1) := by
    rw [firstValue_isSome, b6, ← firstValue_isSome]
    exact List.mem_map.mpr ⟨r, hr, rfl⟩
  obtain ⟨r', hr', he⟩ := List.mem_map.mp hm
  rw [← he]
  exact hkeys r' hr'

theorem simple_built_inv {sha : Sha256} {codec : BucketCodec} {seed : Bytes} {n : Nat}
    {records : List (Bytes × Bytes)} {db : SimpleDb} (h1 : n < 2 ^ 31)
    (h : SimpleBuiltFrom sha codec (simpleParams seed n) records db) :
    seed ≠ [] ∧ 0 < n ∧ (∀ r ∈ records, r.1 ≠ []) ∧
      ∃ ss : List Bytes,
        (List.range n).map (fun i => codec.serialize (simpleBucket sha seed n records i)) = ss.map some := by
  unfold SimpleBuiltFrom at h
  rw [simple_records] at h
  change SimpleBuilder.buildDb sha codec _ = ok db at h
  unfold SimpleBuilder.buildDb at h
  dsimp only [simpleParams] at h
  rw [wrapInt32_small (by omega)] at h
  obtain ⟨_, e1, h⟩ := bind_eq_ok.mp h
  obtain ⟨family, e3, h⟩ := bind_eq_ok.mp h
  have hs : seed ≠ [] := family_inv e3
  have hn := failIf_eq_ok.mp e1
  rw [family_ok sha hs] at e3
  simp only [ok.injEq] at e3
  rw [← e3, show (1 : Int) = ((1 : Nat) : Int) from rfl, functions_ok, bind_ok,
    show rd (shaFunctions sha seed 1) 0 = ok (sha.hashFunction (seed ++ stringBytes (toString 0))) from rfl,
    bind_ok] at h
  obtain ⟨buckets, e4, h⟩ := bind_eq_ok.mp h
  obtain ⟨dense, e5, h⟩ := bind_eq_ok.mp h
  have hkeys : ∀ r ∈ records, r.1 ≠ [] := by
    refine foldRes_mem_ok (P := fun r : Bytes × Bytes => r.1 ≠ []) ?_ e4
    intro s a s' he
    unfold SimpleBuilder.addRecord at he
    obtain ⟨_, he, _⟩ := bind_eq_ok.mp he
    exact failIf_eq_ok.mp he
  have hadd := addRecords_ok sha seed (n := n) (by omega) h1 records [] hkeys
  rw [List.nil_append] at hadd
  have hempty : (List.range n).map (simpleBucket sha seed n []) = List.replicate n ⟨[], []⟩ := by
    apply List.ext_getElem (by simp)
    intro i hi hi'
    simp [simpleBucket]
  rw [hempty] at hadd
  rw [Int.toNat_natCast, hadd] at e4
  simp only [ok.injEq] at e4
  refine ⟨hs, by omega, hkeys, buckets.map fun b => (codec.serialize b).getD [], ?_⟩
  rw [← e4, List.map_map, List.map_map]
  apply List.map_congr_left
  intro i hi
  have : ∀ b ∈ buckets, codec.serialize b = some ((codec.serialize b).getD []) := by
    refine foldRes_mem_ok (P := fun b => codec.serialize b = some ((codec.serialize b).getD [])) ?_ e5
    intro s a s' he
    unfold SimpleBuilder.addBucket at he
    cases hc : codec.serialize a with
    | none => rw [hc] at he; cases he
    | some x => rfl
  exact this _ (by rw [← e4]; exact List.mem_map.mpr ⟨i, hi, rfl⟩)

end Verif
