import Verif.Props.SparsePir
/-!
# C64: what `Build` of hashed databases returns
-/
namespace Verif
open Res Spec

theorem family_err (sha : Sha256) {config : HashFamilyConfig}
    (h : ¬ HashFamilyConfig.Usable config) : createHashFamilyFromConfig sha config = err .invalidArgument := by
  unfold createHashFamilyFromConfig
  by_cases hs : config.seed = []
  · rw [failIf_true hs]; rfl
  · rw [failIf_false hs, bind_ok]
    rw [if_neg fun hf => h ⟨hf, hs⟩]

theorem insertKeys_err {functions : List HashFunction} {n : Nat} {k : Int}
    (hf : ∀ f ∈ functions, InRange n f) {random : Nat → Nat} (hr : ∀ i, random i < functions.length)
    (records : List (Bytes × Bytes)) (hk : ∃ r ∈ records, r.1 = []) (t : CuckooTable)
    (ht : t.Inv functions n k none) :
    foldRes (CuckooBuilder.insertKey random) t records = err .invalidArgument := by
  induction records generalizing t with
  | nil => obtain ⟨r, hr, _⟩ := hk; cases hr
  | cons r rs ih =>
    rw [foldRes_cons]
    by_cases he : r.1 = []
    · unfold CuckooBuilder.insertKey
      rw [failIf_true he]
      rfl
    · obtain ⟨_, _, h3, _⟩ := cuckoo_insertAll hf hr [r.1] t ht
      have hst : (t.insert random r.1).1 = ok () := h3 rfl _ (by simp [insertAll])
      have hinv := (cuckoo_insert_ok hf hr t ht r.1).1
      have hstep : CuckooBuilder.insertKey random t r = ok (t.insert random r.1).2 := by
        unfold CuckooBuilder.insertKey
        rw [failIf_false he, bind_ok]
        dsimp only
        rw [hst, bind_ok]
      rw [hstep, bind_ok]
      refine ih ?_ _ hinv
      obtain ⟨r', hr', he'⟩ := hk
      rcases List.mem_cons.mp hr' with rfl | hr'
      · exact absurd he' he
      · exact ⟨r', hr', he'⟩

theorem cuckooBuild_eq (sha : Sha256) (random : Nat → Nat) (params : CuckooParams)
    (records : List (Bytes × Bytes)) : ∃ b : CuckooBuilder, cuckooBuild sha random params records =
      CuckooBuilder.buildDb sha random b ∧ b.params = params ∧ b.keyBuilder = none ∧ b.valueBuilder = none ∧
      b.records.length ≤ records.length ∧ ((∃ r ∈ records, r.1 = []) → ∃ r ∈ b.records, r.1 = []) ∧
      b = { (records.foldl CuckooBuilder.insert CuckooBuilder.new) with params := params } := by
  obtain ⟨b1, b2, b3, b4, b5, b6⟩ := records_ok params records
  have hpar : ∀ (rs : List (Bytes × Bytes)) (b : CuckooBuilder),
      rs.foldl CuckooBuilder.insert (b.setParams params) =
      { (rs.foldl CuckooBuilder.insert b) with params := params } := by
    intro rs
    induction rs with
    | nil => intro b; rfl
    | cons r rs ih => intro b; exact ih (b.insert r)
  have hp := hpar records CuckooBuilder.new
  generalize hb : records.foldl CuckooBuilder.insert (CuckooBuilder.new.setParams params) = b
    at b1 b2 b3 b4 b5 b6 hp
  have hmem : ∀ x, x ∈ b.records.map (·.1) ↔ x ∈ records.map (·.1) := by
    intro x; rw [firstValue_isSome, firstValue_isSome, b6]
  refine ⟨b, ?_, b1, b2, b3, ?_, ?_, hp⟩
  · unfold cuckooBuild CuckooBuilder.build
    rw [hb, b4]
    rfl
  · have := (b5.nodup).length_le_of_subset (l₂ := records.map (·.1)) (fun x hx => (hmem x).mp hx)
    simpa using this
  · rintro ⟨r, hr, he⟩
    obtain ⟨r', hr', he'⟩ := List.mem_map.mp ((hmem r.1).mpr (List.mem_map.mpr ⟨r, hr, rfl⟩))
    exact ⟨r', hr', by rw [he', he]⟩

/-- The first checks of `Build`. -/
theorem cuckoo_params_err {sha : Sha256} {random : Nat → Nat} {b : CuckooBuilder}
    (hr : b.records.length < 2 ^ 31)
    (h : ¬(0 < b.params.numBuckets ∧ 0 < wrapInt32 b.params.numBuckets ∧ 2 ≤ b.params.numHashFunctions ∧
      HashFamilyConfig.Usable b.params.hashFamilyConfig)) :
    CuckooBuilder.buildDb sha random b = err .invalidArgument := by
  unfold CuckooBuilder.buildDb
  by_cases h0 : b.params.numBuckets ≤ 0
  · rw [failIf_true h0]; rfl
  rw [failIf_false h0, bind_ok]
  by_cases h1 : b.params.numHashFunctions ≤ 0
  · rw [failIf_true h1]; rfl
  rw [failIf_false h1, bind_ok]
  by_cases h2 : HashFamilyConfig.Usable b.params.hashFamilyConfig
  · have hfam := family_ok sha h2.2
    have hc : b.params.hashFamilyConfig = ⟨1, b.params.hashFamilyConfig.seed⟩ := by
      rw [← h2.1]
    rw [hc, hfam, bind_ok]
    dsimp only
    obtain ⟨k, hk⟩ : ∃ k : Nat, b.params.numHashFunctions = k := ⟨b.params.numHashFunctions.toNat, by omega⟩
    unfold CuckooTable.createFromFamily
    rw [hk, functions_ok, bind_ok, wrapInt32_small (by omega)]
    have := C53_cuckoo (shaFunctions sha b.params.hashFamilyConfig.seed k) (wrapInt32 b.params.numBuckets)
      (b.records.length : Nat) none
    rw [if_neg (by
      rintro ⟨g1, g2, _⟩
      simp [shaFunctions] at g2
      exact h ⟨by omega, g1, by omega, h2⟩)] at this
    rw [this]
    rfl
  · rw [family_err sha h2]; rfl

/-- C64 for cuckoo-hashed databases: a new builder with fewer than 2^31 buckets and records builds a database
exactly if the number of buckets is positive, there are at least two hash functions, the hash family is
SHA-256 with a seed, and no key is empty. Otherwise it reports INVALID_ARGUMENT. The random numbers are those
of a distribution on the numbers of the hash functions. -/
theorem C64_cuckoo (sha : Sha256) (random : Nat → Nat) (params : CuckooParams)
    (records : List (Bytes × Bytes)) (hr : 2 ≤ params.numHashFunctions → ∀ i, (random i : Int) < params.numHashFunctions)
    (hb : params.numBuckets < 2 ^ 31) (hrec : records.length < 2 ^ 31) :
    if 0 < params.numBuckets ∧ 2 ≤ params.numHashFunctions ∧
        HashFamilyConfig.Usable params.hashFamilyConfig ∧ ∀ r ∈ records, r.1 ≠ []
    then ∃ db, cuckooBuild sha random params records = ok db
    else cuckooBuild sha random params records = err .invalidArgument := by
  by_cases hv : 0 < params.numBuckets ∧ 2 ≤ params.numHashFunctions ∧
      HashFamilyConfig.Usable params.hashFamilyConfig
  · obtain ⟨h0, hk2, hfam, hs⟩ := hv
    obtain ⟨⟨fam, seed⟩, k', n'⟩ := params
    dsimp only at h0 hk2 hfam hs hr hb ⊢
    obtain ⟨k, rfl⟩ : ∃ k : Nat, k' = k := ⟨k'.toNat, by omega⟩
    obtain ⟨n, rfl⟩ : ∃ n : Nat, n' = n := ⟨n'.toNat, by omega⟩
    subst hfam
    have hr' : ∀ i, random i < k := fun i => by have := hr hk2 i; omega
    by_cases hkeys : ∀ r ∈ records, r.1 ≠ []
    · rw [if_pos ⟨h0, hk2, ⟨rfl, hs⟩, hkeys⟩]
      exact C45_builds sha random seed k n hs (by omega) hr' (by omega) (by omega) records hrec hkeys
    · rw [if_neg fun h => hkeys h.2.2.2]
      obtain ⟨b, e, e1, e2, e3, e4, e5, _⟩ := cuckooBuild_eq sha random ⟨⟨1, seed⟩, k, n⟩ records
      rw [e]
      unfold CuckooBuilder.buildDb
      rw [e1]
      dsimp only
      rw [failIf_false (by omega), bind_ok, failIf_false (by omega), bind_ok, family_ok sha hs, bind_ok,
        wrapInt32_small (by omega), wrapInt32_small (by omega)]
      unfold CuckooTable.createFromFamily
      rw [functions_ok, bind_ok]
      obtain ⟨t0, ht0⟩ : ∃ t0, CuckooTable.create (shaFunctions sha seed k) n (b.records.length : Nat) none =
          ok t0 := by
        have := C53_cuckoo (shaFunctions sha seed k) n (b.records.length : Nat) none
        rw [if_pos ⟨by omega, by simp [shaFunctions]; omega, by omega, by simp⟩] at this
        obtain ⟨t, h, _⟩ := this
        exact ⟨t, h⟩
      rw [ht0, bind_ok]
      have hempty : ∃ r ∈ b.records, r.1 = [] := by
        apply e5
        apply Decidable.byContradiction
        intro hno
        exact hkeys fun r hr he => hno ⟨r, hr, he⟩
      rw [insertKeys_err (shaFunctions_inRange (sha := sha) (seed := seed) (k := k) (by omega) (by omega))
        (by simpa [shaFunctions] using hr') _ hempty t0 (cuckoo_create_inv ht0).1]
      rfl
  · rw [if_neg fun h => hv ⟨h.1, h.2.1, h.2.2.1⟩]
    obtain ⟨b, e, e1, _, _, e4, _⟩ := cuckooBuild_eq sha random params records
    rw [e]
    refine cuckoo_params_err (by omega) ?_
    rw [e1]
    intro h
    exact hv ⟨h.1, h.2.2.1, h.2.2.2⟩

/-- C64 for cuckoo-hashed databases with 2^31 or more buckets: they are never built; the result is an
error. -/
theorem C64_cuckoo_huge (sha : Sha256) (random : Nat → Nat) (params : CuckooParams)
    (records : List (Bytes × Bytes)) (hr : 2 ≤ params.numHashFunctions → ∀ i, (random i : Int) < params.numHashFunctions)
    (hb : 2 ^ 31 ≤ params.numBuckets) (hrec : records.length < 2 ^ 31) :
    cuckooBuild sha random params records = err .invalidArgument ∨
      cuckooBuild sha random params records = err .internal := by
  obtain ⟨b, e, e1, e2, e3, e4, e5, e6⟩ := cuckooBuild_eq sha random params records
  by_cases hv : 0 < wrapInt32 params.numBuckets ∧ 2 ≤ params.numHashFunctions ∧
      HashFamilyConfig.Usable params.hashFamilyConfig
  · -- the build with the number of buckets that fits an `int`
    have hw : wrapInt32 params.numBuckets < 2 ^ 31 := by unfold wrapInt32; omega
    have hww : wrapInt32 (wrapInt32 params.numBuckets) = wrapInt32 params.numBuckets := by
      unfold wrapInt32; omega
    have hsmall := C64_cuckoo sha random { params with numBuckets := wrapInt32 params.numBuckets } records hr hw hrec
    obtain ⟨b', f, f1, f2, f3, f4, f5, f6⟩ :=
      cuckooBuild_eq sha random { params with numBuckets := wrapInt32 params.numBuckets } records
    have hrecs : b'.records = b.records := by rw [e6, f6]
    have q1 : b'.params.numBuckets = wrapInt32 params.numBuckets := by rw [f1]
    have q2 : b'.params.numHashFunctions = params.numHashFunctions := by rw [f1]
    have q3 : b'.params.hashFamilyConfig = params.hashFamilyConfig := by rw [f1]
    rw [f] at hsmall
    rw [e]
    unfold CuckooBuilder.buildDb at hsmall ⊢
    rw [f2, f3, q1, q2, q3, hrecs, hww, failIf_false (by omega), bind_ok] at hsmall
    rw [e1, e2, e3, failIf_false (by omega), bind_ok]
    split at hsmall
    · right
      obtain ⟨db, hsmall⟩ := hsmall
      obtain ⟨_, g1, hsmall⟩ := bind_eq_ok.mp hsmall
      obtain ⟨fam, g2, hsmall⟩ := bind_eq_ok.mp hsmall
      dsimp only at hsmall
      obtain ⟨t, g3, hsmall⟩ := bind_eq_ok.mp hsmall
      obtain ⟨t', g4, hsmall⟩ := bind_eq_ok.mp hsmall
      obtain ⟨s, g5, hsmall⟩ := bind_eq_ok.mp hsmall
      obtain ⟨keys, g6, hsmall⟩ := bind_eq_ok.mp hsmall
      obtain ⟨values, g7, hsmall⟩ := bind_eq_ok.mp hsmall
      obtain ⟨_, g8, hsmall⟩ := bind_eq_ok.mp hsmall
      have g8 := failIf_eq_ok.mp g8
      rw [g1, bind_ok, g2, bind_ok]
      dsimp only
      rw [g3, bind_ok, g4, bind_ok, g5, bind_ok, g6, bind_ok, g7, bind_ok]
      rw [failIf_true (by
        right
        have : (keys.size : Int) = wrapInt32 params.numBuckets := by
          apply Decidable.byContradiction
          intro h
          exact g8 (Or.inr h)
        omega)]
      rfl
    · left
      rename_i hneg
      -- some key is empty
      have hne : ∃ r ∈ b.records, r.1 = [] := by
        apply e5
        apply Decidable.byContradiction
        intro hno
        exact hneg ⟨hv.1, hv.2.1, hv.2.2, fun r hr he => hno ⟨r, hr, he⟩⟩
      obtain ⟨k, hk⟩ : ∃ k : Nat, params.numHashFunctions = k := ⟨params.numHashFunctions.toNat, by omega⟩
      obtain ⟨n, hn⟩ : ∃ n : Nat, wrapInt32 params.numBuckets = n := ⟨(wrapInt32 params.numBuckets).toNat, by omega⟩
      have hc : params.hashFamilyConfig = ⟨1, params.hashFamilyConfig.seed⟩ := by
        rw [← hv.2.2.1]
      rw [failIf_false (by omega), bind_ok, hc, family_ok sha hv.2.2.2, bind_ok]
      dsimp only
      rw [hn, hk, wrapInt32_small (by omega)]
      unfold CuckooTable.createFromFamily
      rw [functions_ok, bind_ok]
      obtain ⟨t0, ht0⟩ : ∃ t0, CuckooTable.create (shaFunctions sha params.hashFamilyConfig.seed k) n
          (b.records.length : Nat) none = ok t0 := by
        have := C53_cuckoo (shaFunctions sha params.hashFamilyConfig.seed k) n (b.records.length : Nat) none
        rw [if_pos ⟨by omega, by simp [shaFunctions]; omega, by omega, by simp⟩] at this
        obtain ⟨t, h, _⟩ := this
        exact ⟨t, h⟩
      rw [ht0, bind_ok]
      rw [insertKeys_err (shaFunctions_inRange (sha := sha) (seed := params.hashFamilyConfig.seed) (k := k)
        (by omega) (by omega)) (by
          intro i
          have := hr hv.2.1 i
          simp [shaFunctions]; omega) _ hne t0 (cuckoo_create_inv ht0).1]
      rfl
  · left
    rw [e]
    refine cuckoo_params_err (by omega) ?_
    rw [e1]
    intro h
    exact hv ⟨h.2.1, h.2.2.1, h.2.2.2⟩

/-! ## Simple hashing -/

theorem addRecords_err (sha : Sha256) (seed : Bytes) {n : Nat} (h0 : 0 < n) (h1 : n < 2 ^ 31)
    (rs done : List (Bytes × Bytes)) (hk : ∃ r ∈ rs, r.1 = []) :
    foldRes (SimpleBuilder.addRecord (sha.hashFunction (seed ++ stringBytes (toString 0))) n)
      ((List.range n).map (simpleBucket sha seed n done)) rs = err .invalidArgument := by
  induction rs generalizing done with
  | nil => obtain ⟨r, hr, _⟩ := hk; cases hr
  | cons r rs ih =>
    by_cases he : r.1 = []
    · rw [foldRes_cons]
      unfold SimpleBuilder.addRecord
      rw [failIf_true he]
      rfl
    · have hone := addRecords_ok sha seed h0 h1 [r] done (by simpa using he)
      rw [foldRes_cons] at hone ⊢
      obtain ⟨s, hs1, hs2⟩ := bind_eq_ok.mp hone
      rw [foldRes_nil] at hs2
      rw [hs1, bind_ok, Res.ok.inj hs2]
      refine ih _ ?_
      obtain ⟨r', hr', he'⟩ := hk
      rcases List.mem_cons.mp hr' with rfl | hr'
      · exact absurd he' he
      · exact ⟨r', hr', he'⟩

theorem addBuckets_err {codec : BucketCodec} (bs : List PirBucket) (h : ∃ b ∈ bs, codec.serialize b = none)
    (d : DenseBuilder) : foldRes (SimpleBuilder.addBucket codec) d bs = err .internal := by
  induction bs generalizing d with
  | nil => obtain ⟨b, hb, _⟩ := h; cases hb
  | cons b bs ih =>
    rw [foldRes_cons]
    cases hb : codec.serialize b with
    | none => unfold SimpleBuilder.addBucket; rw [hb]; rfl
    | some s =>
      have hstep : SimpleBuilder.addBucket codec d b = ok (d.insert s) := by
        unfold SimpleBuilder.addBucket; rw [hb]
      rw [hstep, bind_ok]
      refine ih ?_ _
      obtain ⟨b', hb', he'⟩ := h
      rcases List.mem_cons.mp hb' with rfl | hb'
      · rw [hb] at he'; cases he'
      · exact ⟨b', hb', he'⟩

/-- C64 for databases with simple hashing and fewer than 2^31 buckets: a new builder reports INVALID_ARGUMENT
unless the number of buckets is positive, the hash family is SHA-256 with a seed, and no key is empty. If
these hold, it reports INTERNAL if a bucket cannot be serialized and builds a database with this number of
buckets otherwise. -/
theorem C64_simple (sha : Sha256) (codec : BucketCodec) (params : SimpleParams)
    (records : List (Bytes × Bytes)) (hb : -2 ^ 31 ≤ params.numBuckets ∧ params.numBuckets < 2 ^ 31) :
    if 0 < params.numBuckets ∧ HashFamilyConfig.Usable params.hashFamilyConfig ∧ ∀ r ∈ records, r.1 ≠ []
    then
      if ∃ i < params.numBuckets.toNat, codec.serialize (simpleBucket sha params.hashFamilyConfig.seed
          params.numBuckets.toNat records i) = none
      then simpleBuild sha codec params records = err .internal
      else ∃ db, simpleBuild sha codec params records = ok db ∧ (db.numSelectionBits : Int) = params.numBuckets
    else simpleBuild sha codec params records = err .invalidArgument := by
  have hunfold : simpleBuild sha codec params records = SimpleBuilder.buildDb sha codec ⟨params, none, records, false⟩ := by
    unfold simpleBuild
    rw [simple_records]
    rfl
  by_cases hv : 0 < params.numBuckets ∧ HashFamilyConfig.Usable params.hashFamilyConfig
  · obtain ⟨h0, hfam, hs⟩ := hv
    obtain ⟨⟨fam, seed⟩, n'⟩ := params
    dsimp only at h0 hfam hs hb hunfold ⊢
    obtain ⟨n, rfl⟩ : ∃ n : Nat, n' = n := ⟨n'.toNat, by omega⟩
    subst hfam
    have hempty : (List.range n).map (simpleBucket sha seed n []) = List.replicate n ⟨[], []⟩ := by
      apply List.ext_getElem (by simp)
      intro i hi hi'
      simp [simpleBucket]
    have hsteps : SimpleBuilder.buildDb sha codec ⟨⟨⟨1, seed⟩, n⟩, none, records, false⟩ =
        (do
          let buckets ← foldRes (SimpleBuilder.addRecord (sha.hashFunction (seed ++ stringBytes (toString 0))) n)
            ((List.range n).map (simpleBucket sha seed n [])) records
          let dense ← foldRes (SimpleBuilder.addBucket codec) DenseBuilder.new buckets
          let db ← dense.build.1
          ok ⟨db, wrapInt32 records.length, n⟩) := by
      unfold SimpleBuilder.buildDb
      dsimp only
      rw [wrapInt32_small (by omega), failIf_false (by omega), bind_ok, family_ok sha hs, bind_ok,
        show (1 : Int) = ((1 : Nat) : Int) from rfl, functions_ok, bind_ok]
      rw [show rd (shaFunctions sha seed 1) 0 = ok (sha.hashFunction (seed ++ stringBytes (toString 0))) from rfl,
        bind_ok]
      dsimp only [Option.getD_none]
      rw [Int.toNat_natCast, hempty]
    by_cases hkeys : ∀ r ∈ records, r.1 ≠ []
    · rw [if_pos ⟨h0, ⟨rfl, hs⟩, hkeys⟩]
      rw [Int.toNat_natCast]
      split
      · rename_i hser
        obtain ⟨i, hi, hser⟩ := hser
        rw [hunfold, hsteps, addRecords_ok sha seed (by omega) (by omega) records [] hkeys, bind_ok,
          List.nil_append, addBuckets_err _ ⟨_, List.mem_map.mpr ⟨i, List.mem_range.mpr hi, rfl⟩, hser⟩]
        rfl
      · rename_i hser
        obtain ⟨db, g1, _, g2⟩ := simple_build_ok sha codec hs (n := n) (by omega) (by omega) records hkeys
          ((List.range n).map fun i => (codec.serialize (simpleBucket sha seed n records i)).getD []) (by
            rw [List.map_map]
            apply List.map_congr_left
            intro i hi
            cases hc : codec.serialize (simpleBucket sha seed n records i) with
            | none => exact absurd ⟨i, List.mem_range.mp hi, hc⟩ hser
            | some s => simp [hc])
        exact ⟨db, g1, by rw [g2]⟩
    · rw [if_neg fun h => hkeys h.2.2, hunfold, hsteps, addRecords_err sha seed (by omega) (by omega)]
      · rfl
      · apply Decidable.byContradiction
        intro hno
        exact hkeys fun r hr he => hno ⟨r, hr, he⟩
  · rw [if_neg fun h => hv ⟨h.1, h.2.1⟩, hunfold]
    unfold SimpleBuilder.buildDb
    dsimp only
    have hw : wrapInt32 params.numBuckets = params.numBuckets := by unfold wrapInt32; omega
    rw [hw]
    by_cases h0 : params.numBuckets ≤ 0
    · rw [failIf_true h0]; rfl
    · rw [failIf_false h0, bind_ok, family_err sha fun h => hv ⟨by omega, h⟩]
      rfl

/-- C64 for simple hashing and any number of buckets: only its value as an `int` matters. -/
theorem C64_simple_huge (sha : Sha256) (codec : BucketCodec) (config : HashFamilyConfig) (n : Int)
    (records : List (Bytes × Bytes)) :
    simpleBuild sha codec ⟨config, n⟩ records = simpleBuild sha codec ⟨config, n + 2 ^ 32⟩ records := by
  have h : wrapInt32 (n + 2 ^ 32) = wrapInt32 n := by unfold wrapInt32; omega
  unfold simpleBuild
  rw [simple_records, simple_records]
  show SimpleBuilder.buildDb sha codec _ = SimpleBuilder.buildDb sha codec _
  unfold SimpleBuilder.buildDb
  dsimp only
  rw [h]

/-- With simple hashing, a database does not always have the number of buckets it was asked for: for `2^32 + 5`
it has five. -/
theorem C64_simple_refuted : ∃ (params : SimpleParams) (db : SimpleDb),
    simpleBuild exSha wireCodec params exPairs = ok db ∧ params.numBuckets = 2 ^ 32 + 5 ∧
      db.numSelectionBits = 5 := by
  have h := C64_simple exSha wireCodec (simpleParams [9] 5) exPairs (by decide)
  rw [if_pos (by decide), if_neg (by decide +kernel)] at h
  obtain ⟨db, h1, h2⟩ := h
  refine ⟨⟨⟨1, [9]⟩, 5 + 2 ^ 32⟩, db, ?_, by decide, by
    have : ((simpleParams [9] 5).numBuckets) = 5 := rfl
    rw [this] at h2
    omega⟩
  rw [← C64_simple_huge]
  exact h1

/-- Three pairs in seven buckets with three hash functions. -/
example : ∃ db, cuckooBuild exSha (fun i => i % 3) (cuckooParams [9] 3 7) exPairs = ok db := by
  have h := C64_cuckoo exSha (fun i => i % 3) (cuckooParams [9] 3 7) exPairs
    (fun _ i => by show ((i % 3 : Nat) : Int) < 3; omega) (by decide) (by decide)
  rwa [if_pos (by decide)] at h

/-- One hash function is too few, and keys must not be empty. -/
example : cuckooBuild exSha (fun _ => 0) (cuckooParams [9] 1 7) exPairs = err .invalidArgument ∧
    cuckooBuild exSha (fun _ => 0) (cuckooParams [9] 2 7) (exPairs ++ [([], [1])]) = err .invalidArgument := by
  have h1 := C64_cuckoo exSha (fun _ => 0) (cuckooParams [9] 1 7) exPairs
    (fun h => absurd h (by decide)) (by decide) (by decide)
  have h2 := C64_cuckoo exSha (fun _ => 0) (cuckooParams [9] 2 7) (exPairs ++ [([], [1])])
    (fun _ _ => by show ((0 : Nat) : Int) < 2; omega) (by decide) (by decide)
  rw [if_neg (by decide)] at h1 h2
  exact ⟨h1, h2⟩

/-- C64 with 2^33 buckets. -/
example : cuckooBuild exSha (fun i => i % 3) (cuckooParams [9] 3 (2 ^ 33)) exPairs = err .invalidArgument ∨
    cuckooBuild exSha (fun i => i % 3) (cuckooParams [9] 3 (2 ^ 33)) exPairs = err .internal :=
  C64_cuckoo_huge exSha (fun i => i % 3) _ exPairs (fun _ i => by show ((i % 3 : Nat) : Int) < 3; omega) (by decide) (by decide)

end Verif
