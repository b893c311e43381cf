import Verif.Lemmas.Hashing
/-!
# C40 - C44, C53: hash functions and hash tables
-/
namespace Verif
open Res Spec

/-! ## C44 -/

/-- C44: for every seed, input and positive upper bound, the SHA-256 hash function returns the digest of
seed and input, read as a 256-bit little-endian number, modulo the upper bound. -/
theorem C44_sha256 (sha : Sha256) (seed input : Bytes) (n : Nat) (hpos : 0 < n) (hint : n < 2 ^ 31) :
    sha.hashFunction seed input n = ok ((leNat (sha.digest (seed ++ input)) % n : Nat) : Int) :=
  sha_hashFunction_ok sha seed input hpos hint

/-- C44: a configuration gives hash functions exactly if the seed is not empty, the family is SHA-256 and
their number is not negative. The `i`-th function hashes the seed, the decimal digits of `i` and the
input, into the requested range. -/
theorem C44_config (sha : Sha256) (config : HashFamilyConfig) (k : Int) :
    if config.seed ≠ [] ∧ config.hashFamily = 1 ∧ 0 ≤ k then
      ∃ family fs, createHashFamilyFromConfig sha config = ok family ∧ createHashFunctions family k = ok fs ∧
        fs.length = k ∧
        ∀ n : Nat, 0 < n → n < 2 ^ 31 → (∀ f ∈ fs, InRange n f) ∧
          ∀ (i : Nat) (f : HashFunction) (input : Bytes), fs[i]? = some f → f input n =
            ok ((leNat (sha.digest (config.seed ++ stringBytes (toString i) ++ input)) % n : Nat) : Int)
    else
      createHashFamilyFromConfig sha config = err .invalidArgument ∨
        ∃ family, createHashFamilyFromConfig sha config = ok family ∧
          createHashFunctions family k = err .invalidArgument := by
  unfold createHashFamilyFromConfig createHashFunctions
  by_cases h1 : config.seed = []
  · rw [if_neg (by simp [h1])]
    exact Or.inl (by rw [failIf_true h1]; rfl)
  rw [failIf_false h1, bind_ok]
  by_cases h2 : config.hashFamily = 1
  · rw [if_pos h2]
    by_cases h3 : 0 ≤ k
    · rw [if_pos ⟨h1, h2, h3⟩]
      have key : ∀ n : Nat, 0 < n → n < 2 ^ 31 → ∀ (i : Nat) (input : Bytes),
          wrapWithSeed sha.hashFamily config.seed (stringBytes (toString i)) input n = ok ((leNat (sha.digest
            (config.seed ++ stringBytes (toString i) ++ input)) % n : Nat) : Int) := by
        intro n a b i input
        exact C44_sha256 sha _ input n a b
      refine ⟨_, (List.range k.toNat).map fun i =>
        wrapWithSeed sha.hashFamily config.seed (stringBytes (toString i)), rfl, ?_, ?_, ?_⟩
      · rw [failIf_false (by omega)]; rfl
      · simp; omega
      intro n a b
      constructor
      · intro f hf x
        obtain ⟨i, _, rfl⟩ := List.mem_map.mp hf
        exact ⟨_, Nat.mod_lt _ a, key n a b i x⟩
      · intro i f input hf
        rw [List.getElem?_map] at hf
        obtain ⟨j, hj, rfl⟩ := Option.map_eq_some_iff.mp hf
        obtain ⟨_, hj⟩ := List.getElem?_eq_some_iff.mp hj
        rw [List.getElem_range] at hj
        subst hj
        exact key n a b _ input
    · rw [if_neg (by simp [h3])]
      exact Or.inr ⟨_, rfl, by rw [failIf_true (by omega)]; rfl⟩
  · rw [if_neg h2, if_neg (by simp [h2])]
    exact Or.inl rfl

/-- C44: the FarmHash functions also map into the range, whatever the hash is. -/
theorem C44_farm (hash : Bytes → U128) (input : Bytes) (n : Nat) (hpos : 0 < n) (hint : n < 2 ^ 31) :
    farmHashFunction hash input n = ok (((hash input).toNat % n : Nat) : Int) := by
  unfold farmHashFunction
  obtain ⟨r, h1, h2⟩ := modInt_ok (hash input) hpos hint
  have := Nat.mod_lt (hash input).toNat hpos
  rw [h1, bind_ok, wrapInt32_small (by omega), h2]

/-- A digest for the examples. -/
def exSha : Sha256 := ⟨fun m => blockBytes (BitVec.ofNat 128 (leNat m + 77)) ++
  blockBytes (BitVec.ofNat 128 (leNat m * 1000003 + 5)), fun m => by simp [blockBytes]⟩

/-- C44 on an example. -/
example : exSha.hashFunction [1, 2] [3] 1000 = ok 6 := by decide +kernel

/-! ## C40 -/

/-- C40: elements are inserted into a new table, whatever the hash functions (mapping into the range) and
whatever random numbers (below the number of hash functions) are drawn. If all insertions succeed, buckets
and stash together hold exactly the inserted elements, each as often as it was inserted. -/
theorem C40_contents (functions : List HashFunction) (n : Nat) (hf : ∀ f ∈ functions, InRange n f)
    (relocations : Int) (stashSize : Option Int) (t0 : CuckooTable)
    (hc : CuckooTable.create functions n relocations stashSize = ok t0)
    (random : Nat → Nat) (hr : ∀ i, random i < functions.length) (xs : List Bytes)
    (hs : ∀ st ∈ (insertAll (CuckooTable.insert random) t0 xs).1, st = ok ()) :
    (contents (insertAll (CuckooTable.insert random) t0 xs).2).Perm xs := by
  obtain ⟨h1, h2⟩ := cuckoo_create_inv hc
  obtain ⟨_, _, _, lost, h3, h4⟩ := cuckoo_insertAll hf hr xs t0 h1
  rw [List.countP_eq_zero.mpr (by intro st hst; simp [hs st hst]), List.length_eq_zero_iff] at h3
  rw [h3, h2, List.append_nil, List.nil_append] at h4
  exact h4

/-- C40: after any insertions, successful or not, every element in a bucket is there because one of the
hash functions maps it to this bucket, the number of buckets is unchanged, and the stash is within its
limit. Every insertion succeeds or reports INTERNAL; without limit on the stash, all succeed. -/
theorem C40_placement (functions : List HashFunction) (n : Nat) (hf : ∀ f ∈ functions, InRange n f)
    (relocations : Int) (stashSize : Option Int) (t0 : CuckooTable)
    (hc : CuckooTable.create functions n relocations stashSize = ok t0)
    (random : Nat → Nat) (hr : ∀ i, random i < functions.length) (xs : List Bytes) :
    let (statuses, t) := insertAll (CuckooTable.insert random) t0 xs
    t.table.length = n ∧
    (∀ (i : Nat) (x : Bytes), t.table[i]? = some (some x) → ∃ f ∈ functions, f x n = ok (i : Int)) ∧
    (∀ m ∈ stashSize, (t.stash.length : Int) ≤ m) ∧
    (∀ st ∈ statuses, st = ok () ∨ st = err .internal) ∧
    (stashSize = none → ∀ st ∈ statuses, st = ok ()) := by
  obtain ⟨h1, h2⟩ := cuckoo_create_inv hc
  obtain ⟨h3, h4, h5, _⟩ := cuckoo_insertAll hf hr xs t0 h1
  refine ⟨h3.length, h3.placed, ?_, h4, h5⟩
  intro m hm
  have := h3.limit m hm
  have hpos : 0 ≤ m := by
    unfold CuckooTable.create at hc
    obtain ⟨_, _, hc⟩ := bind_eq_ok.mp hc
    obtain ⟨_, _, hc⟩ := bind_eq_ok.mp hc
    obtain ⟨_, _, hc⟩ := bind_eq_ok.mp hc
    obtain ⟨_, hc, _⟩ := bind_eq_ok.mp hc
    have hc := failIf_eq_ok.mp hc
    rw [Option.mem_def] at hm
    rw [hm] at hc
    simp at hc
    exact hc
  omega

/-- Hash functions for the examples: sum of the bytes plus a number. -/
def exHash (k : Nat) : HashFunction := fun x n =>
  if n ≤ 0 then ub else ok (((leNat x + k * (leNat x + 1) : Nat) : Int) % n)

theorem exHash_inRange (k n : Nat) (h : 0 < n) : InRange n (exHash k) := by
  intro x
  refine ⟨(leNat x + k * (leNat x + 1)) % n, Nat.mod_lt _ h, ?_⟩
  unfold exHash
  rw [if_neg (by omega)]
  rfl

/-- An empty cuckoo hash table with two hash functions. -/
def exTable (n k : Nat) (s : Option Int) : CuckooTable :=
  ⟨n, k, s, [exHash 0, exHash 1], List.replicate n none, [], 0⟩


/-- C40 on an example: three elements, one of them ends on the stash. -/
example : CuckooTable.create [exHash 0, exHash 1] 3 3 (some 1) = ok (exTable 3 3 (some 1)) ∧
    (insertAll (CuckooTable.insert fun i => i % 2) (exTable 3 3 (some 1)) [[3], [6], [1]]).1 =
      [ok (), ok (), ok ()] ∧
    (insertAll (CuckooTable.insert fun i => i % 2) (exTable 3 3 (some 1)) [[3], [6], [1]]).2.table =
      [some [3], some [1], none] ∧
    (insertAll (CuckooTable.insert fun i => i % 2) (exTable 3 3 (some 1)) [[3], [6], [1]]).2.stash =
      [[6]] :=
  ⟨rfl, by decide +kernel⟩

/-! ## C41 -/

/-- C41 as far as it holds: if an insertion into a reachable table fails, the stash was full and is
unchanged, and exactly one element is missing afterwards.

Missing: this element is the one to be inserted. That is false, see `C41_refuted`. -/
theorem C41_failed_insert_partial (functions : List HashFunction) (n : Nat)
    (hf : ∀ f ∈ functions, InRange n f) (relocations : Int) (stashSize : Option Int) (t0 : CuckooTable)
    (hc : CuckooTable.create functions n relocations stashSize = ok t0)
    (random : Nat → Nat) (hr : ∀ i, random i < functions.length) (xs : List Bytes) (x : Bytes)
    (t : CuckooTable) (ht : t = (insertAll (CuckooTable.insert random) t0 xs).2)
    (hfail : (t.insert random x).1 ≠ ok ()) :
    (t.insert random x).1 = err .internal ∧ stashSize = some (t.stash.length : Int) ∧
      (t.insert random x).2.stash = t.stash ∧
      ∃ lost, (lost :: contents (t.insert random x).2).Perm (x :: contents t) := by
  obtain ⟨h1, h2⟩ := cuckoo_create_inv hc
  obtain ⟨h3, _⟩ := cuckoo_insertAll hf hr xs t0 h1
  rw [← ht] at h3
  obtain ⟨_, h | ⟨h4, ⟨m, hm, h5⟩, h6, h7⟩⟩ := cuckoo_insert_ok hf hr t h3 x
  · exact absurd h.1 hfail
  · have hp := C40_placement functions n hf relocations stashSize t0 hc random hr xs
    have : (t.stash.length : Int) ≤ m := by rw [ht]; exact hp.2.2.1 m hm
    refine ⟨h4, ?_, h6, h7⟩
    rw [Option.mem_def] at hm
    rw [hm]
    congr 1
    omega

/-- C41 is false: the insertion of `[4]` fails, and afterwards the table holds `[4]` but not `[2]`. -/
theorem C41_refuted :
    CuckooTable.create [exHash 0, exHash 1] 2 1 (some 0) = ok (exTable 2 1 (some 0)) ∧
    ∃ t, insertAll (CuckooTable.insert fun _ => 0) (exTable 2 1 (some 0)) [[2]] = ([ok ()], t) ∧
      contents t = [[2]] ∧
      (t.insert (fun _ => 0) [4]).1 = err .internal ∧ contents (t.insert (fun _ => 0) [4]).2 = [[4]] :=
  ⟨rfl, _, rfl, by decide +kernel⟩

/-! ## C42 -/

/-- C42: what one insertion into a simple hash table does. `hs` are the buckets given by the hash
functions. If one of them has reached the maximum, nothing is changed and INTERNAL is reported. Otherwise
each bucket gets the element once for every hash function that gives this bucket. -/
theorem C42_insert (n : Nat) (t : BucketTable) (ht : WellFormed n t) (x : Bytes) (hs : List Nat)
    (hh : HashesTo t.hashFunctions n x hs) :
    ((∃ h ∈ hs, Full t.maxBucketSize (bucketAt t h)) → t.insertSimple x = (err .internal, t)) ∧
    ((∀ h ∈ hs, ¬ Full t.maxBucketSize (bucketAt t h)) →
      ∃ t', t.insertSimple x = (ok (), t') ∧ WellFormed n t' ∧ t'.hashFunctions = t.hashFunctions ∧
        t'.maxBucketSize = t.maxBucketSize ∧
        ∀ b, b < n → bucketAt t' b = bucketAt t b ++ List.replicate (hs.count b) x) :=
  insertSimple_ok ht hh

/-- Insertions keep what they start with. -/
theorem insertAll_simple {n : Nat} {hashes : Bytes → List Nat} (xs : List Bytes) (t : BucketTable)
    (ht : WellFormed n t) (hh : ∀ x, HashesTo t.hashFunctions n x (hashes x)) :
    WellFormed n (insertAll BucketTable.insertSimple t xs).2 ∧
    (insertAll BucketTable.insertSimple t xs).2.maxBucketSize = t.maxBucketSize ∧
    (∀ st ∈ (insertAll BucketTable.insertSimple t xs).1, st = ok () ∨ st = err .internal) ∧
    (∀ b, b < n → bucketAt (insertAll BucketTable.insertSimple t xs).2 b = bucketAt t b ++
      (accepted xs (insertAll BucketTable.insertSimple t xs).1).flatMap fun x =>
        List.replicate ((hashes x).count b) x) ∧
    (∀ (b m e : Nat), b < n → t.maxBucketSize = some (m : Int) → (∀ x, (hashes x).count b ≤ e + 1) →
      (bucketAt t b).length ≤ m + e →
      (bucketAt (insertAll BucketTable.insertSimple t xs).2 b).length ≤ m + e) := by
  induction xs generalizing t with
  | nil => exact ⟨ht, rfl, by simp [insertAll], by simp [insertAll, accepted], fun _ _ _ _ _ _ h => h⟩
  | cons x xs ih =>
    obtain ⟨h1, h2⟩ := C42_insert n t ht x (hashes x) (hh x)
    by_cases hfull : ∃ h ∈ hashes x, Full t.maxBucketSize (bucketAt t h)
    · obtain ⟨i1, i2, i3, i4, i5⟩ := ih t ht hh
      simp only [insertAll, h1 hfull]
      refine ⟨i1, i2, ?_, ?_, i5⟩
      · intro st hst
        rcases List.mem_cons.mp hst with rfl | hst
        · exact Or.inr rfl
        · exact i3 st hst
      · intro b hb
        rw [i4 b hb]
        simp [accepted]
    · have hfull : ∀ h ∈ hashes x, ¬ Full t.maxBucketSize (bucketAt t h) := by
        intro h hm hf; exact hfull ⟨h, hm, hf⟩
      obtain ⟨t', e, w, hf, hm, hb⟩ := h2 hfull
      obtain ⟨i1, i2, i3, i4, i5⟩ := ih t' w (fun y => by rw [hf]; exact hh y)
      simp only [insertAll, e]
      refine ⟨i1, i2.trans hm, ?_, ?_, ?_⟩
      · intro st hst
        rcases List.mem_cons.mp hst with rfl | hst
        · exact Or.inl rfl
        · exact i3 st hst
      · intro b hbn
        rw [i4 b hbn, hb b hbn]
        simp [accepted, List.append_assoc]
      · intro b m e hbn hmax hcount hlen
        apply i5 b m e hbn (by rw [hm]; exact hmax) hcount
        rw [hb b hbn, List.length_append, List.length_replicate]
        by_cases hc : (hashes x).count b = 0
        · omega
        · have hmem : b ∈ hashes x := List.count_pos_iff.mp (by omega)
          have hnf := hfull b hmem
          have : ¬ ((m : Int) ≤ (bucketAt t b).length) := by
            intro h
            exact hnf ⟨m, by rw [hmax]; rfl, h⟩
          have := hcount x
          omega

/-- C42 after any sequence of insertions into a new table: every bucket holds exactly the elements whose
insertion succeeded, in order, once for every hash function that gives this bucket. All other insertions
reported INTERNAL. -/
theorem C42_contents (functions : List HashFunction) (n : Nat) (hf : ∀ f ∈ functions, InRange n f)
    (maximum : Option Int) (t0 : BucketTable)
    (hc : BucketTable.createSimple functions n maximum = ok t0) (hashes : Bytes → List Nat)
    (hh : ∀ x, HashesTo functions n x (hashes x)) (xs : List Bytes) :
    let (statuses, t) := insertAll BucketTable.insertSimple t0 xs
    (∀ st ∈ statuses, st = ok () ∨ st = err .internal) ∧
    ∀ b, b < n → bucketAt t b =
      (accepted xs statuses).flatMap fun x => List.replicate ((hashes x).count b) x := by
  obtain ⟨h1, h2, _, h4, _⟩ := bucket_create hf hc
  obtain ⟨_, _, i3, i4, _⟩ := insertAll_simple xs t0 h1 (by rw [h2]; exact hh)
  refine ⟨i3, ?_⟩
  intro b hb
  have := i4 b hb
  rw [h4 b, List.nil_append] at this
  exact this

/-- C42 if the hash functions give different buckets for each element: no bucket ever exceeds the maximum.

Missing: elements for which two hash functions give the same bucket. For these the statement is false, see
`C42_refuted`; `C42_bound` is what holds instead. -/
theorem C42_maximum_partial (functions : List HashFunction) (n : Nat) (hf : ∀ f ∈ functions, InRange n f)
    (maximum : Nat) (t0 : BucketTable)
    (hc : BucketTable.createSimple functions n (some (maximum : Int)) = ok t0) (hashes : Bytes → List Nat)
    (hh : ∀ x, HashesTo functions n x (hashes x)) (hd : ∀ x, (hashes x).Nodup) (xs : List Bytes) (b : Nat)
    (hb : b < n) : (bucketAt (insertAll BucketTable.insertSimple t0 xs).2 b).length ≤ maximum := by
  obtain ⟨h1, h2, h3, h4, _⟩ := bucket_create hf hc
  obtain ⟨_, _, _, _, i5⟩ := insertAll_simple xs t0 h1 (by rw [h2]; exact hh)
  refine i5 b maximum 0 hb h3 ?_ (by rw [h4]; simp)
  intro x
  exact List.nodup_iff_count.mp (hd x) b

/-- Example for `C42_maximum_partial`: with one hash function the buckets are always different. -/
example (n : Nat) (hn : 0 < n) (x : Bytes) :
    HashesTo [exHash 0] n x [leNat x % n] ∧ [leNat x % n].Nodup := by
  refine ⟨?_, by simp⟩
  unfold HashesTo exHash
  simp only [List.map_cons, List.map_nil]
  rw [if_neg (by omega)]
  simp

/-- C42: in any case a bucket exceeds the maximum by less than the number of hash functions. -/
theorem C42_bound (functions : List HashFunction) (n : Nat) (hf : ∀ f ∈ functions, InRange n f)
    (maximum : Nat) (t0 : BucketTable)
    (hc : BucketTable.createSimple functions n (some (maximum : Int)) = ok t0) (xs : List Bytes) (b : Nat)
    (hb : b < n) : (bucketAt (insertAll BucketTable.insertSimple t0 xs).2 b).length <
      maximum + functions.length := by
  obtain ⟨h1, h2, h3, h4, h5⟩ := bucket_create hf hc
  have hh : ∀ x, HashesTo functions n x (Classical.choose (hashesTo_exists hf x)) := fun x =>
    (Classical.choose_spec (hashesTo_exists hf x)).1
  obtain ⟨_, _, _, _, i5⟩ := insertAll_simple xs t0 h1 (by rw [h2]; exact hh)
  have := i5 b maximum (functions.length - 1) hb h3 ?_ (by rw [h4]; simp)
  · omega
  · intro x
    have h6 := (hh x).length
    have := List.count_le_length (a := b) (l := Classical.choose (hashesTo_exists hf x))
    omega

/-- C42 is false: with a maximum of 1, an element is inserted twice into the same bucket. -/
theorem C42_refuted : ∃ t0, BucketTable.createSimple [exHash 0, exHash 2] 2 (some 1) = ok t0 ∧
    (t0.insertSimple [0]).1 = ok () ∧ (t0.insertSimple [0]).2.table = [[[0], [0]], []] :=
  ⟨_, rfl, by decide +kernel⟩

/-- C42 on an example: the third insertion fails and changes nothing. -/
example : ∃ t0, BucketTable.createSimple [exHash 0, exHash 1] 4 (some 1) = ok t0 ∧
    (insertAll BucketTable.insertSimple t0 [[3], [4], [6]]).1 = [ok (), ok (), err .internal] ∧
    (insertAll BucketTable.insertSimple t0 [[3], [4], [6]]).2.table = [[[4]], [[4]], [], [[3], [3]]] :=
  ⟨_, rfl, by decide +kernel⟩

/-! ## C43 -/

/-- C43: what one insertion into a multiple-choice hash table does. `hs` are the candidate buckets, and
`m` is the first of them with the fewest elements. If this one has reached the maximum, which means that
all candidates have, nothing is changed and INTERNAL is reported. Otherwise the element is added to this
bucket, and all other buckets are unchanged. -/
theorem C43_insert (n : Nat) (t : BucketTable) (ht : WellFormed n t) (x : Bytes) (hs : List Nat)
    (hh : HashesTo t.hashFunctions n x hs) (m : Nat)
    (hm : firstMin (fun h => (bucketAt t h).length) hs = some m) :
    (Full t.maxBucketSize (bucketAt t m) ↔ ∀ h ∈ hs, Full t.maxBucketSize (bucketAt t h)) ∧
    (Full t.maxBucketSize (bucketAt t m) → t.insertMultipleChoice x = (err .internal, t)) ∧
    (¬ Full t.maxBucketSize (bucketAt t m) →
      ∃ t', t.insertMultipleChoice x = (ok (), t') ∧ WellFormed n t' ∧
        t'.hashFunctions = t.hashFunctions ∧ t'.maxBucketSize = t.maxBucketSize ∧
        ∀ b, b < n → bucketAt t' b = if b = m then bucketAt t b ++ [x] else bucketAt t b) := by
  refine ⟨?_, insertMultipleChoice_ok ht hh hm⟩
  have hne : hs ≠ [] := by rintro rfl; cases hm
  obtain ⟨m', e1, e2, e3⟩ := firstMin_spec (fun h => (bucketAt t h).length) hs hne
  rw [hm] at e1
  cases e1
  constructor
  · rintro ⟨k, hk, hle⟩ h hmem
    have := e3 h hmem
    exact ⟨k, hk, by omega⟩
  · intro h; exact h m e2

/-- `firstMin` finds a minimum, and the first one. -/
theorem C43_firstMin (f : Nat → Nat) (hs : List Nat) (hne : hs ≠ []) :
    ∃ (m i : Nat), firstMin f hs = some m ∧ hs[i]? = some m ∧ (∀ h ∈ hs, f m ≤ f h) ∧
      ∀ (j h : Nat), j < i → hs[j]? = some h → f m < f h := by
  induction hs with
  | nil => exact absurd rfl hne
  | cons h hs ih =>
    rw [firstMin]
    by_cases h0 : hs = []
    · subst h0
      exact ⟨h, 0, rfl, rfl, by simp, by intro j k hj; omega⟩
    · obtain ⟨m, i, h1, h2, h3, h4⟩ := ih h0
      rw [h1]
      dsimp only
      by_cases hc : f m < f h
      · refine ⟨m, i + 1, by rw [if_pos hc], by simpa using h2, ?_, ?_⟩
        · intro k hk
          rcases List.mem_cons.mp hk with rfl | hk
          · omega
          · exact h3 k hk
        · intro j k hj hk
          cases j with
          | zero => simp at hk; rw [← hk]; exact hc
          | succ j => exact h4 j k (by omega) (by simpa using hk)
      · refine ⟨h, 0, by rw [if_neg hc], rfl, ?_, by intro j k hj; omega⟩
        intro k hk
        rcases List.mem_cons.mp hk with rfl | hk
        · omega
        · have := h3 k hk; omega

/-- C43 after any sequence of insertions into a new table: the buckets together hold exactly the elements
whose insertion succeeded; every element is in a bucket given by one of the hash functions; no bucket
exceeds the maximum. All other insertions reported INTERNAL. -/
theorem C43_contents (functions : List HashFunction) (n : Nat) (hf : ∀ f ∈ functions, InRange n f)
    (maximum : Option Int) (t0 : BucketTable)
    (hc : BucketTable.createMultipleChoice functions n maximum = ok t0) (xs : List Bytes) :
    let (statuses, t) := insertAll BucketTable.insertMultipleChoice t0 xs
    (∀ st ∈ statuses, st = ok () ∨ st = err .internal) ∧
    ((List.range n).flatMap (bucketAt t)).Perm (accepted xs statuses) ∧
    (∀ b, b < n → ∀ x ∈ bucketAt t b, ∃ f ∈ functions, f x n = ok (b : Int)) ∧
    ∀ b m, b < n → m ∈ maximum → ((bucketAt t b).length : Int) ≤ m := by
  obtain ⟨h1, h2, h3, h4, h5⟩ := bucket_create hf hc
  have main : ∀ (xs : List Bytes) (t : BucketTable), WellFormed n t → t.hashFunctions = functions →
      t.maxBucketSize = maximum →
      (∀ b, b < n → ∀ x ∈ bucketAt t b, ∃ f ∈ functions, f x n = ok (b : Int)) →
      (∀ b m, b < n → m ∈ maximum → ((bucketAt t b).length : Int) ≤ m) →
      (∀ st ∈ (insertAll BucketTable.insertMultipleChoice t xs).1, st = ok () ∨ st = err .internal) ∧
      ((List.range n).flatMap (bucketAt (insertAll BucketTable.insertMultipleChoice t xs).2)).Perm
        (accepted xs (insertAll BucketTable.insertMultipleChoice t xs).1 ++
          (List.range n).flatMap (bucketAt t)) ∧
      (∀ b, b < n → ∀ x ∈ bucketAt (insertAll BucketTable.insertMultipleChoice t xs).2 b,
        ∃ f ∈ functions, f x n = ok (b : Int)) ∧
      ∀ b m, b < n → m ∈ maximum →
        ((bucketAt (insertAll BucketTable.insertMultipleChoice t xs).2 b).length : Int) ≤ m := by
    intro xs
    induction xs with
    | nil =>
      intro t w f m a b
      exact ⟨by simp [insertAll], by simp [insertAll, accepted], a, b⟩
    | cons x xs ih =>
      intro t w hfs hmx a b
      obtain ⟨hs, g1, g2, g3⟩ := hashesTo_exists w.hashes x
      have hne : hs ≠ [] := by
        rintro rfl
        rw [hfs] at g2
        simp at g2
        omega
      obtain ⟨m, e1, e2, e3⟩ := firstMin_spec (fun h => (bucketAt t h).length) hs hne
      obtain ⟨_, c1, c2⟩ := C43_insert n t w x hs g1 m e1
      by_cases hfull : Full t.maxBucketSize (bucketAt t m)
      · obtain ⟨i1, i2, i3, i4⟩ := ih t w hfs hmx a b
        simp only [insertAll, c1 hfull]
        refine ⟨?_, ?_, i3, i4⟩
        · intro st hst
          rcases List.mem_cons.mp hst with rfl | hst
          · exact Or.inr rfl
          · exact i1 st hst
        · simpa [accepted] using i2
      · obtain ⟨t', d1, d2, d3, d4, d5⟩ := c2 hfull
        have hmn := g3 m e2
        have ha : ∀ b, b < n → ∀ x ∈ bucketAt t' b, ∃ f ∈ functions, f x n = ok (b : Int) := by
          intro c hcn y hy
          rw [d5 c hcn] at hy
          by_cases hcm : c = m
          · rw [if_pos hcm] at hy
            rcases List.mem_append.mp hy with hy | hy
            · exact a c hcn y hy
            · rw [List.mem_singleton.mp hy, hcm, ← hfs]
              exact g1.mem m e2
          · rw [if_neg hcm] at hy; exact a c hcn y hy
        have hb : ∀ b m, b < n → m ∈ maximum → ((bucketAt t' b).length : Int) ≤ m := by
          intro c k hcn hk
          rw [d5 c hcn]
          by_cases hcm : c = m
          · subst hcm
            rw [if_pos rfl, List.length_append, List.length_singleton]
            have : ¬ (k ≤ (bucketAt t c).length) := by
              intro h; exact hfull ⟨k, by rw [hmx]; exact hk, h⟩
            omega
          · rw [if_neg hcm]; exact b c k hcn hk
        obtain ⟨i1, i2, i3, i4⟩ := ih t' d2 (d3.trans hfs) (d4.trans hmx) ha hb
        simp only [insertAll, d1]
        refine ⟨?_, ?_, i3, i4⟩
        · intro st hst
          rcases List.mem_cons.mp hst with rfl | hst
          · exact Or.inl rfl
          · exact i1 st hst
        · refine i2.trans ?_
          have hacc : accepted (x :: xs) (ok () :: (insertAll BucketTable.insertMultipleChoice t' xs).1) =
              x :: accepted xs (insertAll BucketTable.insertMultipleChoice t' xs).1 := by
            simp [accepted]
          rw [hacc]
          have hbk : ((List.range n).flatMap (bucketAt t')).Perm
              (x :: (List.range n).flatMap (bucketAt t)) := by
            exact flatMap_push n m hmn (bucketAt t) (bucketAt t') x d5
          exact (List.Perm.append_left _ hbk).trans List.perm_middle
  obtain ⟨r1, r2, r3, r4⟩ := main xs t0 h1 h2 h3 (by intro b _ x hx; rw [h4] at hx; cases hx) (by
    intro b m hb hm
    rw [h4]
    have := h1.limit m (by rw [h3]; exact hm)
    simp; omega)
  refine ⟨r1, ?_, r3, r4⟩
  have : (List.range n).flatMap (bucketAt t0) = [] := by
    rw [List.flatMap_eq_nil_iff]; intro b _; exact h4 b
  rw [this, List.append_nil] at r2
  exact r2

/-- C43 on an example: the third insertion finds both candidates full. -/
example : ∃ t0, BucketTable.createMultipleChoice [exHash 0, exHash 1] 4 (some 1) = ok t0 ∧
    (insertAll BucketTable.insertMultipleChoice t0 [[0], [0], [0], [2]]).1 =
      [ok (), ok (), err .internal, ok ()] ∧
    (insertAll BucketTable.insertMultipleChoice t0 [[0], [0], [0], [2]]).2.table = [[[0]], [[0]], [[2]], []] :=
  ⟨_, rfl, by decide +kernel⟩

/-! ## C53 -/

/-- C53: hash tables are created exactly for positive numbers of buckets, enough hash functions and
sensible limits, and are empty then; otherwise INVALID_ARGUMENT is reported. -/
theorem C53_cuckoo (functions : List HashFunction) (n k : Int) (s : Option Int) :
    if 0 < n ∧ 2 ≤ functions.length ∧ 0 ≤ k ∧ ∀ m ∈ s, 0 ≤ m then
      ∃ t, CuckooTable.create functions n k s = ok t ∧ t.table = List.replicate n.toNat none ∧ t.stash = []
    else CuckooTable.create functions n k s = err .invalidArgument := by
  unfold CuckooTable.create
  by_cases h1 : n ≤ 0
  · rw [if_neg (by omega), failIf_true h1]; rfl
  rw [failIf_false h1, bind_ok]
  by_cases h2 : functions.length < 2
  · rw [if_neg (by omega), failIf_true h2]; rfl
  rw [failIf_false h2, bind_ok]
  by_cases h3 : k < 0
  · rw [if_neg (by omega), failIf_true h3]; rfl
  rw [failIf_false h3, bind_ok]
  by_cases h4 : ∀ m ∈ s, 0 ≤ m
  · rw [if_pos ⟨by omega, by omega, by omega, h4⟩, failIf_false ?_]
    · exact ⟨_, rfl, rfl, rfl⟩
    · cases s with
      | none => simp
      | some m => have := h4 m (by simp); simpa using this
  · rw [if_neg (fun h => h4 h.2.2.2), failIf_true ?_]
    · rfl
    · cases s with
      | none => simp at h4
      | some m => simpa using h4

/-- C53 for the other two tables; simple hash tables need one hash function, multiple-choice ones two. -/
theorem C53_buckets (functions : List HashFunction) (n : Int) (s : Option Int) (minimum : Nat)
    (create : List HashFunction → Int → Option Int → Res BucketTable)
    (hc : (create = BucketTable.createSimple ∧ minimum = 1) ∨
      (create = BucketTable.createMultipleChoice ∧ minimum = 2)) :
    if 0 < n ∧ minimum ≤ functions.length ∧ ∀ m ∈ s, 0 < m then
      ∃ t, create functions n s = ok t ∧ t.table = List.replicate n.toNat []
    else create functions n s = err .invalidArgument := by
  have hc : create = BucketTable.create minimum := by
    rcases hc with ⟨rfl, rfl⟩ | ⟨rfl, rfl⟩ <;> rfl
  subst hc
  unfold BucketTable.create
  by_cases h1 : n ≤ 0
  · rw [if_neg (by omega), failIf_true h1]; rfl
  rw [failIf_false h1, bind_ok]
  by_cases h2 : functions.length < minimum
  · rw [if_neg (by omega), failIf_true h2]; rfl
  rw [failIf_false h2, bind_ok]
  by_cases h4 : ∀ m ∈ s, 0 < m
  · rw [if_pos ⟨by omega, by omega, h4⟩, failIf_false ?_]
    · exact ⟨_, rfl, rfl⟩
    · cases s with
      | none => simp
      | some m => have := h4 m (by simp); simpa using this
  · rw [if_neg (fun h => h4 h.2.2), failIf_true ?_]
    · rfl
    · cases s with
      | none => simp at h4
      | some m => simpa using h4

/-! ## The theorems on the examples -/

theorem exHashes (n : Nat) (hn : 0 < n) : ∀ f ∈ [exHash 0, exHash 1], InRange n f := by
  simp only [List.mem_cons, List.not_mem_nil, or_false]
  rintro f (rfl | rfl)
  · exact exHash_inRange 0 n hn
  · exact exHash_inRange 1 n hn

/-- C40: the table above holds the three elements; after one more, one is lost (C41). -/
example : (contents (insertAll (CuckooTable.insert fun i => i % 2) (exTable 3 3 (some 1)) [[3], [6], [1]]).2).Perm
      [[3], [6], [1]] ∧
    (insertAll (CuckooTable.insert fun i => i % 2) (exTable 3 3 (some 1)) [[3], [6], [1]]).2.table.length = 3 :=
  ⟨C40_contents _ 3 (exHashes 3 (by decide)) 3 (some 1) _ rfl _ (fun i => Nat.mod_lt i (by decide)) _ (by decide +kernel),
   (C40_placement _ 3 (exHashes 3 (by decide)) 3 (some 1) _ rfl _ (fun i => Nat.mod_lt i (by decide)) [[3], [6], [1]]).1⟩

example : let t := (insertAll (CuckooTable.insert fun i => i % 2) (exTable 3 3 (some 1)) [[3], [6], [1]]).2
    (t.insert (fun i => i % 2) [9]).1 = err .internal ∧
      ∃ lost, (lost :: contents (t.insert (fun i => i % 2) [9]).2).Perm ([9] :: contents t) := by
  obtain ⟨h1, _, _, h2⟩ := C41_failed_insert_partial _ 3 (exHashes 3 (by decide)) 3 (some 1) (exTable 3 3 (some 1)) rfl _
    (fun i => Nat.mod_lt i (by decide)) [[3], [6], [1]] [9] _ rfl (by decide +kernel)
  exact ⟨h1, h2⟩

/-- The buckets of two hash functions. -/
theorem exHashesTo (n : Nat) (hn : 0 < n) (x : Bytes) :
    HashesTo [exHash 0, exHash 1] n x [leNat x % n, (leNat x + (leNat x + 1)) % n] := by
  unfold HashesTo exHash
  simp only [List.map_cons, List.map_nil]
  rw [if_neg (by omega), if_neg (by omega)]
  simp

/-- C42 and C43 on four empty buckets of at most one element. -/
def exBuckets : BucketTable := ⟨4, some 1, [exHash 0, exHash 1], List.replicate 4 []⟩
theorem exBuckets_wellFormed : WellFormed 4 exBuckets := ⟨rfl, rfl, exHashes 4 (by decide), by simp [exBuckets]⟩

example : ∃ t', exBuckets.insertSimple [4] = (ok (), t') ∧ bucketAt t' 1 = [[4]] := by
  obtain ⟨_, h⟩ := C42_insert 4 exBuckets exBuckets_wellFormed [4] [0, 1] (exHashesTo 4 (by decide) [4])
  obtain ⟨t', h1, _, _, _, h2⟩ := h (by simp [Full, exBuckets, bucketAt])
  exact ⟨t', h1, h2 1 (by decide)⟩

example : ∃ t', exBuckets.insertMultipleChoice [4] = (ok (), t') ∧ bucketAt t' 0 = [[4]] ∧ bucketAt t' 1 = [] := by
  obtain ⟨_, _, h⟩ := C43_insert 4 exBuckets exBuckets_wellFormed [4] [0, 1] (exHashesTo 4 (by decide) [4]) 0 (by decide)
  obtain ⟨t', h1, _, _, _, h2⟩ := h (by simp [Full, exBuckets, bucketAt])
  exact ⟨t', h1, h2 0 (by decide), h2 1 (by decide)⟩

example (xs : List Bytes) (b : Nat) (hb : b < 4) :
    bucketAt (insertAll BucketTable.insertSimple exBuckets xs).2 b =
      (accepted xs (insertAll BucketTable.insertSimple exBuckets xs).1).flatMap (fun x =>
        List.replicate ([leNat x % 4, (leNat x + (leNat x + 1)) % 4].count b) x) ∧
    (bucketAt (insertAll BucketTable.insertSimple exBuckets xs).2 b).length < 1 + 2 ∧
    ((List.range 4).flatMap (bucketAt (insertAll BucketTable.insertMultipleChoice exBuckets xs).2)).Perm
      (accepted xs (insertAll BucketTable.insertMultipleChoice exBuckets xs).1) :=
  ⟨(C42_contents _ 4 (exHashes 4 (by decide)) (some 1) exBuckets rfl _ (exHashesTo 4 (by decide)) xs).2 b hb,
   C42_bound _ 4 (exHashes 4 (by decide)) 1 exBuckets rfl xs b hb,
   (C43_contents _ 4 (exHashes 4 (by decide)) (some 1) exBuckets rfl xs).2.1⟩

/-- C42 with one hash function: never more than the maximum. -/
example (xs : List Bytes) (b : Nat) (hb : b < 4) :
    (bucketAt (insertAll BucketTable.insertSimple ⟨4, some 2, [exHash 0], List.replicate 4 []⟩ xs).2 b).length ≤ 2 := by
  refine C42_maximum_partial [exHash 0] 4 (by simpa using exHash_inRange 0 4 (by decide)) 2 _ rfl (fun x => [leNat x % 4]) ?_
    (by simp) xs b hb
  intro x
  unfold HashesTo exHash
  simp

example : ∃ (m i : Nat), firstMin (fun h => (3 - h) % 3) [2, 1, 3, 0] = some m ∧ [2, 1, 3, 0][i]? = some m ∧
    ∀ h ∈ [2, 1, 3, 0], (3 - m) % 3 ≤ (3 - h) % 3 := by
  obtain ⟨m, i, h1, h2, h3, _⟩ := C43_firstMin (fun h => (3 - h) % 3) [2, 1, 3, 0] (by simp)
  exact ⟨m, i, h1, h2, h3⟩

/-- C44: bucket numbers. -/
example (sha : Sha256) (hash : Bytes → U128) (input : Bytes) :
    sha.hashFunction [1, 2] input 1000 = ok ((leNat (sha.digest ([1, 2] ++ input)) % 1000 : Nat) : Int) ∧
    farmHashFunction hash input 1000 = ok (((hash input).toNat % 1000 : Nat) : Int) :=
  ⟨C44_sha256 sha [1, 2] input 1000 (by decide) (by decide), C44_farm hash input 1000 (by decide) (by decide)⟩

/-- C53: one hash function is enough for simple hashing only. -/
example : (∃ t, BucketTable.createSimple [exHash 0] 4 none = ok t ∧ t.table = List.replicate 4 []) ∧
    BucketTable.createMultipleChoice [exHash 0] 4 none = err .invalidArgument := by
  have h1 := C53_buckets [exHash 0] 4 none 1 _ (Or.inl ⟨rfl, rfl⟩)
  have h2 := C53_buckets [exHash 0] 4 none 2 _ (Or.inr ⟨rfl, rfl⟩)
  rw [if_pos (by simp)] at h1
  rw [if_neg (by simp)] at h2
  exact ⟨h1, h2⟩

end Verif
