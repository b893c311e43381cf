import Verif.Spec.Hashing
import Verif.Lemmas.Res
import Verif.Lemmas.Decode
/-!
# Hash functions and hash tables
-/
namespace Verif
open Res Spec

/-! ### SHA-256 -/

theorem updateWithData_eq (chunk : Nat) (data ctx : Bytes) :
    Sha256.updateWithData chunk data ctx = ctx ++ data := by
  fun_induction Sha256.updateWithData chunk data ctx with
  | case1 data ctx h ih => rw [ih, List.append_assoc, List.take_append_drop]
  | case2 data ctx h => rfl

theorem wrapInt32_small {n : Nat} (h : n < 2 ^ 31) : wrapInt32 n = n := by
  unfold wrapInt32; omega

theorem modInt_ok (x : U128) {n : Nat} (h0 : 0 < n) (h1 : n < 2 ^ 31) :
    ∃ r, Sha256.modInt x n = ok r ∧ r.toNat = x.toNat % n := by
  unfold Sha256.modInt
  rw [if_neg (by omega)]
  refine ⟨_, rfl, ?_⟩
  rw [BitVec.toNat_umod, BitVec.ofInt_natCast, BitVec.toNat_ofNat,
    Nat.mod_eq_of_lt (by omega : n < 2 ^ 128)]

theorem makeUint128_toNat (h l : BitVec 64) :
    (Sha256.makeUint128 h l).toNat = h.toNat * 2 ^ 64 + l.toNat := by
  unfold Sha256.makeUint128
  rw [BitVec.toNat_append, Nat.shiftLeft_eq, Nat.mul_comm, ← Nat.two_pow_add_eq_or_of_lt l.isLt]

theorem leNat_append (a b : Bytes) : leNat (a ++ b) = leNat a + 2 ^ (8 * a.length) * leNat b := by
  induction a with
  | nil => simp [leNat]
  | cons x a ih =>
    rw [List.cons_append, leNat, leNat, ih, List.length_cons,
      show 8 * (a.length + 1) = 8 * a.length + 8 by omega, Nat.pow_add]
    rw [Nat.mul_add, ← Nat.add_assoc, ← Nat.mul_assoc, Nat.mul_comm 256 (2 ^ (8 * a.length))]

theorem longDivision (hi lh ll n : Nat) :
    (((hi % n * 2 ^ 64 + lh) % n) * 2 ^ 64 + ll) % n = (hi * 2 ^ 128 + lh * 2 ^ 64 + ll) % n := by
  have h1 : (hi % n * 2 ^ 64 + lh) % n = (hi * 2 ^ 64 + lh) % n := by
    rw [Nat.add_mod, Nat.mod_mul_mod, ← Nat.add_mod]
  rw [h1, Nat.add_mod, Nat.mod_mul_mod, ← Nat.add_mod]
  rw [Nat.add_mul, Nat.mul_assoc, ← Nat.pow_add]

/-- The hash function is the digest modulo the bound. -/
theorem sha_hashFunction_ok (sha : Sha256) (seed input : Bytes) {n : Nat} (h0 : 0 < n) (h1 : n < 2 ^ 31) :
    sha.hashFunction seed input n = ok ((leNat (sha.digest (seed ++ input)) % n : Nat) : Int) := by
  unfold Sha256.hashFunction
  dsimp only
  rw [updateWithData_eq, updateWithData_eq, List.nil_append]
  have hsz := sha.size (seed ++ input)
  generalize sha.digest (seed ++ input) = d at hsz ⊢
  have s1 : slice d 16 16 = ok (d.drop 16) := by
    unfold slice
    rw [if_pos (by omega), List.take_of_length_le (by rw [List.length_drop]; omega)]
  have s2 : slice d 0 16 = ok (d.take 16) := by
    unfold slice
    rw [if_pos (by omega), List.drop_zero]
  rw [s1, bind_ok, s2, bind_ok]
  have hle : leNat d = leNat (d.take 16) + 2 ^ 128 * leNat (d.drop 16) := by
    conv => lhs; rw [← List.take_append_drop 16 d]
    rw [leNat_append, List.length_take, Nat.min_eq_left (by omega)]
  have hlo := leNat_lt (d.take 16)
  have hhi := leNat_lt (d.drop 16)
  rw [List.length_take, Nat.min_eq_left (by omega)] at hlo
  rw [List.length_drop, hsz] at hhi
  generalize leNat (d.take 16) = lo at hle hlo ⊢
  generalize leNat (d.drop 16) = hi at hle hhi ⊢
  obtain ⟨r1, e1, v1⟩ := modInt_ok (BitVec.ofNat 128 hi) h0 h1
  rw [e1, bind_ok]
  obtain ⟨r2, e2, v2⟩ := modInt_ok (Sha256.makeUint128 (r1.setWidth 64)
    ((BitVec.ofNat 128 lo >>> 64).setWidth 64)) h0 h1
  rw [e2, bind_ok]
  obtain ⟨r3, e3, v3⟩ := modInt_ok (Sha256.makeUint128 (r2.setWidth 64)
    ((BitVec.ofNat 128 lo).setWidth 64)) h0 h1
  rw [e3, bind_ok]
  have hr1 : r1.toNat < n := v1 ▸ Nat.mod_lt _ h0
  have hr2 : r2.toNat < n := v2 ▸ Nat.mod_lt _ h0
  have hr3 : r3.toNat < n := v3 ▸ Nat.mod_lt _ h0
  rw [makeUint128_toNat] at v2 v3
  simp only [BitVec.toNat_setWidth, BitVec.toNat_ushiftRight, BitVec.toNat_ofNat,
    Nat.shiftRight_eq_div_pow] at v1 v2 v3
  rw [Nat.mod_eq_of_lt (a := hi) (by omega)] at v1
  rw [Nat.mod_eq_of_lt (a := lo) (by omega)] at v2 v3
  rw [Nat.mod_eq_of_lt (a := r1.toNat) (by omega), Nat.mod_eq_of_lt (a := lo / 2 ^ 64) (by omega)] at v2
  rw [Nat.mod_eq_of_lt (a := r2.toNat) (by omega)] at v3
  rw [wrapInt32_small (by omega), v3, v2, v1, longDivision, hle]
  congr 3
  omega

/-! ### Cuckoo hash table -/

theorem set_some_perm {α : Type} (l : List (Option α)) (i : Nat) (hi : i < l.length) (c : α) :
    ((l.set i (some c)).filterMap id ++ (l[i]).toList).Perm (c :: l.filterMap id) := by
  induction l generalizing i with
  | nil => simp at hi
  | cons a l ih =>
    cases i with
    | zero =>
      cases a with
      | none => simp
      | some a =>
        simp only [List.set_cons_zero, List.getElem_cons_zero, Option.toList_some]
        show (c :: l.filterMap id ++ [a]).Perm (c :: a :: l.filterMap id)
        rw [List.cons_append]
        exact List.Perm.cons _ (List.perm_append_singleton a _)
    | succ i =>
      simp only [List.set_cons_succ, List.getElem_cons_succ]
      have hi' : i < l.length := by simpa using hi
      have := ih i hi'
      cases a with
      | none => simpa using this
      | some a =>
        show (a :: ((l.set i (some c)).filterMap id ++ l[i].toList)).Perm (c :: a :: l.filterMap id)
        exact (List.Perm.cons a this).trans (List.Perm.swap _ _ _)

/-- Configuration and placement of a reachable cuckoo hash table. -/
structure CuckooTable.Inv (functions : List HashFunction) (n : Nat) (k : Int) (s : Option Int)
    (t : CuckooTable) : Prop where
  hashes : t.hashFunctions = functions
  buckets : t.numBuckets = n
  relocations : t.maxRelocations = k
  maxStash : t.maxStashSize = s
  length : t.table.length = n
  placed : ∀ (i : Nat) (x : Bytes), t.table[i]? = some (some x) → ∃ f ∈ functions, f x n = ok (i : Int)
  limit : ∀ m ∈ s, t.stash.length ≤ m.toNat

theorem relocate_ok {functions : List HashFunction} {n : Nat} {k : Int} {s : Option Int}
    (hf : ∀ f ∈ functions, InRange n f) {random : Nat → Nat} (hr : ∀ i, random i < functions.length)
    (m : Nat) (t : CuckooTable) (ht : t.Inv functions n k s) (x : Bytes) :
    ∃ t' r, t.relocate random m x = ok (t', r) ∧ t'.Inv functions n k s ∧ t'.stash = t.stash ∧
      (t'.table.filterMap id ++ r.toList).Perm (x :: t.table.filterMap id) := by
  induction m generalizing t x with
  | zero =>
    refine ⟨t, some x, rfl, ht, rfl, ?_⟩
    exact List.perm_append_singleton x _
  | succ m ih =>
    have hr0 := hr t.draws
    have hrd : rd t.hashFunctions (random t.draws) = ok functions[random t.draws] := by
      unfold rd
      rw [ht.hashes, List.getElem?_eq_getElem (hr _)]
    have hmem : functions[random t.draws] ∈ functions := List.getElem_mem _
    obtain ⟨i, hi, he⟩ := hf _ hmem x
    have hil : i < t.table.length := by rw [ht.length]; exact hi
    have hrdi : rdInt t.table (i : Int) = ok t.table[i] := by
      unfold rdInt rd
      rw [if_neg (by omega), Int.toNat_natCast, List.getElem?_eq_getElem hil]
    have hwr : wrInt t.table (i : Int) (some x) = ok (t.table.set i (some x)) := by
      unfold wrInt
      rw [if_neg (by omega), Int.toNat_natCast]
    have hinv : CuckooTable.Inv functions n k s
        { t with table := t.table.set i (some x), draws := t.draws + 1 } := by
      refine ⟨ht.hashes, ht.buckets, ht.relocations, ht.maxStash, by simpa using ht.length, ?_, ht.limit⟩
      intro j y hj
      dsimp only at hj
      rw [List.getElem?_set] at hj
      by_cases hij : i = j
      · subst hij
        rw [if_pos rfl, if_pos hil] at hj
        simp only [Option.some.injEq] at hj
        subst hj
        exact ⟨_, hmem, he⟩
      · rw [if_neg hij] at hj
        exact ht.placed j y hj
    have hset := set_some_perm t.table i hil x
    have hstep : t.relocate random (m + 1) x = (match t.table[i] with
        | some evicted => CuckooTable.relocate random m
            { t with table := t.table.set i (some x), draws := t.draws + 1 } evicted
        | none => ok ({ t with table := t.table.set i (some x), draws := t.draws + 1 }, none)) := by
      rw [CuckooTable.relocate, hrd, bind_ok, ht.buckets, he, bind_ok, hrdi, bind_ok, hwr, bind_ok]
      cases t.table[i] <;> rfl
    rw [hstep]
    cases hb : t.table[i] with
    | none =>
      rw [hb] at hset
      exact ⟨_, none, rfl, hinv, rfl, hset⟩
    | some e =>
      rw [hb] at hset
      obtain ⟨t', r, h1, h2, h3, h4⟩ := ih _ hinv e
      refine ⟨t', r, h1, h2, h3, h4.trans ?_⟩
      exact (List.perm_append_singleton e _).symm.trans hset

/-- The effect of one insertion. -/
theorem cuckoo_insert_ok {functions : List HashFunction} {n : Nat} {k : Int} {s : Option Int}
    (hf : ∀ f ∈ functions, InRange n f) {random : Nat → Nat} (hr : ∀ i, random i < functions.length)
    (t : CuckooTable) (ht : t.Inv functions n k s) (x : Bytes) :
    ((t.insert random x).2).Inv functions n k s ∧
      (((t.insert random x).1 = ok () ∧ (contents (t.insert random x).2).Perm (x :: contents t)) ∨
       ((t.insert random x).1 = err .internal ∧ (∃ m ∈ s, m.toNat = t.stash.length) ∧
        (t.insert random x).2.stash = t.stash ∧
        ∃ lost, (lost :: contents (t.insert random x).2).Perm (x :: contents t))) := by
  obtain ⟨t', r, h1, h2, h3, h4⟩ := relocate_ok hf hr t.maxRelocations.toNat t ht x
  unfold CuckooTable.insert
  rw [h1]
  have h5 : (t'.table.filterMap id ++ r.toList ++ t'.stash).Perm (x :: contents t) := by
    rw [h3]
    exact List.Perm.append_right _ h4
  cases r with
  | none =>
    dsimp only
    refine ⟨h2, Or.inl ⟨rfl, ?_⟩⟩
    simpa [contents] using h5
  | some e =>
    dsimp only
    have h6 : (e :: contents t').Perm (x :: contents t) := by
      refine List.Perm.trans ?_ h5
      unfold contents
      rw [← List.cons_append]
      exact List.Perm.append_right _ (List.perm_append_singleton e _).symm
    split
    · rename_i hfull
      refine ⟨h2, Or.inr ⟨rfl, ?_, h3, e, h6⟩⟩
      rw [h2.maxStash] at hfull
      cases hs : s with
      | none => rw [hs] at hfull; simp at hfull
      | some m =>
        rw [hs] at hfull
        simp at hfull
        refine ⟨m, rfl, ?_⟩
        have := h2.limit m hs
        rw [h3] at this hfull
        omega
    · rename_i hfull
      refine ⟨⟨h2.hashes, h2.buckets, h2.relocations, h2.maxStash, h2.length, h2.placed, ?_⟩,
        Or.inl ⟨rfl, ?_⟩⟩
      · intro m hm
        rw [h2.maxStash] at hfull
        rw [Option.mem_def] at hm
        rw [hm] at hfull
        simp at hfull
        simp
        omega
      · refine List.Perm.trans ?_ h6
        unfold contents
        dsimp only
        rw [← List.append_assoc]
        exact List.perm_append_singleton e _

theorem cuckoo_create_inv {functions : List HashFunction} {n : Nat} {k : Int} {s : Option Int}
    {t : CuckooTable} (h : CuckooTable.create functions n k s = ok t) :
    t.Inv functions n k s ∧ contents t = [] := by
  unfold CuckooTable.create at h
  obtain ⟨_, _, h⟩ := bind_eq_ok.mp h
  obtain ⟨_, _, h⟩ := bind_eq_ok.mp h
  obtain ⟨_, _, h⟩ := bind_eq_ok.mp h
  obtain ⟨_, _, h⟩ := bind_eq_ok.mp h
  simp only [ok.injEq] at h
  subst h
  refine ⟨⟨rfl, rfl, rfl, rfl, by simp, ?_, by simp⟩, by simp [contents]⟩
  intro i x hx
  dsimp only at hx
  rw [List.getElem?_replicate] at hx
  split at hx <;> simp at hx

/-- The effect of a sequence of insertions. -/
theorem cuckoo_insertAll {functions : List HashFunction} {n : Nat} {k : Int} {s : Option Int}
    (hf : ∀ f ∈ functions, InRange n f) {random : Nat → Nat} (hr : ∀ i, random i < functions.length)
    (xs : List Bytes) (t : CuckooTable) (ht : t.Inv functions n k s) :
    ((insertAll (CuckooTable.insert random) t xs).2).Inv functions n k s ∧
      (∀ st ∈ (insertAll (CuckooTable.insert random) t xs).1, st = ok () ∨ st = err .internal) ∧
      (s = none → ∀ st ∈ (insertAll (CuckooTable.insert random) t xs).1, st = ok ()) ∧
      ∃ lost, lost.length = ((insertAll (CuckooTable.insert random) t xs).1).countP (· ≠ ok ()) ∧
        (lost ++ contents (insertAll (CuckooTable.insert random) t xs).2).Perm (xs ++ contents t) := by
  induction xs generalizing t with
  | nil => exact ⟨ht, by simp [insertAll], by simp [insertAll], [], by simp [insertAll], by simp [insertAll]⟩
  | cons x xs ih =>
    obtain ⟨h1, h2⟩ := cuckoo_insert_ok hf hr t ht x
    obtain ⟨i1, i2, i3, lost, i4, i5⟩ := ih _ h1
    simp only [insertAll]
    refine ⟨i1, ?_, ?_, ?_⟩
    · intro st hst
      rcases List.mem_cons.mp hst with rfl | hst
      · rcases h2 with h | h
        · exact Or.inl h.1
        · exact Or.inr h.1
      · exact i2 st hst
    · intro hs st hst
      rcases List.mem_cons.mp hst with rfl | hst
      · rcases h2 with h | ⟨_, ⟨m, hm, _⟩, _⟩
        · exact h.1
        · rw [hs] at hm; cases hm
      · exact i3 hs st hst
    · rcases h2 with ⟨e, hp⟩ | ⟨e, _, _, l, hp⟩
      · refine ⟨lost, ?_, ?_⟩
        · rw [List.countP_cons_of_neg (by simp [e]), i4]
        · refine i5.trans ?_
          refine (List.Perm.append_left xs hp).trans ?_
          exact List.perm_middle
      · refine ⟨l :: lost, ?_, ?_⟩
        · rw [List.countP_cons_of_pos (by simp [e]), List.length_cons, i4]
        · rw [List.cons_append]
          refine (List.Perm.cons l i5).trans ?_
          refine List.perm_middle.symm.trans ?_
          refine (List.Perm.append_left xs hp).trans ?_
          exact List.perm_middle

/-! ### Simple and multiple-choice hash tables -/

theorem hashesTo_exists {fs : List HashFunction} {n : Nat} (hf : ∀ f ∈ fs, InRange n f) (x : Bytes) :
    ∃ hs, HashesTo fs n x hs ∧ hs.length = fs.length ∧ ∀ h ∈ hs, h < n := by
  induction fs with
  | nil => exact ⟨[], rfl, rfl, by simp⟩
  | cons f fs ih =>
    obtain ⟨i, hi, he⟩ := hf f (by simp) x
    obtain ⟨hs, h1, h2, h3⟩ := ih fun g hg => hf g (by simp [hg])
    refine ⟨i :: hs, ?_, by simp [h2], ?_⟩
    · unfold HashesTo at h1 ⊢
      rw [List.map_cons, List.map_cons, h1, he]
    · intro h hh
      rcases List.mem_cons.mp hh with rfl | hh
      · exact hi
      · exact h3 h hh

theorem Spec.HashesTo.cons {f : HashFunction} {fs : List HashFunction} {n : Nat} {x : Bytes} {hs : List Nat}
    (h : HashesTo (f :: fs) n x hs) : ∃ i hs', hs = i :: hs' ∧ f x n = ok (i : Int) ∧ HashesTo fs n x hs' := by
  unfold HashesTo at h
  cases hs with
  | nil => simp at h
  | cons i hs' =>
    rw [List.map_cons, List.map_cons, List.cons.injEq] at h
    exact ⟨i, hs', rfl, h.1, h.2⟩

theorem Spec.HashesTo.lt {fs : List HashFunction} {n : Nat} (hf : ∀ f ∈ fs, InRange n f) {x : Bytes}
    {hs : List Nat} (h : HashesTo fs n x hs) : ∀ i ∈ hs, i < n := by
  induction fs generalizing hs with
  | nil =>
    unfold HashesTo at h
    cases hs with
    | nil => simp
    | cons => simp at h
  | cons f fs ih =>
    obtain ⟨i, hs', rfl, h1, h2⟩ := h.cons
    obtain ⟨j, hj, he⟩ := hf f (by simp) x
    rw [h1] at he
    simp only [ok.injEq] at he
    intro k hk
    rcases List.mem_cons.mp hk with rfl | hk
    · omega
    · exact ih (fun g hg => hf g (by simp [hg])) h2 k hk

theorem Spec.HashesTo.length {fs : List HashFunction} {n : Nat} {x : Bytes} {hs : List Nat}
    (h : HashesTo fs n x hs) : hs.length = fs.length := by
  have := congrArg List.length h
  simpa using this.symm

theorem rdInt_table {n : Nat} {t : BucketTable} (ht : WellFormed n t) {i : Nat} (hi : i < n) :
    rdInt t.table (i : Int) = ok (bucketAt t i) := by
  unfold rdInt rd bucketAt
  rw [if_neg (by omega), Int.toNat_natCast, List.getD_eq_getElem?_getD]
  have : i < t.table.length := by rw [ht.length]; exact hi
  rw [List.getElem?_eq_getElem this]
  rfl

theorem full_iff {n : Nat} {t : BucketTable} (ht : WellFormed n t) (b : List Bytes) :
    t.full b = true ↔ Full t.maxBucketSize b := by
  unfold BucketTable.full Full
  cases hm : t.maxBucketSize with
  | none => simp
  | some m =>
    have := ht.limit m (by simp [hm])
    simp

theorem pushBack_ok (x : Bytes) {table : List (List Bytes)} {i : Nat} (hi : i < table.length) :
    BucketTable.pushBack x table i = ok (table.set i (table.getD i [] ++ [x])) := by
  unfold BucketTable.pushBack rdInt rd wrInt
  rw [if_neg (by omega), Int.toNat_natCast, List.getElem?_eq_getElem hi]
  simp only [bind_ok]
  rw [if_neg (by omega), List.getD_eq_getElem?_getD, List.getElem?_eq_getElem hi]
  rfl

theorem pushAll_ok (x : Bytes) (hs : List Nat) (table : List (List Bytes)) (hh : ∀ h ∈ hs, h < table.length) :
    ∃ table', foldRes (BucketTable.pushBack x) table (hs.map fun h : Nat => (h : Int)) = ok table' ∧
      table'.length = table.length ∧
      ∀ b, b < table.length → table'.getD b [] = table.getD b [] ++ List.replicate (hs.count b) x := by
  induction hs generalizing table with
  | nil => exact ⟨table, rfl, rfl, by simp⟩
  | cons h hs ih =>
    have hlt := hh h (by simp)
    obtain ⟨t', h1, h2, h3⟩ := ih (table.set h (table.getD h [] ++ [x]))
      (by intro k hk; rw [List.length_set]; exact hh k (by simp [hk]))
    refine ⟨t', ?_, by rw [h2, List.length_set], ?_⟩
    · rw [List.map_cons, foldRes_cons, pushBack_ok x hlt]
      exact h1
    · intro b hb
      rw [h3 b (by rw [List.length_set]; exact hb)]
      rw [List.getD_eq_getElem?_getD, List.getElem?_set]
      by_cases hbh : h = b
      · subst hbh
        rw [if_pos rfl, if_pos hlt, Option.getD_some, List.count_cons_self, List.append_assoc,
          List.replicate_succ]
        rfl
      · rw [if_neg hbh, List.count_cons_of_ne hbh, ← List.getD_eq_getElem?_getD]

theorem checkedHashes_ok {n : Nat} {t : BucketTable} (ht : WellFormed n t) {x : Bytes}
    (fs : List HashFunction) (hs : List Nat) (hf : ∀ f ∈ fs, InRange n f) (hh : HashesTo fs n x hs) :
    ((∃ h ∈ hs, Full t.maxBucketSize (bucketAt t h)) →
      mapRes (fun f : HashFunction => do
        let hash ← f x t.numBuckets
        let bucket ← rdInt t.table hash
        failIf (t.full bucket) .internal
        ok hash) fs = err .internal) ∧
    ((∀ h ∈ hs, ¬ Full t.maxBucketSize (bucketAt t h)) →
      mapRes (fun f : HashFunction => do
        let hash ← f x t.numBuckets
        let bucket ← rdInt t.table hash
        failIf (t.full bucket) .internal
        ok hash) fs = ok (hs.map fun h : Nat => (h : Int))) := by
  induction fs generalizing hs with
  | nil =>
    unfold HashesTo at hh
    cases hs with
    | nil => exact ⟨by simp, fun _ => rfl⟩
    | cons => simp at hh
  | cons f fs ih =>
    have hlt := HashesTo.lt hf hh
    obtain ⟨i, hs', rfl, h1, h2⟩ := hh.cons
    obtain ⟨ih1, ih2⟩ := ih hs' (fun g hg => hf g (by simp [hg])) h2
    rw [mapRes_cons, ht.buckets, h1, bind_ok, rdInt_table ht (hlt i (by simp)), bind_ok]
    by_cases hfull : t.full (bucketAt t i) = true
    · rw [failIf_true hfull]
      refine ⟨fun _ => rfl, fun h => absurd ((full_iff ht _).mp hfull) (h i (by simp))⟩
    · rw [failIf_false hfull, bind_ok]
      rw [ht.buckets] at ih1 ih2
      constructor
      · rintro ⟨h, hm, hF⟩
        rcases List.mem_cons.mp hm with rfl | hm
        · exact absurd ((full_iff ht _).mpr hF) hfull
        · rw [ih1 ⟨h, hm, hF⟩]; rfl
      · intro h
        rw [ih2 fun k hk => h k (by simp [hk])]; rfl

/-- The effect of `SimpleHashTable::Insert`. -/
theorem insertSimple_ok {n : Nat} {t : BucketTable} (ht : WellFormed n t) {x : Bytes} {hs : List Nat}
    (hh : HashesTo t.hashFunctions n x hs) :
    ((∃ h ∈ hs, Full t.maxBucketSize (bucketAt t h)) → t.insertSimple x = (err .internal, t)) ∧
    ((∀ h ∈ hs, ¬ Full t.maxBucketSize (bucketAt t h)) →
      ∃ t', t.insertSimple x = (ok (), t') ∧ WellFormed n t' ∧ t'.hashFunctions = t.hashFunctions ∧
        t'.maxBucketSize = t.maxBucketSize ∧
        ∀ b, b < n → bucketAt t' b = bucketAt t b ++ List.replicate (hs.count b) x) := by
  obtain ⟨h1, h2⟩ := checkedHashes_ok ht t.hashFunctions hs ht.hashes hh
  unfold BucketTable.insertSimple BucketTable.checkedHashes
  constructor
  · intro h; rw [h1 h]; rfl
  · intro h
    obtain ⟨table', e1, e2, e3⟩ := pushAll_ok x hs t.table
      (by intro k hk; rw [ht.length]; exact HashesTo.lt ht.hashes hh k hk)
    rw [h2 h, bind_ok, e1]
    refine ⟨{ t with table := table' }, rfl, ⟨by rw [← ht.length]; exact e2, ht.buckets, ht.hashes, ht.limit⟩,
      rfl, rfl, ?_⟩
    intro b hb
    exact e3 b (by rw [ht.length]; exact hb)

theorem firstMin_append (f : Nat → Nat) (hs : List Nat) (k : Nat) :
    firstMin f (hs ++ [k]) = match firstMin f hs with
      | none => some k
      | some m => some (if f k < f m then k else m) := by
  induction hs with
  | nil => rfl
  | cons h hs ih =>
    rw [List.cons_append, firstMin, ih, firstMin]
    cases firstMin f hs with
    | none => rfl
    | some m =>
      dsimp only
      congr 1
      by_cases h1 : f k < f m <;> by_cases h2 : f m < f h <;> by_cases h3 : f k < f h <;>
        simp [h1, h2, h3] <;> omega

theorem firstMin_spec (f : Nat → Nat) (hs : List Nat) (hne : hs ≠ []) :
    ∃ m, firstMin f hs = some m ∧ m ∈ hs ∧ ∀ h ∈ hs, f m ≤ f h := by
  induction hs with
  | nil => exact absurd rfl hne
  | cons h hs ih =>
    rw [firstMin]
    by_cases h0 : hs = []
    · subst h0; exact ⟨h, rfl, by simp, by simp⟩
    · obtain ⟨m, h1, h2, h3⟩ := ih h0
      rw [h1]
      dsimp only
      by_cases hc : f m < f h
      · refine ⟨m, by rw [if_pos hc], by simp [h2], ?_⟩
        intro k hk
        rcases List.mem_cons.mp hk with rfl | hk
        · omega
        · exact h3 k hk
      · refine ⟨h, by rw [if_neg hc], by simp, ?_⟩
        intro k hk
        rcases List.mem_cons.mp hk with rfl | hk
        · omega
        · have := h3 k hk; omega

theorem smallestBucket_loop {n : Nat} {t : BucketTable} (ht : WellFormed n t) {x : Bytes}
    (fs : List HashFunction) (hs pre : List Nat) (hpre : ∀ h ∈ pre, h < n) (hf : ∀ f ∈ fs, InRange n f)
    (hh : HashesTo fs n x hs) :
    foldRes (t.smallerBucket x)
      ((firstMin (fun h => (bucketAt t h).length) pre).map fun h : Nat => (h : Int)) fs =
      ok ((firstMin (fun h => (bucketAt t h).length) (pre ++ hs)).map fun h : Nat => (h : Int)) := by
  induction fs generalizing hs pre with
  | nil =>
    unfold HashesTo at hh
    cases hs with
    | nil => simp [foldRes]
    | cons => simp at hh
  | cons f fs ih =>
    have hlt := HashesTo.lt hf hh
    obtain ⟨i, hs', rfl, h1, h2⟩ := hh.cons
    have hi := hlt i (by simp)
    have key : t.smallerBucket x
        ((firstMin (fun h => (bucketAt t h).length) pre).map fun h : Nat => (h : Int)) f =
        ok ((firstMin (fun h => (bucketAt t h).length) (pre ++ [i])).map fun h : Nat => (h : Int)) := by
      unfold BucketTable.smallerBucket
      rw [ht.buckets, h1, bind_ok, firstMin_append]
      cases hm : firstMin (fun h => (bucketAt t h).length) pre with
      | none => rfl
      | some m =>
        have hmn : m < n := by
          by_cases hp : pre = []
          · subst hp; cases hm
          · obtain ⟨m', e1, e2, _⟩ := firstMin_spec (fun h => (bucketAt t h).length) pre hp
            rw [hm] at e1; cases e1
            exact hpre m e2
        simp only [Option.map_some]
        rw [rdInt_table ht hi, bind_ok, rdInt_table ht hmn, bind_ok]
        split <;> rfl
    rw [foldRes_cons_ok key, ih hs' (pre ++ [i]) ?_ (fun g hg => hf g (by simp [hg])) h2,
      List.append_assoc]
    · rfl
    · intro k hk
      rcases List.mem_append.mp hk with hk | hk
      · exact hpre k hk
      · rw [List.mem_singleton.mp hk]; exact hi

/-- The effect of `MultipleChoiceHashTable::Insert`. -/
theorem insertMultipleChoice_ok {n : Nat} {t : BucketTable} (ht : WellFormed n t) {x : Bytes}
    {hs : List Nat} (hh : HashesTo t.hashFunctions n x hs) {m : Nat}
    (hm : firstMin (fun h => (bucketAt t h).length) hs = some m) :
    (Full t.maxBucketSize (bucketAt t m) → t.insertMultipleChoice x = (err .internal, t)) ∧
    (¬ Full t.maxBucketSize (bucketAt t m) →
      ∃ t', t.insertMultipleChoice x = (ok (), t') ∧ WellFormed n t' ∧
        t'.hashFunctions = t.hashFunctions ∧ t'.maxBucketSize = t.maxBucketSize ∧
        ∀ b, b < n → bucketAt t' b = if b = m then bucketAt t b ++ [x] else bucketAt t b) := by
  have hloop := smallestBucket_loop ht t.hashFunctions hs [] (by simp) ht.hashes hh
  rw [List.nil_append, hm] at hloop
  have hne : hs ≠ [] := by rintro rfl; cases hm
  have hmn : m < n := by
    obtain ⟨m', e1, e2, _⟩ := firstMin_spec (fun h => (bucketAt t h).length) hs hne
    rw [hm] at e1; cases e1
    exact HashesTo.lt ht.hashes hh m e2
  have hs : t.smallestBucket x = ok (m : Int) := by
    unfold BucketTable.smallestBucket
    rw [show (none : Option Int) = (firstMin (fun h => (bucketAt t h).length) []).map
      fun h : Nat => (h : Int) from rfl, hloop]
    rfl
  unfold BucketTable.insertMultipleChoice
  rw [hs, bind_ok, rdInt_table ht hmn, bind_ok]
  constructor
  · intro h
    rw [failIf_true ((full_iff ht _).mpr h)]; rfl
  · intro h
    rw [failIf_false (fun h' => h ((full_iff ht _).mp h')), bind_ok,
      pushBack_ok x (by rw [ht.length]; exact hmn)]
    refine ⟨_, rfl, ⟨by dsimp only; rw [List.length_set]; exact ht.length, ht.buckets, ht.hashes, ht.limit⟩,
      rfl, rfl, ?_⟩
    intro b hb
    unfold bucketAt
    dsimp only
    rw [List.getD_eq_getElem?_getD, List.getElem?_set]
    by_cases hbm : b = m
    · subst hbm
      rw [if_pos rfl, if_pos rfl, if_pos (by rw [ht.length]; exact hb)]
      rfl
    · rw [if_neg (fun h => hbm h.symm), if_neg hbm, List.getD_eq_getElem?_getD]

theorem bucket_create {minimum : Nat} {fs : List HashFunction} {n : Nat} {s : Option Int} {t : BucketTable}
    (hf : ∀ f ∈ fs, InRange n f) (h : BucketTable.create minimum fs n s = ok t) :
    WellFormed n t ∧ t.hashFunctions = fs ∧ t.maxBucketSize = s ∧ (∀ b, bucketAt t b = []) ∧
      minimum ≤ fs.length := by
  unfold BucketTable.create at h
  obtain ⟨_, _, h⟩ := bind_eq_ok.mp h
  obtain ⟨_, h2, h⟩ := bind_eq_ok.mp h
  obtain ⟨_, h3, h⟩ := bind_eq_ok.mp h
  simp only [ok.injEq] at h
  subst h
  have h2 := failIf_eq_ok.mp h2
  have h3 := failIf_eq_ok.mp h3
  refine ⟨⟨by simp, rfl, hf, ?_⟩, rfl, rfl, ?_, by omega⟩
  · intro m hm
    dsimp only at hm
    rw [Option.mem_def] at hm
    rw [hm] at h3
    simp at h3
    exact h3
  · intro b
    unfold bucketAt
    dsimp only
    rw [List.getD_eq_getElem?_getD, List.getElem?_replicate]
    split <;> rfl

theorem Spec.HashesTo.mem {fs : List HashFunction} {n : Nat} {x : Bytes} {hs : List Nat}
    (h : HashesTo fs n x hs) (i : Nat) (hi : i ∈ hs) : ∃ f ∈ fs, f x n = ok (i : Int) := by
  have : (ok (i : Int) : Res Int) ∈ fs.map fun f => f x n := by
    rw [h]; exact List.mem_map.mpr ⟨i, hi, rfl⟩
  exact List.mem_map.mp this

theorem flatMap_congr_mem {α β : Type} {l : List α} {f g : α → List β} (h : ∀ a ∈ l, f a = g a) :
    l.flatMap f = l.flatMap g := by
  induction l with
  | nil => rfl
  | cons a l ih =>
    rw [List.flatMap_cons, List.flatMap_cons, h a (by simp), ih fun b hb => h b (by simp [hb])]

/-- Adding an element to one bucket. -/
theorem flatMap_push (n m : Nat) (hm : m < n) (f g : Nat → List Bytes) (x : Bytes)
    (h : ∀ b, b < n → g b = if b = m then f b ++ [x] else f b) :
    ((List.range n).flatMap g).Perm (x :: (List.range n).flatMap f) := by
  induction n with
  | zero => omega
  | succ n ih =>
    rw [List.range_succ, List.flatMap_append, List.flatMap_append]
    simp only [List.flatMap_cons, List.flatMap_nil, List.append_nil]
    by_cases hmn : m = n
    · subst hmn
      rw [h m (by omega), if_pos rfl]
      have : (List.range m).flatMap g = (List.range m).flatMap f := by
        apply flatMap_congr_mem
        intro b hb
        rw [List.mem_range] at hb
        rw [h b (by omega), if_neg (by omega)]
      rw [this, ← List.append_assoc]
      exact List.perm_append_singleton x _
    · rw [h n (by omega), if_neg (by omega), ← List.cons_append]
      exact List.Perm.append_right _ (ih (by omega) fun b hb => h b (by omega))

end Verif
