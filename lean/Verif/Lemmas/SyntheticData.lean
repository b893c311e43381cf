import Verif.Spec.SyntheticData
import Verif.Lemmas.Context
/-! Lemmas for C75: prefixes and levels. -/
namespace Verif
open Res Spec SyntheticData

theorem setInsert_mem (x y : U128) : (s : List U128) → (y ∈ setInsert x s ↔ y = x ∨ y ∈ s)
  | [] => by simp [setInsert]
  | z :: s => by
    unfold setInsert
    split
    · simp
    · split
      · rename_i h; subst h; simp
      · rw [List.mem_cons, setInsert_mem x y s, List.mem_cons]
        constructor
        · rintro (h | h | h)
          · exact Or.inr (Or.inl h)
          · exact Or.inl h
          · exact Or.inr (Or.inr h)
        · rintro (h | h | h)
          · exact Or.inr (Or.inl h)
          · exact Or.inl h
          · exact Or.inr (Or.inr h)

theorem setInsert_sorted (x : U128) : (s : List U128) → s.Pairwise (· < ·) → (setInsert x s).Pairwise (· < ·)
  | [], _ => by simp [setInsert]
  | z :: s, h => by
    obtain ⟨h1, h2⟩ := List.pairwise_cons.mp h
    unfold setInsert
    split
    · rename_i hx
      refine List.pairwise_cons.mpr ⟨?_, h⟩
      intro y hy
      rcases List.mem_cons.mp hy with rfl | hy
      · exact hx
      · have := h1 y hy
        simp only [BitVec.lt_def] at *
        omega
    · split
      · exact h
      · refine List.pairwise_cons.mpr ⟨?_, setInsert_sorted x s h2⟩
        intro y hy
        rcases (setInsert_mem x y s).mp hy with rfl | hy
        · rename_i h3 h4
          simp only [BitVec.lt_def] at *
          have : y.toNat ≠ z.toNat := fun h => h4 (BitVec.eq_of_toNat_eq h)
          omega
        · exact h1 y hy

theorem setInsert_length (x : U128) : (s : List U128) → (setInsert x s).length ≤ s.length + 1
  | [] => by simp [setInsert]
  | z :: s => by
    have := setInsert_length x s
    unfold setInsert
    split
    · simp
    · split <;> simp <;> omega

theorem foldl_setInsert (xs : List U128) : ∀ s : List U128, s.Pairwise (· < ·) →
    (xs.foldl (fun s x => setInsert x s) s).Pairwise (· < ·) ∧
    (∀ y, y ∈ xs.foldl (fun s x => setInsert x s) s ↔ y ∈ s ∨ y ∈ xs) ∧
    (xs.foldl (fun s x => setInsert x s) s).length ≤ s.length + xs.length := by
  induction xs with
  | nil => intro s hs; exact ⟨hs, by simp, by simp⟩
  | cons x xs ih =>
    intro s hs
    obtain ⟨h1, h2, h3⟩ := ih (setInsert x s) (setInsert_sorted x s hs)
    refine ⟨h1, ?_, ?_⟩
    · intro y
      rw [List.foldl_cons, h2, setInsert_mem, List.mem_cons]
      constructor
      · rintro ((h | h) | h)
        · exact Or.inr (Or.inl h)
        · exact Or.inl h
        · exact Or.inr (Or.inr h)
      · rintro (h | h | h)
        · exact Or.inl (Or.inr h)
        · exact Or.inl (Or.inl h)
        · exact Or.inr h
    · have := setInsert_length x s
      rw [List.foldl_cons, List.length_cons]; omega

theorem toSet_sorted (xs : List U128) : (toSet xs).Pairwise (· < ·) := (foldl_setInsert xs [] List.Pairwise.nil).1
theorem toSet_mem (xs : List U128) (y : U128) : y ∈ toSet xs ↔ y ∈ xs := by
  have := (foldl_setInsert xs [] List.Pairwise.nil).2.1 y
  simpa [toSet] using this
theorem toSet_length (xs : List U128) : (toSet xs).length ≤ xs.length := by
  have := (foldl_setInsert xs [] List.Pairwise.nil).2.2
  simpa [toSet] using this

/-- The prefixes without the last `k` bits. -/
def dropBits (xs : List U128) : Nat → List U128
  | 0 => xs
  | k + 1 => toSet ((dropBits xs k).map fun x : U128 => x >>> (1 : Nat))

theorem dropBits_mem (xs : List U128) (k : Nat) (y : U128) : y ∈ dropBits xs k ↔ ∃ x ∈ xs, y = x >>> k := by
  induction k generalizing y with
  | zero => simp [dropBits]
  | succ k ih =>
    rw [dropBits, toSet_mem, List.mem_map]
    constructor
    · rintro ⟨z, hz, rfl⟩
      obtain ⟨x, hx, rfl⟩ := (ih z).mp hz
      exact ⟨x, hx, by rw [BitVec.shiftRight_add]⟩
    · rintro ⟨x, hx, rfl⟩
      exact ⟨x >>> k, (ih _).mpr ⟨x, hx, rfl⟩, by rw [BitVec.shiftRight_add]⟩

theorem dropBits_sorted {xs : List U128} (h : xs.Pairwise (· < ·)) : (k : Nat) → (dropBits xs k).Pairwise (· < ·)
  | 0 => h
  | k + 1 => toSet_sorted _

theorem dropBits_length_succ (xs : List U128) (k : Nat) : (dropBits xs (k + 1)).length ≤ (dropBits xs k).length := by
  have := toSet_length ((dropBits xs k).map fun x : U128 => x >>> (1 : Nat))
  rwa [List.length_map] at this

theorem dropBits_length_le (xs : List U128) {j k : Nat} (h : j ≤ k) : (dropBits xs k).length ≤ (dropBits xs j).length := by
  induction k with
  | zero => rw [show j = 0 by omega]; exact Nat.le_refl _
  | succ k ih =>
    by_cases hj : j = k + 1
    · rw [hj]; exact Nat.le_refl _
    · exact Nat.le_trans (dropBits_length_succ xs k) (ih (by omega))

theorem dropBits_ne {xs : List U128} (h : xs ≠ []) (k : Nat) : dropBits xs k ≠ [] := by
  intro he
  obtain ⟨x, hx⟩ := List.exists_mem_of_ne_nil _ h
  have := (dropBits_mem xs k (x >>> k)).mpr ⟨x, hx, rfl⟩
  rw [he] at this; cases this

/-- After `k` rounds the last `k + 1` entries are computed. -/
theorem prefixStep_fold (xs : List U128) (L : Nat) : ∀ k, k ≤ L - 1 →
    (((List.range k).map (L - ·)).foldl prefixStep (List.replicate L [] ++ [xs])).length = L + 1 ∧
    ∀ i, i ≤ L → (((List.range k).map (L - ·)).foldl prefixStep (List.replicate L [] ++ [xs]))[i]? =
      some (if L ≤ i + k then dropBits xs (L - i) else []) := by
  intro k
  induction k with
  | zero =>
    intro _
    refine ⟨by simp, ?_⟩
    intro i hi
    simp only [List.range_zero, List.map_nil, List.foldl_nil, Nat.add_zero]
    by_cases h : i = L
    · subst h
      rw [if_pos (Nat.le_refl _), Nat.sub_self, List.getElem?_append_right (by simp)]
      simp [dropBits]
    · rw [if_neg (by omega), List.getElem?_append_left (by simp; omega), List.getElem?_replicate, if_pos (by omega)]
  | succ k ih =>
    intro hk
    obtain ⟨h1, h2⟩ := ih (by omega)
    rw [List.range_succ, List.map_append, List.foldl_append]
    generalize ((List.range k).map (L - ·)).foldl prefixStep (List.replicate L [] ++ [xs]) = r at h1 h2
    simp only [List.map_cons, List.map_nil, List.foldl_cons, List.foldl_nil, prefixStep]
    refine ⟨by simpa using h1, ?_⟩
    intro i hi
    rw [List.getElem?_set]
    have hg : r.getD (L - k) [] = dropBits xs k := by
      rw [List.getD_eq_getElem?_getD, h2 (L - k) (by omega), if_pos (by omega), Option.getD_some,
        show L - (L - k) = k by omega]
    by_cases h : L - k - 1 = i
    · rw [if_pos h, if_pos (by omega), if_pos (by omega), hg, show L - i = k + 1 by omega]; rfl
    · rw [if_neg h, h2 i hi]
      by_cases h' : L ≤ i + k
      · rw [if_pos h', if_pos (by omega)]
      · rw [if_neg h', if_neg (by omega)]

theorem computePrefixes_get (xs : List U128) (L : Nat) : (computePrefixes xs L).length = L + 1 ∧
    ∀ i, i ≤ L → (computePrefixes xs L)[i]? = some (if i = 0 ∧ 0 < L then [] else dropBits xs (L - i)) := by
  obtain ⟨h1, h2⟩ := prefixStep_fold xs L (L - 1) (Nat.le_refl _)
  refine ⟨h1, ?_⟩
  intro i hi
  rw [computePrefixes, h2 i hi]
  by_cases h : L ≤ i + (L - 1)
  · rw [if_pos h, if_neg (by omega)]
  · rw [if_neg h, if_pos (by omega)]

theorem computePrefixes_last (xs : List U128) (L : Nat) : (computePrefixes xs L).getLastD [] = xs := by
  obtain ⟨h1, h2⟩ := computePrefixes_get xs L
  rw [List.getLastD_eq_getLast?, List.getLast?_eq_getElem?, h1, Nat.add_sub_cancel, h2 L (Nat.le_refl _)]
  by_cases h : L = 0
  · subst h; simp [dropBits]
  · rw [if_neg (by omega), Nat.sub_self]; rfl

theorem wrapInt32_small {n : Nat} (h : n < 2 ^ 31) : wrapInt32 (n : Int) = n := by
  unfold wrapInt32; omega

/-- With harmless rounding, the loop ends with the last level. -/
theorem levelsLoop_ends {D : Doubles} {xs : List U128} {L f : Nat} (hL : 0 < L)
    (hn : xs ≠ []) (hn' : xs.length < 2 ^ 31) (H : Harmless D L xs.length f) :
    ∀ (fuel l : Nat) (pre : List Nat), 1 ≤ l → l ≤ L → L - l < fuel →
    ∃ rest : List Nat, levelsLoop D (computePrefixes xs L) L xs.length f fuel ((pre ++ [l]).map Int.ofNat) =
        some (ok ((pre ++ l :: rest).map Int.ofNat)) ∧
      (l :: rest).Pairwise (· < ·) ∧ (l :: rest).getLast? = some L ∧
      ∀ i a b, (l :: rest)[i]? = some a → (l :: rest)[i + 1]? = some b →
        (dropBits xs (L - a)).length * 2 ^ (b - a) ≤ xs.length * f := by
  intro fuel
  induction fuel with
  | zero => intro l pre h1 h2 h3; omega
  | succ fuel ih =>
    intro l pre h1 h2 h3
    have hlast : ((pre ++ [l]).map Int.ofNat).getLastD 0 = (l : Int) := by simp
    rw [levelsLoop, hlast]
    dsimp only
    by_cases hl : l = L
    · subst hl
      rw [if_neg (by omega)]
      exact ⟨[], rfl, by simp, rfl, by simp⟩
    · rw [if_pos (by omega)]
      obtain ⟨g1, g2⟩ := computePrefixes_get xs L
      have hr : rdInt (computePrefixes xs L) ((l : Int) + 1) = ok (dropBits xs (L - (l + 1))) := by
        rw [show ((l : Int) + 1) = ((l + 1 : Nat) : Int) by omega, rdInt_natCast, rd_eq_ok, g2 (l + 1) (by omega),
          if_neg (by omega)]
      rw [hr]
      dsimp only
      have hm := dropBits_length_le xs (Nat.zero_le (L - (l + 1)))
      rw [show (dropBits xs 0) = xs from rfl] at hm
      have hm0 : 0 < (dropBits xs (L - (l + 1))).length := List.length_pos_iff.mpr (dropBits_ne hn _)
      rw [wrapInt32_small (by omega), if_neg (by omega)]
      obtain ⟨k, hk, hk1, hk2⟩ := H.next l _ (by omega) hm0 hm
      have hnext : nextLevel D L xs.length f l ((dropBits xs (L - (l + 1))).length : Nat) = ((min L (l + k) : Nat) : Int) := by
        rw [nextLevel, hk]; omega
      rw [hnext]
      obtain ⟨rest, e, r1, r2, r3⟩ := ih (min L (l + k)) (pre ++ [l]) (by omega) (by omega) (by omega)
      refine ⟨min L (l + k) :: rest, ?_, ?_, ?_, ?_⟩
      · have : (pre ++ [l]).map Int.ofNat ++ [((min L (l + k) : Nat) : Int)] =
            ((pre ++ [l]) ++ [min L (l + k)]).map Int.ofNat := by simp
        rw [this, e]
        simp
      · refine List.pairwise_cons.mpr ⟨?_, r1⟩
        intro b hb
        rcases List.mem_cons.mp hb with rfl | hb
        · omega
        · have := (List.pairwise_cons.mp r1).1 b hb
          omega
      · rw [List.getLast?_cons_cons]; exact r2
      · intro i a b ha hb
        cases i with
        | zero =>
          simp only [List.getElem?_cons_zero, Option.some.injEq, Nat.zero_add, List.getElem?_cons_succ] at ha hb
          subst ha; subst hb
          have h3 : (dropBits xs (L - l)).length ≤ (dropBits xs (L - (l + 1))).length :=
            dropBits_length_le xs (by omega)
          have h4 : 2 ^ (min L (l + k) - l) ≤ 2 ^ k := Nat.pow_le_pow_right (by omega) (by omega)
          exact Nat.le_trans (Nat.mul_le_mul h3 h4) hk2
        | succ i =>
          exact r3 i a b (by simpa using ha) (by simpa using hb)

theorem computeLevels_ends {D : Doubles} {xs : List U128} {L f : Nat} (hL : 2 ≤ L)
    (hn : xs ≠ []) (hn' : xs.length < 2 ^ 31) (H : Harmless D L xs.length f) (fuel : Nat) (hf : L ≤ fuel) :
    ∃ l rest, computeLevelsToEvaluate D fuel (computePrefixes xs L) L f = some (ok ((l :: rest).map Int.ofNat)) ∧
      1 ≤ l ∧ 2 ^ (l + 1) ≤ xs.length * f ∧
      (l :: rest).Pairwise (· < ·) ∧ (l :: rest).getLast? = some L ∧
      ∀ i a b, (l :: rest)[i]? = some a → (l :: rest)[i + 1]? = some b →
        (dropBits xs (L - a)).length * 2 ^ (b - a) ≤ xs.length * f := by
  have h0 : 0 < xs.length := List.length_pos_iff.mpr hn
  obtain ⟨k, hk, hk1, hk2⟩ := H.first
  have hfl : firstLevel D L xs.length f = ((min L k - 1 : Nat) : Int) := by rw [firstLevel, hk]; omega
  obtain ⟨rest, e, r1, r2, r3⟩ := levelsLoop_ends (by omega) hn hn' H fuel (min L k - 1) [] (by omega) (by omega) (by omega)
  refine ⟨min L k - 1, rest, ?_, by omega, ?_, r1, r2, r3⟩
  · rw [computeLevelsToEvaluate, computePrefixes_last, wrapInt32_small hn']
    rw [if_neg (by omega), hfl]
    exact e
  · exact Nat.le_trans (Nat.pow_le_pow_right (by omega) (by omega)) hk2

end Verif
