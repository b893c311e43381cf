import Mathlib.Analysis.SpecialFunctions.Log.Base
import Verif.Lemmas.UniformTypes
/-! Lemmas for the distance from uniform: the level in real numbers, events of known probability. -/
namespace Verif.Uniform
open Finset Spec

/-- `n(n+1)N/2^131` is at most `2^-σ` if `σ` is accepted and `GetSecurityLevel` does not round up. -/
theorem level_bound (fp : FpEnv) (N : U128) (hpos : 0 < N.toNat) (σ : ℚ) (n : Nat) (hn : 1 ≤ n)
    (hsec : IntModN.Sec.gt (.val σ) (fp.secLevel n N) = false)
    (hfp : (fp.secLevel n N : ℝ) ≤ 128 + 3 - (Real.logb 2 N.toNat + Real.logb 2 n + Real.logb 2 (n + 1)))
    (d : ℚ) (hd : d ≤ n * (n + 1) * N.toNat / 2 ^ 131) : (d : ℝ) ≤ 2 ^ (-(σ : ℝ)) := by
  have hσ : σ ≤ fp.secLevel n N := by
    simpa [IntModN.Sec.gt] using hsec
  have hσ' : (σ : ℝ) ≤ 128 + 3 - (Real.logb 2 N.toNat + Real.logb 2 n + Real.logb 2 (n + 1)) :=
    le_trans (by exact_mod_cast hσ) hfp
  have hN : (0 : ℝ) < N.toNat := by exact_mod_cast hpos
  have hn' : (0 : ℝ) < n := by exact_mod_cast hn
  have h2 : (2 : ℝ) ^ (-(128 + 3 - (Real.logb 2 N.toNat + Real.logb 2 n + Real.logb 2 (n + 1)))) =
      n * (n + 1) * N.toNat / 2 ^ 131 := by
    rw [show -(128 + 3 - (Real.logb 2 N.toNat + Real.logb 2 n + Real.logb 2 (n + 1))) =
      Real.logb 2 N.toNat + Real.logb 2 n + Real.logb 2 (n + 1) - ((131 : ℕ) : ℝ) by push_cast; ring]
    rw [Real.rpow_sub (by norm_num), Real.rpow_add (by norm_num), Real.rpow_add (by norm_num),
      Real.rpow_logb (by norm_num) (by norm_num) hN, Real.rpow_logb (by norm_num) (by norm_num) hn',
      Real.rpow_logb (by norm_num) (by norm_num) (by positivity), Real.rpow_natCast]
    ring
  calc (d : ℝ) ≤ ((n * (n + 1) * N.toNat / 2 ^ 131 : ℚ) : ℝ) := by exact_mod_cast hd
    _ = n * (n + 1) * N.toNat / 2 ^ 131 := by push_cast; rfl
    _ = _ := h2.symm
    _ ≤ _ := Real.rpow_le_rpow_of_exponent_le (by norm_num) (by linarith)


theorem sum_even (m : Nat) : ∑ x ∈ range (m * 2), (if x % 2 = 0 then 1 else 0 : ℚ) = m := by
  rw [← sum_blocks]
  have : ∀ q ∈ range m, ∑ y ∈ range 2, (if (q * 2 + y) % 2 = 0 then 1 else 0 : ℚ) = 1 := by
    intro q _
    rw [sum_range_succ, sum_range_one, if_pos (by omega), if_neg (by omega), add_zero]
  rw [sum_congr rfl this, sum_const, card_range, nsmul_eq_mul, mul_one]

theorem or_even (a b : Nat) : (a ||| b) % 2 = 0 ↔ a % 2 = 0 ∧ b % 2 = 0 := by
  have h1 : (a ||| b) % 2 = 1 ↔ (a % 2 = 1 ∨ b % 2 = 1) := by simp
  omega

theorem card_vectors_even (m : Nat) :
    (#((vectors [m * 2, m * 2]).filter fun vs => vs.getD 1 0 % 2 = 0) : ℚ) = m * 2 * m := by
  rw [card_filter]
  push_cast
  rw [sum_vectors_cons]
  have : ∀ v ∈ range (m * 2), ∑ vs ∈ vectors [m * 2],
      (if (v :: vs).getD 1 0 % 2 = 0 then (1 : ℚ) else 0) = m := by
    intro v _
    rw [sum_vectors_cons, ← sum_even]
    apply sum_congr rfl
    intro x _
    rw [sum_vectors_nil]
    rfl
  rw [sum_congr rfl this, sum_const, card_range, nsmul_eq_mul]
  push_cast
  rfl

/-- Two samples modulo `M` with a 128-bit base integer. -/
def twoSamples (M : Nat) (b : Fin 32 → Fin 256) : List Nat :=
  residues M 128 (leAt (bytesOf b) 0 16) [leAt (bytesOf b) 16 16]

theorem twoSamples_mem {M : Nat} (h : 0 < M) (b : Fin 32 → Fin 256) : twoSamples M b ∈ vectors [M, M] := by
  rw [mem_vectors]
  exact .cons (Nat.mod_lt _ h) (.cons (Nat.mod_lt _ h) .nil)

theorem twoSamples_even (M : Nat) (hM : M = 2 ^ 64) :
    (#{b : Fin 32 → Fin 256 | (twoSamples M b).getD 1 0 % 2 = 0} : ℚ) = 2 ^ 254 := by
  subst hM
  have e := bsum_split 16 16 fun n b =>
    if (n / 2 ^ 64 ||| leAt b 0 16) % 2 ^ 64 % 2 = 0 then (1 : ℚ) else 0
  have e2 : (#{b : Fin 32 → Fin 256 | (twoSamples (2 ^ 64) b).getD 1 0 % 2 = 0} : ℚ) = bsum (16 + 16) fun b =>
      if (leAt b 0 16 / 2 ^ 64 ||| leAt (b.drop 16) 0 16) % 2 ^ 64 % 2 = 0 then (1 : ℚ) else 0 := by
    rw [bsum, Finset.sum_boole]
    congr 2
  rw [e2, e, show (256 : Nat) ^ 16 = 2 ^ 64 * 2 ^ 64 by rfl, ← sum_blocks]
  have e3 : ∀ n, bsum 16 (fun b => if (n / 2 ^ 64 ||| leAt b 0 16) % 2 ^ 64 % 2 = 0 then (1 : ℚ) else 0) =
      if n / 2 ^ 64 % 2 = 0 then 2 ^ 127 else 0 := by
    intro n
    have e := bsum_split 16 0 fun x _ =>
      if (n / 2 ^ 64 ||| x) % 2 ^ 64 % 2 = 0 then (1 : ℚ) else 0
    rw [Nat.add_zero] at e
    rw [e]
    simp only [bsum_zero]
    have hmod : ∀ y : Nat, y % 2 ^ 64 % 2 = y % 2 := fun y => Nat.mod_mod_of_dvd y ⟨2 ^ 63, by norm_num⟩
    simp only [hmod, or_even]
    by_cases h : n / 2 ^ 64 % 2 = 0
    · simp only [h, true_and, if_true]
      rw [show (256 : Nat) ^ 16 = 2 ^ 127 * 2 by rfl, sum_even]
      push_cast
      rfl
    · simp only [h, false_and, if_false]
      simp
  simp only [e3]
  have e4 : ∀ q ∈ range (2 ^ 64), ∑ y ∈ range (2 ^ 64),
      (if (q * 2 ^ 64 + y) / 2 ^ 64 % 2 = 0 then (2 : ℚ) ^ 127 else 0) =
      (if q % 2 = 0 then 1 else 0) * 2 ^ 191 := by
    intro q _
    have : ∀ y ∈ range (2 ^ 64), (if (q * 2 ^ 64 + y) / 2 ^ 64 % 2 = 0 then (2 : ℚ) ^ 127 else 0) =
        if q % 2 = 0 then 2 ^ 127 else 0 := by
      intro y hy
      have hy := mem_range.mp hy
      rw [show (q * 2 ^ 64 + y) / 2 ^ 64 = q by omega]
    rw [sum_congr rfl this, sum_const, card_range, nsmul_eq_mul]
    split <;> norm_num
  rw [sum_congr rfl e4, ← sum_mul, show (2 : Nat) ^ 64 = 2 ^ 63 * 2 by rfl, sum_even]
  norm_num

/-! ### A residue modulo 171 and a 128-bit integer -/

/-- The leaves of `Tuple<IntModN<uint8_t, 171>, uint128>`, with the 128-bit integer having `M` values. -/
def biased (M : Nat) (b : Fin 17 → Fin 256) : List Nat :=
  [leAt (bytesOf b) 0 16 % 171, (leAt (bytesOf b) 0 16 / 171 * 2 ^ 8 % 2 ^ 128 + leAt ((bytesOf b).drop 16) 0 1) % M]

theorem biased_mem {M : Nat} (h : 0 < M) (b : Fin 17 → Fin 256) : biased M b ∈ vectors [171, M] := by
  rw [mem_vectors]
  exact .cons (Nat.mod_lt _ (by norm_num)) (.cons (Nat.mod_lt _ h) .nil)

theorem card_low (m : Nat) :
    (#((vectors [171, 2 * m]).filter fun vs => vs.getD 1 0 < m) : ℚ) = 171 * m := by
  rw [card_filter]
  push_cast
  rw [sum_vectors_cons]
  have : ∀ v ∈ range 171, ∑ vs ∈ vectors [2 * m],
      (if (v :: vs).getD 1 0 < m then (1 : ℚ) else 0) = m := by
    intro v _
    rw [sum_vectors_cons, two_mul, sum_range_add]
    have h1 : ∀ x ∈ range m, ∑ vs ∈ vectors [], (if (v :: x :: vs).getD 1 0 < m then (1 : ℚ) else 0) = 1 := by
      intro x hx
      rw [sum_vectors_nil]
      exact if_pos (mem_range.mp hx)
    have h2 : ∀ x ∈ range m, ∑ vs ∈ vectors [], (if (v :: (m + x) :: vs).getD 1 0 < m then (1 : ℚ) else 0) = 0 := by
      intro x hx
      rw [sum_vectors_nil]
      exact if_neg (by simp)
    rw [sum_congr rfl h1, sum_congr rfl h2]
    simp
  rw [sum_congr rfl this, sum_const, card_range, nsmul_eq_mul]
  push_cast
  rfl

theorem biased_low (M : Nat) (hM : M = 2 ^ 128) (m : Nat) (hm : m = 2 ^ 127) :
    (341 * 2 ^ 127 : ℚ) ≤ #{b : Fin 17 → Fin 256 | (biased M b).getD 1 0 < m} := by
  have e := bsum_split 16 1 fun n b =>
    if (n / 171 * 2 ^ 8 % 2 ^ 128 + leAt b 0 1) % M < m then (1 : ℚ) else 0
  have e2 : (#{b : Fin 17 → Fin 256 | (biased M b).getD 1 0 < m} : ℚ) = bsum (16 + 1) fun b =>
      if (leAt b 0 16 / 171 * 2 ^ 8 % 2 ^ 128 + leAt (b.drop 16) 0 1) % M < m then (1 : ℚ) else 0 := by
    rw [bsum, Finset.sum_boole]
    rfl
  rw [e2, e]
  have e3 : ∀ n ∈ range (256 ^ 16), (if 171 * 2 ^ 119 ≤ n ∧ n < 171 * 2 ^ 120 then (0 : ℚ) else 256) ≤
      bsum 1 fun b => if (n / 171 * 2 ^ 8 % 2 ^ 128 + leAt b 0 1) % M < m then (1 : ℚ) else 0 := by
    intro n hn
    have hn := mem_range.mp hn
    have es := bsum_split 1 0 fun x _ =>
      if (n / 171 * 2 ^ 8 % 2 ^ 128 + x) % M < m then (1 : ℚ) else 0
    rw [Nat.add_zero] at es
    rw [es]
    simp only [bsum_zero]
    split
    · exact sum_nonneg fun x _ => by split <;> norm_num
    · rename_i hc
      have : ∀ x ∈ range (256 ^ 1), (if (n / 171 * 2 ^ 8 % 2 ^ 128 + x) % M < m then (1 : ℚ) else 0) = 1 := by
        intro x hx
        have hx := mem_range.mp hx
        rw [hM, hm]
        exact if_pos (by omega)
      rw [sum_congr rfl this]
      simp
  refine le_trans ?_ (sum_le_sum e3)
  have hset : (range (256 ^ 16)).filter (fun n => ¬ (171 * 2 ^ 119 ≤ n ∧ n < 171 * 2 ^ 120)) =
      range (256 ^ 16) \ Ico (171 * 2 ^ 119) (171 * 2 ^ 120) := by
    ext n
    simp only [mem_filter, mem_sdiff, mem_Ico]
  have e5 : ∀ n ∈ range (256 ^ 16), (if 171 * 2 ^ 119 ≤ n ∧ n < 171 * 2 ^ 120 then (0 : ℚ) else 256) =
      (if ¬ (171 * 2 ^ 119 ≤ n ∧ n < 171 * 2 ^ 120) then 1 else 0) * 256 := by
    intro n _
    by_cases h : 171 * 2 ^ 119 ≤ n ∧ n < 171 * 2 ^ 120
    · rw [if_pos h, if_neg (not_not.mpr h), zero_mul]
    · rw [if_neg h, if_pos h, one_mul]
  rw [sum_congr rfl e5, ← sum_mul, Finset.sum_boole, hset, card_sdiff_of_subset]
  · rw [card_range, Nat.card_Ico]
    norm_num
  · intro n hn
    rw [mem_Ico] at hn
    rw [mem_range]
    omega

end Verif.Uniform
