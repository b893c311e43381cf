import Verif.Lemmas.Doubles
import Verif.Model.SparsePir
/-! The number of buckets for cuckoo hashing. -/
namespace Verif
open Res

theorem scaledBuckets_exact {n : Int} (h0 : 0 ≤ n) (h : 3 * n ≤ 2 ^ 53) : CuckooServer.scaledBuckets n = ok (3 * n / 2) := by
  unfold CuckooServer.scaledBuckets
  have e1 : roundDouble (n : Rat) = n := roundDouble_int n (by rw [abs_of_nonneg h0]; omega)
  have e2 : roundDouble (3 / 2 * (n : Rat)) = 3 / 2 * n := by
    have := roundDouble_dyadic (3 * n) (-1) (by rw [abs_of_nonneg (by omega)]; exact h)
    have e : ((3 * n : Int) : Rat) * 2 ^ (-1 : Int) = 3 / 2 * n := by push_cast; norm_num; ring
    rwa [e] at this
  rw [e1, e2]
  dsimp only
  have h' : (3 * n : Rat) ≤ 2 ^ 53 := by exact_mod_cast h
  rw [if_neg (by intro hx; norm_num at h' hx; linarith)]
  congr 1
  have e3 : (3 / 2 * (n : Rat)) = ((3 * n : Int) : Rat) / ((2 : Int) : Rat) := by push_cast; ring
  rw [e3]
  have a1 : 3 * n / 2 ≤ (((3 * n : Int) : Rat) / ((2 : Int) : Rat)).floor := by
    rw [Rat.le_floor_iff]
    rw [le_div_iff₀ (by norm_num)]
    have : 3 * n / 2 * 2 ≤ 3 * n := by omega
    exact_mod_cast this
  have a2 : (((3 * n : Int) : Rat) / ((2 : Int) : Rat)).floor < 3 * n / 2 + 1 := by
    rw [Rat.floor_lt_iff]
    rw [div_lt_iff₀ (by norm_num)]
    have : 3 * n < (3 * n / 2 + 1) * 2 := by omega
    exact_mod_cast this
  omega

/-- The product is a double below 2^63 exactly up to this number. -/
theorem scaledBuckets_ub {n : Int} (h : 6148914691236516353 ≤ n) : CuckooServer.scaledBuckets n = ub := by
  unfold CuckooServer.scaledBuckets
  have h1 : ((6148914691236516353 : Int) : Rat) ≤ n := by exact_mod_cast h
  have h2 := roundDouble_mono h1
  have e1 : roundDouble ((6148914691236516353 : Int) : Rat) = 6148914691236516864 := by decide +kernel
  rw [e1] at h2
  have h3 := roundDouble_mono (mul_le_mul_of_nonneg_left h2 (by norm_num : (0 : Rat) ≤ 3 / 2))
  have e2 : roundDouble (3 / 2 * 6148914691236516864) = 2 ^ 63 := by decide +kernel
  rw [e2] at h3
  dsimp only
  rw [if_pos h3]

theorem scaledBuckets_close {n : Int} (h0 : 0 ≤ n) (h : n ≤ 6148914691236516352) : ∃ m : Int,
    CuckooServer.scaledBuckets n = ok m ∧ |2 * m - 3 * n| * 2 ^ 50 ≤ n + 2 ^ 51 := by
  unfold CuckooServer.scaledBuckets
  have h1 : (n : Rat) ≤ ((6148914691236516352 : Int) : Rat) := by exact_mod_cast h
  have h2 := roundDouble_mono h1
  have e1 : roundDouble ((6148914691236516352 : Int) : Rat) = 6148914691236515840 := by decide +kernel
  rw [e1] at h2
  have h3 := roundDouble_mono (mul_le_mul_of_nonneg_left h2 (by norm_num : (0 : Rat) ≤ 3 / 2))
  have e2 : roundDouble (3 / 2 * 6148914691236515840) = 2 ^ 63 - 2048 := by decide +kernel
  rw [e2] at h3
  dsimp only
  rw [if_neg (by intro hx; norm_num at hx h3; linarith)]
  refine ⟨_, rfl, ?_⟩
  have n0 : (0 : Rat) ≤ n := by exact_mod_cast h0
  have r1 := roundDouble_relative (n : Rat)
  rw [abs_of_nonneg n0] at r1
  have y0 : 0 ≤ roundDouble (n : Rat) := by
    have := roundDouble_mono n0
    rwa [roundDouble_zero] at this
  generalize roundDouble (n : Rat) = y at *
  have r2 := roundDouble_relative (3 / 2 * y)
  rw [abs_of_nonneg (show (0 : Rat) ≤ 3 / 2 * y by linarith)] at r2
  generalize roundDouble (3 / 2 * y) = z at *
  obtain ⟨p1, p2⟩ := abs_le.mp r1
  obtain ⟨q1, q2⟩ := abs_le.mp r2
  have f1 : (z.floor : Rat) ≤ z := Rat.floor_le z
  have f2 : z < z.floor + 1 := by have := Rat.lt_floor_add_one z; push_cast at this; exact this
  have hcast : ((|2 * z.floor - 3 * n| * 2 ^ 50 : Int) : Rat) ≤ ((n + 2 ^ 51 : Int) : Rat) := by
    push_cast
    rw [← le_div_iff₀ (by positivity), abs_le]
    norm_num at p1 p2 q1 q2 ⊢
    constructor <;> linarith
  exact_mod_cast hcast

end Verif
