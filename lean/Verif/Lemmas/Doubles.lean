import Mathlib.Analysis.SpecialFunctions.Log.Base
import Verif.Model.Doubles
/-! Errors of rounding to doubles. -/
namespace Verif

theorem roundDouble_relative (x : Rat) : |roundDouble x - x| ≤ |x| / 2 ^ 53 := by
  unfold roundDouble
  split
  · rename_i h; subst h; norm_num
  · rename_i hx0
    extract_lets a e0 e y r z
    have ha : a = |x| := by
      show x.abs = |x|
      unfold Rat.abs
      split
      · rename_i h; rw [abs_of_nonneg h]
      · rename_i h; rw [abs_of_neg (not_le.mp h)]
    have hapos : 0 < a := by rw [ha]; exact abs_pos.mpr hx0
    have hnum : a.num.natAbs ≠ 0 := by
      intro h
      have : a.num = 0 := Int.natAbs_eq_zero.mp h
      have := Rat.num_eq_zero.mp this
      linarith
    have h3 : (a.num.natAbs : Rat) = a * a.den := by
      have hn : 0 ≤ a.num := Rat.num_nonneg.mpr hapos.le
      rw [Rat.mul_den_eq_num]
      have : ((a.num.natAbs : Int) : Rat) = (a.num : Rat) := by congr 1; omega
      rw [← this, Int.cast_natCast]
    have he0 : (2 : Rat) ^ (e0 - 1) ≤ a := by
      have h1 : 2 ^ Nat.log2 a.num.natAbs ≤ a.num.natAbs := Nat.log2_self_le hnum
      have h2 : a.den < 2 ^ (Nat.log2 a.den + 1) := Nat.lt_log2_self
      have h1' : (2 : Rat) ^ Nat.log2 a.num.natAbs ≤ a * a.den := by rw [← h3]; exact_mod_cast h1
      have h2' : (a.den : Rat) ≤ 2 ^ (Nat.log2 a.den + 1) := by exact_mod_cast h2.le
      have h4 : (2 : Rat) ^ Nat.log2 a.num.natAbs ≤ a * 2 ^ (Nat.log2 a.den + 1) :=
        h1'.trans (mul_le_mul_of_nonneg_left h2' hapos.le)
      have e : (2 : Rat) ^ (e0 - 1) = 2 ^ Nat.log2 a.num.natAbs / 2 ^ (Nat.log2 a.den + 1) := by
        rw [← zpow_natCast, ← zpow_natCast, ← zpow_sub₀ (by norm_num)]
        congr 1
        show (Nat.log2 a.num.natAbs : Int) - Nat.log2 a.den - 1 = _
        push_cast; ring
      rw [e, div_le_iff₀ (by positivity)]
      exact h4
    have he : (2 : Rat) ^ e ≤ a := by
      show (2 : Rat) ^ (if a < 2 ^ e0 then e0 - 1 else e0) ≤ a
      split
      · exact he0
      · rename_i h; exact not_lt.mp h
    have hz : |(z : Rat) - y| ≤ 1 / 2 := by
      have f1 : (y.floor : Rat) ≤ y := Rat.floor_le y
      have f2 : y < y.floor + 1 := by have := Rat.lt_floor_add_one y; push_cast at this; exact this
      have hr : r = y - y.floor := rfl
      have hcases : (z = y.floor ∧ r ≤ 1 / 2) ∨ (z = y.floor + 1 ∧ 1 / 2 ≤ r) := by
        show ((if r < 1 / 2 then y.floor else if 1 / 2 < r then y.floor + 1 else
          if y.floor % 2 = 0 then y.floor else y.floor + 1) = _ ∧ _) ∨
          ((if r < 1 / 2 then y.floor else if 1 / 2 < r then y.floor + 1 else
          if y.floor % 2 = 0 then y.floor else y.floor + 1) = _ ∧ _)
        split
        · rename_i h; exact Or.inl ⟨rfl, h.le⟩
        · rename_i h
          split
          · rename_i h'; exact Or.inr ⟨rfl, h'.le⟩
          · rename_i h'
            split
            · exact Or.inl ⟨rfl, not_lt.mp h'⟩
            · exact Or.inr ⟨rfl, not_lt.mp h⟩
      rcases hcases with ⟨h1, h2⟩ | ⟨h1, h2⟩ <;> rw [h1, abs_le] <;> constructor <;> push_cast <;> linarith
    have hxy : x = y * 2 ^ (e - 52) := by
      show x = x * 2 ^ (52 - e) * 2 ^ (e - 52)
      rw [mul_assoc, ← zpow_add₀ (by norm_num), show 52 - e + (e - 52) = 0 by omega, zpow_zero, mul_one]
    have hp0 : (0 : Rat) < 2 ^ (e - 52) := by positivity
    have hp : (2 : Rat) ^ (e - 52) ≤ |x| / 2 ^ 52 := by
      rw [zpow_sub₀ (by norm_num), ← ha]
      exact div_le_div_of_nonneg_right he (by positivity)
    calc |(z : Rat) * 2 ^ (e - 52) - x| = |(z : Rat) - y| * 2 ^ (e - 52) := by
          conv_lhs => rw [hxy]
          rw [← sub_mul, abs_mul, abs_of_pos hp0]
      _ ≤ 1 / 2 * (|x| / 2 ^ 52) := mul_le_mul hz hp hp0.le (by norm_num)
      _ = |x| / 2 ^ 53 := by ring

theorem roundDouble_error (x : Rat) (hx : |x| ≤ 256) : |roundDouble x - x| ≤ 1 / 2 ^ 45 :=
  (roundDouble_relative x).trans (by rw [div_le_iff₀ (by positivity)]; norm_num; exact hx)

/-! ## Rounding is monotone -/

/-- Rounding to an integer, to the even one if there are two closest ones. -/
def roundInt (y : Rat) : Int :=
  if y - y.floor < 1 / 2 then y.floor else if 1 / 2 < y - y.floor then y.floor + 1 else
    if y.floor % 2 = 0 then y.floor else y.floor + 1

theorem roundInt_mem (y : Rat) : roundInt y = y.floor ∨ roundInt y = y.floor + 1 := by
  unfold roundInt
  split
  · exact .inl rfl
  · split
    · exact .inr rfl
    · split
      · exact .inl rfl
      · exact .inr rfl

theorem roundInt_mono {x y : Rat} (h : x ≤ y) : roundInt x ≤ roundInt y := by
  have hf : x.floor ≤ y.floor := Rat.floor_monotone h
  rcases Int.lt_or_eq_of_le hf with hlt | heq
  · rcases roundInt_mem x with h1 | h1 <;> rcases roundInt_mem y with h2 | h2 <;> omega
  · unfold roundInt
    rw [heq]
    split_ifs <;> first | omega | (exfalso; linarith)

theorem roundInt_intCast (n : Int) : roundInt (n : Rat) = n := by
  unfold roundInt
  rw [Rat.floor_intCast]
  simp

/-- Rounding keeps the leading bit or moves to the next power of two. -/
theorem roundDouble_form (x : Rat) (hx : x ≠ 0) : ∃ e : Int, 2 ^ e ≤ |x| ∧ |x| < 2 ^ (e + 1) ∧
    roundDouble x = roundInt (x * 2 ^ (52 - e)) * 2 ^ (e - 52) := by
  unfold roundDouble
  rw [if_neg hx]
  extract_lets a e0 e y r z
  have ha : a = |x| := by
    show x.abs = |x|
    unfold Rat.abs
    split
    · rename_i h; rw [abs_of_nonneg h]
    · rename_i h; rw [abs_of_neg (not_le.mp h)]
  have hapos : 0 < a := by rw [ha]; exact abs_pos.mpr hx
  have hnum : a.num.natAbs ≠ 0 := by
    intro h
    have : a.num = 0 := Int.natAbs_eq_zero.mp h
    have := Rat.num_eq_zero.mp this
    linarith
  have h3 : (a.num.natAbs : Rat) = a * a.den := by
    have hn : 0 ≤ a.num := Rat.num_nonneg.mpr hapos.le
    rw [Rat.mul_den_eq_num]
    have : ((a.num.natAbs : Int) : Rat) = (a.num : Rat) := by congr 1; omega
    rw [← this, Int.cast_natCast]
  have hden : (0 : Rat) < a.den := by exact_mod_cast a.den_pos
  have he0 : (2 : Rat) ^ (e0 - 1) ≤ a := by
    have h1 : 2 ^ Nat.log2 a.num.natAbs ≤ a.num.natAbs := Nat.log2_self_le hnum
    have h2 : a.den < 2 ^ (Nat.log2 a.den + 1) := Nat.lt_log2_self
    have h1' : (2 : Rat) ^ Nat.log2 a.num.natAbs ≤ a * a.den := by rw [← h3]; exact_mod_cast h1
    have h2' : (a.den : Rat) ≤ 2 ^ (Nat.log2 a.den + 1) := by exact_mod_cast h2.le
    have h4 : (2 : Rat) ^ Nat.log2 a.num.natAbs ≤ a * 2 ^ (Nat.log2 a.den + 1) :=
      h1'.trans (mul_le_mul_of_nonneg_left h2' hapos.le)
    have e : (2 : Rat) ^ (e0 - 1) = 2 ^ Nat.log2 a.num.natAbs / 2 ^ (Nat.log2 a.den + 1) := by
      rw [← zpow_natCast, ← zpow_natCast, ← zpow_sub₀ (by norm_num)]
      congr 1
      show (Nat.log2 a.num.natAbs : Int) - Nat.log2 a.den - 1 = _
      push_cast; ring
    rw [e, div_le_iff₀ (by positivity)]
    exact h4
  have he1 : a < (2 : Rat) ^ (e0 + 1) := by
    have h1 : a.num.natAbs < 2 ^ (Nat.log2 a.num.natAbs + 1) := Nat.lt_log2_self
    have h2 : 2 ^ Nat.log2 a.den ≤ a.den := Nat.log2_self_le a.den_nz
    have h1' : a * a.den < 2 ^ (Nat.log2 a.num.natAbs + 1) := by rw [← h3]; exact_mod_cast h1
    have h2' : (2 : Rat) ^ Nat.log2 a.den ≤ a.den := by exact_mod_cast h2
    have h4 : a * 2 ^ Nat.log2 a.den < 2 ^ (Nat.log2 a.num.natAbs + 1) :=
      lt_of_le_of_lt (mul_le_mul_of_nonneg_left h2' hapos.le) h1'
    have e : (2 : Rat) ^ (e0 + 1) = 2 ^ (Nat.log2 a.num.natAbs + 1) / 2 ^ Nat.log2 a.den := by
      rw [← zpow_natCast, ← zpow_natCast, ← zpow_sub₀ (by norm_num)]
      congr 1
      show (Nat.log2 a.num.natAbs : Int) - Nat.log2 a.den + 1 = _
      push_cast; ring
    rw [e, lt_div_iff₀ (by positivity)]
    exact h4
  refine ⟨e, ?_, ?_, rfl⟩
  · rw [← ha]
    show (2 : Rat) ^ (if a < 2 ^ e0 then e0 - 1 else e0) ≤ a
    split
    · exact he0
    · rename_i h; exact not_lt.mp h
  · rw [← ha]
    show a < (2 : Rat) ^ ((if a < 2 ^ e0 then e0 - 1 else e0) + 1)
    split
    · rename_i h; rwa [Int.sub_add_cancel]
    · exact he1

theorem pow_scale (e : Int) (k : Int) : (2 : Rat) ^ (e + k) * 2 ^ (52 - e) = 2 ^ (52 + k) := by
  rw [← zpow_add₀ (by norm_num)]
  congr 1
  ring

theorem pow_unscale (e : Int) (k : Int) : (2 : Rat) ^ (52 + k) * 2 ^ (e - 52) = 2 ^ (e + k) := by
  rw [← zpow_add₀ (by norm_num)]
  congr 1
  ring

/-- A number up to a power of two is not rounded beyond it. -/
theorem roundInt_le_pow {x : Rat} {e k : Int} (hk : 0 ≤ 52 + k) (h : x ≤ 2 ^ (e + k)) :
    (roundInt (x * 2 ^ (52 - e)) : Rat) * 2 ^ (e - 52) ≤ 2 ^ (e + k) := by
  have h1 : x * 2 ^ (52 - e) ≤ ((2 ^ (52 + k).toNat : Int) : Rat) := by
    have : ((2 ^ (52 + k).toNat : Int) : Rat) = 2 ^ (52 + k) := by
      push_cast
      rw [← zpow_natCast, Int.toNat_of_nonneg hk]
    rw [this, ← pow_scale e k]
    exact mul_le_mul_of_nonneg_right h (by positivity)
  have h2 := roundInt_mono h1
  rw [roundInt_intCast] at h2
  have h3 : (roundInt (x * 2 ^ (52 - e)) : Rat) ≤ 2 ^ (52 + k) := by
    have : ((2 ^ (52 + k).toNat : Int) : Rat) = 2 ^ (52 + k) := by
      push_cast
      rw [← zpow_natCast, Int.toNat_of_nonneg hk]
    rw [← this]
    exact_mod_cast h2
  rw [← pow_unscale e k]
  exact mul_le_mul_of_nonneg_right h3 (by positivity)

theorem pow_le_roundInt {x : Rat} {e k : Int} (hk : 0 ≤ 52 + k) (h : 2 ^ (e + k) ≤ x) :
    (2 : Rat) ^ (e + k) ≤ (roundInt (x * 2 ^ (52 - e)) : Rat) * 2 ^ (e - 52) := by
  have e1 : ((2 ^ (52 + k).toNat : Int) : Rat) = 2 ^ (52 + k) := by
    push_cast
    rw [← zpow_natCast, Int.toNat_of_nonneg hk]
  have h1 : ((2 ^ (52 + k).toNat : Int) : Rat) ≤ x * 2 ^ (52 - e) := by
    rw [e1, ← pow_scale e k]
    exact mul_le_mul_of_nonneg_right h (by positivity)
  have h2 := roundInt_mono h1
  rw [roundInt_intCast] at h2
  have h3 : (2 : Rat) ^ (52 + k) ≤ (roundInt (x * 2 ^ (52 - e)) : Rat) := by
    rw [← e1]
    exact_mod_cast h2
  rw [← pow_unscale e k]
  exact mul_le_mul_of_nonneg_right h3 (by positivity)

theorem roundInt_le_neg_pow {x : Rat} {e k : Int} (hk : 0 ≤ 52 + k) (h : x ≤ -2 ^ (e + k)) :
    (roundInt (x * 2 ^ (52 - e)) : Rat) * 2 ^ (e - 52) ≤ -2 ^ (e + k) := by
  have e1 : ((-2 ^ (52 + k).toNat : Int) : Rat) = -2 ^ (52 + k) := by
    push_cast
    rw [← zpow_natCast, Int.toNat_of_nonneg hk]
  have h1 : x * 2 ^ (52 - e) ≤ ((-2 ^ (52 + k).toNat : Int) : Rat) := by
    rw [e1, ← pow_scale e k, ← neg_mul]
    exact mul_le_mul_of_nonneg_right h (by positivity)
  have h2 := roundInt_mono h1
  rw [roundInt_intCast] at h2
  have h3 : (roundInt (x * 2 ^ (52 - e)) : Rat) ≤ -2 ^ (52 + k) := by
    rw [← e1]
    exact_mod_cast h2
  rw [← pow_unscale e k, ← neg_mul]
  exact mul_le_mul_of_nonneg_right h3 (by positivity)

theorem neg_pow_le_roundInt {x : Rat} {e k : Int} (hk : 0 ≤ 52 + k) (h : -2 ^ (e + k) ≤ x) :
    -(2 : Rat) ^ (e + k) ≤ (roundInt (x * 2 ^ (52 - e)) : Rat) * 2 ^ (e - 52) := by
  have e1 : ((-2 ^ (52 + k).toNat : Int) : Rat) = -2 ^ (52 + k) := by
    push_cast
    rw [← zpow_natCast, Int.toNat_of_nonneg hk]
  have h1 : ((-2 ^ (52 + k).toNat : Int) : Rat) ≤ x * 2 ^ (52 - e) := by
    rw [e1, ← pow_scale e k, ← neg_mul]
    exact mul_le_mul_of_nonneg_right h (by positivity)
  have h2 := roundInt_mono h1
  rw [roundInt_intCast] at h2
  have h3 : -(2 : Rat) ^ (52 + k) ≤ (roundInt (x * 2 ^ (52 - e)) : Rat) := by
    rw [← e1]
    exact_mod_cast h2
  rw [← pow_unscale e k, ← neg_mul]
  exact mul_le_mul_of_nonneg_right h3 (by positivity)

theorem roundDouble_pos {x : Rat} (h : 0 < x) : 0 < roundDouble x := by
  obtain ⟨e, h1, h2, h3⟩ := roundDouble_form x h.ne'
  rw [h3]
  rw [abs_of_pos h] at h1
  have := pow_le_roundInt (x := x) (e := e) (k := 0) (by norm_num) (by simpa using h1)
  exact lt_of_lt_of_le (by positivity) this

theorem roundDouble_neg {x : Rat} (h : x < 0) : roundDouble x < 0 := by
  obtain ⟨e, h1, h2, h3⟩ := roundDouble_form x h.ne
  rw [h3]
  rw [abs_of_neg h] at h1
  have := roundInt_le_neg_pow (x := x) (e := e) (k := 0) (by norm_num) (by rw [add_zero]; linarith)
  exact lt_of_le_of_lt this (neg_lt_zero.mpr (by positivity))

theorem roundDouble_zero : roundDouble 0 = 0 := by unfold roundDouble; rw [if_pos rfl]

theorem roundDouble_mono {x y : Rat} (h : x ≤ y) : roundDouble x ≤ roundDouble y := by
  rcases lt_trichotomy x 0 with hx | rfl | hx
  · rcases lt_trichotomy y 0 with hy | rfl | hy
    · obtain ⟨e, h1, h2, h3⟩ := roundDouble_form x hx.ne
      obtain ⟨f, g1, g2, g3⟩ := roundDouble_form y hy.ne
      rw [abs_of_neg hx] at h1 h2
      rw [abs_of_neg hy] at g1 g2
      have hfe : f < e + 1 := (zpow_lt_zpow_iff_right₀ (by norm_num : (1 : Rat) < 2)).mp (by linarith)
      rw [h3, g3]
      rcases Int.lt_or_eq_of_le (by omega : f ≤ e) with hlt | rfl
      · have a1 := roundInt_le_neg_pow (x := x) (e := e) (k := 0) (by norm_num) (by rw [add_zero]; linarith)
        have a2 := neg_pow_le_roundInt (x := y) (e := f) (k := 1) (by norm_num) (by linarith)
        have a3 : (2 : Rat) ^ (f + 1) ≤ 2 ^ (e + 0) := zpow_le_zpow_right₀ (by norm_num) (by omega)
        linarith
      · refine mul_le_mul_of_nonneg_right ?_ (by positivity)
        exact_mod_cast roundInt_mono (mul_le_mul_of_nonneg_right h (by positivity))
    · rw [roundDouble_zero]; exact (roundDouble_neg hx).le
    · exact ((roundDouble_neg hx).trans (roundDouble_pos hy)).le
  · rcases eq_or_lt_of_le h with rfl | hy
    · exact le_refl _
    · rw [roundDouble_zero]; exact (roundDouble_pos hy).le
  · have hy : 0 < y := lt_of_lt_of_le hx h
    obtain ⟨e, h1, h2, h3⟩ := roundDouble_form x hx.ne'
    obtain ⟨f, g1, g2, g3⟩ := roundDouble_form y hy.ne'
    rw [abs_of_pos hx] at h1 h2
    rw [abs_of_pos hy] at g1 g2
    have hfe : e < f + 1 := (zpow_lt_zpow_iff_right₀ (by norm_num : (1 : Rat) < 2)).mp (by linarith)
    rw [h3, g3]
    rcases Int.lt_or_eq_of_le (by omega : e ≤ f) with hlt | rfl
    · have a1 := roundInt_le_pow (x := x) (e := e) (k := 1) (by norm_num) h2.le
      have a2 := pow_le_roundInt (x := y) (e := f) (k := 0) (by norm_num) (by rw [add_zero]; exact g1)
      have a3 : (2 : Rat) ^ (e + 1) ≤ 2 ^ (f + 0) := zpow_le_zpow_right₀ (by norm_num) (by omega)
      linarith
    · refine mul_le_mul_of_nonneg_right ?_ (by positivity)
      exact_mod_cast roundInt_mono (mul_le_mul_of_nonneg_right h (by positivity))

/-- Multiples of a power of two by integers of up to 53 bits are doubles. -/
theorem roundDouble_dyadic (n j : Int) (h : |n| ≤ 2 ^ 53) : roundDouble (n * 2 ^ j) = n * 2 ^ j := by
  rcases eq_or_ne n 0 with rfl | hn
  · rw [Int.cast_zero, zero_mul, roundDouble_zero]
  have hj : (2 : Rat) ^ j ≠ 0 := by positivity
  obtain ⟨e, h1, h2, h3⟩ := roundDouble_form ((n : Rat) * 2 ^ j) (mul_ne_zero (by exact_mod_cast hn) hj)
  have habs : |(n : Rat) * 2 ^ j| = ((|n| : Int) : Rat) * 2 ^ j := by
    rw [abs_mul, Int.cast_abs, abs_of_pos (by positivity : (0 : Rat) < 2 ^ j)]
  have hscale : ∃ m : Int, (n : Rat) * 2 ^ j * 2 ^ (52 - e) = m := by
    rw [mul_assoc, ← zpow_add₀ (by norm_num)]
    by_cases he : e ≤ 52 + j
    · refine ⟨n * 2 ^ (j + (52 - e)).toNat, ?_⟩
      push_cast
      rw [← zpow_natCast, Int.toNat_of_nonneg (by omega)]
    · have h4 : |(n : Rat) * 2 ^ j| ≤ 2 ^ (53 + j) := by
        rw [habs, zpow_add₀ (by norm_num)]
        refine mul_le_mul_of_nonneg_right ?_ (by positivity)
        have : ((|n| : Int) : Rat) ≤ ((2 ^ 53 : Int) : Rat) := by exact_mod_cast h
        refine this.trans (le_of_eq ?_)
        push_cast
        norm_num
      have h5 : (2 : Rat) ^ e ≤ 2 ^ (53 + j) := h1.trans h4
      have h6 : e = 53 + j := by
        have := (zpow_le_zpow_iff_right₀ (by norm_num : (1 : Rat) < 2)).mp h5
        omega
      subst h6
      have h7 : |n| = 2 ^ 53 := by
        have : |(n : Rat) * 2 ^ j| = 2 ^ (53 + j) := le_antisymm h4 h1
        rw [habs, zpow_add₀ (by norm_num)] at this
        have h8 : ((|n| : Int) : Rat) = ((2 ^ 53 : Int) : Rat) := by
          rw [mul_right_cancel₀ hj this]
          push_cast
          norm_num
        exact_mod_cast h8
      rw [show j + (52 - (53 + j)) = -1 by ring]
      rcases abs_choice n with h8 | h8
      · exact ⟨2 ^ 52, by rw [← h8, h7]; push_cast; norm_num⟩
      · refine ⟨-2 ^ 52, ?_⟩
        have : n = -2 ^ 53 := by omega
        rw [this]
        push_cast
        norm_num
  obtain ⟨m, hm⟩ := hscale
  rw [h3, hm, roundInt_intCast, ← hm, mul_assoc, ← zpow_add₀ (by norm_num), show 52 - e + (e - 52) = 0 by ring, zpow_zero,
    mul_one]

/-- Integers of up to 53 bits are doubles. -/
theorem roundDouble_int (n : Int) (h : |n| ≤ 2 ^ 53) : roundDouble (n : Rat) = n := by
  simpa using roundDouble_dyadic n 0 h

end Verif
