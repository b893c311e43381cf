import Verif.Spec.Rounding
import Verif.Lemmas.Doubles
/-!
# Rounding to doubles (C94)
-/
namespace Verif
open Spec

theorem ratAbs (x : Rat) : x.abs = |x| := by
  unfold Rat.abs
  split
  · rename_i h; rw [abs_of_nonneg h]
  · rename_i h; rw [abs_of_neg (not_le.mp h)]

theorem roundInt_near (y : Rat) (n : Int) : |(roundInt y : Rat) - y| ≤ |(n : Rat) - y| ∧
    (|(n : Rat) - y| = |(roundInt y : Rat) - y| → n ≠ roundInt y → roundInt y % 2 = 0) := by
  have f1 : (y.floor : Rat) ≤ y := Rat.floor_le y
  have f2 : y < y.floor + 1 := by have := Rat.lt_floor_add_one y; push_cast at this; exact this
  have habs : y.floor < n ∧ (y.floor : Rat) + 1 ≤ n ∨ n ≤ y.floor ∧ (n : Rat) ≤ y.floor := by
    rcases Int.lt_or_le y.floor n with h | h
    · exact .inl ⟨h, by exact_mod_cast h⟩
    · exact .inr ⟨h, by exact_mod_cast h⟩
  have hn : y.floor < n ∧ |(n : Rat) - y| = n - y ∧ (y.floor : Rat) + 1 ≤ n ∨
      n ≤ y.floor ∧ |(n : Rat) - y| = y - n ∧ (n : Rat) ≤ y.floor := by
    rcases habs with ⟨h, h'⟩ | ⟨h, h'⟩
    · exact .inl ⟨h, abs_of_nonneg (by linarith), h'⟩
    · exact .inr ⟨h, by rw [abs_of_nonpos (by linarith)]; ring, h'⟩
  have hlo : |(y.floor : Rat) - y| = y - y.floor := by rw [abs_of_nonpos (by linarith)]; ring
  have hhi : |((y.floor + 1 : Int) : Rat) - y| = y.floor + 1 - y := by push_cast; rw [abs_of_nonneg (by linarith)]
  have key : ∀ a b : Int, ((a : Rat) = b) → a = b := fun a b h => by exact_mod_cast h
  unfold roundInt
  split_ifs with h1 h2 h3
  · rw [hlo]
    rcases hn with ⟨h, h', h''⟩ | ⟨h, h', h''⟩ <;> rw [h']
    · exact ⟨by linarith, fun he _ => absurd he (by linarith)⟩
    · exact ⟨by linarith, fun he hne => absurd (key _ _ (by linarith)) hne⟩
  · rw [hhi]
    rcases hn with ⟨h, h', h''⟩ | ⟨h, h', h''⟩ <;> rw [h']
    · exact ⟨by linarith, fun he hne => absurd (key _ _ (by push_cast; linarith)) hne⟩
    · exact ⟨by linarith, fun he _ => absurd he (by linarith)⟩
  · rw [hlo]
    refine ⟨?_, fun _ _ => h3⟩
    rcases hn with ⟨h, h', h''⟩ | ⟨h, h', h''⟩ <;> rw [h'] <;> linarith
  · rw [hhi]
    refine ⟨?_, fun _ _ => by omega⟩
    rcases hn with ⟨h, h', h''⟩ | ⟨h, h', h''⟩ <;> rw [h'] <;> linarith

/-- **C94**: `roundDouble`, to which the model rounds the results of sums, products and conversions, is rounding to the
nearest double, to the even one if two are equally close, for every number. -/
theorem C94_rounding (x : Rat) : Nearest x (roundDouble x) := by
  rcases eq_or_ne x 0 with hx | hx
  · subst hx
    rw [roundDouble_zero]
    refine ⟨⟨0, 0, by norm_num, by norm_num, by norm_num⟩, fun p _ => ?_, fun p _ hp he => ?_⟩
    · rw [ratAbs, ratAbs, sub_zero, abs_zero]; exact abs_nonneg _
    · rw [ratAbs, ratAbs, sub_zero, sub_zero, abs_zero, abs_eq_zero] at he
      exact absurd he hp
  obtain ⟨e, h1, h2, h3⟩ := roundDouble_form x hx
  generalize hy : x * 2 ^ (52 - e) = y at h3
  have hp0 : (0 : Rat) < 2 ^ (e - 52) := by positivity
  have hq0 : (0 : Rat) < 2 ^ (52 - e) := by positivity
  have hpq : (2 : Rat) ^ (52 - e) * 2 ^ (e - 52) = 1 := by
    rw [← zpow_add₀ (by norm_num), show 52 - e + (e - 52) = 0 by ring, zpow_zero]
  have hxy : x = y * 2 ^ (e - 52) := by rw [← hy, mul_assoc, hpq, mul_one]
  have hylo : (2 : Rat) ^ 52 ≤ |y| := by
    have := pow_scale e 0
    rw [add_zero] at this
    rw [← hy, abs_mul, abs_of_pos hq0, show (2 : Rat) ^ 52 = 2 ^ (52 + 0 : Int) by norm_num, ← this]
    exact mul_le_mul_of_nonneg_right h1 hq0.le
  have hyhi : |y| < (2 : Rat) ^ 53 := by
    have := pow_scale e 1
    rw [← hy, abs_mul, abs_of_pos hq0, show (2 : Rat) ^ 53 = 2 ^ (52 + 1 : Int) by norm_num, ← this]
    exact mul_lt_mul_of_pos_right h2 hq0
  -- the signed power of two below y
  obtain ⟨s, hs, hs'⟩ : ∃ s : Int, s.natAbs = 2 ^ 52 ∧
      ∀ q : Rat, |q| < 2 ^ 52 → |(s : Rat) - y| < |q - y| := by
    rcases le_total 0 y with h | h
    · rw [abs_of_nonneg h] at hylo
      refine ⟨2 ^ 52, by norm_num, fun q hq => ?_⟩
      rw [abs_lt] at hq
      rw [abs_of_nonpos (by push_cast; linarith), abs_of_neg (by linarith)]
      push_cast; linarith [hq.2]
    · rw [abs_of_nonpos h] at hylo
      refine ⟨-2 ^ 52, by norm_num, fun q hq => ?_⟩
      rw [abs_lt] at hq
      rw [abs_of_nonneg (by push_cast; linarith), abs_of_pos (by linarith)]
      push_cast; linarith [hq.1]
  have hdist : ∀ q : Rat, |q * 2 ^ (e - 52) - x| = |q - y| * 2 ^ (e - 52) := fun q => by
    rw [hxy, ← sub_mul, abs_mul, abs_of_pos hp0]
  -- every double is an integer or small after scaling
  have hdouble : ∀ p : Rat, IsDouble p → ∃ q : Rat, p = q * 2 ^ (e - 52) ∧ ((∃ n : Int, q = n) ∨ |q| < 2 ^ 52) := by
    rintro p ⟨m, f, hm1, hm2, hp⟩
    refine ⟨m * 2 ^ (f + 52 - e), ?_, ?_⟩
    · rw [hp, mul_assoc, ← zpow_add₀ (by norm_num), show f + 52 - e + (e - 52) = f by ring]
    · rcases Int.lt_or_le (f + 52 - e) 0 with hf | hf
      · refine .inr ?_
        have a1 : |(m : Rat)| < 2 ^ 53 := by rw [abs_lt]; exact ⟨by exact_mod_cast hm1, by exact_mod_cast hm2⟩
        have a2 : (2 : Rat) ^ (f + 52 - e) ≤ 2 ^ (-1 : Int) := zpow_le_zpow_right₀ (by norm_num) (by omega)
        have a3 : (0 : Rat) < 2 ^ (f + 52 - e) := by positivity
        rw [abs_mul, abs_of_pos a3]
        calc |(m : Rat)| * 2 ^ (f + 52 - e) < 2 ^ 53 * 2 ^ (f + 52 - e) := mul_lt_mul_of_pos_right a1 a3
          _ ≤ 2 ^ 53 * 2 ^ (-1 : Int) := mul_le_mul_of_nonneg_left a2 (by positivity)
          _ = 2 ^ 52 := by norm_num
      · refine .inl ⟨m * 2 ^ (f + 52 - e).toNat, ?_⟩
        push_cast
        rw [← zpow_natCast, Int.toNat_of_nonneg hf]
  -- the size of the significand
  have hz : 2 ^ 52 ≤ (roundInt y).natAbs ∧ (roundInt y).natAbs ≤ 2 ^ 53 := by
    rcases le_total 0 y with h | h
    · rw [abs_of_nonneg h] at hylo hyhi
      have a1 : roundInt ((2 ^ 52 : Int) : Rat) ≤ roundInt y := roundInt_mono (by push_cast; exact hylo)
      have a2 : roundInt y ≤ roundInt ((2 ^ 53 : Int) : Rat) := roundInt_mono (by push_cast; exact hyhi.le)
      rw [roundInt_intCast] at a1 a2
      omega
    · rw [abs_of_nonpos h] at hylo hyhi
      have a1 : roundInt y ≤ roundInt ((-2 ^ 52 : Int) : Rat) := roundInt_mono (by push_cast; linarith)
      have a2 : roundInt ((-2 ^ 53 : Int) : Rat) ≤ roundInt y := roundInt_mono (by push_cast; linarith)
      rw [roundInt_intCast] at a1 a2
      omega
  -- two forms of the result
  have hform : ∃ m f : Int, 2 ^ 52 ≤ m.natAbs ∧ m.natAbs < 2 ^ 53 ∧ (roundInt y % 2 = 0 → m % 2 = 0) ∧
      roundDouble x = m * 2 ^ f := by
    rcases Nat.lt_or_eq_of_le hz.2 with h | h
    · exact ⟨roundInt y, e - 52, hz.1, h, id, h3⟩
    · rcases Int.natAbs_eq (roundInt y) with hr | hr
      · refine ⟨2 ^ 52, e - 52 + 1, by norm_num, by norm_num, fun _ => by norm_num, ?_⟩
        rw [h3, hr, h, zpow_add₀ (by norm_num)]; push_cast; ring
      · refine ⟨-2 ^ 52, e - 52 + 1, by norm_num, by norm_num, fun _ => by norm_num, ?_⟩
        rw [h3, hr, h, zpow_add₀ (by norm_num)]; push_cast; ring
  obtain ⟨m, f, m1, m2, m3, m4⟩ := hform
  refine ⟨⟨m, f, by omega, by omega, m4⟩, fun p hp => ?_, fun p hp hne heq => ?_⟩
  · obtain ⟨q, rfl, hq⟩ := hdouble p hp
    rw [ratAbs, ratAbs, h3, hdist, hdist]
    refine mul_le_mul_of_nonneg_right ?_ hp0.le
    rcases hq with ⟨n, rfl⟩ | hq
    · exact (roundInt_near y n).1
    · exact ((roundInt_near y s).1.trans (hs' q hq).le)
  · obtain ⟨q, rfl, hq⟩ := hdouble p hp
    rw [ratAbs, ratAbs, h3, hdist, hdist] at heq
    have heq' := mul_right_cancel₀ hp0.ne' heq
    refine ⟨m, f, m1, m2, m3 ?_, m4⟩
    rcases hq with ⟨n, rfl⟩ | hq
    · exact (roundInt_near y n).2 heq' (fun h => hne (by rw [h3, h]))
    · exact absurd heq' (ne_of_gt (lt_of_le_of_lt (roundInt_near y s).1 (hs' q hq)))

/-- Between two positive doubles with even significands there is another double. -/
theorem double_between {q r : Rat} (hq : EvenDouble q) (hr : EvenDouble r) (h0 : 0 < q) (h : q < r) :
    ∃ p : Rat, IsDouble p ∧ q < p ∧ p < r := by
  obtain ⟨m, f, m1, m2, m3, m4⟩ := hq
  obtain ⟨n, g, n1, n2, n3, n4⟩ := hr
  have hf : (0 : Rat) < 2 ^ f := by positivity
  have hg : (0 : Rat) < 2 ^ g := by positivity
  have hm : 0 < m := by
    have : (0 : Rat) < m := by rw [m4] at h0; exact pos_of_mul_pos_left h0 hf.le
    exact_mod_cast this
  have hn : 0 < n := by
    have : (0 : Rat) < n := by rw [n4] at h; exact pos_of_mul_pos_left (h0.trans h) hg.le
    exact_mod_cast this
  have hfg : f ≤ g := by
    by_contra hlt
    have a1 : (n : Rat) < 2 ^ 53 := by exact_mod_cast (show n < 2 ^ 53 by omega)
    have a2 : (2 : Rat) ^ g ≤ 2 ^ (f - 1) := zpow_le_zpow_right₀ (by norm_num) (by omega)
    have a3 : (2 : Rat) ^ 52 ≤ m := by exact_mod_cast (show 2 ^ 52 ≤ m by omega)
    have : r < q := by
      rw [n4, m4]
      calc (n : Rat) * 2 ^ g < 2 ^ 53 * 2 ^ g := mul_lt_mul_of_pos_right a1 hg
        _ ≤ 2 ^ 53 * 2 ^ (f - 1) := mul_le_mul_of_nonneg_left a2 (by positivity)
        _ = 2 ^ 52 * 2 ^ f := by rw [zpow_sub₀ (by norm_num)]; ring
        _ ≤ m * 2 ^ f := mul_le_mul_of_nonneg_right a3 hf.le
    linarith
  obtain ⟨k, rfl⟩ : ∃ k : Nat, g = f + k := ⟨(g - f).toNat, by omega⟩
  have hr' : r = ((n * 2 ^ k : Int) : Rat) * 2 ^ f := by
    rw [n4, zpow_add₀ (by norm_num), zpow_natCast]; push_cast; ring
  have hlt : m < n * 2 ^ k := by
    rw [m4, hr'] at h
    exact_mod_cast lt_of_mul_lt_mul_right h hf.le
  have heven : (n * 2 ^ k) % 2 = 0 := by rw [Int.mul_emod, n3, zero_mul, Int.zero_emod]
  generalize n * 2 ^ k = t at *
  refine ⟨(m + 1 : Int) * 2 ^ f, ⟨m + 1, f, by omega, by omega, rfl⟩, ?_, ?_⟩
  · rw [m4]; exact mul_lt_mul_of_pos_right (by push_cast; linarith) hf
  · rw [hr']; exact mul_lt_mul_of_pos_right (by exact_mod_cast (show m + 1 < t by omega)) hf

theorem Spec.IsDouble.neg {q : Rat} (h : IsDouble q) : IsDouble (-q) := by
  obtain ⟨m, e, h1, h2, h3⟩ := h
  exact ⟨-m, e, by omega, by omega, by rw [h3]; push_cast; ring⟩

theorem Spec.EvenDouble.neg {q : Rat} (h : EvenDouble q) : EvenDouble (-q) := by
  obtain ⟨m, e, h1, h2, h3, h4⟩ := h
  exact ⟨-m, e, by omega, by omega, by omega, by rw [h4]; push_cast; ring⟩

/-- **C94**: no other number is `x` rounded to the nearest double, so `Nearest` determines `roundDouble`. -/
theorem C94_rounding_unique (x q : Rat) (h : Nearest x q) : q = roundDouble x := by
  have H := C94_rounding x
  generalize roundDouble x = r at H
  by_contra hne
  have hd : |q - x| = |r - x| := by
    have h1 := h.closest r H.double
    have h2 := H.closest q h.double
    rw [ratAbs, ratAbs] at h1 h2
    exact le_antisymm h1 h2
  have hq := h.even r H.double (Ne.symm hne) (by rw [ratAbs, ratAbs, hd])
  have hr := H.even q h.double hne (by rw [ratAbs, ratAbs, hd])
  have hsum : q + r = 2 * x := by
    rcases abs_eq_abs.mp hd with h | h
    · exact absurd (by linarith) hne
    · linarith
  -- a double strictly between the two would be closer
  have hclose : ∀ p : Rat, IsDouble p → ¬ (q < p ∧ p < r) ∧ ¬ (r < p ∧ p < q) := by
    intro p hp
    have h1 := h.closest p hp
    rw [ratAbs, ratAbs] at h1
    constructor
    · rintro ⟨a, b⟩
      rw [abs_of_neg (show q - x < 0 by linarith)] at h1
      rcases abs_cases (p - x) with ⟨h, _⟩ | ⟨h, _⟩ <;> linarith
    · rintro ⟨a, b⟩
      rw [abs_of_pos (show 0 < q - x by linarith)] at h1
      rcases abs_cases (p - x) with ⟨h, _⟩ | ⟨h, _⟩ <;> linarith
  have hzero : IsDouble 0 := ⟨0, 0, by norm_num, by norm_num, by norm_num⟩
  have hnz : ∀ t : Rat, EvenDouble t → t ≠ 0 := by
    rintro t ⟨m, e, h1, -, -, h4⟩ h0
    rw [h0] at h4
    rcases mul_eq_zero.mp h4.symm with h | h
    · have : m = 0 := by exact_mod_cast h
      subst this; simp at h1
    · exact absurd h (by positivity)
  have hbetween : ∀ s t : Rat, EvenDouble s → EvenDouble t → s < t → ∃ p : Rat, IsDouble p ∧ s < p ∧ p < t := by
    intro s t hs ht hst
    rcases lt_or_gt_of_ne (hnz s hs) with s0 | s0
    · rcases lt_or_gt_of_ne (hnz t ht) with t0 | t0
      · obtain ⟨p, h1, h2, h3⟩ := double_between ht.neg hs.neg (by linarith) (by linarith)
        exact ⟨-p, h1.neg, by linarith, by linarith⟩
      · exact ⟨0, hzero, s0, t0⟩
    · exact double_between hs ht s0 hst
  rcases lt_or_gt_of_ne hne with hlt | hlt
  · obtain ⟨p, h1, h2, h3⟩ := hbetween q r hq hr hlt
    exact (hclose p h1).1 ⟨h2, h3⟩
  · obtain ⟨p, h1, h2, h3⟩ := hbetween r q hr hq hlt
    exact (hclose p h1).2 ⟨h2, h3⟩

/-- 2^53 + 1 lies between two doubles and is rounded to the even one. -/
example : roundDouble (2 ^ 53 + 1) = 2 ^ 53 ∧ EvenDouble (2 ^ 53) ∧ IsDouble (2 ^ 53 + 2) ∧ ¬ IsDouble (2 ^ 53 + 1) := by
  refine ⟨by decide +kernel, ⟨2 ^ 52, 1, by norm_num, by norm_num, by norm_num, by norm_num⟩,
    ⟨2 ^ 52 + 1, 1, by norm_num, by norm_num, by norm_num⟩, fun h => ?_⟩
  have h1 := (C94_rounding (2 ^ 53 + 1)).closest _ h
  rw [show roundDouble (2 ^ 53 + 1) = 2 ^ 53 by decide +kernel] at h1
  norm_num [Rat.abs] at h1

/-- C94: 2^53 is the only double nearest to 2^53 + 1 with ties to even. -/
example (q : Rat) (h : Nearest (2 ^ 53 + 1) q) : q = 2 ^ 53 :=
  (C94_rounding_unique _ q h).trans (by decide +kernel)

end Verif
