import Mathlib.Analysis.SpecialFunctions.Log.Base
import Verif.Lemmas.Doubles
import Verif.Props.SyntheticData
/-!
# C75: which expansion factors are safe with doubles

Uses real logarithms (Mathlib).
-/
namespace Verif
open Res Spec SyntheticData

/-- Logarithms of positive numbers and sums below 256 have an absolute error of at most 2^-40 (the errors of IEEE
doubles and of common implementations of `log2` are below 2^-45). -/
structure Spec.Accurate (D : Doubles) : Prop where
  log2 : ∀ n : Nat, 1 ≤ n → n < 2 ^ 31 → |((D.log2 n : Rat) : ℝ) - Real.logb 2 n| ≤ 1 / 2 ^ 40
  round : ∀ x : Rat, |x| ≤ 256 → |D.round x - x| ≤ 1 / 2 ^ 40

theorem logb_ge {n p q : Nat} (hq : 0 < q) (hn : 0 < n) (h : 2 ^ p ≤ n ^ q) : (p : ℝ) / q ≤ Real.logb 2 n := by
  have hq' : (0 : ℝ) < q := by exact_mod_cast hq
  have hn' : (0 : ℝ) < n := by exact_mod_cast hn
  rw [div_le_iff₀ hq', mul_comm]
  have h1 : Real.logb 2 ((2 : ℝ) ^ p) ≤ Real.logb 2 ((n : ℝ) ^ q) :=
    Real.logb_le_logb_of_le (by norm_num) (by positivity) (by exact_mod_cast h)
  rw [Real.logb_pow, Real.logb_pow, Real.logb_self_eq_one (by norm_num)] at h1
  linarith

theorem logb_step {N : Nat} (hN : 1 ≤ N) (h : N < 2 ^ 29) : Real.logb 2 N + 1 / 2 ^ 29 ≤ Real.logb 2 ((N : ℝ) + 1) := by
  have hN' : (1 : ℝ) ≤ N := by exact_mod_cast hN
  have h2 : ((N : ℝ) + 1) ≤ 2 ^ 29 := by
    have : N + 1 ≤ 2 ^ 29 := h
    exact_mod_cast this
  have e : Real.logb 2 ((N : ℝ) + 1) - Real.logb 2 N = Real.logb 2 (((N : ℝ) + 1) / N) := by
    rw [Real.logb_div (by positivity) (by positivity)]
  have h3 := Real.one_sub_inv_le_log_of_pos (x := ((N : ℝ) + 1) / N) (by positivity)
  have h4 : 1 - (((N : ℝ) + 1) / N)⁻¹ = 1 / ((N : ℝ) + 1) := by field_simp; ring
  have h5 : 1 / (2 : ℝ) ^ 29 ≤ 1 / ((N : ℝ) + 1) := one_div_le_one_div_of_le (by positivity) h2
  have hl2 : Real.log 2 ≤ 1 := by have := Real.log_le_sub_one_of_pos (x := 2) (by norm_num); linarith
  have hl0 : 0 < Real.log 2 := Real.log_pos (by norm_num)
  have h6 : Real.log (((N : ℝ) + 1) / N) ≤ Real.logb 2 (((N : ℝ) + 1) / N) := by
    rw [Real.logb, le_div_iff₀ hl0]
    have : 0 ≤ Real.log (((N : ℝ) + 1) / N) := Real.log_nonneg (by rw [le_div_iff₀ (by positivity)]; linarith)
    nlinarith
  linarith

theorem truncate_bounds {x : Rat} {c : Nat} (h : (c : Rat) ≤ x) :
    ∃ k : Nat, truncate x = k ∧ c ≤ k ∧ (k : Rat) ≤ x := by
  have h0 : (0 : Rat) ≤ x := le_trans (by positivity) h
  have hf : (c : Int) ≤ x.floor := Rat.le_floor_iff.mpr (by exact_mod_cast h)
  refine ⟨x.floor.toNat, ?_, by omega, ?_⟩
  · rw [truncate, if_pos h0]; omega
  · have := Rat.floor_le (a := x)
    have e : ((x.floor.toNat : Int) : Rat) = (x.floor : Rat) := by congr 1; omega
    have e' : ((x.floor.toNat : Nat) : Rat) = ((x.floor.toNat : Int) : Rat) := by push_cast; rfl
    rw [e', e]; exact this

/-- C75, doubles: with an expansion factor of at least 3 and `n * f` at least 5, the errors of doubles are harmless. With
expansion factor 2 they need not be (`C75_hang_refuted`). -/
theorem C75_doubles (D : Doubles) (H : Accurate D) (L n f : Nat) (hL : L ≤ 128) (hn : 1 ≤ n) (hf : 3 ≤ f)
    (h5 : 5 ≤ n * f) (hN : n * f < 2 ^ 29) : Harmless D L n f := by
  have hnN : n ≤ n * f := Nat.le_mul_of_pos_right _ (by omega)
  have hfN : f ≤ n * f := Nat.le_mul_of_pos_left _ (by omega)
  have hn0 : (n : ℝ) ≠ 0 := by have : 0 < n := by omega
                               positivity
  have hf0 : (f : ℝ) ≠ 0 := by have : 0 < f := by omega
                               positivity
  have bound : ∀ m : Nat, 1 ≤ m → m < 2 ^ 29 → 0 ≤ Real.logb 2 m ∧ Real.logb 2 m ≤ 29 := by
    intro m h1 h2
    have h1' : (1 : ℝ) ≤ m := by exact_mod_cast h1
    refine ⟨Real.logb_nonneg (by norm_num) h1', ?_⟩
    have : Real.logb 2 m ≤ Real.logb 2 ((2 : ℝ) ^ 29) :=
      Real.logb_le_logb_of_le (by norm_num) (by positivity) (by exact_mod_cast (Nat.le_of_lt h2))
    rwa [Real.logb_pow, Real.logb_self_eq_one (by norm_num), mul_one] at this
  have hprod : Real.logb 2 n + Real.logb 2 f = Real.logb 2 ((n * f : Nat) : ℝ) := by
    rw [← Real.logb_mul hn0 hf0]; push_cast; rfl
  obtain ⟨ε, hε⟩ : ∃ ε : ℝ, ε = 1 / 2 ^ 40 := ⟨_, rfl⟩
  obtain ⟨δ, hδ⟩ : ∃ δ : ℝ, δ = 1 / 2 ^ 29 := ⟨_, rfl⟩
  have hε0 : 0 < ε := by rw [hε]; positivity
  have hε1 : 6 * ε < 1 / 8 := by rw [hε]; norm_num
  have hδε : 6 * ε < δ := by rw [hε, hδ]; norm_num
  have hlog : ∀ m : Nat, 1 ≤ m → m < 2 ^ 29 → ((D.log2 m : Rat) : ℝ) ≤ Real.logb 2 m + ε ∧
      Real.logb 2 m - ε ≤ ((D.log2 m : Rat) : ℝ) ∧ 0 ≤ Real.logb 2 m ∧ Real.logb 2 m ≤ 29 := by
    intro m h1 h2
    have := abs_le.mp (H.log2 m h1 (by omega))
    rw [← hε] at this
    exact ⟨by linarith [this.2], by linarith [this.1], bound m h1 h2⟩
  have hround : ∀ x : Rat, -256 ≤ (x : ℝ) → (x : ℝ) ≤ 256 →
      ((D.round x : Rat) : ℝ) ≤ x + ε ∧ (x : ℝ) - ε ≤ ((D.round x : Rat) : ℝ) := by
    intro x h1 h2
    have h := H.round x (abs_le.mpr ⟨by exact_mod_cast h1, by exact_mod_cast h2⟩)
    have h' : ((|D.round x - x| : Rat) : ℝ) ≤ ((1 / 2 ^ 40 : Rat) : ℝ) := Rat.cast_le.mpr h
    rw [Rat.cast_abs] at h'
    have e : ((1 / 2 ^ 40 : Rat) : ℝ) = ε := by rw [hε]; norm_num
    rw [e] at h'
    obtain ⟨a, b⟩ := abs_le.mp h'
    push_cast at a b
    exact ⟨by linarith, by linarith⟩
  have step := logb_step (N := n * f) (by omega) hN
  rw [← hδ, ← hprod] at step
  obtain ⟨a1, a2, a3, a4⟩ := hlog n hn (by omega)
  obtain ⟨b1, b2, b3, b4⟩ := hlog f (by omega) (by omega)
  constructor
  · obtain ⟨r1, r2⟩ := hround (D.log2 n + D.log2 f) (by rw [Rat.cast_add]; linarith) (by rw [Rat.cast_add]; linarith)
    rw [Rat.cast_add] at r1 r2
    have h9 := logb_ge (n := n * f) (p := 9) (q := 4) (by omega) (by omega)
      (le_trans (by norm_num : 2 ^ 9 ≤ 5 ^ 4) (Nat.pow_le_pow_left h5 4))
    rw [← hprod] at h9
    have h9' : (9 : ℝ) / 4 ≤ Real.logb 2 n + Real.logb 2 f := by exact_mod_cast h9
    have hlow : ((2 : Nat) : Rat) ≤ D.round (D.log2 n + D.log2 f) := by
      have : (2 : ℝ) ≤ ((D.round (D.log2 n + D.log2 f) : Rat) : ℝ) := by linarith
      exact_mod_cast this
    obtain ⟨k, k1, k2, k3⟩ := truncate_bounds hlow
    refine ⟨k, k1, k2, ?_⟩
    by_contra hc
    have hc' : n * f + 1 ≤ 2 ^ k := by omega
    have h1 : Real.logb 2 (((n * f : Nat) : ℝ) + 1) ≤ Real.logb 2 ((2 : ℝ) ^ k) :=
      Real.logb_le_logb_of_le (by norm_num) (by positivity) (by exact_mod_cast hc')
    rw [Real.logb_pow, Real.logb_self_eq_one (by norm_num), mul_one] at h1
    have h2 : (k : ℝ) ≤ ((D.round (D.log2 n + D.log2 f) : Rat) : ℝ) := by exact_mod_cast k3
    linarith
  · intro l m hl hm hmn
    have hm0 : (m : ℝ) ≠ 0 := by have : 0 < m := by omega
                                 positivity
    obtain ⟨c1, c2, c3, c4⟩ := hlog m hm (by omega)
    have hl' : (l : ℝ) ≤ 128 := by exact_mod_cast (by omega : l ≤ 128)
    have hl0 : (0 : ℝ) ≤ l := by positivity
    have ecast : ((((l : Int) : Rat) + D.log2 n : Rat) : ℝ) = l + ((D.log2 n : Rat) : ℝ) := by push_cast; rfl
    obtain ⟨r1, r2⟩ := hround (((l : Int) : Rat) + D.log2 n) (by rw [ecast]; linarith) (by rw [ecast]; linarith)
    rw [ecast] at r1 r2
    generalize D.round (((l : Int) : Rat) + D.log2 n) = x1 at r1 r2
    obtain ⟨s1, s2⟩ := hround (x1 + D.log2 f) (by rw [Rat.cast_add]; linarith) (by rw [Rat.cast_add]; linarith)
    rw [Rat.cast_add] at s1 s2
    generalize D.round (x1 + D.log2 f) = x2 at s1 s2
    obtain ⟨t1, t2⟩ := hround (x2 - D.log2 m) (by rw [Rat.cast_sub]; linarith) (by rw [Rat.cast_sub]; linarith)
    rw [Rat.cast_sub] at t1 t2
    have hmm : Real.logb 2 m ≤ Real.logb 2 n :=
      Real.logb_le_logb_of_le (by norm_num) (by exact_mod_cast hm) (by exact_mod_cast hmn)
    have h32 := logb_ge (n := f) (p := 3) (q := 2) (by omega) (by omega)
      (le_trans (by norm_num : 2 ^ 3 ≤ 3 ^ 2) (Nat.pow_le_pow_left hf 2))
    have h32' : (3 : ℝ) / 2 ≤ Real.logb 2 f := by exact_mod_cast h32
    have hlow : ((l + 1 : Nat) : Rat) ≤ D.round (x2 - D.log2 m) := by
      have : (l : ℝ) + 1 ≤ ((D.round (x2 - D.log2 m) : Rat) : ℝ) := by linarith
      exact_mod_cast this
    obtain ⟨t, u1, u2, u3⟩ := truncate_bounds hlow
    refine ⟨t - l, by rw [u1]; omega, by omega, ?_⟩
    by_contra hc
    have hc' : n * f + 1 ≤ m * 2 ^ (t - l) := by omega
    have h1 : Real.logb 2 (((n * f : Nat) : ℝ) + 1) ≤ Real.logb 2 ((m : ℝ) * (2 : ℝ) ^ (t - l)) :=
      Real.logb_le_logb_of_le (by norm_num) (by positivity) (by exact_mod_cast hc')
    rw [Real.logb_mul hm0 (by positivity), Real.logb_pow, Real.logb_self_eq_one (by norm_num), mul_one] at h1
    have h2 : (t : ℝ) ≤ ((D.round (x2 - D.log2 m) : Rat) : ℝ) := by exact_mod_cast u3
    rw [Nat.cast_sub (by omega)] at h1
    linarith

/-- C75, IEEE doubles: it suffices that the logarithms have an error of at most 2^-40. -/
theorem C75_ieee (D : Doubles) (hround : D.round = roundDouble)
    (hlog : ∀ n : Nat, 1 ≤ n → n < 2 ^ 31 → |((D.log2 n : Rat) : ℝ) - Real.logb 2 n| ≤ 1 / 2 ^ 40)
    (L n f : Nat) (hL : L ≤ 128) (hn : 1 ≤ n) (hf : 3 ≤ f) (h5 : 5 ≤ n * f) (hN : n * f < 2 ^ 29) : Harmless D L n f :=
  C75_doubles D ⟨hlog, fun x hx => by
    rw [hround]; exact le_trans (roundDouble_error x hx) (by norm_num)⟩ L n f hL hn hf h5 hN

/-- The conditions can be met: logarithms rounded down to multiples of 2^-50. -/
example : ∃ D : Doubles, D.round = roundDouble ∧
    ∀ n : Nat, 1 ≤ n → n < 2 ^ 31 → |((D.log2 n : Rat) : ℝ) - Real.logb 2 n| ≤ 1 / 2 ^ 40 := by
  refine ⟨⟨fun n => (⌊Real.logb 2 n * 2 ^ 50⌋ : Rat) / 2 ^ 50, roundDouble⟩, rfl, ?_⟩
  intro n _ _
  have h1 := Int.floor_le (Real.logb 2 n * 2 ^ 50)
  have h2 := Int.lt_floor_add_one (Real.logb 2 n * 2 ^ 50)
  push_cast
  generalize ⌊Real.logb 2 n * 2 ^ 50⌋ = z at *
  rw [abs_le, div_sub' (by positivity), le_div_iff₀ (by positivity), div_le_iff₀ (by positivity)]
  constructor <;> norm_num at * <;> linarith

/-- C75 as in the experiments reported with the program: 2^20 nonzeros, expansion factor 4, 32 bits. -/
example (D : Doubles) (H : Accurate D) : Harmless D 32 (2 ^ 20) 4 :=
  C75_doubles D H 32 (2 ^ 20) 4 (by norm_num) (by norm_num) (by norm_num) (by norm_num) (by norm_num)

/-- C75 with double-precision arithmetic, on an example. -/
example (D : Doubles) (hround : D.round = roundDouble)
    (hlog : ∀ n : Nat, 1 ≤ n → n < 2 ^ 31 → |((D.log2 n : Rat) : ℝ) - Real.logb 2 n| ≤ 1 / 2 ^ 40) : Harmless D 128 (2 ^ 20) 4 :=
  C75_ieee D hround hlog 128 (2 ^ 20) 4 (by norm_num) (by norm_num) (by norm_num) (by norm_num) (by norm_num)

end Verif
