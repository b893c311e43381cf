import Verif.Spec.SecurityLevel
import Verif.Lemmas.Doubles
import Verif.Props.Statistical
import Verif.Props.PirBenchmarks
/-!
# C94: `GetSecurityLevel` in double precision

Uses real logarithms (Mathlib).
-/
namespace Verif
open Res Spec Verif.Uniform

theorem exactLevel_eq {n N : Nat} (hn : 1 ≤ n) (hN : 0 < N) :
    exactLevel n N = 128 + 3 - (Real.logb 2 N + Real.logb 2 n + Real.logb 2 (n + 1)) := by
  have hN' : (N : ℝ) ≠ 0 := by positivity
  have hn' : (n : ℝ) ≠ 0 := by have : 0 < n := hn
                               positivity
  rw [exactLevel, Real.logb_div (by positivity) (by positivity), Real.logb_mul (by positivity) hN',
    Real.logb_mul hn' (by positivity), Real.logb_pow, Real.logb_self_eq_one (by norm_num)]
  push_cast
  ring

theorem logb_relative {x y δ : ℝ} (hy : 0 < y) (hδ0 : 0 ≤ δ) (hδ : δ ≤ 1 / 8) (h : |x - y| ≤ y * δ) :
    |Real.logb 2 x - Real.logb 2 y| ≤ 4 * δ := by
  obtain ⟨h1, h2⟩ := abs_le.mp h
  have hx : 0 < x := by nlinarith
  have hl2 : (1 : ℝ) / 2 ≤ Real.log 2 := by
    have := Real.one_sub_inv_le_log_of_pos (x := 2) (by norm_num)
    norm_num at this ⊢
    linarith
  have hl0 : 0 < Real.log 2 := by linarith
  have up : ∀ {u v : ℝ}, 0 < u → 0 < v → u ≤ v * (1 + 2 * δ) → Real.logb 2 u - Real.logb 2 v ≤ 4 * δ := by
    intro u v hu hv huv
    rw [← Real.logb_div (by positivity) (by positivity), Real.logb, div_le_iff₀ hl0]
    have a := Real.log_le_sub_one_of_pos (x := u / v) (by positivity)
    have b : u / v ≤ 1 + 2 * δ := by rw [div_le_iff₀ hv]; linarith
    nlinarith
  rw [abs_le]
  constructor
  · have := up hy hx (by nlinarith)
    linarith
  · exact up hx hy (by nlinarith)

theorem logb_bounds {m k : Nat} (h1 : 1 ≤ m) (h2 : m ≤ 2 ^ k) : 0 ≤ Real.logb 2 m ∧ Real.logb 2 m ≤ k := by
  have h1' : (1 : ℝ) ≤ m := by exact_mod_cast h1
  refine ⟨Real.logb_nonneg (by norm_num) h1', ?_⟩
  have : Real.logb 2 m ≤ Real.logb 2 ((2 : ℝ) ^ k) :=
    Real.logb_le_logb_of_le (by norm_num) (by positivity) (by exact_mod_cast h2)
  rwa [Real.logb_pow, Real.logb_self_eq_one (by norm_num), mul_one] at this

theorem roundDouble_real (x : Rat) (h1 : -256 ≤ (x : ℝ)) (h2 : (x : ℝ) ≤ 256) :
    ((roundDouble x : Rat) : ℝ) ≤ x + 1 / 2 ^ 45 ∧ (x : ℝ) - 1 / 2 ^ 45 ≤ ((roundDouble x : Rat) : ℝ) := by
  have h := roundDouble_error x (abs_le.mpr ⟨by exact_mod_cast h1, by exact_mod_cast h2⟩)
  have h' : ((|roundDouble x - x| : Rat) : ℝ) ≤ ((1 / 2 ^ 45 : Rat) : ℝ) := Rat.cast_le.mpr h
  rw [Rat.cast_abs] at h'
  obtain ⟨a, b⟩ := abs_le.mp h'
  push_cast at a b
  exact ⟨by linarith, by linarith⟩

/-- C94: `GetSecurityLevel` is within 2^-40 of the level that the bound gives, for every modulus but 0 and every number of
samples for which it is defined. -/
theorem C94_level (M : Libm) (H : AccurateLibm M) (n : Nat) (N : U128) (hn : 1 ≤ n) (hn' : n < 2 ^ 31 - 1)
    (hN : 0 < N.toNat) : |((getSecurityLevel M n N : Rat) : ℝ) - exactLevel n N.toNat| ≤ 1 / 2 ^ 40 := by
  rw [exactLevel_eq hn hN]
  have hNr : (0 : ℝ) < (N.toNat : ℝ) := by exact_mod_cast hN
  have hN1 : (1 : ℝ) ≤ (N.toNat : ℝ) := by exact_mod_cast hN
  have hlt : (N.toNat : ℝ) ≤ 2 ^ 128 := by exact_mod_cast N.isLt.le
  -- the conversion
  have hc : |((M.ofU128 N : Rat) : ℝ) - N.toNat| ≤ (N.toNat : ℝ) * (1 / 2 ^ 50) := by
    have h := H.conversion N
    have h' : ((|M.ofU128 N - N.toNat| : Rat) : ℝ) ≤ ((N.toNat / 2 ^ 50 : Rat) : ℝ) := Rat.cast_le.mpr h
    rw [Rat.cast_abs] at h'
    push_cast at h'
    linarith
  have hcl := logb_relative hNr (by positivity) (by norm_num) hc
  obtain ⟨c1, c2⟩ := abs_le.mp hc
  have hx1 : (1 / 2 : Rat) ≤ M.ofU128 N := by
    have : ((1 / 2 : Rat) : ℝ) ≤ ((M.ofU128 N : Rat) : ℝ) := by push_cast; norm_num at c1 ⊢; linarith
    exact_mod_cast this
  have hx2 : M.ofU128 N ≤ 2 ^ 129 := by
    have : ((M.ofU128 N : Rat) : ℝ) ≤ ((2 ^ 129 : Rat) : ℝ) := by push_cast; norm_num at c2 ⊢; linarith
    exact_mod_cast this
  -- the logarithms
  have l1 := H.log2 _ hx1 hx2
  have hnat : ∀ m : Nat, 1 ≤ m → m ≤ 2 ^ 31 → |((M.log2 (m : Rat) : Rat) : ℝ) - Real.logb 2 m| ≤ 1 / 2 ^ 44 := by
    intro m h1 h2
    have := H.log2 (m : Rat) (by have : (1 : Rat) ≤ m := by exact_mod_cast h1
                                 linarith)
      (by have : (m : Rat) ≤ 2 ^ 31 := by exact_mod_cast h2
          norm_num at this ⊢; linarith)
    rwa [Rat.cast_natCast] at this
  have l2 := hnat n hn (by omega)
  have l3 := hnat (n + 1) (by omega) (by omega)
  obtain ⟨b1, b1'⟩ := logb_bounds (m := N.toNat) (k := 128) hN N.isLt.le
  obtain ⟨b2, b2'⟩ := logb_bounds (m := n) (k := 31) hn (by omega)
  obtain ⟨b3, b3'⟩ := logb_bounds (m := n + 1) (k := 31) (by omega) (by omega)
  unfold getSecurityLevel
  rw [show (((n : Int) : Rat)) = ((n : Nat) : Rat) by push_cast; rfl,
    show (((n : Int) + 1 : Int) : Rat) = ((n + 1 : Nat) : Rat) by push_cast; rfl]
  have e3 : ((n + 1 : Nat) : ℝ) = (n : ℝ) + 1 := by push_cast; rfl
  rw [e3] at l3 b3 b3'
  generalize M.log2 (M.ofU128 N) = A at *
  generalize M.log2 (n : Rat) = B at *
  generalize M.log2 ((n + 1 : Nat) : Rat) = C at *
  generalize Real.logb 2 ((M.ofU128 N : Rat) : ℝ) = a' at *
  generalize Real.logb 2 (N.toNat : ℝ) = a at *
  generalize Real.logb 2 (n : ℝ) = b at *
  generalize Real.logb 2 ((n : ℝ) + 1) = c at *
  rw [abs_le] at l1 l2 l3 hcl
  norm_num at l1 l2 l3 hcl b1' b2' b3'
  obtain ⟨r1, r1'⟩ := roundDouble_real (A + B) (by push_cast; linarith) (by push_cast; linarith)
  generalize roundDouble (A + B) = S at *
  push_cast at r1 r1'
  norm_num at r1 r1'
  obtain ⟨r2, r2'⟩ := roundDouble_real (S + C) (by push_cast; linarith) (by push_cast; linarith)
  generalize roundDouble (S + C) = T at *
  push_cast at r2 r2'
  norm_num at r2 r2'
  obtain ⟨r3, r3'⟩ := roundDouble_real (((128 + 3 : Int) : Rat) - T) (by push_cast; linarith) (by push_cast; linarith)
  generalize roundDouble (((128 + 3 : Int) : Rat) - T) = U at *
  push_cast at r3 r3'
  norm_num at r3 r3'
  rw [abs_le]
  norm_num
  constructor <;> linarith

/-- The conditions can be met: correctly rounded conversions, and logarithms rounded down to multiples of 2^-50. -/
noncomputable def exLibm : Libm := ⟨fun N => roundDouble N.toNat, fun x => (⌊Real.logb 2 x * 2 ^ 50⌋ : Rat) / 2 ^ 50⟩

theorem exLibm_accurate : AccurateLibm exLibm := by
  refine ⟨fun N => ?_, fun x _ _ => ?_⟩
  · have := roundDouble_relative N.toNat
    rw [abs_of_nonneg (by positivity : (0 : Rat) ≤ (N.toNat : Rat))] at this
    refine this.trans (div_le_div_of_nonneg_left (by positivity) (by positivity) (by norm_num))
  · have h1 := Int.floor_le (Real.logb 2 x * 2 ^ 50)
    have h2 := Int.lt_floor_add_one (Real.logb 2 x * 2 ^ 50)
    unfold exLibm
    push_cast
    generalize ⌊Real.logb 2 x * 2 ^ 50⌋ = z at *
    rw [abs_le, div_sub' (by positivity), le_div_iff₀ (by positivity), div_le_iff₀ (by positivity)]
    constructor <;> norm_num at * <;> linarith

/-- C94 for 5 samples modulo 2^32 - 5. -/
example : |((getSecurityLevel exLibm 5 4294967291 : Rat) : ℝ) - Real.logb 2 (2 ^ 131 / (5 * (5 + 1) * 4294967291))| ≤
    1 / 2 ^ 40 := by
  have := C94_level exLibm exLibm_accurate 5 4294967291 (by norm_num) (by norm_num) (by decide)
  rw [exactLevel, show (4294967291 : U128).toNat = 4294967291 by decide] at this
  norm_num at this ⊢
  exact this

theorem gt_level {M : Libm} {n : Nat} {N : U128} {σ : ℚ} :
    IntModN.Sec.gt (.val σ) (M.fp.secLevel n N) = true ↔ getSecurityLevel M n N < σ := by
  simp [IntModN.Sec.gt, Libm.fp]

/-- C94: which security parameters `CheckParameters` and `GetNumBytesRequired` accept: all up to the exact level less
2^-40, none above the exact level and 2^-40. -/
theorem C94_check (M : Libm) (H : AccurateLibm M) (n : Nat) (N : U128) (b : Int) (σ : ℚ) (hn : 1 ≤ n)
    (hn' : n < 2 ^ 31 - 1) (hN : 0 < N.toNat) (hb : 1 ≤ b) (hb' : b ≤ 128) (hNb : N.toNat ≤ 2 ^ b.toNat) :
    ((σ : ℝ) ≤ exactLevel n N.toNat - 1 / 2 ^ 40 → IntModN.checkParameters M.fp n b N (.val σ) = ok () ∧
      (16 + (b + 7) / 8 * (n - 1) < 2 ^ 31 →
        IntModN.getNumBytesRequired M.fp n b N (.val σ) = ok (16 + (b + 7) / 8 * (n - 1)))) ∧
    (exactLevel n N.toNat + 1 / 2 ^ 40 < (σ : ℝ) →
      IntModN.checkParameters M.fp n b N (.val σ) = err .invalidArgument ∧
      IntModN.getNumBytesRequired M.fp n b N (.val σ) = err .invalidArgument) := by
  obtain ⟨h1, h2⟩ := abs_le.mp (C94_level M H n N hn hn' hN)
  rw [checkParameters_general, getNumBytesRequired_general, if_neg (by omega), if_neg (by omega), if_neg (by omega),
    if_neg (by omega)]
  constructor
  · intro h
    have hle : σ ≤ getSecurityLevel M n N := by
      have : (σ : ℝ) ≤ ((getSecurityLevel M n N : Rat) : ℝ) := by linarith
      exact_mod_cast this
    have hg : ¬ IntModN.Sec.gt (.val σ) (M.fp.secLevel n N) = true := by rw [gt_level]; exact not_lt.mpr hle
    refine ⟨failIf_false hg _, fun hr => ?_⟩
    rw [if_neg hg, if_neg (by omega)]
  · intro h
    have hlt : getSecurityLevel M n N < σ := by
      have : ((getSecurityLevel M n N : Rat) : ℝ) < (σ : ℝ) := by linarith
      exact_mod_cast this
    have hg : IntModN.Sec.gt (.val σ) (M.fp.secLevel n N) = true := gt_level.mpr hlt
    exact ⟨failIf_true hg _, if_pos hg⟩

/-- C94 for one sample modulo 2^64 in 128 bits: security parameter 65 is accepted, 67 is not. -/
example : IntModN.checkParameters exLibm.fp 1 128 (BitVec.ofNat 128 (2 ^ 64)) (.val 65) = ok () ∧
    IntModN.checkParameters exLibm.fp 1 128 (BitVec.ofNat 128 (2 ^ 64)) (.val 67) = err .invalidArgument := by
  have e : exactLevel 1 (BitVec.ofNat 128 (2 ^ 64)).toNat = 66 := by
    rw [exactLevel, show (BitVec.ofNat 128 (2 ^ 64)).toNat = 2 ^ 64 by decide +kernel,
      show (2 : ℝ) ^ 131 / (((1 : Nat) : ℝ) * ((1 : Nat) + 1) * ((2 ^ 64 : Nat) : ℝ)) = 2 ^ 66 by norm_num,
      Real.logb_pow, Real.logb_self_eq_one (by norm_num)]
    norm_num
  have h := fun σ => C94_check exLibm exLibm_accurate 1 (BitVec.ofNat 128 (2 ^ 64)) 128 σ (by norm_num) (by norm_num) (by decide +kernel)
    (by norm_num) (by norm_num) (by decide +kernel)
  simp only [e] at h
  exact ⟨((h 65).1 (by norm_num)).1, ((h 67).2 (by norm_num)).1⟩

/-- C94 is false without the slack: with correctly rounded conversions and logarithms that are exact for powers of two,
security parameter 3 is accepted for one sample modulo 2^127 + 1, although the bound is above 2^-3. -/
theorem C94_exact_refuted (M : Libm) (hof : ∀ N : U128, M.ofU128 N = roundDouble N.toNat)
    (hlog : ∀ k : Nat, M.log2 (2 ^ k) = k) :
    IntModN.checkParameters M.fp 1 128 (BitVec.ofNat 128 (2 ^ 127 + 1)) (.val 3) = ok () ∧
    exactLevel 1 (BitVec.ofNat 128 (2 ^ 127 + 1)).toNat < 3 := by
  constructor
  · rw [checkParameters_general, if_neg (by decide +kernel), if_neg (by decide +kernel)]
    refine failIf_false ?_ _
    have : getSecurityLevel M (1 : Nat) (BitVec.ofNat 128 (2 ^ 127 + 1)) = 3 := by
      unfold getSecurityLevel
      have e0 : roundDouble ((BitVec.ofNat 128 (2 ^ 127 + 1)).toNat : Rat) = 2 ^ 127 := by decide +kernel
      have e1 := hlog 127
      have e2 := hlog 0
      have e3 := hlog 1
      rw [hof, e0, e1, show (((1 : Nat) : Int) : Rat) = 2 ^ 0 by norm_num, e2,
        show ((((1 : Nat) : Int) + 1 : Int) : Rat) = 2 ^ 1 by norm_num, e3]
      decide +kernel
    rw [show (1 : Int) = ((1 : Nat) : Int) from rfl, gt_level, this]
    norm_num
  · rw [exactLevel, show (3 : ℝ) = Real.logb 2 (2 ^ 3) by rw [Real.logb_pow, Real.logb_self_eq_one (by norm_num)]; norm_num]
    refine Real.logb_lt_logb (by norm_num) (by rw [show (BitVec.ofNat 128 (2 ^ 127 + 1)).toNat = 2 ^ 127 + 1 by decide +kernel]; positivity) ?_
    rw [show (BitVec.ofNat 128 (2 ^ 127 + 1)).toNat = 2 ^ 127 + 1 by decide +kernel]
    norm_num

/-- The conditions can be met. -/
theorem exLibm_exact : (∀ N : U128, exLibm.ofU128 N = roundDouble N.toNat) ∧ ∀ k : Nat, exLibm.log2 (2 ^ k) = k := by
  refine ⟨fun N => rfl, fun k => ?_⟩
  have e : Real.logb 2 (((2 ^ k : Rat)) : ℝ) = k := by
    push_cast
    rw [Real.logb_pow, Real.logb_self_eq_one (by norm_num), mul_one]
  unfold exLibm
  dsimp only
  rw [e, show (k : ℝ) * 2 ^ 50 = ((k * 2 ^ 50 : Int) : ℝ) by push_cast; norm_num, Int.floor_intCast]
  push_cast
  norm_num

theorem level_bound_doubles (M : Libm) (H : AccurateLibm M) (N : U128) (hpos : 0 < N.toNat) (σ : ℚ) (n : Nat) (hn : 1 ≤ n)
    (hn' : n < 2 ^ 31 - 1) (hsec : IntModN.Sec.gt (.val σ) (M.fp.secLevel n N) = false) (d : ℚ)
    (hd : d ≤ n * (n + 1) * N.toNat / 2 ^ 131) : (d : ℝ) ≤ 2 ^ (-(σ - 1 / 2 ^ 40 : ℝ)) := by
  obtain ⟨h1, h2⟩ := abs_le.mp (C94_level M H n N hn hn' hpos)
  rw [exactLevel_eq hn hpos] at h2
  have := level_bound ⟨fun n N => getSecurityLevel M n N - 1 / 2 ^ 40, fun _ => 0⟩ N hpos (σ - 1 / 2 ^ 40) n hn
    (by
      have h : ¬ getSecurityLevel M n N < σ := fun h => by rw [gt_level.mpr h] at hsec; exact absurd hsec (by decide)
      simp only [IntModN.Sec.gt, gt_iff_lt, decide_eq_false_iff_not, not_lt] at h ⊢
      linarith)
    (by push_cast; linarith) d hd
  push_cast at this
  exact this

/-- C94, C57: residues made of uniform bytes with an accepted security parameter `σ` are within `2^-(σ - 2^-40)` of
uniform. Missing: more than one sample with a 128-bit base integer; then the claim is false, see `C57_refuted`. -/
theorem C94_residues_partial (M : Libm) (H : AccurateLibm M) (N : U128) (w : Width) (hpos : 0 < N.toNat)
    (hlt : N.toNat < 2 ^ w.bits) (σ : ℚ) (n : Nat) (hn : 1 ≤ n)
    (hsec : IntModN.getNumBytesRequired M.fp n w.bits N (.val σ) = ok ((16 + w.bits / 8 * (n - 1) : Nat) : Int))
    (hw : w ≠ .w128 ∨ n = 1) :
    ∃ f : (Fin (16 + w.bits / 8 * (n - 1)) → Fin 256) → List Nat,
      (∀ b, ∃ samples, IntModN.sampleFromBytes M.fp N w.bits (bytesOf b) (.val σ) n = ok samples ∧
        samples.map (·.toNat) = f b ∧ f b ∈ vectors (List.replicate n N.toNat)) ∧
      (distance f (vectors (List.replicate n N.toNat)) : ℝ) ≤ 2 ^ (-(σ - 1 / 2 ^ 40 : ℝ)) := by
  rw [getNumBytesRequired_width M.fp n w N hlt _ hn] at hsec
  split at hsec
  · simp at hsec
  split at hsec
  · simp at hsec
  split at hsec
  · simp at hsec
  rename_i h1 h2 h3
  obtain ⟨f, hf, hd⟩ := C57_close_partial M.fp N w hpos hlt (.val σ) n hn (by simpa using h2) hw (by omega)
  exact ⟨f, hf, level_bound_doubles M H N hpos σ n hn (by omega) (by simpa using h2) _ hd⟩

theorem exLibm_required (n : Nat) (hn : 1 ≤ n) (hn' : n ≤ 5) :
    IntModN.getNumBytesRequired exLibm.fp n (Width.bits .w32) 10#128 (.val 40) = ok ((16 + 32 / 8 * (n - 1) : Nat) : Int) := by
  have h := ((C94_check exLibm exLibm_accurate n 10#128 32 40 hn (by omega) (by decide) (by norm_num) (by norm_num)
    (by decide)).1 ?_).2 (by omega)
  · rw [show ((Width.bits .w32 : Nat) : Int) = 32 from rfl, h]
    congr 1
    omega
  · rw [exactLevel, show (10#128).toNat = 10 by decide]
    have h100 : (100 : ℝ) = Real.logb 2 (2 ^ 100) := by
      rw [Real.logb_pow, Real.logb_self_eq_one (by norm_num)]; norm_num
    have hn5 : (n : ℝ) ≤ 5 := by exact_mod_cast hn'
    have hn1 : (1 : ℝ) ≤ n := by exact_mod_cast hn
    have : Real.logb 2 (2 ^ 100) ≤ Real.logb 2 (2 ^ 131 / ((n : ℝ) * (n + 1) * (10 : Nat))) := by
      refine Real.logb_le_logb_of_le (by norm_num) (by positivity) ?_
      rw [le_div_iff₀ (by positivity)]
      norm_num
      nlinarith
    rw [← h100] at this
    norm_num at this ⊢
    linarith

/-- C94 for three residues modulo 10 stored in 32 bits, with security parameter 40. -/
example : ∃ f : (Fin 24 → Fin 256) → List Nat,
    (∀ b, ∃ samples, IntModN.sampleFromBytes exLibm.fp 10#128 32 (bytesOf b) (.val 40) 3 = ok samples ∧
      samples.map (·.toNat) = f b ∧ f b ∈ vectors [10, 10, 10]) ∧
    (distance f (vectors [10, 10, 10]) : ℝ) ≤ 2 ^ (-(((40 : ℚ) : ℝ) - 1 / 2 ^ 40)) :=
  C94_residues_partial exLibm exLibm_accurate 10#128 .w32 (by decide) (by decide) 40 3 (by decide)
    (exLibm_required 3 (by decide) (by decide)) (.inl (by decide))

/-- C94, C58 and C63: if `BitsNeeded` accepts a security parameter `σ` for a tuple of equal `IntModN`, elements made of
uniform bytes are within `2^-(σ - 2^-40)` of uniform, and so is the gap of a level in C63. Missing: tuples of `IntModN`
and other integers, for which it is false, see `C58_refuted` and `C63_refuted`. -/
theorem C94_elements_partial (M : Libm) (H : AccurateLibm M) (w : Width) (N : U128) (h1 : 0 < N.toNat)
    (h2 : N.toNat < 2 ^ w.bits) (m : Nat) (hm : m < 2 ^ 31 - 2) (σ : ℚ) (bits : Int)
    (hbits : bitsNeeded M.fp (Ty.tuple (copies (.intModN w N h1 h2) m)).helper.toValueType (.val σ) = ok bits) :
    (∃ f : (Fin (Ty.tuple (copies (.intModN w N h1 h2) m)).bytesRead → Fin 256) → List Nat,
      (∀ b, ∃ x, (Ty.tuple (copies (.intModN w N h1 h2) m)).helper.convertBytesToArrayOf (bytesOf b) = ok [x] ∧
        numbersOf (.tuple (copies (.intModN w N h1 h2) m)) x = f b ∧
        f b ∈ vectors (List.replicate (m + 1) N.toNat)) ∧
      (distance f (vectors (List.replicate (m + 1) N.toNat)) : ℝ) ≤ 2 ^ (-(σ - 1 / 2 ^ 40 : ℝ))) ∧
    (samplingGap (.tuple (copies (.intModN w N h1 h2) m)) : ℝ) ≤ 2 ^ (-(σ - 1 / 2 ^ 40 : ℝ)) := by
  have hno : ∀ k, (copies (.intModN w N h1 h2) k).noMod = false := by
    intro k
    cases k <;> rfl
  have hl : leavesOf (.tuple (copies (.intModN w N h1 h2) m)) = List.replicate (m + 1) (.mod w.bits N.toNat) :=
    leavesOfAll_copies _ _ rfl m
  have hmap : (leavesOf (.tuple (copies (.intModN w N h1 h2) m))).map Leaf.count =
      List.replicate (m + 1) N.toNat := by
    rw [hl, List.map_replicate]; rfl
  obtain ⟨f, hf, hd⟩ := C58_close (.tuple (copies (.intModN w N h1 h2) m)) (hno m)
  rw [hmap] at hf hd
  have e := alpha_replicate (m + 1) N.toNat (2 ^ w.bits)
  have e2 := alpha_beta (List.replicate (m + 1) (N.toNat, 2 ^ w.bits)) 1
  rw [Nat.mul_one, List.map_replicate] at e2
  rw [e2] at e
  have e' : (2 : ℚ) * (((List.replicate (m + 1) N.toNat).zipIdx 1).map fun p => p.1 * p.2).sum =
      (m + 1 : Nat) * ((m + 1 : Nat) + 1) * N.toNat := by exact_mod_cast e
  have hb := level_bound_doubles M H N h1 σ (m + 1) (by omega) (by omega)
    (bitsNeeded_copies M.fp h1 h2 m _ bits hbits)
  refine ⟨⟨f, hf, hb _ (hd.trans (le_of_eq ?_))⟩, hb _ (le_of_eq ?_)⟩
  · rw [← e']
    norm_num
    ring
  · unfold samplingGap
    rw [show (Ty.tuple (copies (.intModN w N h1 h2) m)).noMod = false from hno m, if_neg (by decide), hmap, ← e']
    norm_num
    ring

/-- Five residues modulo 10 stored in 32 bits, with security parameter 40. -/
theorem exFive_bits : bitsNeeded exLibm.fp
    (Ty.tuple (copies (.intModN .w32 10#128 (by decide) (by decide)) 4)).helper.toValueType (.val 40) = ok 256 := by
  show (IntModN.getNumBytesRequired exLibm.fp ((5 : Nat) : Int) (Width.bits .w32) 10#128 (.val 40) >>= fun n =>
    intRange (n * 8)) >>= (fun mods => intRange (mods + 0)) = _
  rw [exLibm_required 5 (by decide) (by decide)]
  rfl

/-- C94 on this example. -/
example : (samplingGap (.tuple (copies (.intModN .w32 10#128 (by decide) (by decide)) 4)) : ℝ) ≤
    2 ^ (-((40 : ℚ) - 1 / 2 ^ 40 : ℝ)) :=
  (C94_elements_partial exLibm exLibm_accurate .w32 10#128 (by decide) (by decide) 4 (by decide) 40 256 exFive_bits).2

/-- C94, C83: the benchmark of sampling does not abort, for any number of iterations with less than 2^31 samples. -/
theorem C94_sample (M : Libm) (H : AccurateLibm M) (random : Nat → BitVec 8) (n : Nat) (hn0 : 1 ≤ n)
    (hn : n * 5 < 2 ^ 31) :
    ∃ block : List (BitVec 32), PirBenchmarks.sample M.fp random n = ok ((List.replicate n block).flatten) ∧
      block.length = 5 ∧ (∀ x ∈ block, x.toNat < 4294967291) ∧
      block.map (·.toNat) = residues 4294967291 32 (leAt ((List.range 32).map random) 0 16)
        ((List.range 4).map fun i => leAt ((List.range 32).map random) (16 + i * 4) 4) := by
  refine C83_sample M.fp random n hn ?_
  obtain ⟨h1, _⟩ := abs_le.mp (C94_level M H 5 PirBenchmarks.sampleModulus (by norm_num) (by norm_num) (by decide))
  have hl := H.log2 (n : Rat) (by have : (1 : Rat) ≤ n := by exact_mod_cast hn0
                                  linarith)
    (by have : (n : Rat) ≤ 2 ^ 31 := by exact_mod_cast (by omega : n ≤ 2 ^ 31)
        norm_num at this ⊢; linarith)
  rw [Rat.cast_natCast] at hl
  obtain ⟨_, l2⟩ := abs_le.mp hl
  obtain ⟨_, b2⟩ := logb_bounds (m := n) (k := 31) hn0 (by omega)
  have hx : (94 : ℝ) ≤ exactLevel 5 PirBenchmarks.sampleModulus.toNat := by
    rw [exactLevel, show (94 : ℝ) = Real.logb 2 (2 ^ 94) by rw [Real.logb_pow, Real.logb_self_eq_one (by norm_num)]; norm_num]
    refine Real.logb_le_logb_of_le (by norm_num) (by positivity) ?_
    rw [show PirBenchmarks.sampleModulus.toNat = 4294967291 by decide]
    norm_num
  have h40 : 40 + M.fp.log2 n ≤ 72 := by
    have : ((40 + M.log2 (n : Rat) : Rat) : ℝ) ≤ ((72 : Rat) : ℝ) := by
      push_cast
      norm_num at *
      linarith
    exact_mod_cast this
  have h72 : (72 : Rat) ≤ M.fp.secLevel 5 PirBenchmarks.sampleModulus := by
    have : ((72 : Rat) : ℝ) ≤ ((getSecurityLevel M ((5 : Nat) : Int) PirBenchmarks.sampleModulus : Rat) : ℝ) := by
      push_cast
      norm_num at *
      linarith
    exact_mod_cast this
  exact (roundDouble_mono h40).trans (by rw [show roundDouble 72 = 72 by decide +kernel]; exact h72)

/-! ## Logarithms rounded up -/

theorem Libm.ceilLog2_small (M : Libm) {n : Nat} (hn : n ≤ 2 ^ 53) : M.ceilLog2 n = (M.log2 ((n : Int) : Rat)).ceil := by
  rw [Libm.ceilLog2, roundDouble_int _ (by rw [abs_of_nonneg (by omega)]; exact_mod_cast hn)]

theorem logb_step_small {N : Nat} (hN : 1 ≤ N) (h : N < 2 ^ 40) : Real.logb 2 N + 1 / 2 ^ 40 ≤ Real.logb 2 ((N : ℝ) + 1) := by
  have hN' : (1 : ℝ) ≤ N := by exact_mod_cast hN
  have h2 : ((N : ℝ) + 1) ≤ 2 ^ 40 := by
    have : N + 1 ≤ 2 ^ 40 := h
    exact_mod_cast this
  have e : Real.logb 2 ((N : ℝ) + 1) - Real.logb 2 N = Real.logb 2 (((N : ℝ) + 1) / N) := by
    rw [Real.logb_div (by positivity) (by positivity)]
  have h3 := Real.one_sub_inv_le_log_of_pos (x := ((N : ℝ) + 1) / N) (by positivity)
  have h4 : 1 - (((N : ℝ) + 1) / N)⁻¹ = 1 / ((N : ℝ) + 1) := by field_simp; ring
  have h5 : 1 / (2 : ℝ) ^ 40 ≤ 1 / ((N : ℝ) + 1) := one_div_le_one_div_of_le (by positivity) h2
  have hl2 : Real.log 2 ≤ 1 := by have := Real.log_le_sub_one_of_pos (x := 2) (by norm_num); linarith
  have hl0 : 0 < Real.log 2 := Real.log_pos (by norm_num)
  have h6 : Real.log (((N : ℝ) + 1) / N) ≤ Real.logb 2 (((N : ℝ) + 1) / N) := by
    rw [Real.logb, le_div_iff₀ hl0]
    have : 0 ≤ Real.log (((N : ℝ) + 1) / N) := Real.log_nonneg (by rw [le_div_iff₀ (by positivity)]; linarith)
    nlinarith
  linarith

theorem logb_two_pow (k : Nat) : Real.logb 2 ((2 : ℝ) ^ k) = k := by
  rw [Real.logb_pow, Real.logb_self_eq_one (by norm_num), mul_one]

/-- C94: logarithms rounded up are exact for numbers of records, buckets or bits up to 2^40 if `std::log2` is exact for
powers of two. -/
theorem C94_ceil (M : Libm) (H : AccurateLibm M) (hlog : ∀ k : Nat, M.log2 (2 ^ k) = k) (n : Nat) (hn : 1 ≤ n)
    (hn' : n ≤ 2 ^ 40) : ExactAt M.ceilLog2 n := by
  have hk1 : 2 ^ Nat.log2 n ≤ n := Nat.log2_self_le (by omega)
  have hk2 : n < 2 ^ (Nat.log2 n + 1) := Nat.lt_log2_self
  generalize hk : Nat.log2 n = k at *
  have hl := H.log2 (n : Rat) (by have : (1 : Rat) ≤ n := by exact_mod_cast hn
                                  linarith)
    (by have : (n : Rat) ≤ 2 ^ 40 := by exact_mod_cast hn'
        norm_num at this ⊢; linarith)
  rw [Rat.cast_natCast] at hl
  obtain ⟨l1, l2⟩ := abs_le.mp hl
  by_cases he : n = 2 ^ k
  · refine ⟨k, ?_, by omega, ?_⟩
    · rw [M.ceilLog2_small (by omega), he, show (((2 ^ k : Nat) : Int) : Rat) = 2 ^ k by push_cast; rfl, hlog]
      exact_mod_cast Rat.ceil_intCast (k : Int)
    · rcases Nat.eq_zero_or_pos k with h | h
      · exact Or.inl h
      · right
        rw [he]
        exact Nat.pow_lt_pow_right (by decide) (by omega)
  · have hlt : 2 ^ k + 1 ≤ n := by omega
    have hk40 : 2 ^ k < 2 ^ 40 := by omega
    refine ⟨k + 1, ?_, by omega, Or.inr (by simpa using hlt)⟩
    have low : (k : ℝ) + 1 / 2 ^ 40 ≤ Real.logb 2 n := by
      have s := logb_step_small (N := 2 ^ k) Nat.one_le_two_pow hk40
      have : Real.logb 2 (((2 ^ k : Nat) : ℝ) + 1) ≤ Real.logb 2 n :=
        Real.logb_le_logb_of_le (by norm_num) (by positivity) (by exact_mod_cast hlt)
      rw [show ((2 ^ k : Nat) : ℝ) = (2 : ℝ) ^ k by push_cast; rfl] at s this
      rw [logb_two_pow] at s
      linarith
    have hn40 : n < 2 ^ 40 := by
      rcases Nat.lt_or_eq_of_le hn' with h | h
      · exact h
      · exfalso
        have h1 : k < 40 := (Nat.pow_lt_pow_iff_right (by decide)).mp hk40
        have h2 : 2 ^ (k + 1) ≤ 2 ^ 40 := Nat.pow_le_pow_right (by decide) h1
        omega
    have high : Real.logb 2 n + 1 / 2 ^ 40 ≤ (k : ℝ) + 1 := by
      have s := logb_step_small (N := n) hn hn40
      have : Real.logb 2 ((n : ℝ) + 1) ≤ Real.logb 2 ((2 : ℝ) ^ (k + 1)) :=
        Real.logb_le_logb_of_le (by norm_num) (by positivity) (by exact_mod_cast hk2)
      rw [logb_two_pow] at this
      push_cast at this
      linarith
    rw [M.ceilLog2_small (by omega), show (((n : Nat) : Int) : Rat) = ((n : Nat) : Rat) by push_cast; rfl]
    generalize M.log2 (n : Rat) = x at *
    have a1 : (k : Rat) < x := by
      have : (k : ℝ) < (x : ℝ) := by norm_num at l1 low; linarith
      exact_mod_cast this
    have a2 : x ≤ (k : Rat) + 1 := by
      have : (x : ℝ) ≤ (k : ℝ) + 1 := by norm_num at l2 high; linarith
      exact_mod_cast this
    have b1 : x.ceil ≤ k + 1 := Rat.ceil_le_iff.mpr (by push_cast; exact a2)
    have b2 : (k : Int) < x.ceil := Rat.lt_ceil_iff.mpr (by push_cast; exact a1)
    push_cast
    omega

/-- C94 for 1000 records. -/
example : exLibm.ceilLog2 1000 = 10 := by
  obtain ⟨l, h1, h2, h3⟩ := C94_ceil exLibm exLibm_accurate exLibm_exact.2 1000 (by norm_num) (by norm_num)
  have h4 : 10 ≤ l := by
    by_contra h
    have : 2 ^ l ≤ 2 ^ 9 := Nat.pow_le_pow_right (by decide) (by omega)
    omega
  have h5 : l ≤ 10 := by
    by_contra h
    have : 2 ^ 10 ≤ 2 ^ (l - 1) := Nat.pow_le_pow_right (by decide) (by omega)
    omega
  rw [show l = 10 by omega] at h1
  exact h1

/-- C94: in the validator of parameters, which models the logarithm rounded up exactly. -/
theorem C94_ceil_bits (M : Libm) (H : AccurateLibm M) (hlog : ∀ k : Nat, M.log2 (2 ^ k) = k) (bits : Nat) (h1 : 1 ≤ bits)
    (h2 : bits < 2 ^ 31) : ∃ l : Nat, Verif.ceilLog2 bits = ok l ∧ M.ceilLog2 bits = l := by
  obtain ⟨l, e, a, b⟩ := C94_ceil M H hlog bits h1 (by omega)
  refine ⟨l, ?_, e⟩
  unfold Verif.ceilLog2
  rw [if_neg (by omega)]
  congr 1
  rcases b with b | b
  · subst b
    rw [if_pos (by omega)]
  · have hl : 1 ≤ l := by
      by_contra h
      have : l = 0 := by omega
      subst this
      simp at a b
      omega
    have hb : 2 ≤ bits := by have := Nat.one_le_two_pow (n := l - 1); omega
    rw [if_neg (by omega), Int.toNat_natCast]
    have : Nat.log2 (bits - 1) = l - 1 := by
      rw [Nat.log2_eq_iff (by omega)]
      rw [Nat.sub_add_cancel hl]
      omega
    omega

/-- C94 is false for more records: if `std::log2` gives the closest double, which for numbers within 2^-50 of 52 is 52, a
database of 2^52 + 1 records gets a domain of 2^52. -/
theorem C94_ceil_refuted (M : Libm) (hlog : ∀ x : Rat, |Real.logb 2 x - 52| ≤ 1 / 2 ^ 50 → M.log2 x = 52) :
    M.ceilLog2 (2 ^ 52 + 1) = 52 ∧ ¬ ExactAt M.ceilLog2 (2 ^ 52 + 1) := by
  have h : |Real.logb 2 (((2 ^ 52 + 1 : Rat)) : ℝ) - 52| ≤ 1 / 2 ^ 50 := by
    have := logb_relative (x := 2 ^ 52 + 1) (y := 2 ^ 52) (δ := 1 / 2 ^ 52) (by norm_num) (by norm_num) (by norm_num)
      (by norm_num)
    rw [logb_two_pow] at this
    push_cast
    norm_num at this ⊢
    exact this
  have e : M.ceilLog2 (2 ^ 52 + 1) = 52 := by
    rw [Libm.ceilLog2, roundDouble_int _ (by norm_num), show (((2 ^ 52 + 1 : Int)) : Rat) = 2 ^ 52 + 1 by norm_num, hlog _ h]
    rfl
  refine ⟨e, fun ⟨l, h1, h2, _⟩ => ?_⟩
  rw [show ((2 ^ 52 + 1 : Nat) : Int) = 2 ^ 52 + 1 by norm_num, e] at h1
  have : l = 52 := by omega
  subst this
  omega

/-- C94: whatever the number of records, the logarithm rounded up is from 0 to 64, which suffices for C52 and C55. -/
theorem C94_plausible (M : Libm) (H : AccurateLibm M) : Plausible M.ceilLog2 := by
  intro n h0 h63
  have hle : (n : Rat) ≤ 2 ^ 63 := by exact_mod_cast h63.le
  have h1 : (1 : Rat) ≤ n := by exact_mod_cast h0
  have r1 : roundDouble 1 = 1 := by decide +kernel
  have r2 : roundDouble (2 ^ 63) = 2 ^ 63 := by decide +kernel
  have m1 : 1 ≤ roundDouble (n : Rat) := by rw [← r1]; exact roundDouble_mono h1
  have m2 : roundDouble (n : Rat) ≤ 2 ^ 63 := by rw [← r2]; exact roundDouble_mono hle
  have e : M.ceilLog2 n = (M.log2 (roundDouble (n : Rat))).ceil := by
    rw [Libm.ceilLog2, Int.cast_natCast]
  rw [e]
  generalize roundDouble (n : Rat) = x at *
  obtain ⟨l1, l2⟩ := abs_le.mp (H.log2 x (by linarith) (by norm_num at m2 ⊢; linarith))
  have x1 : (1 : ℝ) ≤ (x : ℝ) := by exact_mod_cast m1
  have x2 : (x : ℝ) ≤ 2 ^ 63 := by exact_mod_cast m2
  have b1 : 0 ≤ Real.logb 2 (x : ℝ) := Real.logb_nonneg (by norm_num) x1
  have b2 : Real.logb 2 (x : ℝ) ≤ 63 := by
    have := Real.logb_le_logb_of_le (b := 2) (by norm_num) (by linarith) x2
    rw [logb_two_pow] at this
    exact_mod_cast this
  have c1 : -1 < M.log2 x := by
    have : ((-1 : Rat) : ℝ) < (M.log2 x : ℝ) := by
      push_cast
      norm_num at l1
      linarith
    exact_mod_cast this
  have c2 : M.log2 x ≤ 64 := by
    have : (M.log2 x : ℝ) ≤ ((64 : Rat) : ℝ) := by
      push_cast
      norm_num at l2
      linarith
    exact_mod_cast this
  constructor
  · have : (-1 : Int) < (M.log2 x).ceil := Rat.lt_ceil_iff.mpr (by push_cast; exact c1)
    omega
  · exact Rat.ceil_le_iff.mpr (by push_cast; exact c2)

/-- C94 for C36: with a library that is accurate and exact on powers of two, clients get the records they ask for. -/
theorem C94_end_to_end_partial (M : Libm) (H : AccurateLibm M) (hlog : ∀ k : Nat, M.log2 (2 ^ k) = k)
    (env : Env) (aes : AesBlock) (codec : HelperCodec)
    (simd0 simd1 : SimdEnv) (ok0 : SimdOk simd0) (ok1 : SimdOk simd1) (records : List Bytes)
    (db : DenseDb) (hdb : BuiltFrom records db) (hne : ∃ r ∈ records, r ≠ [])
    (hman : Manageable records.length simd0 simd1)
    (encrypter decrypter : CryptFn) (hcrypt : Decrypts encrypter decrypter DenseServer.contextInfo)
    (sender : Sender) :
    ∃ leader helper client,
      DenseServer.createLeader M.fp M.ceilLog2 (.dense records.length) (some db) (some sender) = ok leader ∧
      DenseServer.createHelper M.fp M.ceilLog2 (.dense records.length) (some db) (some decrypter) = ok helper ∧
      DenseClient.create M.fp M.ceilLog2 (.dense records.length) (some encrypter) DenseServer.contextInfo = ok client ∧
      ((∀ request, sender request = (true, helper.handleRequest codec aes env simd1 request)) →
        ∀ queries : List Nat, queries ≠ [] → (∀ q ∈ queries, q < records.length) →
        (∀ m, HelperMessage queries.length m → codec.parse (codec.serialize m) = some m) →
        ∀ (seeds : Nat → U128 × U128) (random : Nat → BitVec 8),
          ∃ request state response,
            client.createRequest codec env (queries.map fun q : Nat => (q : Int)) seeds random = ok (request, state) ∧
            leader.handleRequest codec aes env simd0 request = ok response ∧
            DenseClient.handleResponse aes response state = ok (answer records queries)) := by
  have hlen : 1 ≤ records.length := by
    obtain ⟨r, hr, _⟩ := hne
    exact List.length_pos_of_mem hr
  have h30 : records.length ≤ 2 ^ 30 := by
    rcases hman with h | ⟨_, _, h⟩ <;> omega
  exact C36_end_to_end_partial M.fp env aes codec M.ceilLog2 simd0 simd1 ok0 ok1 records db hdb hne
    (C94_ceil M H hlog _ hlen (by omega)) hman encrypter decrypter hcrypt sender

/-- C94 on the records and machines of C36's example, with the logarithms of `exLibm`: record 2 is retrieved. -/
example : ∃ (client : DenseClient) (leader : DenseServer) (request : PirRequest) (state : ClientState)
    (response : PirResponse),
    DenseClient.create exLibm.fp exLibm.ceilLog2 (.dense 3) (some fun m _ => ok (m.map (~~~ ·))) DenseServer.contextInfo =
      ok client ∧
    client.createRequest (Wire.helperCodec 100) exEnv [2] (fun _ => (1, 2)) (fun _ => 5) = ok (request, state) ∧
    leader.handleRequest (Wire.helperCodec 100) exAes exEnv exSimd request = ok response ∧
    DenseClient.handleResponse exAes response state = ok [[4, 5, 6] ++ List.replicate 16 0] := by
  have hdb : BuiltFrom exRecords ((exRecords.foldl DenseBuilder.insert DenseBuilder.new).build.1.getD
    ⟨0, [], 0, []⟩) := Res.eq_ok_getD (by decide +kernel) _
  have main := C94_end_to_end_partial exLibm exLibm_accurate exLibm_exact.2 exEnv exAes (Wire.helperCodec 100)
    exSimd exSimd exSimd_ok exSimd_ok exRecords _ hdb ⟨[4, 5, 6], by simp [exRecords], by simp⟩ (Or.inl (by decide))
    (fun m _ => ok (m.map (~~~ ·))) (fun m _ => ok (m.map (~~~ ·)))
    (fun m => ⟨m.map (~~~ ·), rfl, by simp [Function.comp_def]⟩)
  obtain ⟨_, helper, _, _, h2, _, _⟩ := main fun _ => (true, ok none)
  obtain ⟨leader, helper', client, g1, g2, g3, g4⟩ := main fun request =>
    (true, helper.handleRequest (Wire.helperCodec 100) exAes exEnv exSimd request)
  rw [h2] at g2
  cases g2
  obtain ⟨request, state, response, f1, f2, f3⟩ := g4 (fun _ => rfl) [2] (by decide) (by decide)
    (fun m hm => HelperMessage.parse hm (by decide) (by decide)) (fun _ => (1, 2)) (fun _ => 5)
  exact ⟨client, leader, request, state, response, g3, f1, f2, f3.trans (by decide +kernel)⟩

/-- C94: a setting whose logarithms come from a library that is accurate and exact on powers of two works if the rest of
it does. -/
theorem C94_works (M : Libm) (H : AccurateLibm M) (hlog : ∀ k : Nat, M.log2 (2 ^ k) = k) (S : PirSetting)
    (hS : S.ceilLog2 = M.ceilLog2) (info : Bytes) (n keys : Nat) (hn : 1 ≤ n)
    (parses : ∀ m, HelperMessage keys m → S.codec.parse (S.codec.serialize m) = some m) (ok0 : SimdOk S.simd0)
    (ok1 : SimdOk S.simd1) (decrypts : Decrypts S.encrypter S.decrypter info)
    (manageable : Manageable n S.simd0 S.simd1) : S.Works info n keys := by
  have h30 : n ≤ 2 ^ 30 := by rcases manageable with h | ⟨_, _, h⟩ <;> omega
  exact ⟨parses, ok0, ok1, decrypts, hS ▸ C94_ceil M H hlog n hn (by omega), manageable⟩

/-- C94 for C46: the same with cuckoo hashing, under the restrictions of C46. -/
theorem C94_cuckoo_partial (M : Libm) (H : AccurateLibm M) (hlog : ∀ k : Nat, M.log2 (2 ^ k) = k) (S : PirSetting)
    (hS : S.ceilLog2 = M.ceilLog2) (random : Nat → Nat) (seed : Bytes) (k n : Nat)
    (records : List (Bytes × Bytes)) (db : CuckooDb) (hr : ∀ i, random i < k) (hrec : records.length < 2 ^ 31)
    (hdb : CuckooBuiltFrom S.sha random (cuckooParams seed k n) records db) (K V : List Bytes)
    (hKV : CuckooHolds db K V) (hall : NoneInStash db K) (hV : ∃ v ∈ V, v ≠ [])
    (queries : List Bytes) (hq : queries ≠ [])
    (parses : ∀ m, HelperMessage (queries.length * k) m → S.codec.parse (S.codec.serialize m) = some m)
    (ok0 : SimdOk S.simd0) (ok1 : SimdOk S.simd1)
    (decrypts : Decrypts S.encrypter S.decrypter CuckooServer.contextInfo) (manageable : Manageable n S.simd0 S.simd1)
    (hlen : ∀ q ∈ queries, q.length ≤ maxLength K) (hzero : ∀ q ∈ queries, ¬ SameUpToZeros [] q)
    (hsame : ∀ q ∈ queries, ∀ r ∈ records, SameUpToZeros r.1 q → r.1 = q) :
    CuckooRun S (cuckooParams seed k n) db queries
      (queries.map fun q => (firstValue records q).map (padded (maxLength V))) := by
  have h30 : n ≤ 2 ^ 30 := by rcases manageable with h | ⟨_, _, h⟩ <;> omega
  obtain ⟨_, _, hn, _⟩ := cuckoo_built_inv (by omega) hdb
  exact C46_end_to_end_partial S random seed k n records db hr hrec hdb K V hKV hall hV queries hq
    (C94_works M H hlog S hS _ n _ hn parses ok0 ok1 decrypts manageable) hlen hzero hsame

/-- C94 for C47: the same with simple hashing, for every database with a record that servers can handle. -/
theorem C94_simple_partial (M : Libm) (H : AccurateLibm M) (hlog : ∀ k : Nat, M.log2 (2 ^ k) = k) (S : PirSetting)
    (hS : S.ceilLog2 = M.ceilLog2) (seed : Bytes) (n : Nat) (records : List (Bytes × Bytes)) (db : SimpleDb)
    (hdb : SimpleBuiltFrom S.sha wireCodec (simpleParams seed n) records db) (hne : records ≠ [])
    (queries : List Bytes) (hq : queries ≠ [])
    (parses : ∀ m, HelperMessage queries.length m → S.codec.parse (S.codec.serialize m) = some m)
    (ok0 : SimdOk S.simd0) (ok1 : SimdOk S.simd1)
    (decrypts : Decrypts S.encrypter S.decrypter SimpleServer.contextInfo)
    (manageable : Manageable n S.simd0 S.simd1) :
    SimpleRun S wireCodec (simpleParams seed n) db queries (queries.map (firstValue records)) := by
  have h30 : n ≤ 2 ^ 30 := by rcases manageable with h | ⟨_, _, h⟩ <;> omega
  obtain ⟨_, hn, _, _⟩ := simple_built_inv (by omega) hdb
  exact C47_end_to_end_partial S seed n records db hdb hne queries hq
    (C94_works M H hlog S hS _ n _ hn parses ok0 ok1 decrypts manageable)

/-- The setting of C46's example with the logarithms of `exLibm`. -/
noncomputable def exLibmSetting : PirSetting := { exSetting with fp := exLibm.fp, ceilLog2 := exLibm.ceilLog2 }

example : exLibmSetting.Works CuckooServer.contextInfo 7 9 :=
  C94_works exLibm exLibm_accurate exLibm_exact.2 exLibmSetting rfl _ 7 9 (by decide)
    (fun _ hm => HelperMessage.parse hm (by decide) (by decide)) exSimd_ok exSimd_ok
    (exSetting_works _ 0 (by decide)).decrypts (Or.inl (by decide))

/-- C94 on the databases of C46's and C47's examples. -/
example : CuckooRun exLibmSetting (cuckooParams [9] 3 7) exCuckooDb [[2, 2], [5], [1]]
    [some [20, 21], none, some [10, 0]] :=
  C94_cuckoo_partial exLibm exLibm_accurate exLibm_exact.2 exLibmSetting rfl (fun i => i % 3) [9] 3 7 exPairs exCuckooDb
    (fun i => Nat.mod_lt i (by decide)) (by decide) exCuckooDb_ok _ _ exCuckooDb_holds (by decide +kernel)
    ⟨[30], by decide, by decide⟩ [[2, 2], [5], [1]] (by decide)
    (fun _ hm => HelperMessage.parse hm (by decide) (by decide)) exSimd_ok exSimd_ok
    (exSetting_works _ 0 (by decide)).decrypts (Or.inl (by decide)) (by decide +kernel) (by decide +kernel)
    (by decide +kernel)

example : SimpleRun exLibmSetting wireCodec (simpleParams [9] 7) exSimpleDb [[2, 2], [5]] [some [20, 21], none] :=
  C94_simple_partial exLibm exLibm_accurate exLibm_exact.2 exLibmSetting rfl [9] 7 exPairs exSimpleDb
    (Res.eq_ok_getD (by decide +kernel) _) (by decide) [[2, 2], [5]] (by decide)
    (fun _ hm => HelperMessage.parse hm (by decide) (by decide)) exSimd_ok exSimd_ok
    (exSetting_works _ 0 (by decide)).decrypts (Or.inl (by decide))

/-- C94 on further examples: sampling in a loop, and hints for the number of bits. -/
example (random : Nat → BitVec 8) : ∃ block : List (BitVec 32),
    PirBenchmarks.sample exLibm.fp random 3 = ok (block ++ (block ++ (block ++ []))) ∧ block.length = 5 := by
  obtain ⟨block, h1, h2, _⟩ := C94_sample exLibm exLibm_accurate random 3 (by decide) (by decide)
  exact ⟨block, by simpa [List.replicate_succ] using h1, h2⟩
example : ∃ l : Nat, Verif.ceilLog2 1000 = ok l ∧ exLibm.ceilLog2 1000 = l :=
  C94_ceil_bits exLibm exLibm_accurate exLibm_exact.2 1000 (by decide) (by decide)
example : Plausible exLibm.ceilLog2 := C94_plausible exLibm exLibm_accurate

end Verif
