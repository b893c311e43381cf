import Mathlib.Tactic.Ring
import Mathlib.Tactic.Linarith
import Mathlib.Tactic.FieldSimp
import Mathlib.Tactic.Positivity
import Mathlib.Algebra.BigOperators.Intervals
import Mathlib.Algebra.BigOperators.Fin
import Mathlib.Algebra.Order.BigOperators.Group.Finset
import Mathlib.Algebra.BigOperators.Ring.Finset
import Mathlib.Algebra.BigOperators.Field
import Verif.Spec.Uniform
/-! Numbers sampled from a uniform 128-bit state are close to uniform. -/
namespace Verif.Uniform
open Finset Spec

/-! ### Sums over ranges -/

/-- How many numbers below `L` are `v` modulo `N`. -/
def hits (N L v : Nat) : Nat := L / N + if v < L % N then 1 else 0

theorem hits_succ {N : Nat} (hN : 0 < N) (L v : Nat) (hv : v < N) :
    hits N (L + 1) v = hits N L v + if L % N = v then 1 else 0 := by
  unfold hits
  have h1 : L % N < N := Nat.mod_lt _ hN
  by_cases h : L % N + 1 = N
  · have hd : N ∣ L + 1 := by
      refine ⟨L / N + 1, ?_⟩
      have := Nat.div_add_mod L N
      rw [Nat.mul_add]; omega
    rw [Nat.succ_div, if_pos hd, Nat.mod_eq_zero_of_dvd hd]
    split <;> split <;> split <;> omega
  · have hd : ¬ N ∣ L + 1 := by
      rintro ⟨c, hc⟩
      have := Nat.div_add_mod L N
      have e : (L + 1) % N = L % N + 1 := by
        rw [Nat.add_mod, Nat.mod_eq_of_lt (a := 1) (by omega)]
        exact Nat.mod_eq_of_lt (by omega)
      rw [hc, Nat.mul_mod_right] at e
      omega
    rw [Nat.succ_div, if_neg hd]
    have e : (L + 1) % N = L % N + 1 := by
      rw [Nat.add_mod, Nat.mod_eq_of_lt (a := 1) (by omega)]
      exact Nat.mod_eq_of_lt (by omega)
    rw [e]
    split <;> split <;> split <;> omega

theorem div_eq_hits {N L v : Nat} (h : L % N = v) : L / N = hits N L v := by
  unfold hits; rw [h, if_neg (Nat.lt_irrefl v)]; rfl

/-- The numbers that are `v` modulo `N`, by their quotients. -/
theorem sum_residue {N : Nat} (hN : 0 < N) {v : Nat} (hv : v < N) (G : Nat → ℚ) (L : Nat) :
    (∑ r ∈ range L, if r % N = v then G (r / N) else 0) = ∑ q ∈ range (hits N L v), G q := by
  induction L with
  | zero => simp [hits]
  | succ L ih =>
    rw [sum_range_succ, ih, hits_succ hN L v hv]
    by_cases h : L % N = v
    · rw [if_pos h, if_pos h, sum_range_succ, div_eq_hits h]
    · rw [if_neg h, if_neg h, add_zero, Nat.add_zero]

/-- A periodic sum. -/
theorem sum_mod {H : Nat} (hH : 0 < H) (G : Nat → ℚ) (M : Nat) :
    ∑ q ∈ range M, G (q % H) = (M / H : Nat) * ∑ h ∈ range H, G h + ∑ h ∈ range (M % H), G h := by
  have key : ∀ a b, b ≤ H →
      ∑ q ∈ range (H * a + b), G (q % H) = (a : ℚ) * ∑ h ∈ range H, G h + ∑ h ∈ range b, G h := by
    intro a
    induction a with
    | zero =>
      intro b hb
      rw [Nat.mul_zero, Nat.zero_add, Nat.cast_zero, zero_mul, zero_add]
      apply sum_congr rfl
      intro x hx
      have hx := mem_range.mp hx
      by_cases h : x < H
      · rw [Nat.mod_eq_of_lt h]
      · omega
    | succ a ih =>
      intro b hb
      have e : H * (a + 1) + b = (H * a + H) + b := by rw [Nat.mul_succ]
      rw [e, sum_range_add, ih H (le_refl _)]
      have : ∑ x ∈ range b, G ((H * a + H + x) % H) = ∑ h ∈ range b, G h := by
        apply sum_congr rfl
        intro x hx
        have hx := mem_range.mp hx
        have : (H * a + H + x) % H = x % H := by
          rw [Nat.add_assoc, Nat.mul_add_mod, Nat.add_mod_left]
        rw [this, Nat.mod_eq_of_lt (by omega)]
      rw [this]; push_cast; ring
  have := key (M / H) (M % H) (Nat.le_of_lt (Nat.mod_lt _ hH))
  rwa [Nat.div_add_mod] at this

/-- Sums by blocks. -/
theorem sum_blocks (F : Nat → ℚ) (W K : Nat) :
    ∑ h ∈ range K, ∑ x ∈ range W, F (h * W + x) = ∑ r ∈ range (K * W), F r := by
  induction K with
  | zero => simp
  | succ K ih => rw [sum_range_succ, ih, Nat.succ_mul, sum_range_add]

/-- One sampling step from a state uniform below `L`: how the next state is distributed, given that
the sample was `v`. -/
theorem sum_step {N W H : Nat} (hN : 0 < N) (hH : 0 < H) {v : Nat} (hv : v < N) (F : Nat → ℚ)
    (L : Nat) :
    (∑ r ∈ range L, if r % N = v then ∑ x ∈ range W, F (r / N % H * W + x) else 0) =
      (hits N L v / H : Nat) * ∑ r ∈ range (H * W), F r + ∑ r ∈ range (hits N L v % H * W), F r := by
  rw [sum_residue hN hv (fun q => ∑ x ∈ range W, F (q % H * W + x)),
    sum_mod hH (fun h => ∑ x ∈ range W, F (h * W + x)), sum_blocks, sum_blocks]

theorem sum_hits {N : Nat} (hN : 0 < N) (L : Nat) : ∑ v ∈ range N, hits N L v = L := by
  have h := Nat.mod_lt L hN
  unfold hits
  rw [sum_add_distrib, sum_const, card_range, smul_eq_mul, sum_ite, sum_const_zero, sum_const,
    smul_eq_mul, Nat.mul_one, Nat.add_zero]
  have : #{x ∈ range N | x < L % N} = L % N := by
    have e : ({x ∈ range N | x < L % N} : Finset Nat) = range (L % N) := by
      ext x; simp only [mem_filter, mem_range]; omega
    rw [e, card_range]
  rw [this, Nat.div_add_mod]

theorem sum_abs_hits {N : Nat} (hN : 0 < N) (L : Nat) :
    ∑ v ∈ range N, |(hits N L v : ℚ) - (L : ℚ) / N| ≤ N / 2 := by
  have hN' : (0 : ℚ) < N := by exact_mod_cast hN
  have hb := Nat.mod_lt L hN
  have hL : (L : ℚ) = N * (L / N : Nat) + (L % N : Nat) := by exact_mod_cast (Nat.div_add_mod L N).symm
  generalize hbb : L % N = b at hb hL
  generalize L / N = a at hL
  have hbq : (b : ℚ) < N := by exact_mod_cast hb
  have hb0 : (0 : ℚ) ≤ b := by positivity
  have e : ∀ v ∈ range N, |(hits N L v : ℚ) - (L : ℚ) / N| = if v < b then 1 - (b : ℚ) / N else (b : ℚ) / N := by
    intro v hv
    have h1 : (hits N L v : ℚ) = a + if v < b then 1 else 0 := by
      have : L / N = a := by
        have h2 : (N : ℚ) * (L / N : Nat) + (L % N : Nat) = N * a + b := by
          rw [← hL]; exact_mod_cast Nat.div_add_mod L N
        rw [hbb] at h2
        have h3 : (N : ℚ) * (L / N : Nat) = N * a := by linarith
        exact_mod_cast mul_left_cancel₀ (ne_of_gt hN') h3
      unfold hits; rw [hbb, this]; split <;> simp
    have h2 : (L : ℚ) / N = a + (b : ℚ) / N := by rw [hL]; field_simp
    rw [h1, h2]
    have h3 : (b : ℚ) / N < 1 := by rw [div_lt_one hN']; exact hbq
    have h4 : 0 ≤ (b : ℚ) / N := by positivity
    by_cases h : v < b
    · rw [if_pos h, if_pos h, abs_of_nonneg (by linarith)]; ring
    · rw [if_neg h, if_neg h, abs_of_nonpos (by linarith)]; ring
  rw [sum_congr rfl e, sum_ite, sum_const, sum_const]
  have e1 : ({x ∈ range N | x < b} : Finset Nat) = range b := by
    ext x; simp only [mem_filter, mem_range]; omega
  have e2 : #{x ∈ range N | ¬ x < b} = N - b := by
    have := card_filter_add_card_filter_not (s := range N) (fun x => x < b)
    rw [e1, card_range, card_range] at this
    omega
  rw [e1, card_range, e2, nsmul_eq_mul, nsmul_eq_mul, Nat.cast_sub (Nat.le_of_lt hb)]
  have : (b : ℚ) * (1 - b / N) + (N - b) * (b / N) = 2 * b * (N - b) / N := by field_simp; ring
  rw [this, div_le_div_iff₀ hN' (by norm_num)]
  nlinarith [sq_nonneg ((N : ℚ) - 2 * b)]

/-! ### States distributed uniformly on several intervals -/

/-- The sum over all numbers below each of the bounds. -/
def isum (Ls : List Nat) (F : Nat → ℚ) : ℚ := (Ls.map fun L => ∑ r ∈ range L, F r).sum

theorem isum_cons (L : Nat) (Ls : List Nat) (F : Nat → ℚ) :
    isum (L :: Ls) F = ∑ r ∈ range L, F r + isum Ls F := by simp [isum]

theorem isum_append (a b : List Nat) (F : Nat → ℚ) : isum (a ++ b) F = isum a F + isum b F := by
  simp [isum]

theorem isum_replicate (n L : Nat) (F : Nat → ℚ) :
    isum (List.replicate n L) F = n * ∑ r ∈ range L, F r := by
  simp [isum, nsmul_eq_mul]

/-- The intervals of the next state, given that `v` was sampled. -/
def next (N W H v : Nat) (Ls : List Nat) : List Nat :=
  Ls.flatMap fun L => List.replicate (hits N L v / H) (H * W) ++ [hits N L v % H * W]

theorem next_cons (N W H v L : Nat) (Ls : List Nat) : next N W H v (L :: Ls) =
    (List.replicate (hits N L v / H) (H * W) ++ [hits N L v % H * W]) ++ next N W H v Ls := by
  simp [next]

theorem isum_step {N W H : Nat} (hN : 0 < N) (hH : 0 < H) {v : Nat} (hv : v < N) (F : Nat → ℚ)
    (Ls : List Nat) :
    isum Ls (fun r => if r % N = v then ∑ x ∈ range W, F (r / N % H * W + x) else 0) =
      isum (next N W H v Ls) F := by
  induction Ls with
  | nil => rfl
  | cons L Ls ih =>
    rw [isum_cons, ih, sum_step hN hH hv, next_cons, isum_append, isum_append, isum_replicate]
    simp [isum]

/-- The size of all intervals together. -/
def total (Ls : List Nat) : ℚ := isum Ls fun _ => 1

theorem total_cons (L : Nat) (Ls : List Nat) : total (L :: Ls) = L + total Ls := by
  unfold total; rw [isum_cons, sum_const, card_range, nsmul_eq_mul, mul_one]

theorem total_nonneg (Ls : List Nat) : 0 ≤ total Ls := by
  induction Ls with
  | nil => exact le_refl _
  | cons L Ls ih => rw [total_cons]; positivity

/-- How many numbers in the intervals are `v` modulo `N`. -/
def allHits (N v : Nat) (Ls : List Nat) : ℚ := (Ls.map fun L => (hits N L v : ℚ)).sum

theorem allHits_cons (N v L : Nat) (Ls : List Nat) :
    allHits N v (L :: Ls) = hits N L v + allHits N v Ls := by simp [allHits]

theorem isum_residue {N : Nat} (hN : 0 < N) {v : Nat} (hv : v < N) (Ls : List Nat) :
    isum Ls (fun r => if r % N = v then 1 else 0) = allHits N v Ls := by
  induction Ls with
  | nil => rfl
  | cons L Ls ih =>
    rw [isum_cons, ih, allHits_cons, sum_residue hN hv (fun _ => 1), sum_const, card_range,
      nsmul_eq_mul, mul_one]

theorem total_next {N W H : Nat} (v : Nat) (Ls : List Nat) :
    total (next N W H v Ls) = allHits N v Ls * W := by
  induction Ls with
  | nil => simp [next, total, isum, allHits]
  | cons L Ls ih =>
    rw [next_cons, allHits_cons]
    have h : ∀ a b, total (a ++ b) = total a + total b := fun a b => isum_append a b _
    rw [h, h, ih, total_cons]
    have e : total (List.replicate (hits N L v / H) (H * W)) = (hits N L v / H : Nat) * (H * W : Nat) := by
      unfold total; rw [isum_replicate, sum_const, card_range, nsmul_eq_mul, mul_one]
    have e0 : total [] = 0 := rfl
    rw [e, e0]
    have := Nat.div_add_mod (hits N L v) H
    have : (hits N L v : ℚ) = H * (hits N L v / H : Nat) + (hits N L v % H : Nat) := by
      exact_mod_cast this.symm
    rw [this]
    push_cast
    ring

theorem sum_allHits {N : Nat} (hN : 0 < N) (Ls : List Nat) :
    ∑ v ∈ range N, allHits N v Ls = total Ls := by
  induction Ls with
  | nil => simp [allHits, total, isum]
  | cons L Ls ih =>
    have h : (L : ℚ) = ∑ v ∈ range N, (hits N L v : ℚ) := by exact_mod_cast (sum_hits hN L).symm
    rw [total_cons, ← ih, h, ← sum_add_distrib]
    exact sum_congr rfl fun v _ => allHits_cons N v L Ls

theorem sum_abs_allHits {N : Nat} (hN : 0 < N) (Ls : List Nat) :
    ∑ v ∈ range N, |allHits N v Ls - total Ls / N| ≤ N / 2 * Ls.length := by
  induction Ls with
  | nil => simp [allHits, total, isum]
  | cons L Ls ih =>
    have h : ∀ v ∈ range N, |allHits N v (L :: Ls) - total (L :: Ls) / N| ≤
        |(hits N L v : ℚ) - (L : ℚ) / N| + |allHits N v Ls - total Ls / N| := by
      intro v _
      rw [allHits_cons, total_cons]
      have : (hits N L v : ℚ) + allHits N v Ls - (L + total Ls) / N =
          ((hits N L v : ℚ) - (L : ℚ) / N) + (allHits N v Ls - total Ls / N) := by ring
      rw [this]; exact abs_add_le _ _
    refine (sum_le_sum h).trans ?_
    rw [sum_add_distrib, List.length_cons]
    push_cast
    have := sum_abs_hits hN L
    linarith

theorem length_next {N W H : Nat} (hH : 0 < H) (v : Nat) (Ls : List Nat) :
    ((next N W H v Ls).length : ℚ) ≤ allHits N v Ls / H + Ls.length := by
  have hH' : (0 : ℚ) < H := by exact_mod_cast hH
  induction Ls with
  | nil => simp [next, allHits]
  | cons L Ls ih =>
    rw [next_cons, allHits_cons]
    simp only [List.length_append, List.length_replicate, List.length_cons, List.length_nil]
    push_cast
    have h : ((hits N L v / H : Nat) : ℚ) ≤ (hits N L v : ℚ) / H := by
      rw [le_div_iff₀ hH']; exact_mod_cast Nat.div_mul_le_self _ _
    have : ((hits N L v : ℚ) + allHits N v Ls) / H = (hits N L v : ℚ) / H + allHits N v Ls / H := by ring
    rw [this]
    linarith

/-! ### All samples -/

/-- The numbers of fresh bits that lead from state `r` to the samples `vs`. Each step is given by the
number of values `N` and the number `W` of fresh values; `B` is the number of states. -/
def weight (B : Nat) : List (Nat × Nat) → List Nat → Nat → ℚ
  | [(N, _)], [v], r => if r % N = v then 1 else 0
  | (N, W) :: l :: ls, v :: vs, r =>
    if r % N = v then ∑ x ∈ range W, weight B (l :: ls) vs (r / N % (B / W) * W + x) else 0
  | _, _, _ => 0

/-- All fresh values of the steps before the last. -/
def fresh : List (Nat × Nat) → Nat
  | (_, W) :: l :: ls => W * fresh (l :: ls)
  | _ => 1

/-- The sum of the numbers of values. -/
def alpha (ls : List (Nat × Nat)) : Nat := (ls.map (·.1)).sum

/-- The sum of the numbers of values, each multiplied by the number of steps before it. -/
def beta : List (Nat × Nat) → Nat
  | [] => 0
  | _ :: ls => beta ls + alpha ls

/-- The steps fit the state. -/
def StepsOk (B : Nat) (ls : List (Nat × Nat)) : Prop := ∀ l ∈ ls, 0 < l.1 ∧ l.1 ≤ l.2 ∧ l.2 ∣ B

theorem sum_vectors_cons (n : Nat) (ns : List Nat) (g : List Nat → ℚ) :
    ∑ vs ∈ vectors (n :: ns), g vs = ∑ v ∈ range n, ∑ vs ∈ vectors ns, g (v :: vs) := by
  rw [vectors, sum_map, sum_product]
  rfl

theorem sum_vectors_nil (g : List Nat → ℚ) : ∑ vs ∈ vectors [], g vs = g [] := by
  rw [vectors, sum_singleton]

theorem card_vectors (ns : List Nat) : #(vectors ns) = ns.prod := by
  induction ns with
  | nil => rfl
  | cons n ns ih => rw [vectors, card_map, card_product, card_range, ih, List.prod_cons]

/-- The samples are close to uniform. -/
theorem weight_close {B : Nat} (hB : 0 < B) : (ls : List (Nat × Nat)) → ls ≠ [] → StepsOk B ls →
    (Ls : List Nat) →
    ∑ vs ∈ vectors (ls.map (·.1)), |isum Ls (weight B ls vs) - total Ls * fresh ls / (ls.map (·.1)).prod|
      ≤ fresh ls / 2 * (alpha ls * Ls.length + beta ls * (total Ls / B)) := by
  have hB' : (0 : ℚ) < B := by exact_mod_cast hB
  intro ls
  induction ls with
  | nil => intro h; exact absurd rfl h
  | cons l ls ih =>
    intro _ hok Ls
    obtain ⟨N, W⟩ := l
    obtain ⟨hN, hNW, hWB⟩ := hok (N, W) (List.mem_cons_self)
    simp only at hN hNW hWB
    have hN' : (0 : ℚ) < N := by exact_mod_cast hN
    have hlen : (0 : ℚ) ≤ Ls.length := by positivity
    have h1 := sum_abs_allHits hN Ls
    cases ls with
    | nil =>
      rw [List.map_cons, List.map_nil, sum_vectors_cons]
      simp only [sum_vectors_nil]
      have e : ∀ v ∈ range N, |isum Ls (weight B [(N, W)] [v]) - total Ls * (fresh [(N, W)] : Nat) / ([N].prod : Nat)| =
          |allHits N v Ls - total Ls / N| := by
        intro v hv
        have : weight B [(N, W)] [v] = fun r => if r % N = v then 1 else 0 := by
          funext r; rw [weight]
        rw [this, isum_residue hN (mem_range.mp hv)]
        simp [fresh]
      rw [sum_congr rfl e]
      simp only [fresh, alpha, beta, List.map_cons, List.map_nil, List.sum_cons, List.sum_nil]
      push_cast
      linarith
    | cons l' ls =>
      have hW : 0 < W := Nat.lt_of_lt_of_le hN hNW
      have hW' : (0 : ℚ) < W := by exact_mod_cast hW
      have hH : 0 < B / W := Nat.div_pos (Nat.le_of_dvd hB hWB) hW
      have hHW : ((B / W : Nat) : ℚ) * W = B := by exact_mod_cast Nat.div_mul_cancel hWB
      have hH' : (0 : ℚ) < (B / W : Nat) := by exact_mod_cast hH
      rw [List.map_cons, sum_vectors_cons]
      generalize hP : ((l' :: ls).map (·.1)).prod = P at ih
      have hPpos : (0 : ℚ) < P := by
        rw [← hP]
        have : 0 < ((l' :: ls).map (·.1)).prod := by
          apply Nat.pos_of_ne_zero
          intro h0
          rw [List.prod_eq_zero_iff] at h0
          obtain ⟨x, hx, h0⟩ := List.mem_map.mp h0
          have := (hok x (List.mem_cons_of_mem _ hx)).1
          omega
        exact_mod_cast this
      have hcard : (#(vectors ((l' :: ls).map (·.1))) : ℚ) = P := by rw [card_vectors, hP]
      have hf : (fresh ((N, W) :: l' :: ls) : ℚ) = W * fresh (l' :: ls) := by
        rw [fresh]; push_cast; rfl
      generalize hk : (fresh (l' :: ls) : ℚ) = k at ih hf
      have hk0 : 0 ≤ k := by rw [← hk]; positivity
      have hstep : ∀ v ∈ range N,
          ∑ vs ∈ vectors ((l' :: ls).map (·.1)), |isum Ls (weight B ((N, W) :: l' :: ls) (v :: vs)) -
              total Ls * (fresh ((N, W) :: l' :: ls) : Nat) / ((N :: (l' :: ls).map (·.1)).prod : Nat)| ≤
            k / 2 * (alpha (l' :: ls) * (allHits N v Ls / (B / W : Nat) + Ls.length) +
              beta (l' :: ls) * (allHits N v Ls * W / B)) +
            W * k * |allHits N v Ls - total Ls / N| := by
        intro v hv
        have hv := mem_range.mp hv
        have e : ∀ vs, isum Ls (weight B ((N, W) :: l' :: ls) (v :: vs)) =
            isum (next N W (B / W) v Ls) (weight B (l' :: ls) vs) := by
          intro vs
          rw [← isum_step hN hH hv]
          rfl
        have hn := ih (by simp) (fun l hl => hok l (List.mem_cons_of_mem _ hl)) (next N W (B / W) v Ls)
        have htri : ∀ vs ∈ vectors ((l' :: ls).map (·.1)),
            |isum Ls (weight B ((N, W) :: l' :: ls) (v :: vs)) -
              total Ls * (fresh ((N, W) :: l' :: ls) : Nat) / ((N :: (l' :: ls).map (·.1)).prod : Nat)| ≤
            |isum (next N W (B / W) v Ls) (weight B (l' :: ls) vs) -
              total (next N W (B / W) v Ls) * k / P| + W * k / P * |allHits N v Ls - total Ls / N| := by
          intro vs _
          rw [e, total_next, hf, List.prod_cons, hP]
          have h3 : (W : ℚ) * k / P * |allHits N v Ls - total Ls / N| =
              |W * k / P * (allHits N v Ls - total Ls / N)| := by
            rw [abs_mul, abs_of_nonneg (a := (W : ℚ) * k / P) (by positivity)]
          rw [h3]
          refine le_trans (le_of_eq ?_) (abs_add_le _ _)
          congr 1
          push_cast
          field_simp
          ring
        refine (sum_le_sum htri).trans ?_
        rw [sum_add_distrib, sum_const, nsmul_eq_mul, hcard]
        have hsum := hn
        rw [total_next] at hsum ⊢
        have hlenN := length_next (N := N) (W := W) hH v Ls
        have ha : (0 : ℚ) ≤ alpha (l' :: ls) := by positivity
        have hb : (0 : ℚ) ≤ beta (l' :: ls) := by positivity
        have h4 : (P : ℚ) * (W * k / P * |allHits N v Ls - total Ls / N|) =
            W * k * |allHits N v Ls - total Ls / N| := by field_simp
        rw [h4]
        have h5 : k / 2 * (alpha (l' :: ls) * ((next N W (B / W) v Ls).length : ℚ) +
            beta (l' :: ls) * (allHits N v Ls * W / B)) ≤
            k / 2 * (alpha (l' :: ls) * (allHits N v Ls / (B / W : Nat) + Ls.length) +
              beta (l' :: ls) * (allHits N v Ls * W / B)) := by
          apply mul_le_mul_of_nonneg_left _ (by positivity)
          have := mul_le_mul_of_nonneg_left hlenN ha
          linarith
        linarith
      refine (sum_le_sum hstep).trans ?_
      rw [sum_add_distrib, ← mul_sum, ← mul_sum, sum_add_distrib, ← mul_sum, ← mul_sum, sum_add_distrib,
        ← sum_div, ← sum_div, ← sum_mul, sum_allHits hN, sum_const, card_range, nsmul_eq_mul, hf]
      have e1 : total Ls / ((B / W : Nat) : ℚ) = W * (total Ls / B) := by
        rw [← hHW]; field_simp
      have e2 : (alpha ((N, W) :: l' :: ls) : ℚ) = N + alpha (l' :: ls) := by
        simp [alpha]
      have e3 : (beta ((N, W) :: l' :: ls) : ℚ) = beta (l' :: ls) + alpha (l' :: ls) := by
        simp [beta]
      rw [e1, e2, e3]
      have hNW' : (N : ℚ) ≤ W := by exact_mod_cast hNW
      have ha : (0 : ℚ) ≤ alpha (l' :: ls) := by positivity
      have h6 : (N : ℚ) * Ls.length ≤ W * Ls.length := mul_le_mul_of_nonneg_right hNW' hlen
      have h7 : W * k * ∑ v ∈ range N, |allHits N v Ls - total Ls / N| ≤ W * k * (N / 2 * Ls.length) :=
        mul_le_mul_of_nonneg_left h1 (by positivity)
      have h8 : k / 2 * (alpha (l' :: ls) * (N * Ls.length)) ≤ k / 2 * (alpha (l' :: ls) * (W * Ls.length)) :=
        mul_le_mul_of_nonneg_left (mul_le_mul_of_nonneg_left h6 ha) (by positivity)
      calc _ = k / 2 * (alpha (l' :: ls) * (W * (total Ls / B))) + k / 2 * (alpha (l' :: ls) * (N * Ls.length)) +
            k / 2 * (beta (l' :: ls) * (total Ls * W / B)) +
            W * k * ∑ v ∈ range N, |allHits N v Ls - total Ls / N| := by ring
        _ ≤ k / 2 * (alpha (l' :: ls) * (W * (total Ls / B))) + k / 2 * (alpha (l' :: ls) * (W * Ls.length)) +
            k / 2 * (beta (l' :: ls) * (total Ls * W / B)) + W * k * (N / 2 * Ls.length) := by linarith
        _ = _ := by ring

end Verif.Uniform
