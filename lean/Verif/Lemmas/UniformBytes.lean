import Verif.Lemmas.Uniform
import Verif.Lemmas.IdealBits
/-! Sampling from uniform bytes. -/
namespace Verif.Uniform
open Finset Spec

/-- The sum over all byte strings of `k` bytes. -/
def bsum (k : Nat) (g : Bytes → ℚ) : ℚ := ∑ b : Fin k → Fin 256, g (bytesOf b)

theorem bytesOf_cons {k : Nat} (x : Fin 256) (b : Fin k → Fin 256) :
    bytesOf (Fin.cons (α := fun _ => Fin 256) x b) = BitVec.ofNat 8 x :: bytesOf b := by
  unfold bytesOf
  rw [List.ofFn_succ]
  rfl

theorem bsum_zero (g : Bytes → ℚ) : bsum 0 g = g [] := by
  unfold bsum
  rw [Fintype.sum_unique]
  rfl

theorem bsum_succ (k : Nat) (g : Bytes → ℚ) :
    bsum (k + 1) g = ∑ x ∈ range 256, bsum k fun b => g (BitVec.ofNat 8 x :: b) := by
  unfold bsum
  rw [← (Fin.consEquiv fun _ : Fin (k + 1) => Fin 256).sum_comp, Fintype.sum_prod_type,
    Finset.sum_range (fun x => ∑ b : Fin k → Fin 256, g (BitVec.ofNat 8 x :: bytesOf b))]
  apply sum_congr rfl
  intro x _
  apply sum_congr rfl
  intro b _
  rw [← bytesOf_cons]
  rfl

/-- Splitting off a number stored in the first `a` bytes. -/
theorem bsum_split (a c : Nat) (G : Nat → Bytes → ℚ) :
    bsum (a + c) (fun b => G (leAt b 0 a) (b.drop a)) = ∑ n ∈ range (256 ^ a), bsum c (G n) := by
  induction a generalizing G with
  | zero =>
    rw [Nat.zero_add, pow_zero, sum_range_one]
    rfl
  | succ a ih =>
    rw [show a + 1 + c = (a + c) + 1 by omega, bsum_succ, pow_succ, ← sum_blocks, sum_comm]
    apply sum_congr rfl
    intro x hx
    have hx := mem_range.mp hx
    rw [← ih fun n b => G (n * 256 + x) b]
    congr 1
    funext b
    rw [List.drop_succ_cons]
    congr 1
    unfold leAt
    rw [List.drop_zero, List.drop_zero, List.take_succ_cons, leNat, BitVec.toNat_ofNat,
      Nat.mod_eq_of_lt (by omega)]
    omega

/-! ### Leaves -/

/-- The integers of a type fit the 128-bit state. -/
def LeafOk (l : Leaf) : Prop := 0 < l.count ∧ l.count ≤ 2 ^ l.width ∧ l.width ≤ 128 ∧ 8 * (l.width / 8) = l.width

/-- The steps of `weight` for the integers of a type. -/
def steps (ls : List Leaf) : List (Nat × Nat) := ls.map fun l => (l.count, 2 ^ l.width)

/-- Bytes read after the first 16. -/
def restBytes : List Leaf → Nat
  | l :: l' :: ls => l.width / 8 + restBytes (l' :: ls)
  | _ => 0

theorem refill_eq {l : Leaf} (h : LeafOk l) {r : Nat} (hr : r < 2 ^ 128) {x : Nat} :
    l.refill r x = r / l.count % (2 ^ 128 / 2 ^ l.width) * 2 ^ l.width + x := by
  have hw : l.width ≤ 128 := h.2.2.1
  have hdiv : 2 ^ 128 / 2 ^ l.width = 2 ^ (128 - l.width) := Nat.pow_div hw (by omega)
  have hmul : (2 : Nat) ^ 128 = 2 ^ (128 - l.width) * 2 ^ l.width := by
    rw [← Nat.pow_add]; congr 1; omega
  rw [hdiv]
  cases l with
  | int w =>
    simp only [Leaf.refill, Leaf.count, Leaf.width] at *
    by_cases hlt : w < 128
    · rw [if_pos hlt, Nat.mod_eq_of_lt]
      rw [Nat.div_lt_iff_lt_mul (Nat.two_pow_pos w), ← hmul]
      exact hr
    · have : w = 128 := by omega
      subst this
      rw [if_neg hlt, Nat.sub_self, pow_zero, Nat.mod_one]; omega
  | mod w N =>
    simp only [Leaf.refill, Leaf.count, Leaf.width] at *
    by_cases hlt : w < 128
    · rw [if_pos hlt]
      conv => lhs; rw [hmul, Nat.mul_mod_mul_right]
    · have : w = 128 := by omega
      subst this
      rw [if_neg hlt, Nat.sub_self, pow_zero, Nat.mod_one]; omega

theorem refill_lt {l : Leaf} (h : LeafOk l) {r : Nat} (hr : r < 2 ^ 128) {x : Nat} (hx : x < 2 ^ l.width) :
    l.refill r x < 2 ^ 128 := by
  rw [refill_eq h hr]
  have hw : l.width ≤ 128 := h.2.2.1
  rw [Nat.pow_div hw (by omega)]
  have hmul : (2 : Nat) ^ 128 = 2 ^ (128 - l.width) * 2 ^ l.width := by
    rw [← Nat.pow_add]; congr 1; omega
  have h1 := Nat.mod_lt (r / l.count) (Nat.two_pow_pos (128 - l.width))
  have h2 : (r / l.count % 2 ^ (128 - l.width) + 1) * 2 ^ l.width ≤ 2 ^ 128 := by
    conv => rhs; rw [hmul]
    exact Nat.mul_le_mul_right _ h1
  rw [Nat.add_mul] at h2
  omega

/-- The byte strings that lead from state `r` to the samples `vs`. -/
theorem bsum_sampled : (ls : List Leaf) → ls ≠ [] → (∀ l ∈ ls, LeafOk l) → (vs : List Nat) →
    vs.length = ls.length → (r : Nat) → r < 2 ^ 128 →
    bsum (restBytes ls) (fun b => if sampled ls r b = vs then 1 else 0) = weight (2 ^ 128) (steps ls) vs r := by
  intro ls
  induction ls with
  | nil => intro h; exact absurd rfl h
  | cons l ls ih =>
    intro _ hok vs hlen r hr
    have hl := hok l List.mem_cons_self
    cases vs with
    | nil => simp at hlen
    | cons v vs =>
    cases ls with
    | nil =>
      have : vs = [] := by simpa using hlen
      subst this
      rw [show restBytes [l] = 0 from rfl, bsum_zero]
      simp only [steps, List.map_cons, List.map_nil, weight, sampled, List.cons.injEq, and_true]
    | cons l' ls =>
      have h256 : 256 ^ (l.width / 8) = 2 ^ l.width := by
        rw [show (256 : Nat) = 2 ^ 8 by rfl, ← Nat.pow_mul, hl.2.2.2]
      have e := bsum_split (l.width / 8) (restBytes (l' :: ls)) fun n b =>
        if r % l.count = v then (if sampled (l' :: ls) (l.refill r n) b = vs then 1 else 0) else 0
      rw [restBytes]
      rw [show (fun b => if sampled (l :: l' :: ls) r b = v :: vs then (1 : ℚ) else 0) = fun b =>
        if r % l.count = v then (if sampled (l' :: ls) (l.refill r (leAt b 0 (l.width / 8)))
          (b.drop (l.width / 8)) = vs then 1 else 0) else 0 by
        funext b
        rw [sampled]
        simp only [List.cons.injEq]
        split <;> split <;> simp_all]
      rw [e, h256]
      simp only [steps, List.map_cons, weight]
      by_cases hv : r % l.count = v
      · rw [if_pos hv]
        apply sum_congr rfl
        intro x hx
        have hx := mem_range.mp hx
        simp only [if_pos hv]
        rw [ih (by simp) (fun m hm => hok m (List.mem_cons_of_mem _ hm)) vs (by simpa using hlen) _
          (refill_lt hl hr hx), refill_eq hl hr]
        rfl
      · rw [if_neg hv]
        apply sum_eq_zero
        intro x _
        simp only [if_neg hv]
        simp [bsum]

theorem fresh_steps : (ls : List Leaf) → (∀ l ∈ ls, LeafOk l) → fresh (steps ls) = 256 ^ restBytes ls := by
  intro ls
  induction ls with
  | nil => intro _; rfl
  | cons l ls ih =>
    intro hok
    cases ls with
    | nil => rfl
    | cons l' ls =>
      have hl := hok l List.mem_cons_self
      have h256 : 256 ^ (l.width / 8) = 2 ^ l.width := by
        rw [show (256 : Nat) = 2 ^ 8 by rfl, ← Nat.pow_mul, hl.2.2.2]
      have := ih fun m hm => hok m (List.mem_cons_of_mem _ hm)
      simp only [steps, List.map_cons, fresh, restBytes] at this ⊢
      rw [this, pow_add, h256]

theorem mem_vectors {ns vs : List Nat} : vs ∈ vectors ns ↔ List.Forall₂ (· < ·) vs ns := by
  induction ns generalizing vs with
  | nil => simp [vectors]
  | cons n ns ih =>
    simp only [vectors, mem_map, mem_product, mem_range, Prod.exists]
    constructor
    · rintro ⟨a, b, ⟨h1, h2⟩, rfl⟩
      exact .cons h1 (ih.mp h2)
    · intro h
      cases h with
      | cons h1 h2 => exact ⟨_, _, ⟨h1, ih.mpr h2⟩, rfl⟩

/-- The numbers sampled from uniform bytes are close to uniform. -/
theorem sampled_close (ls : List Leaf) (hne : ls ≠ []) (hok : ∀ l ∈ ls, LeafOk l) {k : Nat}
    (hk : k = 16 + restBytes ls) :
    distance (fun b : Fin k → Fin 256 => sampled ls (leAt (bytesOf b) 0 16) ((bytesOf b).drop 16))
      (vectors (ls.map Leaf.count)) ≤ (alpha (steps ls) + beta (steps ls) : Nat) / 2 ^ 130 := by
  subst hk
  have hcnt : ∀ vs ∈ vectors (ls.map Leaf.count),
      (#{b : Fin (16 + restBytes ls) → Fin 256 |
        sampled ls (leAt (bytesOf b) 0 16) ((bytesOf b).drop 16) = vs} : ℚ) =
      isum [2 ^ 128] (weight (2 ^ 128) (steps ls) vs) := by
    intro vs hvs
    have hlen : vs.length = ls.length := by
      have := (mem_vectors.mp hvs).length_eq
      simpa using this
    have e := bsum_split 16 (restBytes ls) fun n b => if sampled ls n b = vs then (1 : ℚ) else 0
    rw [isum_cons, show isum [] (weight (2 ^ 128) (steps ls) vs) = 0 from rfl, add_zero]
    rw [show (256 : Nat) ^ 16 = 2 ^ 128 by rfl] at e
    rw [sum_congr rfl fun n hn => (bsum_sampled ls hne hok vs hlen n (mem_range.mp hn)).symm, ← e, bsum]
    rw [Finset.sum_boole]
  have hcard : (Fintype.card (Fin (16 + restBytes ls) → Fin 256) : ℚ) = 2 ^ 128 * fresh (steps ls) := by
    rw [Fintype.card_fun, Fintype.card_fin, Fintype.card_fin, fresh_steps ls hok, pow_add]
    push_cast
    norm_num
  have hmap : (steps ls).map (·.1) = ls.map Leaf.count := by simp [steps]
  have hsok : StepsOk (2 ^ 128) (steps ls) := by
    intro p hp
    obtain ⟨l, hl, rfl⟩ := List.mem_map.mp hp
    have := hok l hl
    exact ⟨this.1, this.2.1, Nat.pow_dvd_pow 2 this.2.2.1⟩
  have hmain := weight_close (B := 2 ^ 128) (by norm_num) (steps ls) (by simpa [steps] using hne) hsok [2 ^ 128]
  have htot : total [2 ^ 128] = 2 ^ 128 := by rw [total_cons]; norm_num [total, isum]
  rw [hmap, htot] at hmain
  have hf : (0 : ℚ) < fresh (steps ls) := by
    rw [fresh_steps ls hok]; positivity
  unfold distance
  rw [hcard, card_vectors]
  have e : ∀ vs ∈ vectors (ls.map Leaf.count),
      (|(#{b : Fin (16 + restBytes ls) → Fin 256 |
        sampled ls (leAt (bytesOf b) 0 16) ((bytesOf b).drop 16) = vs} : ℚ) / (2 ^ 128 * fresh (steps ls)) -
        1 / ((ls.map Leaf.count).prod : Nat)| : ℚ) =
      |isum [2 ^ 128] (weight (2 ^ 128) (steps ls) vs) -
        2 ^ 128 * fresh (steps ls) / ((ls.map Leaf.count).prod : Nat)| / (2 ^ 128 * fresh (steps ls)) := by
    intro vs hvs
    rw [hcnt vs hvs]
    have hpos : (0 : ℚ) < 2 ^ 128 * fresh (steps ls) := by positivity
    rw [eq_div_iff hpos.ne']
    conv => lhs; arg 2; rw [← abs_of_pos hpos]
    rw [← abs_mul]
    congr 1
    rw [sub_mul, div_mul_cancel₀ _ hpos.ne', one_div_mul_eq_div]
  rw [sum_congr rfl e, ← sum_div]
  simp only [List.length_singleton, Nat.cast_one, mul_one] at hmain
  rw [div_le_iff₀ (by norm_num), div_le_iff₀ (by positivity)]
  refine hmain.trans (le_of_eq ?_)
  push_cast
  field_simp
  ring

/-! ### Bounds in closed form -/

theorem alpha_beta (ls : List (Nat × Nat)) (k : Nat) :
    alpha ls * k + beta ls = (((ls.map (·.1)).zipIdx k).map fun p => p.1 * p.2).sum := by
  induction ls generalizing k with
  | nil => simp [alpha, beta]
  | cons l ls ih =>
    have := ih (k + 1)
    simp only [alpha, beta, List.map_cons, List.sum_cons, List.zipIdx_cons] at this ⊢
    rw [← this]
    ring

theorem alpha_replicate (n N W : Nat) :
    2 * (alpha (List.replicate n (N, W)) + beta (List.replicate n (N, W))) = n * (n + 1) * N := by
  have ha : ∀ m, alpha (List.replicate m (N, W)) = m * N := by intro m; simp [alpha]
  rw [ha]
  induction n with
  | zero => simp [beta]
  | succ n ih =>
    rw [List.replicate_succ, beta, ha]
    nlinarith

theorem steps_replicate (n w N : Nat) :
    steps (List.replicate n (.mod w N)) = List.replicate n (N, 2 ^ w) := by
  simp [steps, Leaf.count, Leaf.width]

theorem restBytes_replicate (n : Nat) (l : Leaf) : restBytes (List.replicate n l) = l.width / 8 * (n - 1) := by
  induction n with
  | zero => rfl
  | succ n ih =>
    cases n with
    | zero => rfl
    | succ n =>
      rw [List.replicate_succ, List.replicate_succ, restBytes, ← List.replicate_succ, ih]
      simp only [Nat.add_sub_cancel]
      ring

/-- The residues of `SampleFromBytes` are those sampled one after the other. -/
theorem residues_sampled (N w : Nat) (bytes : Bytes) : (n pos state : Nat) → w < 128 ∨ n = 0 →
    residues N w state ((List.range n).map fun i => leAt bytes (pos + i * (w / 8)) (w / 8)) =
      sampled (List.replicate (n + 1) (.mod w N)) state (bytes.drop pos) := by
  intro n
  induction n with
  | zero => intro pos state _; rfl
  | succ n ih =>
    intro pos state h
    have hw : w < 128 := by omega
    rw [List.range_succ_eq_map, List.map_cons, residues, List.replicate_succ, sampled, List.map_map]
    rw [List.drop_drop]
    have e : ((fun i => leAt bytes (pos + i * (w / 8)) (w / 8)) ∘ Nat.succ) =
        fun i => leAt bytes (pos + w / 8 + i * (w / 8)) (w / 8) := by
      funext i
      simp only [Function.comp, Nat.succ_eq_add_one]
      congr 1
      ring
    rw [e, ih (pos + w / 8) _ (.inl hw)]
    have e2 : refill N w state (leAt bytes (pos + 0 * (w / 8)) (w / 8)) =
        Leaf.refill (.mod w N) state (leAt (bytes.drop pos) 0 ((Leaf.mod w N).width / 8)) := by
      rw [refill, Leaf.refill, if_pos hw, if_pos hw, Nat.zero_mul, Nat.add_zero]
      simp only [leAt, List.drop_zero, Leaf.width]
    rw [e2]
    rfl

theorem bytesOf_length {k : Nat} (b : Fin k → Fin 256) : (bytesOf b).length = k := by
  simp [bytesOf]

theorem sampled_mem (ls : List Leaf) (h : ∀ l ∈ ls, 0 < l.count) (s : Nat) (b : Bytes) :
    sampled ls s b ∈ vectors (ls.map Leaf.count) := by
  rw [mem_vectors]
  induction ls generalizing s b with
  | nil => exact .nil
  | cons l ls ih =>
    exact .cons (Nat.mod_lt _ (h l List.mem_cons_self)) (ih (fun m hm => h m (List.mem_cons_of_mem _ hm)) _ _)

/-! ### Exactly uniform -/

/-- The bytes of all integers. -/
def allBytes (ls : List Leaf) : Nat := (ls.map fun l => l.width / 8).sum

theorem bsum_stored (ls : List Leaf) (h : ∀ l ∈ ls, l.count = 256 ^ (l.width / 8)) (vs : List Nat)
    (hvs : vs ∈ vectors (ls.map Leaf.count)) :
    bsum (allBytes ls) (fun b => if stored ls b = vs then 1 else 0) = 1 := by
  induction ls generalizing vs with
  | nil =>
    rw [mem_vectors] at hvs
    cases hvs
    simp [allBytes, bsum_zero, stored]
  | cons l ls ih =>
    rw [mem_vectors] at hvs
    cases hvs with
    | @cons v _ vs _ hv hvs =>
    have e := bsum_split (l.width / 8) (allBytes ls) fun n b =>
      if n = v then (if stored ls b = vs then (1 : ℚ) else 0) else 0
    rw [show allBytes (l :: ls) = l.width / 8 + allBytes ls by simp [allBytes]]
    rw [show (fun b => if stored (l :: ls) b = v :: vs then (1 : ℚ) else 0) = fun b =>
        if leAt b 0 (l.width / 8) = v then (if stored ls (b.drop (l.width / 8)) = vs then 1 else 0) else 0 by
      funext b
      rw [stored]
      simp only [List.cons.injEq]
      split <;> split <;> simp_all]
    rw [e, sum_eq_single v]
    · simp only [if_true]
      exact ih (fun m hm => h m (List.mem_cons_of_mem _ hm)) vs (mem_vectors.mpr hvs)
    · intro n _ hn
      simp only [if_neg hn]
      simp [bsum]
    · intro hn
      rw [mem_range, ← h l List.mem_cons_self] at hn
      exact absurd hv hn

theorem stored_uniform (ls : List Leaf) (h : ∀ l ∈ ls, l.count = 256 ^ (l.width / 8)) {k : Nat}
    (hk : k = allBytes ls) :
    distance (fun b : Fin k → Fin 256 => stored ls (bytesOf b)) (vectors (ls.map Leaf.count)) = 0 := by
  subst hk
  unfold distance
  have hcard : (Fintype.card (Fin (allBytes ls) → Fin 256) : ℚ) = ((ls.map Leaf.count).prod : Nat) := by
    rw [Fintype.card_fun, Fintype.card_fin, Fintype.card_fin]
    congr 1
    clear * - h
    induction ls with
    | nil => rfl
    | cons l ls ih =>
      rw [List.map_cons, List.prod_cons, ← ih fun m hm => h m (List.mem_cons_of_mem _ hm),
        h l List.mem_cons_self, ← pow_add]
      simp [allBytes]
  rw [hcard, card_vectors]
  rw [sum_eq_zero, zero_div]
  intro vs hvs
  have := bsum_stored ls h vs hvs
  rw [bsum, Finset.sum_boole] at this
  rw [this, sub_self, abs_zero]

/-! ### Far from uniform -/

/-- The distance is at least half the difference of the probabilities of any event. -/
theorem distance_ge {α β : Type} [Fintype α] [DecidableEq β] (f : α → β) (S T : Finset β) (hT : T ⊆ S) :
    |(#{a | f a ∈ T} : ℚ) / Fintype.card α - #T / #S| / 2 ≤ distance f S := by
  unfold distance
  apply div_le_div_of_nonneg_right _ (by norm_num)
  calc _ = |∑ b ∈ T, ((#{a | f a = b} : ℚ) / Fintype.card α - 1 / #S)| := by
        rw [sum_sub_distrib, ← sum_div, sum_const, nsmul_eq_mul, mul_one_div]
        congr 3
        have : #{a | f a ∈ T} = ∑ b ∈ T, #{a | f a = b} := by
          rw [Finset.card_eq_sum_card_fiberwise (f := f) (t := T)]
          · apply sum_congr rfl
            intro b hb
            congr 1
            ext a
            simp only [mem_filter, mem_univ, true_and]
            constructor
            · exact fun h => h.2
            · exact fun h => ⟨h ▸ hb, h⟩
          · intro a ha
            simpa using ha
        rw [this]
        push_cast
        rfl
    _ ≤ ∑ b ∈ T, |(#{a | f a = b} : ℚ) / Fintype.card α - 1 / #S| := abs_sum_le_sum_abs _ _
    _ ≤ _ := sum_le_sum_of_subset_of_nonneg hT fun _ _ _ => abs_nonneg _

end Verif.Uniform
