import Mathlib.Data.Fintype.Pi
import Mathlib.Data.Fintype.BigOperators
import Verif.Spec.Statistical
import Verif.Lemmas.UniformTypes
import Verif.Props.Uniform
import Verif.Props.Ideal
/-!
# Distances of distributions
-/
namespace Verif.Uniform
open Finset Spec

/-- The mean of `F` at a uniformly chosen argument. -/
def mean {R : Type} [Fintype R] (F : R → ℚ) : ℚ := (∑ r, F r) / Fintype.card R

theorem mean_congr {R : Type} [Fintype R] {F G : R → ℚ} (h : ∀ r, F r = G r) : mean F = mean G := by
  rw [show F = G from funext h]

theorem mean_equiv {R S : Type} [Fintype R] [Fintype S] (e : R ≃ S) (F : S → ℚ) :
    mean (fun r => F (e r)) = mean F := by
  unfold mean
  rw [e.sum_comp F, Fintype.card_congr e]

theorem mean_prod {R S : Type} [Fintype R] [Fintype S] (F : R → S → ℚ) :
    mean (fun r : R × S => F r.1 r.2) = mean fun a => mean fun b => F a b := by
  unfold mean
  rw [Fintype.sum_prod_type, Fintype.card_prod, ← sum_div, div_div, Nat.cast_mul, mul_comm (Fintype.card R : ℚ)]

theorem mean_const {R : Type} [Fintype R] [Nonempty R] (c : ℚ) : mean (fun _ : R => c) = c := by
  unfold mean
  rw [sum_const, card_univ, nsmul_eq_mul, mul_div_cancel_left₀]
  exact_mod_cast Fintype.card_ne_zero

theorem mean_mono {R : Type} [Fintype R] {F G : R → ℚ} (h : ∀ r, F r ≤ G r) : mean F ≤ mean G := by
  unfold mean
  exact div_le_div_of_nonneg_right (sum_le_sum fun r _ => h r) (by positivity)

theorem mean_sub {R : Type} [Fintype R] (F G : R → ℚ) : mean F - mean G = mean fun r => F r - G r := by
  unfold mean
  rw [← sub_div, sum_sub_distrib]

theorem mean_abs {R : Type} [Fintype R] (F : R → ℚ) : |mean F| ≤ mean fun r => |F r| := by
  unfold mean
  rw [abs_div, abs_of_nonneg (by positivity : (0 : ℚ) ≤ Fintype.card R)]
  exact div_le_div_of_nonneg_right (abs_sum_le_sum_abs _ _) (by positivity)

/-- `F` has values from 0 to 1. -/
def InUnit {R : Type} (F : R → ℚ) : Prop := ∀ r, 0 ≤ F r ∧ F r ≤ 1

theorem InUnit.mean {R : Type} [Fintype R] [Nonempty R] {F : R → ℚ} (h : InUnit F) :
    0 ≤ mean F ∧ mean F ≤ 1 :=
  ⟨(mean_const (R := R) 0).ge.trans (mean_mono fun r => (h r).1),
    (mean_mono fun r => (h r).2).trans (mean_const (R := R) 1).le⟩

/-- `g` at a uniform argument is within `δ` of uniform. -/
def Close {A B : Type} [Fintype A] [Fintype B] (g : A → B) (δ : ℚ) : Prop :=
  ∀ F : B → ℚ, InUnit F → |mean (fun a => F (g a)) - mean F| ≤ δ

theorem close_pi : (n : Nat) → (A B : Fin n → Type) → [∀ h, Fintype (A h)] → [∀ h, Fintype (B h)] →
    [∀ h, Nonempty (A h)] → [∀ h, Nonempty (B h)] → (g : ∀ h, A h → B h) → (δ : Fin n → ℚ) →
    (∀ h, Close (g h) (δ h)) → Close (fun (a : ∀ h, A h) h => g h (a h)) (∑ h, δ h)
  | 0, A, B, _, _, _, _, g, δ, _ => by
    intro F hF
    have e : ∀ a : ∀ h, A h, F (fun h => g h (a h)) = F (fun h => h.elim0) := by
      intro a; congr 1; funext h; exact h.elim0
    have e' : ∀ b : ∀ h, B h, F b = F (fun h => h.elim0) := by
      intro b; congr 1; funext h; exact h.elim0
    rw [mean_congr e, mean_congr e', mean_const, mean_const]
    simp
  | n + 1, A, B, _, _, _, _, g, δ, hg => by
    intro F hF
    have ih := close_pi n (fun h => A h.succ) (fun h => B h.succ) (fun h => g h.succ) (fun h => δ h.succ)
      fun h => hg h.succ
    rw [← mean_equiv (Fin.consEquiv A) (fun a => F fun h => g h (a h)), ← mean_equiv (Fin.consEquiv B) F]
    have eA : ∀ r : A 0 × (∀ h : Fin n, A h.succ), F (fun h => g h (Fin.consEquiv A r h)) =
        F (Fin.cons (g 0 r.1) fun h => g h.succ (r.2 h)) := by
      intro r
      congr 1
      funext h
      refine Fin.cases ?_ (fun i => ?_) h <;> rfl
    have eB : ∀ r : B 0 × (∀ h : Fin n, B h.succ), F (Fin.consEquiv B r) = F (Fin.cons r.1 r.2) := fun r => rfl
    rw [mean_congr eA, mean_congr eB,
      mean_prod (fun (a : A 0) (r : ∀ h : Fin n, A h.succ) => F (Fin.cons (g 0 a) fun h => g h.succ (r h))),
      mean_prod (fun (b : B 0) (r : ∀ h : Fin n, B h.succ) => F (Fin.cons b r))]
    have h1 : |mean (fun a : A 0 => mean fun r : ∀ h : Fin n, A h.succ => F (Fin.cons (g 0 a) fun h => g h.succ (r h))) -
        mean (fun a : A 0 => mean fun r : ∀ h : Fin n, B h.succ => F (Fin.cons (g 0 a) r))| ≤ ∑ h : Fin n, δ h.succ := by
      rw [mean_sub]
      refine (mean_abs _).trans ?_
      rw [← mean_const (R := A 0) (∑ h : Fin n, δ h.succ)]
      exact mean_mono fun a => ih (fun r => F (Fin.cons (g 0 a) r)) fun r => hF _
    have h2 := hg 0 (fun b => mean fun r : ∀ h : Fin n, B h.succ => F (Fin.cons b r)) fun b =>
      InUnit.mean fun r => hF _
    rw [Fin.sum_univ_succ, add_comm (δ 0)]
    exact (abs_sub_le _ _ _).trans (add_le_add h1 h2)

/-- The distance bounds the difference of means. -/
theorem mean_distance {α β : Type} [Fintype α] [Nonempty α] [DecidableEq β] (f : α → β) (S : Finset β)
    (hf : ∀ a, f a ∈ S) (F : β → ℚ) (hF : InUnit F) :
    |mean (fun a => F (f a)) - (∑ s ∈ S, F s) / #S| ≤ distance f S := by
  have hS : (#S : ℚ) ≠ 0 := by
    obtain ⟨a⟩ := ‹Nonempty α›
    exact_mod_cast Finset.card_ne_zero.mpr ⟨f a, hf a⟩
  have hA : (Fintype.card α : ℚ) ≠ 0 := by exact_mod_cast Fintype.card_ne_zero
  have hsum : ∀ G : β → ℚ, ∑ a, G (f a) = ∑ s ∈ S, G s * #{a | f a = s} := by
    intro G
    rw [← sum_fiberwise_of_maps_to (s := univ) (t := S) (g := f) fun a _ => hf a]
    apply sum_congr rfl
    intro s _
    rw [sum_congr rfl fun a ha => by rw [(mem_filter.mp ha).2], sum_const, nsmul_eq_mul, mul_comm]
  let c : β → ℚ := fun s => (#{a | f a = s} : ℚ) / Fintype.card α - 1 / #S
  have hc : ∑ s ∈ S, c s = 0 := by
    have := hsum fun _ => 1
    simp only [sum_const, card_univ, nsmul_eq_mul, mul_one, one_mul] at this
    show ∑ s ∈ S, (_ - _) = (0 : ℚ)
    rw [sum_sub_distrib, ← sum_div, ← this, sum_const, nsmul_eq_mul, div_self hA, mul_one_div, div_self hS, sub_self]
  have e : mean (fun a => F (f a)) - (∑ s ∈ S, F s) / #S = ∑ s ∈ S, (F s - 1 / 2) * c s := by
    have e1 : ∑ s ∈ S, (F s - 1 / 2) * c s = ∑ s ∈ S, F s * c s - 1 / 2 * ∑ s ∈ S, c s := by
      rw [mul_sum, ← sum_sub_distrib]
      exact sum_congr rfl fun s _ => by ring
    rw [e1, hc, mul_zero, sub_zero]
    unfold mean
    rw [hsum, sum_div, sum_div, ← sum_sub_distrib]
    exact sum_congr rfl fun s _ => by show _ = F s * (_ - _); ring
  rw [e]
  refine (abs_sum_le_sum_abs _ _).trans ?_
  unfold distance
  rw [sum_div]
  apply sum_le_sum
  intro s _
  rw [abs_mul]
  have : |F s - 1 / 2| ≤ 1 / 2 := by
    rw [abs_le]
    have := hF s
    constructor <;> linarith
  calc _ ≤ 1 / 2 * |c s| := mul_le_mul_of_nonneg_right this (abs_nonneg _)
    _ = _ := by show 1 / 2 * |_| = _; ring

/-- Where all fibres have the same size, the result is uniform. -/
theorem close_lens {A B : Type} [Fintype A] [Fintype B] [Nonempty A] (get : A → B) (put : B → A → A)
    (h1 : ∀ b a, get (put b a) = b) (h2 : ∀ a, put (get a) a = a) (h3 : ∀ b c a, put c (put b a) = put c a) :
    Close get 0 := by
  classical
  intro F _
  obtain ⟨a0⟩ := ‹Nonempty A›
  have hfib : ∀ b, #{a | get a = b} = #{a | get a = get a0} := by
    intro b
    refine card_bij' (fun a _ => put (get a0) a) (fun a _ => put b a) ?_ ?_ ?_ ?_
    · intro a _; simp [h1]
    · intro a _; simp [h1]
    · intro a ha
      have : get a = b := by simpa using ha
      rw [h3, ← this, h2]
    · intro a ha
      have : get a = get a0 := by simpa using ha
      rw [h3, ← this, h2]
  have hsum : ∀ G : B → ℚ, ∑ a, G (get a) = #{a | get a = get a0} * ∑ b, G b := by
    intro G
    rw [← sum_fiberwise_of_maps_to (s := univ) (t := univ) (g := get) fun a _ => mem_univ _, mul_sum]
    apply sum_congr rfl
    intro b _
    rw [sum_congr rfl fun a ha => by rw [(mem_filter.mp ha).2], sum_const, nsmul_eq_mul, hfib]
  have hcard : (Fintype.card A : ℚ) = #{a | get a = get a0} * Fintype.card B := by
    have := hsum fun _ => 1
    simpa using this
  have hne : (#{a | get a = get a0} : ℚ) ≠ 0 := by
    exact_mod_cast card_ne_zero.mpr ⟨a0, by simp⟩
  unfold mean
  rw [hsum, hcard, mul_div_mul_left _ _ hne, sub_self, abs_zero]

/-! ### Elements from blocks -/

theorem sampled_more (ls : List Leaf) (s : Nat) (b c : Bytes) (h : restBytes ls ≤ b.length) :
    sampled ls s (b ++ c) = sampled ls s b := by
  induction ls generalizing s b with
  | nil => rfl
  | cons l ls ih =>
    cases ls with
    | nil => rfl
    | cons m ls =>
      have h : l.width / 8 + restBytes (m :: ls) ≤ b.length := h
      show s % l.count :: sampled (m :: ls) (l.refill s (leAt (b ++ c) 0 (l.width / 8)))
          ((b ++ c).drop (l.width / 8)) = s % l.count :: sampled (m :: ls) (l.refill s (leAt b 0 (l.width / 8)))
          (b.drop (l.width / 8))
      rw [List.drop_append_of_le_length (by omega), ih _ _ (by rw [List.length_drop]; omega)]
      have e : leAt (b ++ c) 0 (l.width / 8) = leAt b 0 (l.width / 8) := by
        unfold leAt
        rw [List.drop_zero, List.drop_zero, List.take_append_of_le_length (by omega)]
      rw [e]

theorem bytesOf_append {m n : Nat} (a : Fin m → Fin 256) (b : Fin n → Fin 256) :
    bytesOf (Fin.append a b) = bytesOf a ++ bytesOf b := by
  unfold bytesOf
  rw [← List.ofFn_fin_append]
  congr 1
  funext i
  refine Fin.addCases (fun j => ?_) (fun j => ?_) i <;> simp

theorem bytesOf_inj {k : Nat} {a b : Fin k → Fin 256} (h : bytesOf a = bytesOf b) : a = b := by
  funext i
  unfold bytesOf at h
  have := congrFun (List.ofFn_injective h) i
  have := congrArg BitVec.toNat this
  simp only [BitVec.toNat_ofNat] at this
  have h1 := (a i).isLt
  have h2 := (b i).isLt
  apply Fin.ext
  omega

theorem bytesOf_surj {k : Nat} (l : Bytes) (h : l.length = k) : ∃ b : Fin k → Fin 256, bytesOf b = l := by
  subst h
  refine ⟨fun i => l[i].toFin, ?_⟩
  unfold bytesOf
  apply List.ext_getElem (by simp)
  intro i h1 h2
  simp

/-- Blocks and their bytes. -/
theorem blocks_bytes (k : Nat) : ∃ e : (Fin k → U128) ≃ (Fin (16 * k) → Fin 256),
    ∀ f, bytesOf (e f) = blocksBytes (List.ofFn f) := by
  have hl : ∀ f : Fin k → U128, (blocksBytes (List.ofFn f)).length = 16 * k := by
    intro f; rw [blocksBytes_length, List.length_ofFn]
  let g : (Fin k → U128) → (Fin (16 * k) → Fin 256) := fun f => (bytesOf_surj _ (hl f)).choose
  have hg : ∀ f, bytesOf (g f) = blocksBytes (List.ofFn f) := fun f => (bytesOf_surj _ (hl f)).choose_spec
  refine ⟨⟨g, fun b => bytesBlocks (bytesOf b) k, ?_, ?_⟩, hg⟩
  · intro f
    dsimp only
    rw [hg, bytesBlocks_blocksBytes]
  · intro b
    apply bytesOf_inj
    rw [hg, blocksBytes_bytesBlocks (bytesOf_length b)]

mutual
theorem numbersOf_mem : (t : Ty) → (x : t.den) → numbersOf t x ∈ vectors ((leavesOf t).map Leaf.count)
  | .uint w, x => mem_vectors.mpr (.cons (BitVec.isLt (w := w.bits) x) .nil)
  | .intModN w N _ _, x => mem_vectors.mpr (.cons x.2 .nil)
  | .xorWrapper w, x => mem_vectors.mpr (.cons (BitVec.isLt (w := w.bits) x) .nil)
  | .tuple ts, x => numbersOfAll_mem ts x
theorem numbersOfAll_mem : (ts : Tys) → (x : ts.den) →
    numbersOfAll ts x ∈ vectors ((leavesOfAll ts).map Leaf.count)
  | .one t, x => numbersOf_mem t x
  | .cons t ts, x => by
    have h1 := mem_vectors.mp (numbersOf_mem t x.1)
    have h2 := mem_vectors.mp (numbersOfAll_mem ts x.2)
    rw [mem_vectors]
    show List.Forall₂ _ (numbersOf t x.1 ++ numbersOfAll ts x.2) ((leavesOf t ++ leavesOfAll ts).map Leaf.count)
    rw [List.map_append]
    exact List.rel_append h1 h2
end

theorem forall₂_append_inv {a b c : List Nat} (h : List.Forall₂ (· < ·) a (b ++ c)) :
    ∃ x y, a = x ++ y ∧ List.Forall₂ (· < ·) x b ∧ List.Forall₂ (· < ·) y c := by
  induction b generalizing a with
  | nil => exact ⟨[], a, rfl, .nil, h⟩
  | cons n b ih =>
    cases h with
    | cons h1 h2 =>
      obtain ⟨x, y, rfl, hx, hy⟩ := ih h2
      exact ⟨_ :: x, y, rfl, .cons h1 hx, hy⟩

mutual
theorem numbersOf_surj : (t : Ty) → (vs : List Nat) → vs ∈ vectors ((leavesOf t).map Leaf.count) →
    ∃ x, numbersOf t x = vs
  | .uint w, vs, h => by
    have h := mem_vectors.mp h
    cases h with
    | @cons v _ _ _ hv h =>
      cases h
      refine ⟨BitVec.ofNat w.bits v, ?_⟩
      have hv : v < 2 ^ w.bits := hv
      show [(BitVec.ofNat w.bits v).toNat] = [v]
      rw [BitVec.toNat_ofNat, Nat.mod_eq_of_lt hv]
  | .intModN w N h0 h1, vs, h => by
    have h := mem_vectors.mp h
    cases h with
    | @cons v _ _ _ hv h =>
      cases h
      have hv : v < N.toNat := hv
      have e : (BitVec.ofNat w.bits v).toNat = v := by
        rw [BitVec.toNat_ofNat, Nat.mod_eq_of_lt (by omega)]
      refine ⟨⟨BitVec.ofNat w.bits v, by rw [e]; exact hv⟩, ?_⟩
      show [(BitVec.ofNat w.bits v).toNat] = [v]
      rw [e]
  | .xorWrapper w, vs, h => by
    have h := mem_vectors.mp h
    cases h with
    | @cons v _ _ _ hv h =>
      cases h
      refine ⟨BitVec.ofNat w.bits v, ?_⟩
      have hv : v < 2 ^ w.bits := hv
      show [(BitVec.ofNat w.bits v).toNat] = [v]
      rw [BitVec.toNat_ofNat, Nat.mod_eq_of_lt hv]
  | .tuple ts, vs, h => numbersOfAll_surj ts vs h
theorem numbersOfAll_surj : (ts : Tys) → (vs : List Nat) → vs ∈ vectors ((leavesOfAll ts).map Leaf.count) →
    ∃ x, numbersOfAll ts x = vs
  | .one t, vs, h => numbersOf_surj t vs h
  | .cons t ts, vs, h => by
    have h : List.Forall₂ _ vs ((leavesOf t ++ leavesOfAll ts).map Leaf.count) := mem_vectors.mp h
    rw [List.map_append] at h
    obtain ⟨a, b, rfl, ha, hb⟩ := forall₂_append_inv h
    obtain ⟨x, hx⟩ := numbersOf_surj t a (mem_vectors.mpr ha)
    obtain ⟨y, hy⟩ := numbersOfAll_surj ts b (mem_vectors.mpr hb)
    refine ⟨(x, y), ?_⟩
    show numbersOf t x ++ numbersOfAll ts y = _
    rw [hx, hy]
end

theorem mean_fst {R S : Type} [Fintype R] [Fintype S] [Nonempty S] (F : R → ℚ) :
    mean (fun r : R × S => F r.1) = mean F := by
  rw [mean_prod (fun a (_ : S) => F a)]
  exact mean_congr fun a => mean_const (F a)

/-- The mean over uniform bytes of a function of the first ones. -/
theorem mean_bytes {m n : Nat} (h : m ≤ n) (G H : Bytes → ℚ) (hG : ∀ b c, b.length = m → G (b ++ c) = H b) :
    mean (fun b : Fin n → Fin 256 => G (bytesOf b)) = mean fun b : Fin m → Fin 256 => H (bytesOf b) := by
  obtain ⟨r, rfl⟩ := Nat.exists_eq_add_of_le h
  rw [← mean_equiv (Fin.appendEquiv m r) fun b => G (bytesOf b),
    ← mean_fst (S := Fin r → Fin 256) fun b : Fin m → Fin 256 => H (bytesOf b)]
  apply mean_congr
  intro b
  show G (bytesOf (Fin.append b.1 b.2)) = _
  rw [bytesOf_append, hG _ _ (bytesOf_length _)]

/-- The elements of one level of the experiment are close to uniform. -/
theorem level_close (t : Ty) [Fintype t.den] [Fintype U128] (k : Nat) (hk : t.bytesRead ≤ 16 * k) :
    Close (fun (f : Fin k → U128) (i : Fin t.helper.elementsPerBlock) =>
      (elementsOfBlocks t (List.ofFn f)).getD i t.helper.zero) (samplingGap t) := by
  classical
  cases hm : t.noMod with
  | true =>
    obtain ⟨put, h1, h2, h3⟩ := blocks_lens t hm k hk
    unfold samplingGap
    rw [if_pos hm]
    exact close_lens _ put h1 h2 h3
  | false =>
    intro F hF
    have hone : t.helper.elementsPerBlock = 1 := by rw [t.elementsPerBlock_eq, hm]; rfl
    let i0 : Fin t.helper.elementsPerBlock := ⟨0, by omega⟩
    have hall : ∀ i : Fin t.helper.elementsPerBlock, i = i0 := fun i => Fin.ext (by have := i.2; show i.1 = 0; omega)
    let S := vectors ((leavesOf t).map Leaf.count)
    let G : List Nat → ℚ := fun vs => if h : vs ∈ S then F fun _ => (numbersOf_surj t vs h).choose else 0
    have hFG : ∀ x, F x = G (numbersOf t (x i0)) := by
      intro x
      refine Eq.trans ?_ (dif_pos (numbersOf_mem t (x i0))).symm
      congr 1
      funext i
      rw [hall i]
      exact (numbersOf_inj t _ _ (numbersOf_surj t _ (numbersOf_mem t (x i0))).choose_spec).symm
    have hG : InUnit G := by
      intro vs
      dsimp only [G]
      split
      · exact hF _
      · norm_num
    let smp : Bytes → List Nat := fun b => sampled (leavesOf t) (leAt b 0 16) (b.drop 16)
    have hsmp : ∀ f : Fin k → U128, numbersOf t ((elementsOfBlocks t (List.ofFn f)).getD 0 t.helper.zero) =
        smp (blocksBytes (List.ofFn f)) := by
      intro f
      obtain ⟨xs, h1, h2⟩ := C51_elements t (blocksBytes (List.ofFn f))
        (by rw [blocksBytes_length, List.length_ofFn]; exact hk)
      rw [elementsFrom, hm, if_neg (by decide)] at h2
      obtain ⟨x, rfl, h3⟩ := List.map_eq_singleton_iff.mp h2
      rw [elementsOfBlocks_eq]
      unfold eltsOf
      rw [h1]
      exact h3
    obtain ⟨e, he⟩ := blocks_bytes k
    have hleft : mean (fun f : Fin k → U128 => F fun (i : Fin t.helper.elementsPerBlock) =>
        (elementsOfBlocks t (List.ofFn f)).getD i t.helper.zero) =
        mean fun b : Fin t.bytesRead → Fin 256 => G (smp (bytesOf b)) := by
      rw [← mean_bytes hk (fun b => G (smp b)) (fun b => G (smp b)), ← mean_equiv e]
      · apply mean_congr
        intro f
        rw [hFG, he]
        exact congrArg G (hsmp f)
      · intro b c hb
        rw [bytesRead_leaves hm] at hb
        show G (sampled _ _ _) = G (sampled _ _ _)
        rw [List.drop_append_of_le_length (by omega), sampled_more _ _ _ _ (by rw [List.length_drop]; omega)]
        unfold leAt
        rw [List.drop_zero, List.drop_zero, List.take_append_of_le_length (by omega)]
    have hright : mean F = (∑ s ∈ S, G s) / #S := by
      unfold mean
      have hcard : (Fintype.card (Fin t.helper.elementsPerBlock → t.den)) = #S := by
        rw [← card_univ]
        refine card_bij (fun x _ => numbersOf t (x i0)) (fun x _ => numbersOf_mem t _) ?_ ?_
        · intro x _ y _ h
          funext i
          rw [hall i]
          exact numbersOf_inj t _ _ h
        · intro vs h
          obtain ⟨x, hx⟩ := numbersOf_surj t vs h
          exact ⟨fun _ => x, mem_univ _, hx⟩
      rw [hcard]
      congr 1
      refine sum_bij (fun x _ => numbersOf t (x i0)) (fun x _ => numbersOf_mem t _) ?_ ?_ fun x _ => hFG x
      · intro x _ y _ h
        funext i
        rw [hall i]
        exact numbersOf_inj t _ _ h
      · intro vs h
        obtain ⟨x, hx⟩ := numbersOf_surj t vs h
        exact ⟨fun _ => x, mem_univ _, hx⟩
    rw [hleft, hright]
    refine (mean_distance (fun b : Fin t.bytesRead → Fin 256 => smp (bytesOf b)) S
      (fun b => sampled_mem _ (fun l hl => (leavesOf_ok t l hl).1) _ _) G hG).trans ?_
    unfold samplingGap
    rw [hm, if_neg (by decide)]
    refine (sampled_close (leavesOf t) (leavesOf_ne t) (leavesOf_ok t) (bytesRead_leaves hm)).trans (le_of_eq ?_)
    have := alpha_beta (steps (leavesOf t)) 1
    rw [Nat.mul_one] at this
    rw [this]
    simp only [steps, List.map_map]
    rfl

/-! ### Finiteness -/

instance finite_bitVec (n : Nat) : Finite (BitVec n) :=
  Finite.of_injective BitVec.toFin fun _ _ h => BitVec.eq_of_toFin_eq h

mutual
theorem finite_den : (t : Ty) → Finite t.den
  | .uint w => finite_bitVec w.bits
  | .intModN w N _ _ => by
    haveI := finite_bitVec w.bits
    exact inferInstanceAs (Finite { x : BitVec w.bits // x.toNat < N.toNat })
  | .xorWrapper w => finite_bitVec w.bits
  | .tuple ts => finite_dens ts
theorem finite_dens : (ts : Tys) → Finite ts.den
  | .one t => finite_den t
  | .cons t ts => by
    haveI := finite_den t
    haveI := finite_dens ts
    exact inferInstanceAs (Finite (t.den × ts.den))
end

instance (t : Ty) : Finite t.den := finite_den t
instance (t : Ty) : Nonempty t.den := ⟨t.helper.zero⟩

/-- `Bits` as a product. -/
def bitsEquiv (L n : Nat) (k : Nat → Nat) :
    Bits L n k ≃ (Fin L → U128 × U128) × ((h : Fin n) → Fin (k h) → U128) where
  toFun r := (r.tree, r.blocks)
  invFun r := ⟨r.1, r.2⟩
  left_inv _ := rfl
  right_inv _ := rfl

/-- `Rand` as a product. -/
def randEquiv (L n : Nat) (T : Nat → Ty) :
    Rand L n T ≃ (Fin L → U128 × U128) × ((h : Fin n) → Fin (T h).helper.elementsPerBlock → (T h).den) where
  toFun r := (r.tree, r.value)
  invFun r := ⟨r.1, r.2⟩
  left_inv _ := rfl
  right_inv _ := rfl

/-- `KeyData` as a product. -/
def dataEquiv (L n : Nat) (T : Nat → Ty) :
    KeyData L n T ≃ (Fin L → Seed127) × (Fin L → Bool × Bool) ×
      ((h : Fin n) → Fin (T h).helper.elementsPerBlock → (T h).den) where
  toFun r := (r.seed, r.control, r.value)
  invFun r := ⟨r.1, r.2.1, r.2.2⟩
  left_inv _ := rfl
  right_inv _ := rfl

instance (L n : Nat) (k : Nat → Nat) : Finite (Bits L n k) := Finite.of_equiv _ (bitsEquiv L n k).symm
instance (L n : Nat) (T : Nat → Ty) : Finite (Rand L n T) := Finite.of_equiv _ (randEquiv L n T).symm
instance (L n : Nat) (T : Nat → Ty) : Finite (KeyData L n T) := Finite.of_equiv _ (dataEquiv L n T).symm
instance (L n : Nat) (k : Nat → Nat) : Nonempty (Bits L n k) := ⟨⟨fun _ => (0, 0), fun _ _ => 0⟩⟩
instance : Nonempty Seed127 := ⟨clear 0⟩

/-! ### Keys -/

theorem probability_eq_mean {R : Type} [Fintype R] (p : R → Prop) [DecidablePred p] :
    probability p = mean fun r => if p r then (1 : ℚ) else 0 := by
  unfold probability mean
  rw [Finset.sum_boole, Nat.card_eq_fintype_card, Nat.card_eq_fintype_card, Fintype.card_subtype]

theorem totalGap_eq (T : Nat → Ty) (n : Nat) : totalGap T n = ∑ h : Fin n, samplingGap (T h) := by
  unfold totalGap
  rw [← List.sum_ofFn]
  congr 1
  apply List.ext_getElem
  · simp
  · intro i h1 h2
    simp

/-- Random blocks give close to random elements. -/
theorem bits_close (L n : Nat) (T : Nat → Ty) (k : Nat → Nat) (hk : ∀ h : Fin n, (T h).bytesRead ≤ 16 * k h)
    [Fintype (Bits L n k)] [Fintype (Rand L n T)] :
    Close (fun r : Bits L n k => r.rand T) (totalGap T n) := by
  classical
  intro F hF
  haveI : Fintype U128 := Fintype.ofFinite _
  haveI : ∀ t : Ty, Fintype t.den := fun t => Fintype.ofFinite _
  rw [← mean_equiv (bitsEquiv L n k).symm fun r => F (r.rand T), ← mean_equiv (randEquiv L n T).symm F,
    mean_prod (fun tree blocks => F (((bitsEquiv L n k).symm (tree, blocks)).rand T)),
    mean_prod (fun tree value => F ((randEquiv L n T).symm (tree, value))), mean_sub]
  refine (mean_abs _).trans ?_
  rw [← mean_const (R := Fin L → U128 × U128) (totalGap T n)]
  apply mean_mono
  intro tree
  rw [totalGap_eq]
  exact close_pi n (fun h => Fin (k h) → U128) (fun h => Fin (T h).helper.elementsPerBlock → (T h).den)
    (fun h f i => (elementsOfBlocks (T h) (List.ofFn f)).getD i (T h).helper.zero) (fun h => samplingGap (T h))
    (fun h => level_close (T h) (k h) (hk h)) (fun value => F ((randEquiv L n T).symm (tree, value))) fun value => hF _

/-- Keys of the experiment over uniform blocks are close to keys with uniform contents. -/
theorem key_close {fp : FpEnv} {params : List DpfParameters} {T : Nat → Ty} {d : Dpf} (hs : Setup fp params T d)
    (env : Env) (p : Bool) (seed alpha : U128) (b : (h : Nat) → (T h).den) :
    CloseViews (totalGap T params.length)
      (fun r : Bits (treeLevels d) params.length (blocksOf d) => experimentKey d env params T p seed alpha b (r.rand T))
      (fun v : KeyData (treeLevels d) params.length T => keyOf (treeOf d) p seed v) := by
  classical
  intro test
  haveI : Fintype (Bits (treeLevels d) params.length (blocksOf d)) := Fintype.ofFinite _
  haveI : Fintype (Rand (treeLevels d) params.length T) := Fintype.ofFinite _
  haveI : Fintype (KeyData (treeLevels d) params.length T) := Fintype.ofFinite _
  haveI : Fintype (Fin (treeLevels d) → Seed127) := Fintype.ofFinite _
  rw [probability_eq_mean, probability_eq_mean]
  obtain ⟨g, hg1, hg2⟩ := C48_uniform fp params T d hs env p seed alpha b
  let e : Rand (treeLevels d) params.length T ≃
      KeyData (treeLevels d) params.length T × (Fin (treeLevels d) → Seed127) :=
    ⟨fun r => (keyData (treeOf d) (dpfParty d env T p seed) (dpfInput d params alpha b) r,
      keptSeeds (dpfInput d params alpha b) r), g, hg1, hg2⟩
  have h := bits_close (treeLevels d) params.length T (blocksOf d)
    (fun h => (hs.typedAt (h := h) (by rw [hs.toCreated.n_eq]; exact h.2)).fits)
    (fun r => if test (experimentKey d env params T p seed alpha b r) then 1 else 0) (by
      intro r
      dsimp only
      split <;> norm_num)
  have h2 : mean (fun r : Rand (treeLevels d) params.length T =>
      if test (experimentKey d env params T p seed alpha b r) then (1 : ℚ) else 0) =
      mean fun v : KeyData (treeLevels d) params.length T => if test (keyOf (treeOf d) p seed v) then (1 : ℚ) else 0 := by
    refine Eq.trans ?_ (mean_fst (S := Fin (treeLevels d) → Seed127)
      fun v : KeyData (treeLevels d) params.length T => if test (keyOf (treeOf d) p seed v) then (1 : ℚ) else 0)
    exact mean_equiv e fun v => if test (keyOf (treeOf d) p seed v.1) then (1 : ℚ) else 0
  rw [← h2]
  exact h

theorem closeViews_trans {R S R' V : Type} {ε δ : ℚ} {u : R → V} {v : S → V} {w : R' → V} (h1 : CloseViews ε u v)
    (h2 : CloseViews δ w v) : CloseViews (ε + δ) u w := by
  intro test
  have h2 := h2 test
  rw [abs_sub_comm] at h2
  exact (abs_sub_le _ _ _).trans (add_le_add (h1 test) h2)

end Verif.Uniform
