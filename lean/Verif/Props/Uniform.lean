import Verif.Lemmas.UniformEvents
import Verif.Props.Sampling
import Verif.Props.Values
/-!
# C57, C58: residues and elements made from uniform bytes
-/
namespace Verif
open Res Spec Finset Verif.Uniform

/-! ## C57 -/

/-- C57, restricted to base integers of less than 128 bits, or one sample: of `16 + w/8 * (n-1)` uniform
bytes `SampleFromBytes` makes `n` residues modulo `N` within total variation distance `n(n+1)N/2^131` of
independent uniform ones, which is 2 to the minus of what `GetSecurityLevel` gives. Missing: more than one
sample with a 128-bit base integer; then the claim is false, see `C57_refuted`. -/
theorem C57_close_partial (fp : FpEnv) (N : U128) (w : Width) (hpos : 0 < N.toNat)
    (hlt : N.toNat < 2 ^ w.bits) (sec : Sec) (n : Nat) (hn : 1 ≤ n)
    (hsec : IntModN.Sec.gt sec (fp.secLevel n N) = false) (hw : w ≠ .w128 ∨ n = 1)
    (hr : 16 + w.bits / 8 * (n - 1) < 2 ^ 31) :
    ∃ f : (Fin (16 + w.bits / 8 * (n - 1)) → Fin 256) → List Nat,
      (∀ b, ∃ samples, IntModN.sampleFromBytes fp N w.bits (bytesOf b) sec n = ok samples ∧
        samples.map (·.toNat) = f b ∧ f b ∈ vectors (List.replicate n N.toNat)) ∧
      distance f (vectors (List.replicate n N.toNat)) ≤ n * (n + 1) * N.toNat / 2 ^ 131 := by
  have hok : LeafOk (.mod w.bits N.toNat) := leafOk_mod hpos (Nat.le_of_lt hlt)
  have hw' : w.bits < 128 ∨ n - 1 = 0 := by
    rcases hw with hw | hw
    · left; revert hw; cases w <;> decide
    · right; omega
  have hmap : (List.replicate n (Leaf.mod w.bits N.toNat)).map Leaf.count = List.replicate n N.toNat := by
    simp [Leaf.count]
  refine ⟨fun b => sampled (List.replicate n (.mod w.bits N.toNat)) (leAt (bytesOf b) 0 16)
    ((bytesOf b).drop 16), fun b => ?_, ?_⟩
  · obtain ⟨s, h1, _, _, h2⟩ := C24_sample fp N w hpos hlt (bytesOf b) sec n hn hsec hr
      (by rw [bytesOf_length])
    refine ⟨s, h1, ?_, ?_⟩
    · rw [h2, residues_sampled N.toNat w.bits (bytesOf b) (n - 1) 16 _ hw', Nat.sub_add_cancel hn]
    · rw [← hmap]
      exact sampled_mem _ (fun l hl => by rw [(List.mem_replicate.mp hl).2]; exact hpos) _ _
  · have h := sampled_close (List.replicate n (.mod w.bits N.toNat)) (by simp; omega)
      (fun l hl => by rw [(List.mem_replicate.mp hl).2]; exact hok)
      (k := 16 + w.bits / 8 * (n - 1)) (by rw [restBytes_replicate]; rfl)
    rw [hmap, steps_replicate] at h
    refine h.trans (le_of_eq ?_)
    have e := alpha_replicate n N.toNat (2 ^ w.bits)
    have e' : (2 : ℚ) * (alpha (List.replicate n (N.toNat, 2 ^ w.bits)) +
        beta (List.replicate n (N.toNat, 2 ^ w.bits)) : Nat) = n * (n + 1) * N.toNat := by
      exact_mod_cast e
    rw [← e']
    norm_num
    ring

/-- Residues modulo 10 stored in 32 bits: 3 of them from 24 bytes. -/
example : ∃ f : (Fin 24 → Fin 256) → List Nat,
    (∀ b, ∃ samples, IntModN.sampleFromBytes ⟨fun _ _ => 80, fun _ => 0⟩ 10#128 32 (bytesOf b) (.val 40) 3 =
      ok samples ∧ samples.map (·.toNat) = f b ∧ f b ∈ vectors [10, 10, 10]) ∧
    distance f (vectors [10, 10, 10]) ≤ 120 / 2 ^ 131 := by
  have := C57_close_partial ⟨fun _ _ => 80, fun _ => 0⟩ 10#128 .w32 (by decide) (by decide) (.val 40) 3
    (by decide) (by decide) (.inl (by decide)) (by decide)
  norm_num [List.replicate] at this ⊢
  exact this

/-- C57 in terms of the security parameter, restricted as `C57_close_partial`: if a security parameter `σ`
is accepted and `GetSecurityLevel` computes `131 - (log N + log n + log (n + 1))` without rounding up, the
samples made of uniform bytes are within total variation distance `2^-σ` of uniform. -/
theorem C57_level_partial (fp : FpEnv) (N : U128) (w : Width) (hpos : 0 < N.toNat)
    (hlt : N.toNat < 2 ^ w.bits) (σ : ℚ) (n : Nat) (hn : 1 ≤ n)
    (hsec : IntModN.Sec.gt (.val σ) (fp.secLevel n N) = false) (hw : w ≠ .w128 ∨ n = 1)
    (hr : 16 + w.bits / 8 * (n - 1) < 2 ^ 31)
    (hfp : (fp.secLevel n N : ℝ) ≤ 128 + 3 - (Real.logb 2 N.toNat + Real.logb 2 n + Real.logb 2 (n + 1))) :
    ∃ f : (Fin (16 + w.bits / 8 * (n - 1)) → Fin 256) → List Nat,
      (∀ b, ∃ samples, IntModN.sampleFromBytes fp N w.bits (bytesOf b) (.val σ) n = ok samples ∧
        samples.map (·.toNat) = f b ∧ f b ∈ vectors (List.replicate n N.toNat)) ∧
      (distance f (vectors (List.replicate n N.toNat)) : ℝ) ≤ 2 ^ (-(σ : ℝ)) := by
  obtain ⟨f, h1, h2⟩ := C57_close_partial fp N w hpos hlt (.val σ) n hn hsec hw hr
  exact ⟨f, h1, level_bound fp N hpos σ n hn hsec hfp _ h2⟩

/-- C57 with the example below: one residue modulo 2 of a 32-bit integer, accepted for a security parameter of 40. -/
example (hfp : (((⟨fun _ _ => 80, fun _ => 0⟩ : FpEnv).secLevel 1 2#128 : ℚ) : ℝ) ≤
    128 + 3 - (Real.logb 2 (2#128).toNat + Real.logb 2 (1 : Nat) + Real.logb 2 ((1 : Nat) + 1))) :
    ∃ f : (Fin 16 → Fin 256) → List Nat,
      (∀ b, ∃ samples, IntModN.sampleFromBytes ⟨fun _ _ => 80, fun _ => 0⟩ 2#128 32 (bytesOf b) (.val 40) 1 = ok samples ∧
        samples.map (·.toNat) = f b ∧ f b ∈ vectors [2]) ∧
      (distance f (vectors [2]) : ℝ) ≤ 2 ^ (-((40 : ℚ) : ℝ)) :=
  C57_level_partial ⟨fun _ _ => 80, fun _ => 0⟩ 2#128 .w32 (by decide) (by decide) 40 1 (by decide) (by decide)
    (.inl (by decide)) (by decide) hfp

/-- Bits in 32-bit integers with `GetSecurityLevel` giving 80 satisfy the condition on it. -/
example : (((⟨fun _ _ => 80, fun _ => 0⟩ : FpEnv).secLevel 1 2#128 : ℚ) : ℝ) ≤
    128 + 3 - (Real.logb 2 (2#128).toNat + Real.logb 2 (1 : Nat) + Real.logb 2 ((1 : Nat) + 1)) := by
  have h : Real.logb 2 2 = 1 := Real.logb_self_eq_one (by norm_num)
  have e : ((2#128).toNat : ℝ) = 2 := by norm_num
  rw [e]
  norm_num [h]

/-- C57 is false for two samples modulo `2^64` with a 128-bit base integer: `UnsafeSampleFromBytes`
combines what is left of the state bitwise with the fresh bytes (/repo/dpf/int_mod_n.h:176-179), so that
the second sample is even with probability 1/4. The distance is at least 1/8, but the documented bound is
`6 * 2^64 / 2^131`. -/
theorem C57_refuted : ∃ f : (Fin 32 → Fin 256) → List Nat,
    (∀ fp sec, IntModN.Sec.gt sec (fp.secLevel 2 (BitVec.ofNat 128 (2 ^ 64))) = false → ∀ b, ∃ samples,
      IntModN.sampleFromBytes fp (BitVec.ofNat 128 (2 ^ 64)) 128 (bytesOf b) sec 2 = ok samples ∧
        samples.map (·.toNat) = f b ∧ f b ∈ vectors [2 ^ 64, 2 ^ 64]) ∧
    1 / 8 ≤ distance f (vectors [2 ^ 64, 2 ^ 64]) := by
  obtain ⟨M, hM⟩ : ∃ M, M = 2 ^ 64 := ⟨_, rfl⟩
  rw [← hM]
  have hN : (BitVec.ofNat 128 M).toNat = M := by
    rw [BitVec.toNat_ofNat, Nat.mod_eq_of_lt (by rw [hM]; norm_num)]
  have hpos : 0 < M := by rw [hM]; norm_num
  refine ⟨twoSamples M, fun fp sec hsec b => ?_, ?_⟩
  · obtain ⟨s, h1, _, _, h2⟩ := C24_sample fp (BitVec.ofNat 128 M) .w128 (by rw [hN]; exact hpos)
      (by rw [hN, hM]; exact Nat.pow_lt_pow_right (by decide) (by decide)) (bytesOf b) sec 2
      (by decide) hsec (by decide) (by rw [bytesOf_length]; decide)
    rw [hN] at h2
    exact ⟨s, h1, h2, twoSamples_mem hpos b⟩
  · refine le_trans (le_of_eq ?_) (distance_ge (twoSamples M) (vectors [M, M])
      ((vectors [M, M]).filter (fun vs => vs.getD 1 0 % 2 = 0)) (filter_subset _ _))
    have e1 : (#{b | twoSamples M b ∈ (vectors [M, M]).filter (fun vs => vs.getD 1 0 % 2 = 0)} : ℚ) =
        2 ^ 254 := by
      refine Eq.trans ?_ (twoSamples_even M hM)
      rw [filter_congr fun b _ => show twoSamples M b ∈ (vectors [M, M]).filter
        (fun vs => vs.getD 1 0 % 2 = 0) ↔ (twoSamples M b).getD 1 0 % 2 = 0 from
        ⟨fun h => (mem_filter.mp h).2, fun h => mem_filter.mpr ⟨twoSamples_mem hpos b, h⟩⟩]
    have e2 := card_vectors_even (2 ^ 63)
    rw [show 2 ^ 63 * 2 = M by rw [hM]; rfl] at e2
    rw [e1, e2, card_vectors, Fintype.card_fun, Fintype.card_fin, Fintype.card_fin, hM]
    norm_num [abs_of_neg]

/-! ## C58 -/

/-- C58: a type containing `IntModN` is made of uniform bytes with total variation distance at most
`(1 * N₁ + 2 * N₂ + ...) / 2^130` from uniform, where `N₁`, `N₂`, ... are the numbers of values of its
integers from left to right. -/
theorem C58_close (t : Ty) (ht : t.noMod = false) :
    ∃ f : (Fin t.bytesRead → Fin 256) → List Nat,
      (∀ b, ∃ x, t.helper.convertBytesToArrayOf (bytesOf b) = ok [x] ∧ numbersOf t x = f b ∧
        f b ∈ vectors ((leavesOf t).map Leaf.count)) ∧
      distance f (vectors ((leavesOf t).map Leaf.count)) ≤
        (((((leavesOf t).map Leaf.count).zipIdx 1).map fun (N, j) => N * j).sum : Nat) / 2 ^ 130 := by
  refine ⟨fun b => sampled (leavesOf t) (leAt (bytesOf b) 0 16) ((bytesOf b).drop 16), fun b => ?_, ?_⟩
  · obtain ⟨xs, h1, h2⟩ := C51_elements t (bytesOf b) (by rw [bytesOf_length])
    rw [elementsFrom, ht, if_neg (by decide)] at h2
    obtain ⟨x, rfl, h3⟩ := List.map_eq_singleton_iff.mp h2
    exact ⟨x, h1, h3, sampled_mem _ (fun l hl => (leavesOf_ok t l hl).1) _ _⟩
  · refine (sampled_close (leavesOf t) (leavesOf_ne t) (leavesOf_ok t) (bytesRead_leaves ht)).trans (le_of_eq ?_)
    have := alpha_beta (steps (leavesOf t)) 1
    rw [Nat.mul_one] at this
    rw [this]
    simp only [steps, List.map_map]
    rfl

/-- C58 on a 16-bit integer and a number modulo 10. -/
example : ∃ f : (Fin (Ty.tuple (.cons (.uint .w16) (.one (.intModN .w32 10#128 (by decide) (by decide))))).bytesRead →
      Fin 256) → List Nat, distance f (vectors [2 ^ 16, 10]) ≤ (2 ^ 16 + 20) / 2 ^ 130 := by
  obtain ⟨f, _, h⟩ := C58_close (.tuple (.cons (.uint .w16) (.one (.intModN .w32 10#128 (by decide) (by decide))))) rfl
  refine ⟨f, h.trans_eq ?_⟩
  rw [show (leavesOf (.tuple (.cons (.uint .w16) (.one (.intModN .w32 10#128 (by decide) (by decide)))))).map
    Leaf.count = [2 ^ 16, 10] from rfl]
  norm_num

/-- A 16-bit integer and a residue modulo 10 from 18 bytes: the bound is `(2^16 + 2 * 10) / 2^130`. -/
example : (Ty.tuple (.cons (.uint .w16) (.one (.intModN .w32 10#128 (by decide) (by decide))))).noMod = false ∧
    (leavesOf (.tuple (.cons (.uint .w16) (.one (.intModN .w32 10#128 (by decide) (by decide)))))).map
      Leaf.count = [2 ^ 16, 10] := by
  constructor <;> rfl

/-- C58: a type without `IntModN` is made of uniform bytes exactly uniformly: all numbers in all the
elements are independent and uniform. -/
theorem C58_exact (t : Ty) (ht : t.noMod = true) :
    ∃ f : (Fin t.bytesRead → Fin 256) → List Nat,
      (∀ b, ∃ xs, t.helper.convertBytesToArrayOf (bytesOf b) = ok xs ∧
        xs.length = t.helper.elementsPerBlock ∧ (xs.map (numbersOf t)).flatten = f b ∧
        f b ∈ vectors (List.replicate t.helper.elementsPerBlock ((leavesOf t).map Leaf.count)).flatten) ∧
      distance f (vectors (List.replicate t.helper.elementsPerBlock ((leavesOf t).map Leaf.count)).flatten) = 0 := by
  have hn := t.elementsPerBlock_eq
  rw [if_pos ht] at hn
  have hmap : (List.replicate t.helper.elementsPerBlock ((leavesOf t).map Leaf.count)).flatten =
      (List.replicate t.helper.elementsPerBlock (leavesOf t)).flatten.map Leaf.count := by
    rw [List.map_flatten, List.map_replicate]
  have hcount : ∀ l ∈ (List.replicate t.helper.elementsPerBlock (leavesOf t)).flatten,
      l.count = 256 ^ (l.width / 8) := by
    intro l hl
    obtain ⟨ls, h1, h2⟩ := List.mem_flatten.mp hl
    rw [(List.mem_replicate.mp h1).2] at h2
    exact leavesOf_count t ht l h2
  rw [hmap]
  refine ⟨fun b => stored (List.replicate t.helper.elementsPerBlock (leavesOf t)).flatten (bytesOf b),
    fun b => ?_, stored_uniform _ hcount ?_⟩
  · obtain ⟨xs, h1, h2⟩ := C51_elements t (bytesOf b) (by rw [bytesOf_length])
    have h3 := congrArg List.length h2
    rw [elementsFrom, if_pos ht, ← hn] at h2
    rw [List.length_map, elementsFrom, if_pos ht, ← hn, List.length_map, List.length_range] at h3
    refine ⟨xs, h1, h3, ?_, stored_mem _ hcount _⟩
    show _ = stored _ _
    rw [h2, stored_replicate]
    rw [show allBytes (leavesOf t) = t.leafBytes from leafBytes_eq t]
  · unfold Ty.bytesRead
    rw [if_pos ht]
    have hall : ∀ n, allBytes (List.replicate n (leavesOf t)).flatten = n * t.leafBytes := by
      intro n
      rw [allBytes, List.map_flatten, List.sum_flatten, List.map_replicate, List.map_replicate,
        leafBytes_eq, List.sum_replicate, smul_eq_mul]
    rw [hall, hn]
    split
    · rfl
    · rw [Nat.one_mul]

/-- C58 on 32-bit integers: the four numbers of a block are uniform. -/
example : ∃ f : (Fin 16 → Fin 256) → List Nat,
    (∀ b : Fin 16 → Fin 256, ∃ xs, (Ty.uint .w32).helper.convertBytesToArrayOf (bytesOf b) = ok xs ∧ xs.length = 4) ∧
    distance f (vectors [2 ^ 32, 2 ^ 32, 2 ^ 32, 2 ^ 32]) = 0 := by
  obtain ⟨f, h1, h2⟩ := C58_exact (.uint .w32) rfl
  exact ⟨f, fun b => (h1 b).imp fun _ h => ⟨h.1, h.2.1⟩, h2⟩

/-- Four 32-bit integers from 16 bytes. -/
example : (Ty.uint .w32).noMod = true ∧ (Ty.uint .w32).bytesRead = 16 ∧
    (Ty.uint .w32).helper.elementsPerBlock = 4 := by decide

/-- C58 in terms of the security parameter, restricted to tuples of equal `IntModN`: if `BitsNeeded`
accepts a security parameter `σ`, and `GetSecurityLevel` does not round up, elements made of uniform bytes
are within `2^-σ` of uniform. Missing: tuples of `IntModN` and other integers, for which it is false, see
`C58_refuted`. -/
theorem C58_level_partial (fp : FpEnv) (w : Width) (N : U128) (h1 : 0 < N.toNat) (h2 : N.toNat < 2 ^ w.bits)
    (m : Nat) (σ : ℚ) (bits : Int)
    (hbits : bitsNeeded fp (Ty.tuple (copies (.intModN w N h1 h2) m)).helper.toValueType (.val σ) = ok bits)
    (hfp : (fp.secLevel (m + 1 : Nat) N : ℝ) ≤ 128 + 3 - (Real.logb 2 N.toNat + Real.logb 2 (m + 1 : Nat) +
      Real.logb 2 ((m + 1 : Nat) + 1))) :
    ∃ f : (Fin (Ty.tuple (copies (.intModN w N h1 h2) m)).bytesRead → Fin 256) → List Nat,
      (∀ b, ∃ x, (Ty.tuple (copies (.intModN w N h1 h2) m)).helper.convertBytesToArrayOf (bytesOf b) = ok [x] ∧
        numbersOf (.tuple (copies (.intModN w N h1 h2) m)) x = f b ∧
        f b ∈ vectors (List.replicate (m + 1) N.toNat)) ∧
      (distance f (vectors (List.replicate (m + 1) N.toNat)) : ℝ) ≤ 2 ^ (-(σ : ℝ)) := by
  have hno : ∀ k, (copies (.intModN w N h1 h2) k).noMod = false := by
    intro k
    cases k <;> rfl
  have hl : leavesOf (.tuple (copies (.intModN w N h1 h2) m)) = List.replicate (m + 1) (.mod w.bits N.toNat) :=
    leavesOfAll_copies _ _ rfl m
  have hmap : (leavesOf (.tuple (copies (.intModN w N h1 h2) m))).map Leaf.count =
      List.replicate (m + 1) N.toNat := by
    rw [hl, List.map_replicate]; rfl
  obtain ⟨f, hf, hd⟩ := C58_close (.tuple (copies (.intModN w N h1 h2) m)) (hno m)
  rw [hmap] at hf hd
  refine ⟨f, hf, level_bound fp N h1 σ (m + 1) (by omega)
    (bitsNeeded_copies fp h1 h2 m _ bits hbits) hfp _ (hd.trans (le_of_eq ?_))⟩
  have e := alpha_replicate (m + 1) N.toNat (2 ^ w.bits)
  have e2 := alpha_beta (List.replicate (m + 1) (N.toNat, 2 ^ w.bits)) 1
  rw [Nat.mul_one, List.map_replicate] at e2
  rw [e2] at e
  have e' : (2 : ℚ) * (((List.replicate (m + 1) N.toNat).zipIdx 1).map fun p => p.1 * p.2).sum =
      (m + 1 : Nat) * ((m + 1 : Nat) + 1) * N.toNat := by exact_mod_cast e
  rw [← e']
  norm_num
  ring

/-- Five residues modulo 10 stored in 32 bits, with security parameter 40. -/
example : bitsNeeded ⟨fun _ _ => 80, fun _ => 0⟩
    (Ty.tuple (copies (.intModN .w32 10#128 (by decide) (by decide)) 4)).helper.toValueType (.val 40) = ok 256 := by
  decide +kernel

/-- A pair of a residue modulo 171 stored in 8 bits and a 128-bit integer. -/
def exBiased : Ty := .tuple (.cons (.intModN .w8 171#128 (by decide) (by decide)) (.one (.uint .w128)))

/-- C58 is false with the documented bound `2^-security_parameter` for tuples containing `IntModN` and other
integers: a DPF with `Tuple<IntModN<uint8_t, 171>, uint128>` and security parameter 40 can be created, but
its elements made of uniform bytes are at least at distance 1/16 from uniform: the state left after taking
a residue is not uniform, and the second integer takes all of it. -/
theorem C58_refuted :
    (∃ d, Dpf.createIncremental ⟨fun _ _ => 80, fun _ => 0⟩
      [⟨10, some exBiased.helper.toValueType, .val 40⟩] = ok d) ∧
    exBiased.bytesRead = 17 ∧ ∃ f : (Fin 17 → Fin 256) → List Nat,
      (∀ b, ∃ x, exBiased.helper.convertBytesToArrayOf (bytesOf b) = ok [x] ∧ numbersOf exBiased x = f b ∧
        f b ∈ vectors [171, 2 ^ 128]) ∧
      1 / 16 ≤ distance f (vectors [171, 2 ^ 128]) := by
  refine ⟨?_, rfl, ?_⟩
  · have h : (match Dpf.createIncremental ⟨fun _ _ => 80, fun _ => 0⟩
        [⟨10, some exBiased.helper.toValueType, .val 40⟩] with
      | .ok d => some d.blocksNeeded
      | _ => none) = some [2] := by decide +kernel
    split at h
    · rename_i d hd
      exact ⟨d, hd⟩
    · simp at h
  · obtain ⟨M, hM⟩ : ∃ M, M = 2 ^ 128 := ⟨_, rfl⟩
    obtain ⟨m, hm⟩ : ∃ m, m = 2 ^ 127 := ⟨_, rfl⟩
    have hpos : 0 < M := by rw [hM]; norm_num
    have hl : leavesOf exBiased = [.mod 8 171, .int 128] := rfl
    rw [← hM]
    refine ⟨biased M, fun b => ?_, ?_⟩
    · obtain ⟨xs, h1, h2⟩ := C51_elements exBiased (bytesOf b) (by rw [bytesOf_length]; decide)
      rw [elementsFrom, if_neg (by decide), hl] at h2
      obtain ⟨x, rfl, h3⟩ := List.map_eq_singleton_iff.mp h2
      refine ⟨x, h1, ?_, biased_mem hpos b⟩
      rw [h3, hM, sampled, sampled, sampled]
      rfl
    · refine le_trans ?_ (distance_ge (biased M) (vectors [171, M])
        ((vectors [171, M]).filter (fun vs => vs.getD 1 0 < m)) (filter_subset _ _))
      have e1 : (341 * 2 ^ 127 : ℚ) ≤
          #{b | biased M b ∈ (vectors [171, M]).filter (fun vs => vs.getD 1 0 < m)} := by
        refine le_trans (biased_low M hM m hm) (le_of_eq ?_)
        rw [filter_congr fun b _ => show (biased M b).getD 1 0 < m ↔ biased M b ∈ (vectors [171, M]).filter
          (fun vs => vs.getD 1 0 < m) from
          ⟨fun h => mem_filter.mpr ⟨biased_mem hpos b, h⟩, fun h => (mem_filter.mp h).2⟩]
      have e2 := card_low m
      rw [show 2 * m = M by rw [hM, hm]; rfl] at e2
      rw [e2, card_vectors, Fintype.card_fun, Fintype.card_fin, Fintype.card_fin]
      rw [le_div_iff₀ (by norm_num)]
      refine le_trans ?_ (le_abs_self _)
      have e3 : (341 / 512 : ℚ) ≤ #{b | biased M b ∈ (vectors [171, M]).filter (fun vs => vs.getD 1 0 < m)} /
          (256 ^ 17 : Nat) := by
        rw [le_div_iff₀ (by norm_num)]
        refine le_trans (le_of_eq ?_) e1
        norm_num
      have e4 : (171 * m / ([171, M].prod : Nat) : ℚ) = 1 / 2 := by
        rw [hM, hm]
        norm_num
      rw [e4]
      linarith

end Verif
