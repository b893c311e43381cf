import Verif.Lemmas.SeedsNoHwy
import Verif.Spec.Simd
/-! Helper lemmas on the vectorised seed evaluation. -/
namespace Verif
open Res Spec

/-! ### Vectors and masks as functions of the block number -/

/-- Two adjacent elements for each index. -/
def pairs {ι α : Type} (l : List ι) (a b : ι → α) : List α := l.flatMap fun i => [a i, b i]

theorem pairs_cons {ι α : Type} (x : ι) (l : List ι) (a b : ι → α) :
    pairs (x :: l) a b = a x :: b x :: pairs l a b := rfl

theorem pairs_length {ι α : Type} (l : List ι) (a b : ι → α) : (pairs l a b).length = 2 * l.length := by
  induction l with
  | nil => rfl
  | cons x l ih => rw [pairs_cons, List.length_cons, List.length_cons, List.length_cons, ih]; omega

theorem pairs_getElem? {α : Type} (m : Nat) (a b : Nat → α) {i : Nat} (h : i < 2 * m) :
    (pairs (List.range m) a b)[i]? = some (if i % 2 = 0 then a (i / 2) else b (i / 2)) := by
  induction m with
  | zero => omega
  | succ m ih =>
    unfold pairs at ih ⊢
    have hl : ((List.range m).flatMap fun i => [a i, b i]).length = 2 * m := by
      have := pairs_length (List.range m) a b
      rwa [List.length_range] at this
    rw [List.range_succ, List.flatMap_append]
    rcases Nat.lt_or_ge i (2 * m) with h1 | h1
    · rw [List.getElem?_append_left (by omega), ih h1]
    · rw [List.getElem?_append_right (by omega), hl]
      rcases Nat.lt_or_ge i (2 * m + 1) with h2 | h2
      · have : i = 2 * m := by omega
        subst this
        simp
      · have : i = 2 * m + 1 := by omega
        subst this
        have e1 : 2 * m + 1 - 2 * m = 1 := by omega
        have e2 : (2 * m + 1) % 2 = 1 := by omega
        have e3 : (2 * m + 1) / 2 = m := by omega
        rw [e1, e2, e3]
        simp

theorem zipWith_pairs {ι α β γ : Type} (g : α → β → γ) (l : List ι) (a b : ι → α) (c d : ι → β) :
    List.zipWith g (pairs l a b) (pairs l c d) = pairs l (fun i => g (a i) (c i)) fun i => g (b i) (d i) := by
  induction l with
  | nil => rfl
  | cons x l ih => rw [pairs_cons, pairs_cons, pairs_cons, List.zipWith_cons_cons, List.zipWith_cons_cons, ih]

theorem zip_pairs {ι α β : Type} (l : List ι) (a b : ι → α) (c d : ι → β) :
    List.zip (pairs l a b) (pairs l c d) = pairs l (fun i => (a i, c i)) fun i => (b i, d i) :=
  zipWith_pairs Prod.mk l a b c d

theorem map_pairs {ι α β : Type} (g : α → β) (l : List ι) (a b : ι → α) :
    (pairs l a b).map g = pairs l (fun i => g (a i)) fun i => g (b i) := by
  induction l with
  | nil => rfl
  | cons x l ih => rw [pairs_cons, pairs_cons, List.map_cons, List.map_cons, ih]

theorem replicate_pairs {ι α : Type} (l : List ι) (a : α) :
    List.replicate (2 * l.length) a = pairs l (fun _ => a) fun _ => a := by
  induction l with
  | nil => rfl
  | cons x l ih =>
    rw [pairs_cons, ← ih, List.length_cons, show 2 * (l.length + 1) = 2 * l.length + 1 + 1 by omega,
      List.replicate_succ, List.replicate_succ]

theorem pairs_congr {ι α : Type} {l : List ι} {a b a' b' : ι → α} (h1 : ∀ i ∈ l, a i = a' i)
    (h2 : ∀ i ∈ l, b i = b' i) : pairs l a b = pairs l a' b' := by
  induction l with
  | nil => rfl
  | cons x l ih =>
    rw [pairs_cons, pairs_cons, h1 x (by simp), h2 x (by simp),
      ih (fun i hi => h1 i (by simp [hi])) fun i hi => h2 i (by simp [hi])]

theorem lanes64_map {ι : Type} (l : List ι) (f : ι → U128) :
    lanes64 (l.map f) = pairs l (fun i => (f i).extractLsb' 0 64) fun i => (f i).extractLsb' 64 64 := by
  induction l with
  | nil => rfl
  | cons x l ih =>
    rw [pairs_cons, ← ih]
    rfl

theorem blocks128_pairs {ι : Type} (l : List ι) (a b : ι → BitVec 64) :
    blocks128 (pairs l a b) = l.map fun i => b i ++ a i := by
  induction l with
  | nil => rfl
  | cons x l ih =>
    rw [pairs_cons, List.map_cons, ← ih]
    rfl

theorem shuffle01_pairs {ι : Type} (l : List ι) (a b : ι → BitVec 64) :
    shuffle01 (pairs l a b) = pairs l b a := by
  induction l with
  | nil => rfl
  | cons x l ih =>
    rw [pairs_cons, pairs_cons, ← ih]
    rfl

theorem halves (x : U128) : x.extractLsb' 64 64 ++ x.extractLsb' 0 64 = x := by
  apply BitVec.eq_of_getLsbD_eq
  intro i hi
  rw [BitVec.getLsbD_append]
  by_cases h : i < 64
  · simp [h]
  · have e : 64 + (i - 64) = i := by omega
    have h2 : i - 64 < 64 := by omega
    simp [h, e, h2]

theorem loadDup128_map {ι : Type} (l : List ι) (b : U128) : loadDup128 l.length b = l.map fun _ => b := by
  unfold loadDup128
  rw [List.map_const']

theorem ifThenElse_map {ι : Type} (l : List ι) (c : ι → Bool) (a b : ι → U128) :
    ifThenElse (pairs l c c) (l.map a) (l.map b) = l.map fun i => if c i then a i else b i := by
  unfold ifThenElse
  rw [lanes64_map, lanes64_map, zip_pairs, zipWith_pairs, blocks128_pairs]
  apply List.map_congr_left
  intro i _
  cases c i <;> exact halves _

theorem ifThenElseZero_map {ι : Type} (l : List ι) (c : ι → Bool) (a : ι → U128) :
    ifThenElseZero (pairs l c c) (l.map a) = l.map fun i => if c i then a i else 0 := by
  unfold ifThenElseZero
  rw [lanes64_map, zipWith_pairs, blocks128_pairs]
  apply List.map_congr_left
  intro i _
  cases c i
  · show (0#64 ++ 0#64 : BitVec 128) = 0#128
    decide
  · exact halves _

theorem ifThenElseMask_pairs {ι : Type} (l : List ι) (c a b : ι → Bool) :
    ifThenElseMask (pairs l c c) (pairs l a a) (pairs l b b) =
      pairs l (fun i => if c i then a i else b i) fun i => if c i then a i else b i := by
  unfold ifThenElseMask maskOr maskAnd maskNot
  rw [map_pairs, zipWith_pairs, zipWith_pairs, zipWith_pairs]
  apply pairs_congr <;>
  · intro i _
    cases c i <;> simp

theorem halves_zero (y : U128) : (y.extractLsb' 0 64 ||| y.extractLsb' 64 64 != 0) = (y != 0) := by
  rw [Bool.eq_iff_iff]
  simp only [bne_iff_ne, ne_eq]
  apply not_congr
  constructor
  · intro h
    rw [← halves y]
    have : ∀ i, y.getLsbD i = false := by
      intro i
      rcases Nat.lt_or_ge i 64 with h1 | h1
      · have := congrArg (fun v : BitVec 64 => v.getLsbD i) h
        simp [h1] at this
        exact this.1
      · rcases Nat.lt_or_ge i 128 with h2 | h2
        · have := congrArg (fun v : BitVec 64 => v.getLsbD (i - 64)) h
          have e : 64 + (i - 64) = i := by omega
          have h3 : i - 64 < 64 := by omega
          simp [e, h3] at this
          exact this.2
        · exact BitVec.getLsbD_of_ge _ _ h2
    have : y = 0 := by
      apply BitVec.eq_of_getLsbD_eq
      intro i _
      rw [this i]
      simp
    rw [this]
    rfl
  · rintro rfl
    rfl

theorem bit_mask (x : U128) {k : Nat} (h : k < 128) : (x &&& (1#128 <<< k) != 0) = x.getLsbD k := by
  have := pathBit_eq x k
  unfold pathBit at this
  rw [if_pos (by omega), shl128_ok h, bind_ok] at this
  exact ok.inj this

theorem isBitSet_map {ι : Type} (l : List ι) (f : ι → U128) (k : Nat) :
    isBitSet l.length (l.map f) (k : Int) =
      ok (pairs l (fun i => (f i).getLsbD k) fun i => (f i).getLsbD k) := by
  have main : ∀ mask : U128, (∀ i, (f i &&& mask != 0) = (f i).getLsbD k) →
      ((List.zipWith (· ||| ·)
        (List.zipWith (· &&& ·) (lanes64 (l.map f)) (lanes64 (loadDup128 l.length mask)))
        (shuffle01 (List.zipWith (· &&& ·) (lanes64 (l.map f)) (lanes64 (loadDup128 l.length mask))))).map
          (· != 0)) = pairs l (fun i => (f i).getLsbD k) fun i => (f i).getLsbD k := by
    intro mask hm
    rw [loadDup128_map, lanes64_map, lanes64_map, zipWith_pairs, shuffle01_pairs, zipWith_pairs, map_pairs]
    apply pairs_congr
    · intro i _
      rw [← BitVec.extractLsb'_and, ← BitVec.extractLsb'_and, halves_zero, hm]
    · intro i _
      rw [← BitVec.extractLsb'_and, ← BitVec.extractLsb'_and, BitVec.or_comm, halves_zero, hm]
  unfold isBitSet
  by_cases h : (k : Int) < 128
  · rw [if_pos h, shl128_ok (by omega), bind_ok]
    dsimp only
    rw [main _ fun i => bit_mask (f i) (by omega)]
  · rw [if_neg h, bind_ok]
    dsimp only
    rw [main 0 fun i => by
      rw [BitVec.getLsbD_of_ge _ _ (by omega)]
      simp]

/-! ### Hashing -/

theorem vecXor_map {ι : Type} (l : List ι) (a b : ι → U128) :
    vecXor (l.map a) (l.map b) = l.map fun i => a i ^^^ b i := by
  unfold vecXor
  rw [List.zipWith_map_left, List.zipWith_map_right, List.zipWith_self]

theorem vecAnd_map {ι : Type} (l : List ι) (a b : ι → U128) :
    vecAnd (l.map a) (l.map b) = l.map fun i => a i &&& b i := by
  unfold vecAnd
  rw [List.zipWith_map_left, List.zipWith_map_right, List.zipWith_self]

theorem vecSigma_map {ι : Type} (l : List ι) (f : ι → U128) : vecSigma (l.map f) = l.map fun i => sigma (f i) := by
  unfold vecSigma
  rw [List.length_map, loadDup128_map, lanes64_map, lanes64_map, shuffle01_pairs, zipWith_pairs, zipWith_pairs,
    blocks128_pairs]
  apply List.map_congr_left
  intro i _
  have e1 : kSigmaMask.extractLsb' 0 64 = 0#64 := by decide
  have e2 : kSigmaMask.extractLsb' 64 64 = BitVec.allOnes 64 := by decide
  rw [e1, e2]
  unfold sigma
  simp only [BitVec.zero_and, BitVec.xor_zero, BitVec.allOnes_and]
  rw [BitVec.xor_comm]

theorem selectedKey_map {ι : Type} (l : List ι) (c : ι → Bool) (k0 k1 : Nat → U128) (r : Nat) :
    selectedKey l.length (pairs l c c) k0 k1 r = l.map fun i => if c i then k1 r else k0 r := by
  unfold selectedKey
  rw [loadDup128_map, loadDup128_map, ifThenElse_map]

theorem rounds_map {ι : Type} (l : List ι) (h : HwyEnv) (key : Nat → ι → U128) (rs : List Nat) (f : ι → U128) :
    rs.foldl (fun out r => List.zipWith h.aesRound out (l.map (key (r + 1)))) (l.map f) =
      l.map fun i => rs.foldl (fun y r => h.aesRound y (key (r + 1) i)) (f i) := by
  induction rs generalizing f with
  | nil => rfl
  | cons r rs ih =>
    rw [List.foldl_cons, List.zipWith_map_left, List.zipWith_map_right, List.zipWith_self, ih]
    rfl

theorem hashWithKeyMask_map {ι : Type} {env : Env} {h : HwyEnv} (hok : HwyOk env h) (l : List ι)
    (f : ι → U128) (c : ι → Bool) (keyL keyR : U128) :
    hashWithKeyMask h (l.map f) (pairs l c c) (h.roundKey keyL) (h.roundKey keyR) =
      l.map fun i => prgOf env keyL keyR (c i) (f i) := by
  unfold hashWithKeyMask
  dsimp only
  rw [List.length_map, vecSigma_map]
  have hkey : ∀ r, selectedKey l.length (pairs l c c) (h.roundKey keyL) (h.roundKey keyR) r =
      l.map (fun i => h.roundKey (if c i then keyR else keyL) r) := by
    intro r
    rw [selectedKey_map]
    apply List.map_congr_left
    intro i _
    cases c i <;> rfl
  have hrounds := rounds_map l h (fun r i => h.roundKey (if c i then keyR else keyL) r) (List.range 9)
    (fun i => sigma (f i) ^^^ h.roundKey (if c i then keyR else keyL) 0)
  simp only [hkey]
  rw [vecXor_map, hrounds, List.zipWith_map_left, List.zipWith_map_right, List.zipWith_self, vecXor_map]
  apply List.map_congr_left
  intro i _
  unfold prgOf hash
  rw [hok.aes]
  rfl

/-! ### Mask bits -/

theorem setBit_getLsbD (x : BitVec 8) (s t : Nat) (hs : s < 8) :
    (x ||| (1#8 <<< s)).getLsbD t = (x.getLsbD t || decide (t = s)) := by
  rw [BitVec.getLsbD_or, BitVec.getLsbD_shiftLeft]
  congr 1
  by_cases h : t = s
  · subst h; simp [hs]
  · by_cases h1 : t < s
    · simp [h1, h]
    · have : t - s ≠ 0 := by omega
      simp [h, this]

theorem maskFromBools_range (h : HwyEnv) (c : Nat → Bool) {n start m maxBlocks : Nat}
    (hm : 2 * m ≤ 8 * h.maskBytes) (hn : ∀ i, i < m → (maxBlocks = 0 ∨ i < maxBlocks) → start + i < n) :
    maskFromBools h m ((List.range n).map c) start maxBlocks =
      ok (pairs (List.range m) (fun i => decide (maxBlocks = 0 ∨ i < maxBlocks) && c (start + i))
        fun i => decide (maxBlocks = 0 ∨ i < maxBlocks) && c (start + i)) := by
  unfold maskFromBools
  let want : Nat → Bool := fun i => decide (maxBlocks = 0 ∨ i / 2 < maxBlocks) && c (start + i / 2)
  obtain ⟨bits, e, hlen, hbits⟩ := foldRes_range_inv
    (f := setMaskBit ((List.range n).map c) start maxBlocks) (s := List.replicate h.maskBytes 0#8) (n := 2 * m)
    (fun k bits => bits.length = h.maskBytes ∧ ∀ b t (hb : b < bits.length), t < 8 →
      bits[b].getLsbD t = (decide (8 * b + t < k) && want (8 * b + t)))
    ⟨by simp, by intro b t hb ht; simp⟩ (by
      rintro k bits hk ⟨h1, h2⟩
      unfold setMaskBit
      by_cases hmax : maxBlocks > 0 ∧ k / 2 ≥ maxBlocks
      · rw [if_pos hmax]
        refine ⟨bits, rfl, h1, ?_⟩
        intro b t hb ht
        rw [h2 b t hb ht]
        have hw : want k = false := by
          simp only [want]
          rw [decide_eq_false (by omega)]
          rfl
        by_cases h3 : 8 * b + t = k
        · rw [h3, hw]; simp
        · have : (8 * b + t < k + 1) ↔ (8 * b + t < k) := by omega
          simp only [this]
      · rw [if_neg hmax, rd_range c (hn (k / 2) (by omega) (by omega)), bind_ok]
        have hw : want k = c (start + k / 2) := by
          simp only [want]
          rw [decide_eq_true (by omega)]
          rfl
        cases hc : c (start + k / 2)
        · refine ⟨bits, rfl, h1, ?_⟩
          intro b t hb ht
          rw [h2 b t hb ht]
          by_cases h3 : 8 * b + t = k
          · rw [h3, hw, hc]; simp
          · have : (8 * b + t < k + 1) ↔ (8 * b + t < k) := by omega
            simp only [this]
        · have hb : k / 8 < bits.length := by omega
          rw [if_pos rfl, rd_lt hb, bind_ok]
          have hws : writeAt bits (k / 8) [bits[k / 8] ||| (1#8 <<< (k % 8))] =
              ok (bits.set (k / 8) (bits[k / 8] ||| (1#8 <<< (k % 8)))) := by
            rw [writeAt_eq_ok (by simp; omega), List.set_eq_take_append_cons_drop, if_pos hb]
            simp
          rw [hws]
          refine ⟨_, rfl, by simp [h1], ?_⟩
          intro b t hb' ht
          rw [List.length_set] at hb'
          rw [List.getElem_set]
          by_cases h3 : k / 8 = b
          · subst h3
            rw [if_pos rfl, setBit_getLsbD _ _ _ (by omega), h2 _ t hb ht]
            by_cases h4 : t = k % 8
            · have e : 8 * (k / 8) + t = k := by omega
              rw [e, hw, hc]
              simp [h4]
            · have e : (8 * (k / 8) + t < k + 1) ↔ (8 * (k / 8) + t < k) := by omega
              simp only [e, h4, decide_false, Bool.or_false]
          · rw [if_neg h3, h2 b t hb' ht]
            have e : (8 * b + t < k + 1) ↔ (8 * b + t < k) := by omega
            simp only [e])
  rw [e, bind_ok]
  unfold loadMaskBits
  rw [mapRes_eq_ok_map (g := want)]
  · congr 1
    apply List.ext_getElem?
    intro i
    rcases Nat.lt_or_ge i (2 * m) with hi | hi
    · rw [pairs_getElem? _ _ _ hi, List.getElem?_map, List.getElem?_range hi]
      simp [want]
    · rw [List.getElem?_eq_none (by simpa using hi),
        List.getElem?_eq_none (by rw [pairs_length, List.length_range]; exact hi)]
  · intro i hi
    have hi : i < 2 * m := by simpa using hi
    have hb : i / 8 < bits.length := by omega
    rw [rd_lt hb, bind_ok, hbits _ _ hb (by omega)]
    have e : 8 * (i / 8) + i % 8 = i := by omega
    rw [e, decide_eq_true hi]
    rfl

theorem packByte_getLsbD (m : Mask) (b : Nat) {t : Nat} (ht : t < 8) :
    (packByte m b).getLsbD t = m.getD (8 * b + t) false := by
  have main : ∀ k, k ≤ 8 → ∀ t, ((List.range k).foldl (fun acc t =>
      if m.getD (8 * b + t) false then acc ||| (1#8 <<< t) else acc) (0#8)).getLsbD t =
      (decide (t < k) && m.getD (8 * b + t) false) := by
    intro k hk
    induction k with
    | zero => intro t; simp
    | succ k ih =>
      intro t
      rw [List.range_succ, List.foldl_append, List.foldl_cons, List.foldl_nil]
      by_cases h1 : t = k
      · subst h1
        cases hm : m.getD (8 * b + t) false
        · rw [if_neg (by simp), ih (by omega), hm]; simp
        · rw [if_pos rfl, setBit_getLsbD _ _ _ (by omega)]; simp
      · have e : (t < k + 1) ↔ (t < k) := by omega
        simp only [e]
        cases hm : m.getD (8 * b + k) false
        · rw [if_neg (by simp), ih (by omega)]
        · rw [if_pos rfl, setBit_getLsbD _ _ _ (by omega), ih (by omega)]; simp [h1]
  have := main 8 (by omega) t
  rw [decide_eq_true ht, Bool.true_and] at this
  exact this

theorem and_bit8 (x : BitVec 8) {t : Nat} (ht : t < 8) : (x &&& (1#8 <<< t) != 0) = x.getLsbD t := by
  have : x &&& (1#8 <<< t) = ((BitVec.ofBool (x.getLsbD t)).setWidth 8) <<< t := by
    apply BitVec.eq_of_getLsbD_eq
    intro i hi
    simp only [BitVec.getLsbD_and, BitVec.getLsbD_shiftLeft, BitVec.getLsbD_setWidth,
      BitVec.getLsbD_ofBool, BitVec.getLsbD_one]
    by_cases h1 : i < t
    · simp [h1]
    · by_cases h2 : i = t
      · subst h2; simp [hi]
      · have : i - t ≠ 0 := by omega
        simp [this, h1]
  rw [this]
  cases x.getLsbD t
  · simp
  · have h8 : ∀ t : Fin 8, (BitVec.setWidth 8 (BitVec.ofBool true) <<< t.val != 0) = true := by decide
    exact h8 ⟨t, ht⟩

theorem boolsFromMask_range (h : HwyEnv) (G O : Nat → Bool) {n start m maxBlocks : Nat}
    (hm : 2 * m ≤ 8 * h.maskBytes) (h1 : maxBlocks ≤ m)
    (hn : start + (if maxBlocks > 0 then maxBlocks else m) ≤ n) (C : Nat → Bool)
    (hC : ∀ i, i < (if maxBlocks > 0 then maxBlocks else m) → C i = G (start + i)) :
    boolsFromMask h m (pairs (List.range m) C C) ((List.range n).map O) start maxBlocks =
      ok ((List.range n).map fun j =>
        if start ≤ j ∧ j < start + (if maxBlocks > 0 then maxBlocks else m) then G j else O j) := by
  unfold boolsFromMask
  have hN : (if maxBlocks > 0 then maxBlocks else 2 * m / 2) = if maxBlocks > 0 then maxBlocks else m := by
    split <;> omega
  dsimp only
  rw [hN]
  generalize hNN : (if maxBlocks > 0 then maxBlocks else m) = N at hn hC ⊢
  have hNm : N ≤ m := by
    rw [← hNN]
    split <;> omega
  unfold storeMaskBits
  rw [if_pos (by rw [pairs_length, List.length_range]; exact hm), bind_ok]
  obtain ⟨s', e, hs'⟩ := foldRes_range_inv
    (f := fun out i => do
      let byte ← rd ((List.range h.maskBytes).map (packByte (pairs (List.range m) C C))) (i * 2 / 8)
      writeAt out (start + i) [byte &&& (1#8 <<< (i * 2 % 8)) != 0])
    (fun k out => out = (List.range n).map fun j => if start ≤ j ∧ j < start + k then G j else O j)
    (n := N) (s := (List.range n).map O)
    (by
      apply List.map_congr_left
      intro j _
      rw [if_neg (by omega)])
    (by
      intro k out hk hout
      rw [rd_range _ (by omega), bind_ok, and_bit8 _ (by omega), packByte_getLsbD _ _ (by omega)]
      have e1 : 8 * (k * 2 / 8) + k * 2 % 8 = 2 * k := by omega
      have e2 : (pairs (List.range m) C C).getD (2 * k) false = G (start + k) := by
        rw [List.getD_eq_getElem?_getD, pairs_getElem? _ _ _ (by omega), ← hC k hk]
        simp
      rw [e1, e2, hout]
      have := writeAt_range (fun j => if start ≤ j ∧ j < start + k then G j else O j) G
        (n := n) (start := start + k) (m := 1) (by omega)
      rw [show (List.range 1).map (fun i => G (start + k + i)) = [G (start + k)] from rfl] at this
      rw [this]
      refine ⟨_, rfl, ?_⟩
      apply List.map_congr_left
      intro j _
      by_cases ha : start + k ≤ j ∧ j < start + k + 1
      · rw [if_pos ha, if_pos (by omega)]
      · rw [if_neg ha]
        by_cases hb : start ≤ j ∧ j < start + k
        · rw [if_pos hb, if_pos (by omega)]
        · rw [if_neg hb, if_neg (by omega)])
  rw [e, hs']

/-! ### Levels -/

theorem hwyLevel_map {env : Env} {h : HwyEnv} (hok : HwyOk env h) (keyL keyR : U128) {m numLevels j r : Nat}
    (hj : j < numLevels) (hfit : numLevels + r ≤ 2 ^ 31) (load : Nat → Res (Vec × Mask × Mask)) (s : Nat → U128) (a b : Nat → Bool)
    (hload : load j = ok ((List.range m).map s, pairs (List.range m) a a, pairs (List.range m) b b))
    (P S : Nat → U128) (C : Nat → Bool) :
    hwyLevel h keyL keyR m numLevels (r : Int) load ((List.range m).map P)
      ((List.range m).map S, pairs (List.range m) C C) j =
    let nx := fun i => child (prgOf env keyL keyR) (s i) (a i) (b i)
      ((P i).getLsbD (numLevels - j - 1 + r)) ⟨S i, C i⟩
    ok ((List.range m).map fun i => (nx i).seed,
      pairs (List.range m) (fun i => (nx i).ctrl) fun i => (nx i).ctrl) := by
  extract_lets nx
  unfold hwyLevel
  dsimp only
  have hk : ((numLevels : Int) - j - 1 + r) = ((numLevels - j - 1 + r : Nat) : Int) := by omega
  have hset := isBitSet_map (List.range m) P (numLevels - j - 1 + r)
  rw [List.length_range] at hset
  rw [hk, intRange_of (by omega) (by omega), bind_ok, hset, bind_ok, hashWithKeyMask_map hok, hload, bind_ok]
  dsimp only
  rw [ifThenElseZero_map, vecXor_map]
  have hset2 := isBitSet_map (List.range m) (fun i => prgOf env keyL keyR
    ((P i).getLsbD (numLevels - j - 1 + r)) (S i) ^^^ if C i then s i else 0) 0
  have hdup := loadDup128_map (List.range m) (~~~1#128)
  rw [List.length_range] at hset2 hdup
  rw [show ((0 : Nat) : Int) = 0 from rfl] at hset2
  rw [hset2, bind_ok, hdup, vecAnd_map, ifThenElseMask_pairs]
  unfold maskAnd maskXor
  rw [zipWith_pairs, zipWith_pairs]
  have hv : ∀ i, prgOf env keyL keyR ((P i).getLsbD (numLevels - j - 1 + r)) (S i) ^^^ (if C i then s i else 0) =
      if C i then prgOf env keyL keyR ((P i).getLsbD (numLevels - j - 1 + r)) (S i) ^^^ s i
      else prgOf env keyL keyR ((P i).getLsbD (numLevels - j - 1 + r)) (S i) := by
    intro i
    cases C i
    · simp
    · rfl
  simp only [hv]
  rfl

theorem hwyLevels_map {env : Env} {h : HwyEnv} (hok : HwyOk env h) (keyL keyR : U128) {m numLevels r : Nat}
    (hfit : numLevels + r ≤ 2 ^ 31)
    (load : Nat → Res (Vec × Mask × Mask)) (n numCw w start : Nat) (sIn : Nat → U128) (cIn : Nat → Bool)
    (p : Nat → U128) (cs : Nat → U128) (cl cr : Nat → Bool)
    (hload : ∀ j, j < numLevels → ∃ s a b,
      load j = ok ((List.range m).map s, pairs (List.range m) a a, pairs (List.range m) b b) ∧
      ∀ i, i < w → s i = cs (corrIndex n numLevels numCw j (start + i)) ∧
        a i = cl (corrIndex n numLevels numCw j (start + i)) ∧
        b i = cr (corrIndex n numLevels numCw j (start + i)))
    (P : Nat → U128) (hP : ∀ i, i < w → P i = p (start + i)) (S : Nat → U128) (C : Nat → Bool)
    (hS : ∀ i, i < w → S i = sIn (start + i)) (hC : ∀ i, i < w → C i = cIn (start + i)) :
    ∃ S' C', foldRes (hwyLevel h keyL keyR m numLevels (r : Int) load ((List.range m).map P))
        ((List.range m).map S, pairs (List.range m) C C) (List.range numLevels) =
      ok ((List.range m).map S', pairs (List.range m) C' C') ∧
      ∀ i, i < w → nodeAfter (prgOf env keyL keyR) n numLevels numCw sIn cIn cs cl cr p r numLevels
        (start + i) = ⟨S' i, C' i⟩ := by
  obtain ⟨st, e, S', C', hst, hw⟩ := foldRes_range_inv
    (f := hwyLevel h keyL keyR m numLevels (r : Int) load ((List.range m).map P))
    (s := ((List.range m).map S, pairs (List.range m) C C)) (n := numLevels)
    (fun k st => ∃ S' C', st = ((List.range m).map S', pairs (List.range m) C' C') ∧
      ∀ i, i < w → nodeAfter (prgOf env keyL keyR) n numLevels numCw sIn cIn cs cl cr p r k
        (start + i) = ⟨S' i, C' i⟩)
    ⟨S, C, rfl, fun i hi => by rw [hS i hi, hC i hi]; rfl⟩
    (by
      rintro k st hk ⟨S', C', rfl, hw⟩
      obtain ⟨s, a, b, e, hc⟩ := hload k hk
      refine ⟨_, hwyLevel_map hok keyL keyR hk hfit load s a b e P S' C', _, _, rfl, ?_⟩
      intro i hi
      obtain ⟨e1, e2, e3⟩ := hc i hi
      rw [nodeAfter, hw i hi, nextNode]
      dsimp only
      rw [e1, e2, e3, hP i hi])
  exact ⟨S', C', by rw [e, hst], hw⟩

/-! ### Correction words -/

theorem loadCorrections_ok (h : HwyEnv) {n numLevels numCw m q start j : Nat} (cs : Nat → U128)
    (cl cr : Nat → Bool) (hm : 2 * m ≤ 8 * h.maskBytes) (hq : numCw ≤ q) (hn : start + m ≤ n)
    (hcw : numCw = numLevels ∨ numCw = numLevels * n) (hj : j < numLevels) (hal : start % m = 0) :
    ∃ s a b, loadCorrections h m (numCw / numLevels)
        ⟨(List.range q).map cs, (List.range q).map cl, (List.range q).map cr⟩ j start =
      ok ((List.range m).map s, pairs (List.range m) a a, pairs (List.range m) b b) ∧
      ∀ i, i < m → s i = cs (corrIndex n numLevels numCw j (start + i)) ∧
        a i = cl (corrIndex n numLevels numCw j (start + i)) ∧
        b i = cr (corrIndex n numLevels numCw j (start + i)) := by
  unfold loadCorrections
  by_cases h1 : numCw / numLevels = 1
  · rw [if_pos h1]
    have hle : numLevels ≤ numCw := by
      rcases Nat.lt_or_ge numCw numLevels with h2 | h2
      · rw [Nat.div_eq_of_lt h2] at h1; omega
      · exact h2
    have hcw' : numCw = numLevels ∨ n = 1 := by
      rcases hcw with e | e
      · exact Or.inl e
      · right
        rw [e, Nat.mul_div_cancel_left _ (by omega)] at h1
        exact h1
    have hjq : j < q := by omega
    rw [rd_range cs hjq, bind_ok, rd_range cl hjq, bind_ok, rd_range cr hjq, bind_ok]
    refine ⟨fun _ => cs j, fun _ => cl j, fun _ => cr j, ?_, ?_⟩
    · have e1 := loadDup128_map (List.range m) (cs j)
      have e2 := replicate_pairs (List.range m) (cl j)
      have e3 := replicate_pairs (List.range m) (cr j)
      rw [List.length_range] at e1 e2 e3
      rw [e1, e2, e3]
    · intro i hi
      have : corrIndex n numLevels numCw j (start + i) = j := by
        unfold corrIndex
        split
        · rcases hcw' with e | e
          · omega
          · subst e; omega
        · rfl
      rw [this]
      exact ⟨rfl, rfl, rfl⟩
  · rw [if_neg h1]
    have hcw' : numCw = numLevels * n ∧ numCw / numLevels = n := by
      rcases hcw with e | e
      · rw [e, Nat.div_self (by omega)] at h1; omega
      · exact ⟨e, by rw [e, Nat.mul_div_cancel_left _ (by omega)]⟩
    obtain ⟨hcw', hper⟩ := hcw'
    have hpos : j * n + start + m ≤ q := by
      have := Nat.mul_le_mul_right n (show j + 1 ≤ numLevels by omega)
      rw [Nat.add_mul] at this
      omega
    dsimp only
    rw [hper]
    have hs : loadCorrectionSeeds m n ((List.range q).map cs) j (j * n + start) =
        ok ((List.range m).map fun i => cs (j * n + start + i)) := by
      unfold loadCorrectionSeeds
      split
      · rename_i hc
        unfold loadAligned
        rw [if_pos, slice_range cs hpos]
        rcases hc with hc | hc
        · rw [Nat.add_mod, Nat.mul_mod, hc, hal]; simp
        · subst hc; simpa using hal
      · exact slice_range cs hpos
    rw [hs, bind_ok, maskFromBools_range h cr hm (by intro i hi _; omega), bind_ok,
      maskFromBools_range h cl hm (by intro i hi _; omega), bind_ok]
    refine ⟨_, _, _, rfl, ?_⟩
    intro i hi
    rw [hcw', corrIndex_perSeed hj (by omega)]
    simp [Nat.add_assoc]

theorem padded_map {β : Type} (f : Nat → β) (d : β) {w m : Nat} (h : w ≤ m) :
    (List.range w).map f ++ List.replicate (m - w) d =
      (List.range m).map fun i => if i < w then f i else d := by
  apply List.ext_getElem
  · simp; omega
  · intro i h1 h2
    rw [List.getElem_map, List.getElem_range]
    rcases Nat.lt_or_ge i w with hi | hi
    · rw [List.getElem_append_left (by simpa using hi), if_pos hi]; simp
    · rw [List.getElem_append_right (by simpa using hi), if_neg (by omega)]; simp

theorem loadCorrectionsRest_ok (h : HwyEnv) {n numLevels numCw m q start j w : Nat} (cs : Nat → U128)
    (cl cr : Nat → Bool) (hm : 2 * m ≤ 8 * h.maskBytes) (hq : numCw ≤ q) (hn : start + w ≤ n)
    (hw : w ≤ m) (hw0 : 0 < w)
    (hcw : numCw = numLevels ∨ numCw = numLevels * n) (hj : j < numLevels) :
    ∃ s a b, loadCorrectionsRest h m (numCw / numLevels)
        ⟨(List.range q).map cs, (List.range q).map cl, (List.range q).map cr⟩ j start w =
      ok ((List.range m).map s, pairs (List.range m) a a, pairs (List.range m) b b) ∧
      ∀ i, i < w → s i = cs (corrIndex n numLevels numCw j (start + i)) ∧
        a i = cl (corrIndex n numLevels numCw j (start + i)) ∧
        b i = cr (corrIndex n numLevels numCw j (start + i)) := by
  unfold loadCorrectionsRest
  by_cases h1 : numCw / numLevels = 1
  · rw [if_pos h1]
    have hle : numLevels ≤ numCw := by
      rcases Nat.lt_or_ge numCw numLevels with h2 | h2
      · rw [Nat.div_eq_of_lt h2] at h1; omega
      · exact h2
    have hcw' : numCw = numLevels ∨ n = 1 := by
      rcases hcw with e | e
      · exact Or.inl e
      · right
        rw [e, Nat.mul_div_cancel_left _ (by omega)] at h1
        exact h1
    have hjq : j < q := by omega
    rw [rd_range cs hjq, bind_ok, rd_range cl hjq, bind_ok, rd_range cr hjq, bind_ok]
    refine ⟨fun _ => cs j, fun _ => cl j, fun _ => cr j, ?_, ?_⟩
    · have e1 := loadDup128_map (List.range m) (cs j)
      have e2 := replicate_pairs (List.range m) (cl j)
      have e3 := replicate_pairs (List.range m) (cr j)
      rw [List.length_range] at e1 e2 e3
      rw [e1, e2, e3]
    · intro i hi
      have : corrIndex n numLevels numCw j (start + i) = j := by
        unfold corrIndex
        split
        · rcases hcw' with e | e
          · omega
          · subst e; omega
        · rfl
      rw [this]
      exact ⟨rfl, rfl, rfl⟩
  · rw [if_neg h1]
    have hcw' : numCw = numLevels * n ∧ numCw / numLevels = n := by
      rcases hcw with e | e
      · rw [e, Nat.div_self (by omega)] at h1; omega
      · exact ⟨e, by rw [e, Nat.mul_div_cancel_left _ (by omega)]⟩
    obtain ⟨hcw', hper⟩ := hcw'
    have hpos : j * n + start + w ≤ q := by
      have := Nat.mul_le_mul_right n (show j + 1 ≤ numLevels by omega)
      rw [Nat.add_mul] at this
      omega
    dsimp only
    rw [hper, slice_range cs hpos, bind_ok,
      maskFromBools_range h cr hm (by intro i hi _; omega), bind_ok,
      maskFromBools_range h cl hm (by intro i hi _; omega), bind_ok, padded_map _ _ hw]
    refine ⟨_, _, _, rfl, ?_⟩
    intro i hi
    rw [hcw', corrIndex_perSeed hj (by omega)]
    simp [Nat.add_assoc, hi]

/-! ### Vectors -/

/-- The arguments of an evaluation as functions. -/
structure SimdArgs where
  n : Nat
  numLevels : Nat
  numCw : Nat
  sIn : Nat → U128
  cIn : Nat → Bool
  p : Nat → U128
  r : Nat
  cs : Nat → U128
  cl : Nat → Bool
  cr : Nat → Bool
  q : Nat

/-- The final node of seed `j`. -/
def SimdArgs.fin (A : SimdArgs) (env : Env) (keyL keyR : U128) (j : Nat) : Node :=
  nodeAfter (prgOf env keyL keyR) A.n A.numLevels A.numCw A.sIn A.cIn A.cs A.cl A.cr A.p A.r A.numLevels j

/-- The arrays of correction words. -/
def SimdArgs.corr (A : SimdArgs) : CorrArrays :=
  ⟨(List.range A.q).map A.cs, (List.range A.q).map A.cl, (List.range A.q).map A.cr⟩

/-- Valid numbers. -/
structure SimdArgs.Ok (A : SimdArgs) : Prop where
  q : A.numCw ≤ A.q
  cw : A.numCw = A.numLevels ∨ A.numCw = A.numLevels * A.n
  fits : A.numLevels + A.r ≤ 2 ^ 31

/-- Buffers where the seeds with numbers that satisfy `done` have been evaluated. -/
def SimdArgs.state (A : SimdArgs) (env : Env) (keyL keyR : U128) (S : Nat → U128) (C : Nat → Bool)
    (done : Nat) : List U128 × List Bool :=
  ((List.range A.n).map fun j => if j < done then (A.fin env keyL keyR j).seed else S j,
    (List.range A.n).map fun j => if j < done then (A.fin env keyL keyR j).ctrl else C j)

theorem hwyVector_ok {env : Env} {h : HwyEnv} (hok : HwyOk env h) {A : SimdArgs} (hA : A.Ok) (keyL keyR : U128)
    {m start : Nat} (hm : 2 * m ≤ 8 * h.maskBytes) (hal : start % m = 0) (hn : start + m ≤ A.n)
    (S : Nat → U128) (C : Nat → Bool) (hS : ∀ i, i < m → S (start + i) = A.sIn (start + i))
    (hC : ∀ i, i < m → C (start + i) = A.cIn (start + i)) :
    ∃ S' C', hwyVector h keyL keyR m A.numLevels (A.numCw / A.numLevels) ((List.range A.n).map S)
        ((List.range A.n).map C) ((List.range A.n).map A.p) (A.r : Int) A.corr start =
      ok ((List.range m).map S', pairs (List.range m) C' C') ∧
      ∀ i, i < m → A.fin env keyL keyR (start + i) = ⟨S' i, C' i⟩ := by
  unfold hwyVector loadAligned
  rw [if_pos hal, if_pos hal, slice_range S hn, bind_ok, slice_range A.p hn, bind_ok,
    maskFromBools_range h C hm (by intro i hi _; omega), bind_ok]
  exact hwyLevels_map hok keyL keyR hA.fits _ A.n A.numCw m start A.sIn A.cIn A.p A.cs A.cl A.cr
    (fun j hj => loadCorrections_ok h A.cs A.cl A.cr hm hA.q hn hA.cw hj hal) _ (fun i _ => rfl) _ _
    hS (fun i hi => by simpa using hC i hi)

theorem hwyStore_ok {env : Env} {h : HwyEnv} {A : SimdArgs} (keyL keyR : U128)
    {m start : Nat} (hm : 2 * m ≤ 8 * h.maskBytes) (hal : start % m = 0) (hn : start + m ≤ A.n)
    (S S' : Nat → U128) (C C' : Nat → Bool)
    (hfin : ∀ i, i < m → A.fin env keyL keyR (start + i) = ⟨S' i, C' i⟩) :
    hwyStore h m start (A.state env keyL keyR S C start)
      ((List.range m).map S', pairs (List.range m) C' C') =
    ok (A.state env keyL keyR S C (start + m)) := by
  unfold hwyStore storeAligned SimdArgs.state
  dsimp only
  have e1 : (List.range m).map S' = (List.range m).map fun i => (A.fin env keyL keyR (start + i)).seed := by
    apply List.map_congr_left
    intro i hi
    rw [hfin i (by simpa using hi)]
  rw [List.length_map, List.length_range, if_pos hal, e1,
    writeAt_range _ (fun j => (A.fin env keyL keyR j).seed) hn, bind_ok,
    boolsFromMask_range h (fun j => (A.fin env keyL keyR j).ctrl) _ hm (by omega) (by simpa using hn) C'
      (by
        intro i hi
        rw [hfin i (by simpa using hi)]), bind_ok]
  rw [if_neg (by omega)]
  congr 2
  · apply List.map_congr_left
    intro j _
    by_cases h1 : start ≤ j ∧ j < start + m
    · rw [if_pos h1, if_pos (by omega)]
    · rw [if_neg h1]
      by_cases h2 : j < start
      · rw [if_pos h2, if_pos (by omega)]
      · rw [if_neg h2, if_neg (by omega)]
  · apply List.map_congr_left
    intro j _
    by_cases h1 : start ≤ j ∧ j < start + m
    · rw [if_pos h1, if_pos (by omega)]
    · rw [if_neg h1]
      by_cases h2 : j < start
      · rw [if_pos h2, if_pos (by omega)]
      · rw [if_neg h2, if_neg (by omega)]

/-- What reads of `seeds_in` and `control_bits_in` see: the input, at least from `done` on. -/
theorem SimdArgs.reads (A : SimdArgs) (env : Env) (keyL keyR : U128) (S : Nat → U128) (C : Nat → Bool)
    (alias : Bool) (hal : alias = true → ∀ j, j < A.n → S j = A.sIn j ∧ C j = A.cIn j) (done : Nat) :
    ∃ S' C', (if alias then (A.state env keyL keyR S C done).1 else (List.range A.n).map A.sIn) =
        (List.range A.n).map S' ∧
      (if alias then (A.state env keyL keyR S C done).2 else (List.range A.n).map A.cIn) =
        (List.range A.n).map C' ∧
      ∀ j, done ≤ j → j < A.n → S' j = A.sIn j ∧ C' j = A.cIn j := by
  cases alias with
  | false => exact ⟨_, _, rfl, rfl, fun j _ _ => ⟨rfl, rfl⟩⟩
  | true =>
    refine ⟨_, _, rfl, rfl, ?_⟩
    intro j h1 h2
    rw [if_neg (by omega), if_neg (by omega)]
    exact hal rfl j h2

theorem hwyOne_ok {env : Env} {h : HwyEnv} (hok : HwyOk env h) {A : SimdArgs} (hA : A.Ok) (keyL keyR : U128)
    {m start : Nat} (hm : 2 * m ≤ 8 * h.maskBytes) (hstart : start % m = 0) (hn : start + m ≤ A.n)
    (S : Nat → U128) (C : Nat → Bool) (alias : Bool)
    (hal : alias = true → ∀ j, j < A.n → S j = A.sIn j ∧ C j = A.cIn j) :
    hwyOne h keyL keyR m A.numLevels (A.numCw / A.numLevels) ((List.range A.n).map A.sIn)
      ((List.range A.n).map A.cIn) ((List.range A.n).map A.p) (A.r : Int) A.corr alias start
      (A.state env keyL keyR S C start) = ok (A.state env keyL keyR S C (start + m)) := by
  unfold hwyOne
  obtain ⟨S', C', e1, e2, e3⟩ := A.reads env keyL keyR S C alias hal start
  rw [e1, e2]
  obtain ⟨S'', C'', e4, e5⟩ := hwyVector_ok hok hA keyL keyR hm hstart hn S' C'
    (fun i hi => (e3 _ (by omega) (by omega)).1) (fun i hi => (e3 _ (by omega) (by omega)).2)
  rw [e4, bind_ok, hwyStore_ok keyL keyR hm hstart hn S S'' C C'' e5]

theorem foldl_four (f0 f1 f2 f3 : Vec → Nat → Vec) (l : List Nat) : ∀ a b c d : Vec,
    l.foldl (fun (out : Four Vec) r => (⟨f0 out.x0 r, f1 out.x1 r, f2 out.x2 r, f3 out.x3 r⟩ : Four Vec)) ⟨a, b, c, d⟩ =
      ⟨l.foldl f0 a, l.foldl f1 b, l.foldl f2 c, l.foldl f3 d⟩ := by
  induction l with
  | nil => intro a b c d; rfl
  | cons r l ih => intro a b c d; exact ih _ _ _ _

theorem hashFourWithKeyMask_eq (h : HwyEnv) (v : Four Vec) (mask : Four Mask) (k0 k1 : Nat → U128) :
    hashFourWithKeyMask h v mask k0 k1 = ⟨hashWithKeyMask h v.x0 mask.x0 k0 k1, hashWithKeyMask h v.x1 mask.x1 k0 k1,
      hashWithKeyMask h v.x2 mask.x2 k0 k1, hashWithKeyMask h v.x3 mask.x3 k0 k1⟩ := by
  unfold hashFourWithKeyMask hashWithKeyMask
  dsimp only
  rw [foldl_four (fun out r => List.zipWith h.aesRound out (selectedKey v.x0.length mask.x0 k0 k1 (r + 1)))
    (fun out r => List.zipWith h.aesRound out (selectedKey v.x1.length mask.x1 k0 k1 (r + 1)))
    (fun out r => List.zipWith h.aesRound out (selectedKey v.x2.length mask.x2 k0 k1 (r + 1)))
    (fun out r => List.zipWith h.aesRound out (selectedKey v.x3.length mask.x3 k0 k1 (r + 1)))]

/-- What a level of one vector computes, if it is defined. -/
theorem hwyLevel_inv {h : HwyEnv} {keyL keyR : U128} {m L perLevel start : Nat} {rs : Int} {corr : CorrArrays}
    {path : Vec} {st r : Vec × Mask} {j : Nat}
    (he : hwyLevel h keyL keyR m L rs (fun j => loadCorrections h m perLevel corr j start) path st j = ok r) :
    ∃ bit p c next, intRange ((L : Int) - j - 1 + rs) = ok bit ∧ isBitSet m path bit = ok p ∧
      loadCorrections h m perLevel corr j start = ok c ∧
      isBitSet m (vecXor (hashWithKeyMask h st.1 p (h.roundKey keyL) (h.roundKey keyR)) (ifThenElseZero st.2 c.1)) 0 =
        ok next ∧
      r = (vecAnd (vecXor (hashWithKeyMask h st.1 p (h.roundKey keyL) (h.roundKey keyR)) (ifThenElseZero st.2 c.1))
          (loadDup128 m (~~~1#128)), maskXor next (maskAnd st.2 (ifThenElseMask p c.2.2 c.2.1))) := by
  unfold hwyLevel at he
  obtain ⟨bit, e1, he⟩ := bind_eq_ok.mp he
  obtain ⟨p, e2, he⟩ := bind_eq_ok.mp he
  obtain ⟨c, e3, he⟩ := bind_eq_ok.mp he
  obtain ⟨next, e4, he⟩ := bind_eq_ok.mp he
  exact ⟨bit, p, c, next, e1, e2, e3, e4, (Res.ok.inj he).symm⟩

theorem loadCorrections_inv_one {h : HwyEnv} {m j start : Nat} {corr : CorrArrays} {c : Vec × Mask × Mask}
    (hc : loadCorrections h m 1 corr j start = ok c) : ∃ s l r, rd corr.seeds j = ok s ∧ rd corr.left j = ok l ∧
      rd corr.right j = ok r ∧ c = (loadDup128 m s, List.replicate (2 * m) l, List.replicate (2 * m) r) := by
  unfold loadCorrections at hc
  rw [if_pos rfl] at hc
  obtain ⟨s, e1, hc⟩ := bind_eq_ok.mp hc
  obtain ⟨l, e2, hc⟩ := bind_eq_ok.mp hc
  obtain ⟨r, e3, hc⟩ := bind_eq_ok.mp hc
  exact ⟨s, l, r, e1, e2, e3, (Res.ok.inj hc).symm⟩

theorem loadCorrections_inv_many {h : HwyEnv} {m perLevel j start : Nat} {corr : CorrArrays} {c : Vec × Mask × Mask}
    (hp : perLevel ≠ 1) (hc : loadCorrections h m perLevel corr j start = ok c) :
    loadCorrectionSeeds m perLevel corr.seeds j (j * perLevel + start) = ok c.1 ∧
      maskFromBools h m corr.right (j * perLevel + start) 0 = ok c.2.2 ∧
      maskFromBools h m corr.left (j * perLevel + start) 0 = ok c.2.1 := by
  unfold loadCorrections at hc
  rw [if_neg hp] at hc
  obtain ⟨s, e1, hc⟩ := bind_eq_ok.mp hc
  obtain ⟨l, e2, hc⟩ := bind_eq_ok.mp hc
  obtain ⟨r, e3, hc⟩ := bind_eq_ok.mp hc
  rw [← Res.ok.inj hc]
  exact ⟨e1, e2, e3⟩

/-- A level of four vectors is a level of each of them. -/
theorem hwyLevelFour_eq {h : HwyEnv} {keyL keyR : U128} {m L perLevel start : Nat} {rs : Int} {corr : CorrArrays}
    {path : Four Vec} {st : Four Vec × Four Mask} {j : Nat} {r0 r1 r2 r3 : Vec × Mask}
    (h0 : hwyLevel h keyL keyR m L rs (fun j => loadCorrections h m perLevel corr j start) path.x0
      (st.1.x0, st.2.x0) j = ok r0)
    (h1 : hwyLevel h keyL keyR m L rs (fun j => loadCorrections h m perLevel corr j (start + 1 * m)) path.x1
      (st.1.x1, st.2.x1) j = ok r1)
    (h2 : hwyLevel h keyL keyR m L rs (fun j => loadCorrections h m perLevel corr j (start + 2 * m)) path.x2
      (st.1.x2, st.2.x2) j = ok r2)
    (h3 : hwyLevel h keyL keyR m L rs (fun j => loadCorrections h m perLevel corr j (start + 3 * m)) path.x3
      (st.1.x3, st.2.x3) j = ok r3) :
    hwyLevelFour h keyL keyR m L perLevel rs corr start path st j =
      ok (⟨r0.1, r1.1, r2.1, r3.1⟩, ⟨r0.2, r1.2, r2.2, r3.2⟩) := by
  obtain ⟨bit, p0, c0, n0, a0, b0, d0, e0, f0⟩ := hwyLevel_inv h0
  obtain ⟨bit1, p1, c1, n1, a1, b1, d1, e1, f1⟩ := hwyLevel_inv h1
  obtain ⟨bit2, p2, c2, n2, a2, b2, d2, e2, f2⟩ := hwyLevel_inv h2
  obtain ⟨bit3, p3, c3, n3, a3, b3, d3, e3, f3⟩ := hwyLevel_inv h3
  obtain rfl := Res.ok.inj (a0.symm.trans a1)
  obtain rfl := Res.ok.inj (a0.symm.trans a2)
  obtain rfl := Res.ok.inj (a0.symm.trans a3)
  clear h0 h1 h2 h3
  subst f0 f1 f2 f3
  have hs : ∀ vec : Four Vec, correctSeedsFour m perLevel corr j start vec st.2 =
      ok ⟨vecXor vec.x0 (ifThenElseZero st.2.x0 c0.1), vecXor vec.x1 (ifThenElseZero st.2.x1 c1.1),
        vecXor vec.x2 (ifThenElseZero st.2.x2 c2.1), vecXor vec.x3 (ifThenElseZero st.2.x3 c3.1)⟩ := by
    intro vec
    unfold correctSeedsFour
    by_cases hp : perLevel = 1
    · subst hp
      obtain ⟨s, l, r, u0, u1, u2, rfl⟩ := loadCorrections_inv_one d0
      obtain ⟨s', l', r', v0, v1, v2, rfl⟩ := loadCorrections_inv_one d1
      obtain rfl := Res.ok.inj (u0.symm.trans v0)
      obtain ⟨s', l', r', v0, v1, v2, rfl⟩ := loadCorrections_inv_one d2
      obtain rfl := Res.ok.inj (u0.symm.trans v0)
      obtain ⟨s', l', r', v0, v1, v2, rfl⟩ := loadCorrections_inv_one d3
      obtain rfl := Res.ok.inj (u0.symm.trans v0)
      rw [if_pos rfl, u0, bind_ok]
    · rw [if_neg hp]
      dsimp only
      rw [(loadCorrections_inv_many hp d0).1, bind_ok, Nat.add_assoc, (loadCorrections_inv_many hp d1).1, bind_ok,
        Nat.add_assoc, (loadCorrections_inv_many hp d2).1, bind_ok, Nat.add_assoc, (loadCorrections_inv_many hp d3).1,
        bind_ok]
  have hc : controlCorrectionsFour h m perLevel corr j start ⟨p0, p1, p2, p3⟩ =
      ok ⟨ifThenElseMask p0 c0.2.2 c0.2.1, ifThenElseMask p1 c1.2.2 c1.2.1, ifThenElseMask p2 c2.2.2 c2.2.1,
        ifThenElseMask p3 c3.2.2 c3.2.1⟩ := by
    unfold controlCorrectionsFour
    by_cases hp : perLevel = 1
    · subst hp
      obtain ⟨s, l, r, u0, u1, u2, rfl⟩ := loadCorrections_inv_one d0
      obtain ⟨s', l', r', v0, v1, v2, rfl⟩ := loadCorrections_inv_one d1
      obtain rfl := Res.ok.inj (u1.symm.trans v1)
      obtain rfl := Res.ok.inj (u2.symm.trans v2)
      obtain ⟨s', l', r', v0, v1, v2, rfl⟩ := loadCorrections_inv_one d2
      obtain rfl := Res.ok.inj (u1.symm.trans v1)
      obtain rfl := Res.ok.inj (u2.symm.trans v2)
      obtain ⟨s', l', r', v0, v1, v2, rfl⟩ := loadCorrections_inv_one d3
      obtain rfl := Res.ok.inj (u1.symm.trans v1)
      obtain rfl := Res.ok.inj (u2.symm.trans v2)
      rw [if_pos rfl, u1, bind_ok, u2, bind_ok]
    · rw [if_neg hp]
      dsimp only
      simp only [Nat.add_assoc]
      rw [(loadCorrections_inv_many hp d0).2.1, bind_ok, (loadCorrections_inv_many hp d0).2.2, bind_ok,
        (loadCorrections_inv_many hp d1).2.1, bind_ok, (loadCorrections_inv_many hp d1).2.2, bind_ok,
        (loadCorrections_inv_many hp d2).2.1, bind_ok, (loadCorrections_inv_many hp d2).2.2, bind_ok,
        (loadCorrections_inv_many hp d3).2.1, bind_ok, (loadCorrections_inv_many hp d3).2.2, bind_ok]
  unfold hwyLevelFour
  rw [a0, bind_ok, b0, bind_ok, b1, bind_ok, b2, bind_ok, b3, bind_ok]
  dsimp only
  rw [hashFourWithKeyMask_eq, hs, bind_ok]
  dsimp only
  rw [e0, bind_ok, e1, bind_ok, e2, bind_ok, e3, bind_ok, hc, bind_ok]

theorem foldRes_four {f0 f1 f2 f3 : Vec × Mask → Nat → Res (Vec × Mask)}
    {g : Four Vec × Four Mask → Nat → Res (Four Vec × Four Mask)}
    (hg : ∀ (st : Four Vec × Four Mask) (j : Nat) (r0 r1 r2 r3 : Vec × Mask), f0 (st.1.x0, st.2.x0) j = ok r0 →
      f1 (st.1.x1, st.2.x1) j = ok r1 → f2 (st.1.x2, st.2.x2) j = ok r2 → f3 (st.1.x3, st.2.x3) j = ok r3 →
      g st j = ok (⟨r0.1, r1.1, r2.1, r3.1⟩, ⟨r0.2, r1.2, r2.2, r3.2⟩)) :
    ∀ (l : List Nat) (st : Four Vec × Four Mask) (r0 r1 r2 r3 : Vec × Mask), foldRes f0 (st.1.x0, st.2.x0) l = ok r0 →
      foldRes f1 (st.1.x1, st.2.x1) l = ok r1 → foldRes f2 (st.1.x2, st.2.x2) l = ok r2 →
      foldRes f3 (st.1.x3, st.2.x3) l = ok r3 →
      foldRes g st l = ok (⟨r0.1, r1.1, r2.1, r3.1⟩, ⟨r0.2, r1.2, r2.2, r3.2⟩) := by
  have step : ∀ {f : Vec × Mask → Nat → Res (Vec × Mask)} {s : Vec × Mask} {j : Nat} {l : List Nat} {r : Vec × Mask},
      foldRes f s (j :: l) = ok r → ∃ s', f s j = ok s' ∧ foldRes f s' l = ok r := by
    intro f s j l r he
    unfold foldRes at he
    cases hf : f s j with
    | ok s' => rw [hf] at he; exact ⟨s', rfl, he⟩
    | err c => rw [hf] at he; cases he
    | ub => rw [hf] at he; cases he
    | crash => rw [hf] at he; cases he
  intro l
  induction l with
  | nil =>
    intro st r0 r1 r2 r3 h0 h1 h2 h3
    obtain rfl := Res.ok.inj h0
    obtain rfl := Res.ok.inj h1
    obtain rfl := Res.ok.inj h2
    obtain rfl := Res.ok.inj h3
    rfl
  | cons j l ih =>
    intro st r0 r1 r2 r3 h0 h1 h2 h3
    obtain ⟨s0, a0, b0⟩ := step h0
    obtain ⟨s1, a1, b1⟩ := step h1
    obtain ⟨s2, a2, b2⟩ := step h2
    obtain ⟨s3, a3, b3⟩ := step h3
    unfold foldRes
    rw [hg st j s0 s1 s2 s3 a0 a1 a2 a3]
    exact ih _ r0 r1 r2 r3 b0 b1 b2 b3

theorem hwyVector_inv {h : HwyEnv} {keyL keyR : U128} {m L perLevel : Nat} {seeds paths : List U128}
    {controls : List Bool} {rs : Int} {corr : CorrArrays} {start : Nat} {r : Vec × Mask}
    (he : hwyVector h keyL keyR m L perLevel seeds controls paths rs corr start = ok r) :
    ∃ v p c, loadAligned m seeds start = ok v ∧ loadAligned m paths start = ok p ∧
      maskFromBools h m controls start 0 = ok c ∧
      foldRes (hwyLevel h keyL keyR m L rs (fun j => loadCorrections h m perLevel corr j start) p) (v, c)
        (List.range L) = ok r := by
  unfold hwyVector at he
  obtain ⟨v, e1, he⟩ := bind_eq_ok.mp he
  obtain ⟨p, e2, he⟩ := bind_eq_ok.mp he
  obtain ⟨c, e3, he⟩ := bind_eq_ok.mp he
  exact ⟨v, p, c, e1, e2, e3, he⟩

theorem hwyStore_inv {h : HwyEnv} {m start : Nat} {st st' : List U128 × List Bool} {r : Vec × Mask}
    (he : hwyStore h m start st r = ok st') :
    storeAligned st.1 start r.1 = ok st'.1 ∧ boolsFromMask h m r.2 st.2 start 0 = ok st'.2 := by
  unfold hwyStore at he
  obtain ⟨a, e1, he⟩ := bind_eq_ok.mp he
  obtain ⟨b, e2, he⟩ := bind_eq_ok.mp he
  rw [← Res.ok.inj he]
  exact ⟨e1, e2⟩

/-- A pass over four vectors evaluates and stores each of them. -/
theorem hwyFour_eq {h : HwyEnv} {keyL keyR : U128} {m L perLevel : Nat} {seedsIn paths : List U128}
    {controlIn : List Bool} {rs : Int} {corr : CorrArrays} {alias : Bool} {start : Nat}
    {st st0 st1 st2 st3 : List U128 × List Bool} {r0 r1 r2 r3 : Vec × Mask}
    (v0 : hwyVector h keyL keyR m L perLevel (if alias then st.1 else seedsIn) (if alias then st.2 else controlIn) paths
      rs corr start = ok r0)
    (v1 : hwyVector h keyL keyR m L perLevel (if alias then st.1 else seedsIn) (if alias then st.2 else controlIn) paths
      rs corr (start + 1 * m) = ok r1)
    (v2 : hwyVector h keyL keyR m L perLevel (if alias then st.1 else seedsIn) (if alias then st.2 else controlIn) paths
      rs corr (start + 2 * m) = ok r2)
    (v3 : hwyVector h keyL keyR m L perLevel (if alias then st.1 else seedsIn) (if alias then st.2 else controlIn) paths
      rs corr (start + 3 * m) = ok r3)
    (s0 : hwyStore h m start st r0 = ok st0) (s1 : hwyStore h m (start + 1 * m) st0 r1 = ok st1)
    (s2 : hwyStore h m (start + 2 * m) st1 r2 = ok st2) (s3 : hwyStore h m (start + 3 * m) st2 r3 = ok st3) :
    hwyFour h keyL keyR m L perLevel seedsIn controlIn paths rs corr alias start st = ok st3 := by
  obtain ⟨x0, p0, c0, a0, b0, d0, e0⟩ := hwyVector_inv v0
  obtain ⟨x1, p1, c1, a1, b1, d1, e1⟩ := hwyVector_inv v1
  obtain ⟨x2, p2, c2, a2, b2, d2, e2⟩ := hwyVector_inv v2
  obtain ⟨x3, p3, c3, a3, b3, d3, e3⟩ := hwyVector_inv v3
  have hf := foldRes_four
    (g := hwyLevelFour h keyL keyR m L perLevel rs corr start ⟨p0, p1, p2, p3⟩)
    (fun st j r0 r1 r2 r3 h0 h1 h2 h3 => hwyLevelFour_eq h0 h1 h2 h3)
    (List.range L) (⟨x0, x1, x2, x3⟩, ⟨c0, c1, c2, c3⟩) r0 r1 r2 r3 e0 e1 e2 e3
  unfold hwyFour
  dsimp only
  rw [a0, bind_ok, a1, bind_ok, a2, bind_ok, a3, bind_ok, b0, bind_ok, b1, bind_ok, b2, bind_ok, b3, bind_ok,
    d0, bind_ok, d1, bind_ok, d2, bind_ok, d3, bind_ok, hf, bind_ok]
  dsimp only
  rw [(hwyStore_inv s0).1, bind_ok, (hwyStore_inv s1).1, bind_ok, (hwyStore_inv s2).1, bind_ok, (hwyStore_inv s3).1,
    bind_ok, (hwyStore_inv s0).2, bind_ok, (hwyStore_inv s1).2, bind_ok, (hwyStore_inv s2).2, bind_ok,
    (hwyStore_inv s3).2, bind_ok]

theorem hwyFour_ok {env : Env} {h : HwyEnv} (hok : HwyOk env h) {A : SimdArgs} (hA : A.Ok) (keyL keyR : U128)
    {m start : Nat} (hm : 2 * m ≤ 8 * h.maskBytes) (hstart : start % m = 0) (hn : start + 4 * m ≤ A.n)
    (S : Nat → U128) (C : Nat → Bool) (alias : Bool)
    (hal : alias = true → ∀ j, j < A.n → S j = A.sIn j ∧ C j = A.cIn j) :
    hwyFour h keyL keyR m A.numLevels (A.numCw / A.numLevels) ((List.range A.n).map A.sIn)
      ((List.range A.n).map A.cIn) ((List.range A.n).map A.p) (A.r : Int) A.corr alias start
      (A.state env keyL keyR S C start) = ok (A.state env keyL keyR S C (start + 4 * m)) := by
  obtain ⟨S', C', e1, e2, e3⟩ := A.reads env keyL keyR S C alias hal start
  have hs1 : (start + 1 * m) % m = 0 := by rw [Nat.add_mul_mod_self_right, hstart]
  have hs2 : (start + 2 * m) % m = 0 := by rw [Nat.add_mul_mod_self_right, hstart]
  have hs3 : (start + 3 * m) % m = 0 := by rw [Nat.add_mul_mod_self_right, hstart]
  obtain ⟨S0, C0, a0, b0⟩ := hwyVector_ok hok hA keyL keyR hm hstart (by omega) S' C'
    (fun i hi => (e3 _ (by omega) (by omega)).1) (fun i hi => (e3 _ (by omega) (by omega)).2)
  obtain ⟨S1, C1, a1, b1⟩ := hwyVector_ok hok hA keyL keyR hm hs1 (by omega) S' C'
    (fun i hi => (e3 _ (by omega) (by omega)).1) (fun i hi => (e3 _ (by omega) (by omega)).2)
  obtain ⟨S2, C2, a2, b2⟩ := hwyVector_ok hok hA keyL keyR hm hs2 (by omega) S' C'
    (fun i hi => (e3 _ (by omega) (by omega)).1) (fun i hi => (e3 _ (by omega) (by omega)).2)
  obtain ⟨S3, C3, a3, b3⟩ := hwyVector_ok hok hA keyL keyR hm hs3 (by omega) S' C'
    (fun i hi => (e3 _ (by omega) (by omega)).1) (fun i hi => (e3 _ (by omega) (by omega)).2)
  have t1 : start + m = start + 1 * m := by omega
  have t2 : start + 1 * m + m = start + 2 * m := by omega
  have t3 : start + 2 * m + m = start + 3 * m := by omega
  have t4 : start + 3 * m + m = start + 4 * m := by omega
  have u0 := hwyStore_ok keyL keyR hm hstart (by omega) S S0 C C0 b0
  have u1 := hwyStore_ok keyL keyR hm hs1 (by omega) S S1 C C1 b1
  have u2 := hwyStore_ok keyL keyR hm hs2 (by omega) S S2 C C2 b2
  have u3 := hwyStore_ok keyL keyR hm hs3 (by omega) S S3 C C3 b3
  rw [t1] at u0
  rw [t2] at u1
  rw [t3] at u2
  rw [t4] at u3
  exact hwyFour_eq (by rw [e1, e2]; exact a0) (by rw [e1, e2]; exact a1) (by rw [e1, e2]; exact a2)
    (by rw [e1, e2]; exact a3) u0 u1 u2 u3

theorem hwyRest_ok {env : Env} {h : HwyEnv} (hok : HwyOk env h) {A : SimdArgs} (hA : A.Ok) (keyL keyR : U128)
    {m start w : Nat} (hm : 2 * m ≤ 8 * h.maskBytes) (hw : w ≤ m) (hw0 : 0 < w) (hn : start + w ≤ A.n)
    (S : Nat → U128) (C : Nat → Bool) (alias : Bool)
    (hal : alias = true → ∀ j, j < A.n → S j = A.sIn j ∧ C j = A.cIn j) :
    hwyRest h keyL keyR m A.numLevels (A.numCw / A.numLevels) ((List.range A.n).map A.sIn)
      ((List.range A.n).map A.cIn) ((List.range A.n).map A.p) (A.r : Int) A.corr alias start w
      (A.state env keyL keyR S C start) = ok (A.state env keyL keyR S C (start + w)) := by
  unfold hwyRest
  obtain ⟨S', C', e1, e2, e3⟩ := A.reads env keyL keyR S C alias hal start
  rw [e1, e2, slice_range _ hn, bind_ok, slice_range _ hn, bind_ok,
    maskFromBools_range h _ hm (by intro i hi h'; omega), bind_ok, padded_map _ _ hw, padded_map _ _ hw]
  obtain ⟨S'', C'', e4, e5⟩ := hwyLevels_map (r := A.r) hok keyL keyR hA.fits _ A.n A.numCw w start A.sIn A.cIn A.p A.cs
    A.cl A.cr
    (fun j hj => loadCorrectionsRest_ok h A.cs A.cl A.cr hm hA.q hn hw hw0 hA.cw hj)
    (fun i => if i < w then A.p (start + i) else 0) (fun i hi => if_pos hi)
    (fun i => if i < w then S' (start + i) else 0)
    (fun i => decide (w = 0 ∨ i < w) && C' (start + i))
    (fun i hi => by rw [if_pos hi]; exact (e3 _ (by omega) (by omega)).1)
    (fun i hi => by
      rw [decide_eq_true (Or.inr hi), Bool.true_and]
      exact (e3 _ (by omega) (by omega)).2)
  have e4' := e4
  unfold SimdArgs.corr
  rw [e4', bind_ok]
  unfold SimdArgs.state
  dsimp only
  have ht : ((List.range m).map S'').take w = (List.range w).map fun i => (A.fin env keyL keyR (start + i)).seed := by
    rw [← List.map_take, List.take_range, Nat.min_eq_left hw]
    apply List.map_congr_left
    intro i hi
    unfold SimdArgs.fin
    rw [e5 i (by simpa using hi)]
  rw [ht, writeAt_range _ (fun j => (A.fin env keyL keyR j).seed) hn, bind_ok,
    boolsFromMask_range h (fun j => (A.fin env keyL keyR j).ctrl) _ hm hw (by rw [if_pos hw0]; exact hn) C''
      (by
        intro i hi
        rw [if_pos hw0] at hi
        unfold SimdArgs.fin
        rw [e5 i hi]), bind_ok]
  rw [if_pos hw0]
  congr 2
  · apply List.map_congr_left
    intro j _
    by_cases h1 : start ≤ j ∧ j < start + w
    · rw [if_pos h1, if_pos (by omega)]
    · rw [if_neg h1]
      by_cases h2 : j < start
      · rw [if_pos h2, if_pos (by omega)]
      · rw [if_neg h2, if_neg (by omega)]
  · apply List.map_congr_left
    intro j _
    by_cases h1 : start ≤ j ∧ j < start + w
    · rw [if_pos h1, if_pos (by omega)]
    · rw [if_neg h1]
      by_cases h2 : j < start
      · rw [if_pos h2, if_pos (by omega)]
      · rw [if_neg h2, if_neg (by omega)]

/-- The vectorised evaluation computes the final node of each seed. -/
theorem evaluateSeedsHwy_range {env : Env} {h : HwyEnv} (hok : HwyOk env h) {A : SimdArgs} (hA : A.Ok)
    (keyL keyR : U128) (S : Nat → U128) (C : Nat → Bool) (alias : Bool)
    (hal : alias = true → ∀ j, j < A.n → S j = A.sIn j ∧ C j = A.cIn j) (hL : A.numLevels ≠ 0)
    (hlanes : ¬(h.aligned = false ∨ h.lanes < 16 ∨ h.lanes % 16 ≠ 0)) :
    evaluateSeedsHwy h env keyL keyR A.n A.numLevels A.numCw ((List.range A.n).map A.sIn)
      ((List.range A.n).map A.cIn) ((List.range A.n).map A.p) (A.r : Int) A.corr alias
      ((List.range A.n).map S) ((List.range A.n).map C) =
    ok ((List.range A.n).map fun j => (A.fin env keyL keyR j).seed,
      (List.range A.n).map fun j => (A.fin env keyL keyR j).ctrl) := by
  have hdone : A.state env keyL keyR S C A.n = ((List.range A.n).map fun j => (A.fin env keyL keyR j).seed,
      (List.range A.n).map fun j => (A.fin env keyL keyR j).ctrl) := by
    unfold SimdArgs.state
    refine Prod.ext ?_ ?_ <;>
    · apply List.map_congr_left
      intro j hj
      rw [if_pos (by simpa using hj)]
  have hzero : A.state env keyL keyR S C 0 = ((List.range A.n).map S, (List.range A.n).map C) := rfl
  unfold evaluateSeedsHwy
  by_cases hn : A.n = 0
  · rw [if_pos (Or.inl hn), hn]
    rfl
  rw [if_neg (by omega), if_neg hlanes]
  obtain ⟨m, hm⟩ : ∃ m, h.lanes = 16 * m := ⟨h.lanes / 16, by omega⟩
  have hm0 : 0 < m := by omega
  have hmask : 2 * m ≤ 8 * h.maskBytes := by have := hok.size; omega
  have hmm : h.lanes / 16 = m := by omega
  dsimp only
  rw [hmm, hm]
  generalize hf : A.n * 16 / (4 * (16 * m)) = fours
  have hf' : fours * (4 * m) ≤ A.n := by
    have := Nat.div_mul_le_self (A.n * 16) (4 * (16 * m))
    rw [hf] at this
    have e : fours * (4 * (16 * m)) = fours * (4 * m) * 16 := by
      rw [← Nat.mul_assoc, ← Nat.mul_assoc, Nat.mul_assoc (fours * 4), Nat.mul_comm 16 m, ← Nat.mul_assoc,
        Nat.mul_assoc fours 4 m]
    omega
  have hidx : ∀ k, k * (4 * (16 * m)) = k * (4 * m) * 16 := by
    intro k
    rw [← Nat.mul_assoc, ← Nat.mul_assoc, Nat.mul_assoc (k * 4), Nat.mul_comm 16 m, ← Nat.mul_assoc,
      Nat.mul_assoc k 4 m]
  obtain ⟨s1, e1, i1⟩ := foldRes_range_inv (n := fours)
    (f := fun st k => hwyFour h keyL keyR m A.numLevels (A.numCw / A.numLevels) ((List.range A.n).map A.sIn)
      ((List.range A.n).map A.cIn) ((List.range A.n).map A.p) (A.r : Int) A.corr alias
      (k * (4 * (16 * m)) / 16) st)
    (fun k st => st = A.state env keyL keyR S C (k * (4 * m)))
    (s := ((List.range A.n).map S, (List.range A.n).map C)) (by rw [Nat.zero_mul, hzero])
    (by
      rintro k st hk rfl
      have hk' : (k + 1) * (4 * m) ≤ fours * (4 * m) := Nat.mul_le_mul_right _ hk
      rw [Nat.succ_mul k] at hk'
      refine ⟨_, ?_, rfl⟩
      rw [hidx, Nat.mul_div_cancel _ (by decide), Nat.succ_mul k]
      exact hwyFour_ok hok hA keyL keyR hmask (by rw [← Nat.mul_assoc, Nat.mul_mod_left]) (by omega) S C
        alias hal)
  rw [e1, bind_ok, i1]
  generalize ho : (A.n * 16 - fours * (4 * (16 * m))) / (16 * m) = ones
  have ho' : fours * (4 * m) + ones * m ≤ A.n := by
    have := Nat.div_mul_le_self (A.n * 16 - fours * (4 * (16 * m))) (16 * m)
    rw [ho, hidx] at this
    have e : ones * (16 * m) = ones * m * 16 := by
      rw [Nat.mul_comm 16 m, ← Nat.mul_assoc]
    omega
  have hidx2 : ∀ k, k * (16 * m) = k * m * 16 := by
    intro k
    rw [Nat.mul_comm 16 m, ← Nat.mul_assoc]
  obtain ⟨s2, e2, i2⟩ := foldRes_range_inv (n := ones)
    (f := fun st k => hwyOne h keyL keyR m A.numLevels (A.numCw / A.numLevels) ((List.range A.n).map A.sIn)
      ((List.range A.n).map A.cIn) ((List.range A.n).map A.p) (A.r : Int) A.corr alias
      ((fours * (4 * (16 * m)) + k * (16 * m)) / 16) st)
    (fun k st => st = A.state env keyL keyR S C (fours * (4 * m) + k * m))
    (s := A.state env keyL keyR S C (fours * (4 * m))) (by rw [Nat.zero_mul, Nat.add_zero])
    (by
      rintro k st hk rfl
      have hk' : (k + 1) * m ≤ ones * m := Nat.mul_le_mul_right _ hk
      rw [Nat.succ_mul k] at hk'
      refine ⟨_, ?_, rfl⟩
      rw [hidx, hidx2, ← Nat.add_mul, Nat.mul_div_cancel _ (by decide), Nat.succ_mul k, ← Nat.add_assoc]
      exact hwyOne_ok hok hA keyL keyR hmask
        (by rw [Nat.add_mul_mod_self_right, ← Nat.mul_assoc, Nat.mul_mod_left]) (by omega) S C alias hal)
  rw [e2, bind_ok, i2]
  have hpos : (fours * (4 * (16 * m)) + ones * (16 * m)) / 16 = fours * (4 * m) + ones * m := by
    rw [hidx, hidx2, ← Nat.add_mul, Nat.mul_div_cancel _ (by decide)]
  rw [hpos]
  have hrest : A.n - (fours * (4 * m) + ones * m) < m := by
    have h1 := Nat.lt_div_mul_add (a := A.n * 16 - fours * (4 * (16 * m))) (b := 16 * m) (by omega)
    rw [ho, hidx, hidx2] at h1
    omega
  split
  · rename_i hr
    rw [hwyRest_ok hok hA keyL keyR hmask (Nat.le_of_lt hrest) hr (by omega) S C alias hal,
      Nat.add_sub_cancel' ho', hdone]
  · rw [Nat.le_antisymm ho' (by omega), hdone]

/-- Statement of C13 for `EvaluateSeedsHwy`. -/
theorem evaluateSeedsHwy_eq {env : Env} {h : HwyEnv} (hok : HwyOk env h) (keyL keyR : U128)
    (numSeeds numLevels numCw : Nat) (seedsIn : List U128) (controlIn : List Bool) (paths : List U128)
    (shift : Nat) (corr : CorrArrays) (alias : Bool) (seedsOut : List U128) (controlOut : List Bool)
    (hcw : numCw = numLevels ∨ numCw = numLevels * numSeeds)
    (hseeds : seedsIn.length = numSeeds) (hcontrol : controlIn.length = numSeeds)
    (hpaths : paths.length = numSeeds) (hso : seedsOut.length = numSeeds)
    (hco : controlOut.length = numSeeds) {q : Nat} (hcs : corr.seeds.length = q)
    (hcl : corr.left.length = q) (hcr : corr.right.length = q) (hqcw : numCw ≤ q)
    (hi32 : numCw < 2 ^ 31) (hfit : numLevels + shift ≤ 2 ^ 31)
    (halias : alias = true → seedsOut = seedsIn ∧ controlOut = controlIn) :
    evaluateSeedsHwy h env keyL keyR numSeeds numLevels numCw seedsIn controlIn paths shift corr alias
      seedsOut controlOut =
    evaluateSeedsNoHwy env keyL keyR numSeeds numLevels numCw seedsIn controlIn paths shift corr alias
      seedsOut controlOut := by
  obtain ⟨cs, cl, cr⟩ := corr
  dsimp only at hcs hcl hcr
  rw [list_eq_range_map seedsIn 0, list_eq_range_map controlIn false, list_eq_range_map paths 0,
    list_eq_range_map seedsOut 0, list_eq_range_map controlOut false, list_eq_range_map cs 0,
    list_eq_range_map cl false, list_eq_range_map cr false, hseeds, hcontrol, hpaths, hso, hco, hcs, hcl, hcr]
  have hal : alias = true → ∀ j, j < numSeeds → seedsOut[j]?.getD 0 = seedsIn[j]?.getD 0 ∧
      controlOut[j]?.getD false = controlIn[j]?.getD false := by
    intro ha j _
    rw [(halias ha).1, (halias ha).2]
    exact ⟨rfl, rfl⟩
  have hq : ∀ level j, level < numLevels → j < numSeeds →
      CorrOk numSeeds numLevels numCw q level j := by
    intro level j hl hj
    suffices h : corrIndex numSeeds numLevels numCw level j < numCw from ⟨by omega, fun _ => by omega⟩
    rcases hcw with e | e
    · unfold corrIndex
      rw [if_neg (by omega)]
      omega
    · rw [e, corrIndex_perSeed hl hj]
      have := Nat.mul_le_mul_right numSeeds (show level + 1 ≤ numLevels by omega)
      rw [Nat.succ_mul] at this
      omega
  rw [evaluateSeedsNoHwy_range env keyL keyR numLevels numCw _ _ _ shift _ _ _ q alias _ _ numSeeds hq hfit hal]
  by_cases hL : numLevels = 0
  · unfold evaluateSeedsHwy
    rw [if_pos (Or.inr hL)]
    simp only [hL, if_pos]
  · by_cases hlanes : h.aligned = false ∨ h.lanes < 16 ∨ h.lanes % 16 ≠ 0
    · unfold evaluateSeedsHwy
      by_cases hn : numSeeds = 0
      · rw [if_pos (Or.inl hn), hn]
        rfl
      · rw [if_neg (by omega), if_pos hlanes,
          evaluateSeedsNoHwy_range env keyL keyR numLevels numCw _ _ _ shift _ _ _ q alias _ _ numSeeds hq
            hfit hal]
    · have := evaluateSeedsHwy_range hok
        (A := ⟨numSeeds, numLevels, numCw, fun i => seedsIn[i]?.getD 0, fun i => controlIn[i]?.getD false,
          fun i => paths[i]?.getD 0, shift, fun i => cs[i]?.getD 0, fun i => cl[i]?.getD false,
          fun i => cr[i]?.getD false, q⟩) ⟨hqcw, hcw, hfit⟩ keyL keyR
        (fun i => seedsOut[i]?.getD 0) (fun i => controlOut[i]?.getD false) alias hal hL hlanes
      simp only [hL, if_false]
      exact this

end Verif
