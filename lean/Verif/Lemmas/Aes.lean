import Verif.Model.Aes
import Verif.Lemmas.IdealBits
import Verif.Lemmas.Prng
import Verif.Spec.Fips180
/-! AES instructions compute AES; AES is a permutation. -/
namespace Verif
open Res Spec Fips197

/-! ### Bytes of blocks -/

theorem bytesBlock_blockBytes (x : U128) : bytesBlock (blockBytes x) = x := by
  unfold bytesBlock
  rw [blockBytes_eq, leNat_leBytes 16 _ (by have := x.isLt; omega)]
  simp

theorem blockBytes_bytesBlock {b : Bytes} (h : b.length = 16) : blockBytes (bytesBlock b) = b := by
  have hl := leNat_lt b
  rw [h] at hl
  unfold bytesBlock
  rw [blockBytes_eq, BitVec.toNat_ofNat, Nat.mod_eq_of_lt (by omega)]
  have := leBytes_leNat b
  rwa [h] at this

theorem blockBytes_xor (x y : U128) : blockBytes (x ^^^ y) = addRoundKey (blockBytes x) (blockBytes y) := by
  unfold blockBytes addRoundKey
  rw [List.zipWith_map, List.zipWith_self]
  apply List.map_congr_left
  intro i _
  exact BitVec.extractLsb'_xor

theorem bytesBlock_xor {a b : Bytes} (ha : a.length = 16) (hb : b.length = 16) :
    bytesBlock (addRoundKey a b) = bytesBlock a ^^^ bytesBlock b := by
  rw [← bytesBlock_blockBytes (bytesBlock a ^^^ bytesBlock b), blockBytes_xor, blockBytes_bytesBlock ha,
    blockBytes_bytesBlock hb]

/-! ### Lengths -/

theorem blockBytes_length' (x : U128) : (blockBytes x).length = 16 := by simp [blockBytes]

theorem list16 {s : Bytes} (h : s.length = 16) : ∃ a0 a1 a2 a3 a4 a5 a6 a7 a8 a9 a10 a11 a12 a13 a14 a15,
    s = [a0, a1, a2, a3, a4, a5, a6, a7, a8, a9, a10, a11, a12, a13, a14, a15] := by
  match s, h with
  | [a0, a1, a2, a3, a4, a5, a6, a7, a8, a9, a10, a11, a12, a13, a14, a15], _ =>
    exact ⟨a0, a1, a2, a3, a4, a5, a6, a7, a8, a9, a10, a11, a12, a13, a14, a15, rfl⟩

theorem addRoundKey_length {s k : Bytes} (hs : s.length = 16) (hk : k.length = 16) : (addRoundKey s k).length = 16 := by
  simp [addRoundKey, hs, hk]

theorem shiftRows_length (s : Bytes) : (shiftRows s).length = 16 := by simp [shiftRows]
theorem invShiftRows_length (s : Bytes) : (invShiftRows s).length = 16 := by simp [invShiftRows]
theorem subBytes_length (s : Bytes) : (subBytes s).length = s.length := by simp [subBytes]
theorem invSubBytes_length (s : Bytes) : (invSubBytes s).length = s.length := by simp [invSubBytes]

theorem mixColumns_length {s : Bytes} (h : s.length = 16) : (mixColumns s).length = 16 := by
  obtain ⟨a0, a1, a2, a3, a4, a5, a6, a7, a8, a9, a10, a11, a12, a13, a14, a15, rfl⟩ := list16 h
  rfl

theorem invMixColumns_length {s : Bytes} (h : s.length = 16) : (invMixColumns s).length = 16 := by
  obtain ⟨a0, a1, a2, a3, a4, a5, a6, a7, a8, a9, a10, a11, a12, a13, a14, a15, rfl⟩ := list16 h
  rfl

theorem words_shape {key : Bytes} (hk : key.length = 16) (n : Nat) :
    (words key n).length = n + 4 ∧ ∀ w ∈ words key n, w.length = 4 := by
  induction n with
  | zero =>
    refine ⟨rfl, ?_⟩
    intro w hw
    simp only [words, List.mem_cons, List.not_mem_nil, or_false] at hw
    rcases hw with rfl | rfl | rfl | rfl <;> simp [hk]
  | succ n ih =>
    obtain ⟨h1, h2⟩ := ih
    have hg : ∀ i < n + 4, ((words key n).getD i []).length = 4 := by
      intro i hi
      rw [List.getD_eq_getElem?_getD, List.getElem?_eq_getElem (by omega), Option.getD_some]
      exact h2 _ (List.getElem_mem _)
    refine ⟨by simp [words, h1], ?_⟩
    intro w hw
    simp only [words, List.mem_append, List.mem_singleton] at hw
    rcases hw with hw | rfl
    · exact h2 w hw
    · unfold nextWord
      have e1 := hg n (by omega)
      have e2 := hg (n + 3) (by omega)
      rw [List.length_zipWith, e1]
      split
      · rw [List.length_zipWith, List.length_map, List.length_append, List.length_drop, List.length_take, e2]
        rfl
      · rw [e2]; rfl

theorem roundKey_length {key : Bytes} (hk : key.length = 16) {r : Nat} (hr : r ≤ 10) :
    (roundKey key r).length = 16 := by
  obtain ⟨h1, h2⟩ := words_shape hk 40
  unfold roundKey
  rw [List.length_flatten]
  have h3 : (((words key 40).drop (4 * r)).take 4).map List.length = List.replicate 4 4 := by
    rw [List.eq_replicate_iff]
    refine ⟨by simp [h1]; omega, ?_⟩
    intro n hn
    obtain ⟨w, hw, rfl⟩ := List.mem_map.mp hn
    exact h2 w (List.mem_of_mem_drop (List.mem_of_mem_take hw))
  rw [h3]
  rfl

/-! ### Instructions -/

theorem subBytes_shiftRows {s : Bytes} (h : s.length = 16) : subBytes (shiftRows s) = shiftRows (subBytes s) := by
  obtain ⟨a0, a1, a2, a3, a4, a5, a6, a7, a8, a9, a10, a11, a12, a13, a14, a15, rfl⟩ := list16 h
  rfl

section
attribute [local irreducible] roundKey mixColumns shiftRows subBytes addRoundKey bytesBlock blockBytes

/-- The state after some rounds. -/
def fipsRounds (key s : Bytes) (n : Nat) : Bytes :=
  (List.range n).foldl (fun s r => addRoundKey (mixColumns (shiftRows (subBytes s))) (roundKey key (r + 1))) s

theorem fipsRounds_succ (key s : Bytes) (n : Nat) : fipsRounds key s (n + 1) =
    addRoundKey (mixColumns (shiftRows (subBytes (fipsRounds key s n)))) (roundKey key (n + 1)) := by
  unfold fipsRounds
  rw [List.range_succ, List.foldl_append, List.foldl_cons, List.foldl_nil]

theorem fipsRounds_length {key s : Bytes} (hk : key.length = 16) (hs : s.length = 16) {n : Nat} (hn : n ≤ 9) :
    (fipsRounds key s n).length = 16 := by
  induction n with
  | zero => exact hs
  | succ n ih =>
    rw [fipsRounds_succ]
    exact addRoundKey_length (mixColumns_length (shiftRows_length _)) (roundKey_length hk (by omega))

theorem cipher_eq (key x : Bytes) : cipher key x = addRoundKey (shiftRows (subBytes
    (fipsRounds key (addRoundKey x (roundKey key 0)) 9))) (roundKey key 10) := by
  unfold cipher fipsRounds
  rfl

theorem hwyRounds_eq (key x : U128) (n : Nat) (hn : n ≤ 9) :
    (List.range n).foldl (fun y r => hwyAesRound y (expandedKey key (r + 1))) (x ^^^ expandedKey key 0) =
      bytesBlock (fipsRounds (blockBytes key) (addRoundKey (blockBytes x) (roundKey (blockBytes key) 0)) n) := by
  have hk := blockBytes_length' key
  have hx := blockBytes_length' x
  have h0 : (addRoundKey (blockBytes x) (roundKey (blockBytes key) 0)).length = 16 :=
    addRoundKey_length hx (roundKey_length hk (by decide))
  induction n with
  | zero =>
    unfold expandedKey fipsRounds
    rw [List.range_zero, List.foldl_nil, List.foldl_nil, bytesBlock_xor hx (roundKey_length hk (by decide)),
      bytesBlock_blockBytes]
  | succ n ih =>
    have hl := fipsRounds_length hk h0 (n := n) (by omega)
    rw [List.range_succ, List.foldl_append, ih (by omega), fipsRounds_succ, List.foldl_cons, List.foldl_nil]
    unfold hwyAesRound expandedKey
    rw [blockBytes_bytesBlock hl, subBytes_shiftRows hl, bytesBlock_xor (mixColumns_length (shiftRows_length _))
      (roundKey_length hk (by omega))]

theorem opensslAes_eq (lanes maskBytes : Nat) (aligned : Bool) (key x : U128) :
    opensslAes key x = aesByRounds (aesMachine lanes maskBytes aligned) key x := by
  have hk := blockBytes_length' key
  have hx := blockBytes_length' x
  have h0 : (addRoundKey (blockBytes x) (roundKey (blockBytes key) 0)).length = 16 :=
    addRoundKey_length hx (roundKey_length hk (by decide))
  have hl := fipsRounds_length hk h0 (n := 9) (by omega)
  unfold opensslAes aesByRounds aesMachine
  dsimp only
  rw [hwyRounds_eq key x 9 (by decide), cipher_eq]
  unfold hwyAesLastRound
  rw [blockBytes_bytesBlock hl, subBytes_shiftRows hl, bytesBlock_xor (shiftRows_length _)
    (roundKey_length hk (by decide))]
  unfold expandedKey
  rfl

end

/-! ### Inverse -/

theorem mulBits_xor (n : Nat) (a b c : BitVec 8) : mulBits n a (b ^^^ c) = mulBits n a b ^^^ mulBits n a c := by
  induction n generalizing a b c with
  | zero => simp [mulBits]
  | succ n ih =>
    simp only [mulBits]
    rw [BitVec.ushiftRight_xor_distrib, ih, BitVec.getLsbD_xor]
    cases b.getLsbD 0 <;> cases c.getLsbD 0 <;> simp
    · ac_rfl
    · ac_rfl
    · rw [show ∀ u v : BitVec 8, a ^^^ u ^^^ (a ^^^ v) = (a ^^^ a) ^^^ (u ^^^ v) by intros; ac_rfl, BitVec.xor_self,
        BitVec.zero_xor]

theorem mul_xor (a b c : BitVec 8) : mul a (b ^^^ c) = mul a b ^^^ mul a c := mulBits_xor 8 a b c

theorem forall_byte {P : BitVec 8 → Prop} (h : ∀ n : Fin 256, P (BitVec.ofNat 8 n)) (b : BitVec 8) : P b := by
  have := h ⟨b.toNat, b.isLt⟩
  simpa using this

theorem invSbox_sbox : ∀ b, invSbox (sbox b) = b := forall_byte (by decide +kernel)
theorem sbox_invSbox : ∀ b, sbox (invSbox b) = b := forall_byte (by decide +kernel)

theorem invSubBytes_subBytes (s : Bytes) : invSubBytes (subBytes s) = s := by
  simp [invSubBytes, subBytes, Function.comp_def, invSbox_sbox]

theorem subBytes_invSubBytes (s : Bytes) : subBytes (invSubBytes s) = s := by
  simp [invSubBytes, subBytes, Function.comp_def, sbox_invSbox]

theorem invShiftRows_shiftRows {s : Bytes} (h : s.length = 16) : invShiftRows (shiftRows s) = s := by
  obtain ⟨a0, a1, a2, a3, a4, a5, a6, a7, a8, a9, a10, a11, a12, a13, a14, a15, rfl⟩ := list16 h
  rfl

theorem shiftRows_invShiftRows {s : Bytes} (h : s.length = 16) : shiftRows (invShiftRows s) = s := by
  obtain ⟨a0, a1, a2, a3, a4, a5, a6, a7, a8, a9, a10, a11, a12, a13, a14, a15, rfl⟩ := list16 h
  rfl

theorem addRoundKey_twice {s k : Bytes} (h : s.length = k.length) : addRoundKey (addRoundKey s k) k = s := by
  induction s generalizing k with
  | nil => rfl
  | cons a s ih =>
    match k with
    | b :: k =>
      simp only [addRoundKey, List.zipWith_cons_cons]
      congr 1
      · rw [BitVec.xor_assoc, BitVec.xor_self, BitVec.xor_zero]
      · exact ih (by simpa using h)

theorem mixColumn_column (a : BitVec 8) :
    (mul 14 (mul 2 a) ^^^ mul 11 a ^^^ mul 13 a ^^^ mul 9 (mul 3 a) = a ∧
      mul 9 (mul 2 a) ^^^ mul 14 a ^^^ mul 11 a ^^^ mul 13 (mul 3 a) = 0 ∧
      mul 13 (mul 2 a) ^^^ mul 9 a ^^^ mul 14 a ^^^ mul 11 (mul 3 a) = 0 ∧
      mul 11 (mul 2 a) ^^^ mul 13 a ^^^ mul 9 a ^^^ mul 14 (mul 3 a) = 0) ∧
    (mul 2 (mul 14 a) ^^^ mul 3 (mul 9 a) ^^^ mul 13 a ^^^ mul 11 a = a ∧
      mul 14 a ^^^ mul 2 (mul 9 a) ^^^ mul 3 (mul 13 a) ^^^ mul 11 a = 0 ∧
      mul 14 a ^^^ mul 9 a ^^^ mul 2 (mul 13 a) ^^^ mul 3 (mul 11 a) = 0 ∧
      mul 3 (mul 14 a) ^^^ mul 9 a ^^^ mul 13 a ^^^ mul 2 (mul 11 a) = 0) := by
  revert a
  exact forall_byte (by decide +kernel)

section
attribute [local irreducible] mul

theorem invMixColumn_mixColumn (a b c d : BitVec 8) :
    (match mixColumn a b c d with
      | [a, b, c, d] => invMixColumn a b c d
      | _ => []) = [a, b, c, d] := by
  obtain ⟨⟨a1, a2, a3, a4⟩, _⟩ := mixColumn_column a
  obtain ⟨⟨b1, b2, b3, b4⟩, _⟩ := mixColumn_column b
  obtain ⟨⟨c1, c2, c3, c4⟩, _⟩ := mixColumn_column c
  obtain ⟨⟨d1, d2, d3, d4⟩, _⟩ := mixColumn_column d
  unfold mixColumn
  dsimp only
  unfold invMixColumn
  simp only [mul_xor]
  refine List.cons_eq_cons.mpr ⟨?_, List.cons_eq_cons.mpr ⟨?_, List.cons_eq_cons.mpr ⟨?_, List.cons_eq_cons.mpr ⟨?_, rfl⟩⟩⟩⟩
  · refine Eq.trans (b := (mul 14 (mul 2 a) ^^^ mul 11 a ^^^ mul 13 a ^^^ mul 9 (mul 3 a)) ^^^
      (mul 11 (mul 2 b) ^^^ mul 13 b ^^^ mul 9 b ^^^ mul 14 (mul 3 b)) ^^^
      (mul 13 (mul 2 c) ^^^ mul 9 c ^^^ mul 14 c ^^^ mul 11 (mul 3 c)) ^^^
      (mul 9 (mul 2 d) ^^^ mul 14 d ^^^ mul 11 d ^^^ mul 13 (mul 3 d))) (by ac_rfl) ?_
    rw [a1, b4, c3, d2]
    simp
  · refine Eq.trans (b := (mul 9 (mul 2 a) ^^^ mul 14 a ^^^ mul 11 a ^^^ mul 13 (mul 3 a)) ^^^
      (mul 14 (mul 2 b) ^^^ mul 11 b ^^^ mul 13 b ^^^ mul 9 (mul 3 b)) ^^^
      (mul 11 (mul 2 c) ^^^ mul 13 c ^^^ mul 9 c ^^^ mul 14 (mul 3 c)) ^^^
      (mul 13 (mul 2 d) ^^^ mul 9 d ^^^ mul 14 d ^^^ mul 11 (mul 3 d))) (by ac_rfl) ?_
    rw [a2, b1, c4, d3]
    simp
  · refine Eq.trans (b := (mul 13 (mul 2 a) ^^^ mul 9 a ^^^ mul 14 a ^^^ mul 11 (mul 3 a)) ^^^
      (mul 9 (mul 2 b) ^^^ mul 14 b ^^^ mul 11 b ^^^ mul 13 (mul 3 b)) ^^^
      (mul 14 (mul 2 c) ^^^ mul 11 c ^^^ mul 13 c ^^^ mul 9 (mul 3 c)) ^^^
      (mul 11 (mul 2 d) ^^^ mul 13 d ^^^ mul 9 d ^^^ mul 14 (mul 3 d))) (by ac_rfl) ?_
    rw [a3, b2, c1, d4]
    simp
  · refine Eq.trans (b := (mul 11 (mul 2 a) ^^^ mul 13 a ^^^ mul 9 a ^^^ mul 14 (mul 3 a)) ^^^
      (mul 13 (mul 2 b) ^^^ mul 9 b ^^^ mul 14 b ^^^ mul 11 (mul 3 b)) ^^^
      (mul 9 (mul 2 c) ^^^ mul 14 c ^^^ mul 11 c ^^^ mul 13 (mul 3 c)) ^^^
      (mul 14 (mul 2 d) ^^^ mul 11 d ^^^ mul 13 d ^^^ mul 9 (mul 3 d))) (by ac_rfl) ?_
    rw [a4, b3, c2, d1]
    simp

theorem mixColumn_invMixColumn (a b c d : BitVec 8) :
    (match invMixColumn a b c d with
      | [a, b, c, d] => mixColumn a b c d
      | _ => []) = [a, b, c, d] := by
  obtain ⟨_, a1, a2, a3, a4⟩ := mixColumn_column a
  obtain ⟨_, b1, b2, b3, b4⟩ := mixColumn_column b
  obtain ⟨_, c1, c2, c3, c4⟩ := mixColumn_column c
  obtain ⟨_, d1, d2, d3, d4⟩ := mixColumn_column d
  unfold invMixColumn
  dsimp only
  unfold mixColumn
  simp only [mul_xor]
  refine List.cons_eq_cons.mpr ⟨?_, List.cons_eq_cons.mpr ⟨?_, List.cons_eq_cons.mpr ⟨?_, List.cons_eq_cons.mpr ⟨?_, rfl⟩⟩⟩⟩
  · refine Eq.trans (b := (mul 2 (mul 14 a) ^^^ mul 3 (mul 9 a) ^^^ mul 13 a ^^^ mul 11 a) ^^^
      (mul 3 (mul 14 b) ^^^ mul 9 b ^^^ mul 13 b ^^^ mul 2 (mul 11 b)) ^^^
      (mul 14 c ^^^ mul 9 c ^^^ mul 2 (mul 13 c) ^^^ mul 3 (mul 11 c)) ^^^
      (mul 14 d ^^^ mul 2 (mul 9 d) ^^^ mul 3 (mul 13 d) ^^^ mul 11 d)) (by ac_rfl) ?_
    rw [a1, b4, c3, d2]
    simp
  · refine Eq.trans (b := (mul 14 a ^^^ mul 2 (mul 9 a) ^^^ mul 3 (mul 13 a) ^^^ mul 11 a) ^^^
      (mul 2 (mul 14 b) ^^^ mul 3 (mul 9 b) ^^^ mul 13 b ^^^ mul 11 b) ^^^
      (mul 3 (mul 14 c) ^^^ mul 9 c ^^^ mul 13 c ^^^ mul 2 (mul 11 c)) ^^^
      (mul 14 d ^^^ mul 9 d ^^^ mul 2 (mul 13 d) ^^^ mul 3 (mul 11 d))) (by ac_rfl) ?_
    rw [a2, b1, c4, d3]
    simp
  · refine Eq.trans (b := (mul 14 a ^^^ mul 9 a ^^^ mul 2 (mul 13 a) ^^^ mul 3 (mul 11 a)) ^^^
      (mul 14 b ^^^ mul 2 (mul 9 b) ^^^ mul 3 (mul 13 b) ^^^ mul 11 b) ^^^
      (mul 2 (mul 14 c) ^^^ mul 3 (mul 9 c) ^^^ mul 13 c ^^^ mul 11 c) ^^^
      (mul 3 (mul 14 d) ^^^ mul 9 d ^^^ mul 13 d ^^^ mul 2 (mul 11 d))) (by ac_rfl) ?_
    rw [a3, b2, c1, d4]
    simp
  · refine Eq.trans (b := (mul 3 (mul 14 a) ^^^ mul 9 a ^^^ mul 13 a ^^^ mul 2 (mul 11 a)) ^^^
      (mul 14 b ^^^ mul 9 b ^^^ mul 2 (mul 13 b) ^^^ mul 3 (mul 11 b)) ^^^
      (mul 14 c ^^^ mul 2 (mul 9 c) ^^^ mul 3 (mul 13 c) ^^^ mul 11 c) ^^^
      (mul 2 (mul 14 d) ^^^ mul 3 (mul 9 d) ^^^ mul 13 d ^^^ mul 11 d)) (by ac_rfl) ?_
    rw [a4, b3, c2, d1]
    simp

theorem invMixColumns_mixColumns {s : Bytes} (h : s.length = 16) : invMixColumns (mixColumns s) = s := by
  obtain ⟨a0, a1, a2, a3, a4, a5, a6, a7, a8, a9, a10, a11, a12, a13, a14, a15, rfl⟩ := list16 h
  have h1 := invMixColumn_mixColumn a0 a1 a2 a3
  have h2 := invMixColumn_mixColumn a4 a5 a6 a7
  have h3 := invMixColumn_mixColumn a8 a9 a10 a11
  have h4 := invMixColumn_mixColumn a12 a13 a14 a15
  simp only [mixColumn] at h1 h2 h3 h4
  simp only [mixColumns, mixColumn, List.cons_append, List.nil_append, invMixColumns, h1, h2, h3, h4]

theorem mixColumns_invMixColumns {s : Bytes} (h : s.length = 16) : mixColumns (invMixColumns s) = s := by
  obtain ⟨a0, a1, a2, a3, a4, a5, a6, a7, a8, a9, a10, a11, a12, a13, a14, a15, rfl⟩ := list16 h
  have h1 := mixColumn_invMixColumn a0 a1 a2 a3
  have h2 := mixColumn_invMixColumn a4 a5 a6 a7
  have h3 := mixColumn_invMixColumn a8 a9 a10 a11
  have h4 := mixColumn_invMixColumn a12 a13 a14 a15
  simp only [invMixColumn] at h1 h2 h3 h4
  simp only [invMixColumns, invMixColumn, List.cons_append, List.nil_append, mixColumns, h1, h2, h3, h4]

end

section
attribute [local irreducible] roundKey mixColumns shiftRows subBytes addRoundKey invMixColumns invShiftRows invSubBytes

/-- The state after some rounds backwards. -/
def fipsInvRounds (key s : Bytes) (n : Nat) : Bytes :=
  (List.range n).foldl (fun s r =>
    invMixColumns (addRoundKey (invSubBytes (invShiftRows s)) (roundKey key (9 - r)))) s

theorem fipsInvRounds_succ (key s : Bytes) (n : Nat) : fipsInvRounds key s (n + 1) =
    invMixColumns (addRoundKey (invSubBytes (invShiftRows (fipsInvRounds key s n))) (roundKey key (9 - n))) := by
  unfold fipsInvRounds
  rw [List.range_succ, List.foldl_append, List.foldl_cons, List.foldl_nil]

theorem fipsInvRounds_length {key s : Bytes} (hk : key.length = 16) (hs : s.length = 16) {n : Nat} :
    (fipsInvRounds key s n).length = 16 := by
  induction n with
  | zero => exact hs
  | succ n ih =>
    rw [fipsInvRounds_succ]
    exact invMixColumns_length (addRoundKey_length (by rw [invSubBytes_length]; exact invShiftRows_length _)
      (roundKey_length hk (by omega)))

theorem invCipher_eq (key x : Bytes) : invCipher key x = addRoundKey (invSubBytes (invShiftRows
    (fipsInvRounds key (addRoundKey x (roundKey key 10)) 9))) (roundKey key 0) := by
  unfold invCipher fipsInvRounds
  rfl

theorem invCipher_cipher {key x : Bytes} (hk : key.length = 16) (hx : x.length = 16) :
    invCipher key (cipher key x) = x := by
  have h0 : (addRoundKey x (roundKey key 0)).length = 16 := addRoundKey_length hx (roundKey_length hk (by decide))
  have hl : ∀ n ≤ 9, (fipsRounds key (addRoundKey x (roundKey key 0)) n).length = 16 :=
    fun n hn => fipsRounds_length hk h0 hn
  have hstep : ∀ n ≤ 9, fipsInvRounds key (shiftRows (subBytes (fipsRounds key (addRoundKey x (roundKey key 0)) 9))) n =
      shiftRows (subBytes (fipsRounds key (addRoundKey x (roundKey key 0)) (9 - n))) := by
    intro n hn
    induction n with
    | zero => unfold fipsInvRounds; rfl
    | succ n ih =>
      rw [fipsInvRounds_succ, ih (by omega), invShiftRows_shiftRows (by rw [subBytes_length]; exact hl _ (by omega)),
        invSubBytes_subBytes, show 9 - n = 9 - (n + 1) + 1 by omega, fipsRounds_succ, addRoundKey_twice (by
          rw [mixColumns_length (shiftRows_length _), roundKey_length hk (by omega)]),
        invMixColumns_mixColumns (shiftRows_length _)]
  rw [invCipher_eq, cipher_eq, addRoundKey_twice (by rw [shiftRows_length, roundKey_length hk (by decide)]),
    hstep 9 (by decide), invShiftRows_shiftRows (by rw [subBytes_length]; exact hl _ (by omega)), invSubBytes_subBytes]
  unfold fipsRounds
  rw [Nat.sub_self, List.range_zero, List.foldl_nil, addRoundKey_twice (by rw [hx, roundKey_length hk (by decide)])]

theorem cipher_invCipher {key x : Bytes} (hk : key.length = 16) (hx : x.length = 16) :
    cipher key (invCipher key x) = x := by
  have h0 : (addRoundKey x (roundKey key 10)).length = 16 := addRoundKey_length hx (roundKey_length hk (by decide))
  have hl : ∀ n, (fipsInvRounds key (addRoundKey x (roundKey key 10)) n).length = 16 :=
    fun n => fipsInvRounds_length hk h0
  have hi : ∀ n, (invSubBytes (invShiftRows (fipsInvRounds key (addRoundKey x (roundKey key 10)) n))).length = 16 := by
    intro n
    rw [invSubBytes_length]
    exact invShiftRows_length _
  have hstep : ∀ n ≤ 9, fipsRounds key (invSubBytes (invShiftRows
      (fipsInvRounds key (addRoundKey x (roundKey key 10)) 9))) n =
      invSubBytes (invShiftRows (fipsInvRounds key (addRoundKey x (roundKey key 10)) (9 - n))) := by
    intro n hn
    induction n with
    | zero => unfold fipsRounds; rfl
    | succ n ih =>
      rw [fipsRounds_succ, ih (by omega), subBytes_invSubBytes, shiftRows_invShiftRows (hl _),
        show 9 - n = 9 - (n + 1) + 1 by omega, fipsInvRounds_succ, mixColumns_invMixColumns
          (addRoundKey_length (hi _) (roundKey_length hk (by omega))),
        show 9 - (9 - (n + 1)) = n + 1 by omega, addRoundKey_twice (by rw [hi, roundKey_length hk (by omega)])]
  rw [cipher_eq, invCipher_eq, addRoundKey_twice (by rw [hi, roundKey_length hk (by decide)]), hstep 9 (by decide),
    subBytes_invSubBytes, shiftRows_invShiftRows (hl _)]
  unfold fipsInvRounds
  rw [Nat.sub_self, List.range_zero, List.foldl_nil, addRoundKey_twice (by rw [hx, roundKey_length hk (by decide)])]

end

section
attribute [local irreducible] Fips197.cipher

theorem cipher_length {key x : Bytes} (hk : key.length = 16) (hx : x.length = 16) :
    (Fips197.cipher key x).length = 16 := by
  rw [cipher_eq]
  exact addRoundKey_length (shiftRows_length _) (roundKey_length hk (by decide))

theorem beBytes_length (n x : Nat) : (beBytes n x).length = n := by
  induction n generalizing x with
  | zero => rfl
  | succ n ih => simp [beBytes, ih]

theorem beBytes_inj {n x y : Nat} (hx : x < 256 ^ n) (hy : y < 256 ^ n) (h : beBytes n x = beBytes n y) : x = y := by
  induction n generalizing x y with
  | zero => simp at hx hy; omega
  | succ n ih =>
    simp only [beBytes] at h
    obtain ⟨h1, h2⟩ := List.append_inj h (by simp [beBytes_length])
    have h3 := ih (x := x / 256) (y := y / 256) (by rw [Nat.div_lt_iff_lt_mul (by decide)]; rwa [Nat.pow_succ] at hx)
      (by rw [Nat.div_lt_iff_lt_mul (by decide)]; rwa [Nat.pow_succ] at hy) h1
    have h4 := congrArg BitVec.toNat (List.cons.inj h2).1
    simp only [BitVec.toNat_ofNat] at h4
    omega

theorem beBytes_mod (n x k : Nat) : Fips180.bigEndian n (x % 256 ^ (n + k)) = beBytes n x := by
  induction n generalizing x k with
  | zero => rfl
  | succ n ih =>
    have h1 : x % 256 ^ (n + 1 + k) / 256 = x / 256 % 256 ^ (n + k) := by
      rw [show n + 1 + k = n + k + 1 by omega, Nat.pow_succ, Nat.mul_comm, Nat.mod_mul_right_div_self]
    have h2 : BitVec.ofNat 8 (x % 256 ^ (n + 1 + k)) = BitVec.ofNat 8 x := by
      apply BitVec.eq_of_toNat_eq
      simp only [BitVec.toNat_ofNat]
      rw [show n + 1 + k = n + k + 1 by omega, Nat.pow_succ, Nat.mul_comm]
      exact Nat.mod_mul_right_mod _ _ _
    simp only [Fips180.bigEndian, beBytes, h1, h2, ih]

theorem beBytes_eq (n x : Nat) : Fips180.bigEndian n x = beBytes n x := by
  induction n generalizing x with
  | zero => rfl
  | succ n ih => simp only [Fips180.bigEndian, beBytes, ih]

theorem beBytes_ofNat (x : U128) (i : Nat) :
    beBytes 16 (x + BitVec.ofNat 128 i).toNat = Fips180.bigEndian 16 (x.toNat + i) := by
  rw [beBytes_eq, ← beBytes_mod 16 (x.toNat + i) 0, beBytes_eq]
  congr 1
  simp [BitVec.toNat_add]

theorem streamBlock (seed : Bytes) (hs : seed.length = 16) (nonce : U128) (i : Nat) :
    streamBytes (ctrStream opensslAesBlock seed nonce) (16 * i) 16 =
      Fips197.cipher seed (beBytes 16 (nonce + BitVec.ofNat 128 i).toNat) := by
  apply List.ext_getElem
  · rw [streamBytes_length, cipher_length hs (beBytes_length _ _)]
  · intro j h1 h2
    have hj : j < 16 := by rwa [streamBytes_length] at h1
    simp only [streamBytes, List.getElem_map, List.getElem_range, ctrStream, opensslAesBlock]
    rw [show (16 * i + j) / 16 = i by omega, show (16 * i + j) % 16 = j by omega,
      List.getD_eq_getElem?_getD, List.getElem?_eq_getElem h2, Option.getD_some]

theorem streamBytes_slice (s : Nat → BitVec 8) (n k m : Nat) (h : k + m ≤ n) :
    ((streamBytes s 0 n).drop k).take m = streamBytes s k m := by
  apply List.ext_getElem
  · simp [streamBytes]; omega
  · intro i h1 h2
    simp [streamBytes]

end

end Verif
