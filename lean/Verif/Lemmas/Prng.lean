import Verif.Spec.Prng
import Verif.Lemmas.Res
/-!
# The state of the PRNG after `k` bytes
-/
namespace Verif
open Res Spec

/-- `p` has produced `k` bytes of the stream. -/
structure Prng.After (aes : AesBlock) (seed : Bytes) (nonce : U128) (k : Nat) (p : Prng) : Prop where
  key : p.key = seed
  num : p.num = k % 16
  ivec : p.ivec = nonce + BitVec.ofNat 128 ((k + 15) / 16)
  ecount : k % 16 ≠ 0 → p.ecount = (List.range 16).map (aes seed (nonce + BitVec.ofNat 128 (k / 16)))

theorem Prng.nextByte_ok {aes : AesBlock} {seed : Bytes} {nonce : U128} {k : Nat} {p : Prng}
    (h : p.After aes seed nonce k) :
    ∃ p', p.nextByte aes = ok (ctrStream aes seed nonce k, p') ∧ p'.After aes seed nonce (k + 1) := by
  obtain ⟨hk, hn, hi, he⟩ := h
  have hlt : k % 16 < 16 := Nat.mod_lt _ (by decide)
  by_cases h0 : k % 16 = 0
  · refine ⟨⟨seed, p.ivec + 1, (List.range 16).map (aes seed p.ivec), 1⟩, ?_, rfl, ?_, ?_, ?_⟩
    · unfold nextByte
      rw [if_pos (hn.trans h0)]
      dsimp only
      rw [hn, h0, hk]
      have : (k + 15) / 16 = k / 16 := by omega
      simp only [ctrStream, h0, hi, this]
      rfl
    · show 1 = _; omega
    · show p.ivec + 1 = _
      rw [hi, BitVec.add_assoc]
      have : (k + 1 + 15) / 16 = (k + 15) / 16 + 1 := by omega
      rw [this, BitVec.ofNat_add]; rfl
    · intro _
      show (List.range 16).map (aes seed p.ivec) = _
      rw [hi]
      have : (k + 15) / 16 = (k + 1) / 16 := by omega
      rw [this]
  · refine ⟨{ p with num := (k % 16 + 1) % 16 }, ?_, hk, ?_, ?_, ?_⟩
    · unfold nextByte
      rw [if_neg (by rw [hn]; exact h0)]
      dsimp only
      rw [hn, he h0]
      have : rd ((List.range 16).map (aes seed (nonce + BitVec.ofNat 128 (k / 16)))) (k % 16) =
          ok (ctrStream aes seed nonce k) := by
        unfold rd
        rw [List.getElem?_map, List.getElem?_range hlt]
        rfl
      rw [this]; rfl
    · show (k % 16 + 1) % 16 = _; omega
    · show p.ivec = _
      rw [hi]
      have : (k + 1 + 15) / 16 = (k + 15) / 16 := by omega
      rw [this]
    · intro h1
      show p.ecount = _
      rw [he h0]
      have : (k + 1) / 16 = k / 16 := by omega
      rw [this]

theorem Prng.getRandomBytes_ok {aes : AesBlock} {seed : Bytes} {nonce : U128} {k : Nat} {p : Prng}
    (h : p.After aes seed nonce k) (n : Nat) :
    ∃ p', p.getRandomBytes aes n = ok (streamBytes (ctrStream aes seed nonce) k n, p') ∧
      p'.After aes seed nonce (k + n) := by
  unfold getRandomBytes
  induction n with
  | zero => exact ⟨p, rfl, h⟩
  | succ n ih =>
    obtain ⟨p', hp, ha⟩ := ih
    obtain ⟨p'', hp', ha'⟩ := Prng.nextByte_ok ha
    refine ⟨p'', ?_, ha'⟩
    rw [List.range_succ, foldRes_append, hp, bind_ok, foldRes_cons]
    dsimp only
    rw [hp']
    simp [streamBytes, List.range_succ, foldRes]

theorem Prng.create_ok {aes : AesBlock} {seed nonce : Bytes} (hs : seed.length = 16)
    (hn : nonce.length = 16) :
    ∃ p, Prng.createWithNonce seed nonce = ok p ∧ p.After aes seed (nonceOf nonce) 0 := by
  refine ⟨⟨seed, nonceOf nonce, List.replicate 16 0, 0⟩, ?_, rfl, rfl, by simp, fun h => absurd rfl h⟩
  unfold createWithNonce
  rw [failIf_false (by rw [hs]; simp [seedSize]), bind_ok, failIf_false (by rw [hs, hn]; simp), bind_ok]
  rfl

theorem streamBytes_length (s : Nat → BitVec 8) (k n : Nat) : (streamBytes s k n).length = n := by
  simp [streamBytes]

theorem streamBytes_append (s : Nat → BitVec 8) (k m n : Nat) :
    streamBytes s k (m + n) = streamBytes s k m ++ streamBytes s (k + m) n := by
  simp [streamBytes, List.range_add, Nat.add_assoc, Function.comp_def]

theorem reads_ok {aes : AesBlock} {seed : Bytes} {nonce : U128} (ns : List Nat) {k : Nat} {p : Prng}
    (h : p.After aes seed nonce k) :
    ∃ bs p', reads aes p ns = ok (bs, p') ∧ bs.map List.length = ns ∧
      bs.flatten = streamBytes (ctrStream aes seed nonce) k ns.sum := by
  induction ns generalizing k p with
  | nil => exact ⟨[], p, rfl, rfl, by simp [streamBytes]⟩
  | cons n ns ih =>
    obtain ⟨p', hp, ha⟩ := Prng.getRandomBytes_ok h n
    obtain ⟨bs, p'', hr, hl, hf⟩ := ih ha
    refine ⟨streamBytes (ctrStream aes seed nonce) k n :: bs, p'', ?_, ?_, ?_⟩
    · rw [reads, hp, bind_ok]; dsimp only; rw [hr, bind_ok]
    · rw [List.map_cons, hl, streamBytes_length]
    · rw [List.flatten_cons, hf, List.sum_cons, streamBytes_append]

end Verif
