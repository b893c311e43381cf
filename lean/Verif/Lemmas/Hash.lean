import Verif.Lemmas.Res
import Verif.Spec.Prg
/-! Helper lemmas on the fixed-key hash. -/
namespace Verif
open Res

theorem ceilDiv_bounds (n step : Nat) (hs : 0 < step) :
    n ≤ (n + step - 1) / step * step ∧
    ∀ i, i < (n + step - 1) / step → i * step < n := by
  constructor
  · have e := Nat.div_add_mod (n + step - 1) step
    have := Nat.mod_lt (n + step - 1) hs
    rw [Nat.mul_comm] at e
    omega
  · intro i hi
    have h1 : (i + 1) * step ≤ n + step - 1 :=
      Nat.le_trans (Nat.mul_le_mul_right _ hi) (Nat.div_mul_le_self _ _)
    rw [Nat.add_mul] at h1
    omega

namespace Aes128FixedKeyHash

/-- Loop invariant: the first `m` elements are final, the others untouched. -/
theorem evaluateBatch_spec (env : Env) (key : U128) (alias : Bool) (input out0 out : List U128)
    (i : Nat) (hlen : out0.length = input.length) (hal : alias = true → out0 = input)
    (hi : i * 64 < input.length)
    (hout : out = (input.take (i * 64)).map (hash env key) ++ out0.drop (i * 64)) :
    evaluateBatch env key (if alias then out else input) input.length out (i * 64) =
      ok ((input.take ((i + 1) * 64)).map (hash env key) ++ out0.drop ((i + 1) * 64)) := by
  have hl1 : ((input.take (i * 64)).map (hash env key)).length = i * 64 := by
    simp; omega
  have hol : out.length = input.length := by
    rw [hout]; simp; omega
  have hsrc : ((if alias then out else input).drop (i * 64)) = input.drop (i * 64) := by
    cases alias with
    | false => rfl
    | true =>
      have := hal rfl
      subst this
      simp only [if_true]
      rw [hout, List.drop_append_of_le_length (by omega), List.drop_of_length_le (by omega)]
      simp
  have hsl : (if alias then out else input).length = input.length := by
    split <;> simp [hol]
  unfold evaluateBatch
  dsimp only
  generalize hb : min (input.length - i * 64) kBatchSize = b
  have hb' : b ≤ 64 ∧ i * 64 + b ≤ input.length ∧ (b < 64 → i * 64 + b = input.length) := by
    unfold kBatchSize at hb; omega
  rw [slice_eq_ok (by omega), bind_ok, hsrc]
  generalize hS : ((input.drop (i * 64)).take b) = S
  have hSl : S.length = b := by rw [← hS]; simp; omega
  rw [writeAt_eq_ok (by simp; omega), bind_ok]
  have hdrop : out.drop (i * 64) = out0.drop (i * 64) := by
    rw [hout, List.drop_append_of_le_length (by omega), List.drop_of_length_le (by omega)]
    simp
  have htake : out.take (i * 64) = (input.take (i * 64)).map (hash env key) := by
    rw [hout, List.take_append_of_le_length (by omega), List.take_of_length_le (by omega)]
  have hd2 : out.drop (i * 64 + b) = out0.drop (i * 64 + b) := by
    rw [← List.drop_drop, hdrop, List.drop_drop]
  simp only [List.length_map, hSl, htake, hd2]
  rw [slice_eq_ok (by simp; omega), bind_ok]
  rw [List.append_assoc, List.drop_append_of_le_length (by omega),
    List.drop_of_length_le (l := (input.take (i * 64)).map (hash env key)) (by omega),
    List.nil_append, List.take_append_of_le_length (by simp [hSl]),
    List.take_of_length_le (l := (S.map sigma).map (env.aes key)) (by simp [hSl])]
  have hz : List.zipWith (· ^^^ ·) ((S.map sigma).map (env.aes key)) (S.map sigma)
      = S.map (hash env key) := by
    rw [List.map_map, List.zipWith_map, List.zipWith_self]
    rfl
  rw [hz, writeAt_eq_ok (by simp; omega)]
  congr 1
  rw [List.take_append_of_le_length (by omega),
    List.take_of_length_le (l := (input.take (i * 64)).map (hash env key)) (by omega)]
  have hd3 : ((input.take (i * 64)).map (hash env key) ++
      ((S.map sigma).map (env.aes key) ++ out0.drop (i * 64 + b))).drop
      (i * 64 + (S.map (hash env key)).length) = out0.drop (i * 64 + b) := by
    rw [← List.append_assoc, List.drop_append_of_le_length (by simp; omega),
      List.drop_of_length_le (by simp; omega), List.nil_append]
  rw [hd3]
  have e1 : input.take ((i + 1) * 64) = input.take (i * 64) ++ S := by
    rw [← hS]
    rcases Nat.lt_or_ge b 64 with h | h
    · rw [List.take_of_length_le (by omega), List.take_of_length_le (l := input.drop _) (by simp; omega),
        List.take_append_drop]
    · have : b = 64 := by omega
      subst this
      rw [Nat.add_mul, Nat.one_mul, ← List.take_add]
  have e2 : out0.drop ((i + 1) * 64) = out0.drop (i * 64 + b) := by
    rcases Nat.lt_or_ge b 64 with h | h
    · rw [List.drop_of_length_le (by omega), List.drop_of_length_le (by omega)]
    · have : b = 64 := by omega
      subst this
      rw [Nat.add_mul, Nat.one_mul]
  rw [e1, e2, List.map_append]

theorem evaluate_eq (env : Env) (key : U128) (alias : Bool) (input out : List U128)
    (hlen : out.length = input.length) (hal : alias = true → out = input) :
    evaluate env key alias input out = ok (input.map (hash env key)) := by
  unfold evaluate
  rw [failIf_false (by omega), bind_ok]
  unfold blockStarts
  rw [foldRes_map]
  have hb := ceilDiv_bounds input.length 64 (by decide)
  obtain ⟨s', e, rfl⟩ := foldRes_range_inv
    (f := fun s i => evaluateBatch env key (if alias then s else input) input.length s (i * kBatchSize))
    (fun i s => s = (input.take (i * 64)).map (hash env key) ++ out.drop (i * 64))
    (n := (input.length + kBatchSize - 1) / kBatchSize) (s := out)
    (by simp)
    (fun i s hi hs => ⟨_, evaluateBatch_spec env key alias input out s i hlen hal (hb.2 i hi) hs, rfl⟩)
  rw [e]
  congr 1
  simp only [kBatchSize]
  rw [List.take_of_length_le hb.1, List.drop_of_length_le (by rw [hlen]; exact hb.1), List.append_nil]

end Aes128FixedKeyHash
end Verif
