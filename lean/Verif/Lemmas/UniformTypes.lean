import Verif.Lemmas.UniformBytes
import Verif.Lemmas.Sampling
import Verif.Lemmas.Create
/-! The integers of a type, for sampling from uniform bytes. -/
namespace Verif.Uniform
open Finset Spec Res

theorem leafOk_int (w : Width) : LeafOk (.int w.bits) := by
  refine ⟨Nat.two_pow_pos _, Nat.le_refl _, w.bits_le, ?_⟩
  cases w <;> decide

theorem leafOk_mod {w : Width} {N : Nat} (h : 0 < N) (hlt : N ≤ 2 ^ w.bits) : LeafOk (.mod w.bits N) := by
  refine ⟨h, hlt, w.bits_le, ?_⟩
  simp only [Leaf.width]
  cases w <;> decide

mutual
theorem leavesOf_ok : (t : Ty) → ∀ l ∈ leavesOf t, LeafOk l
  | .uint w, l, h => by
    rw [leavesOf, List.mem_singleton] at h; subst h; exact leafOk_int w
  | .intModN w N h1 h2, l, h => by
    rw [leavesOf, List.mem_singleton] at h; subst h
    exact leafOk_mod h1 (Nat.le_of_lt h2)
  | .xorWrapper w, l, h => by
    rw [leavesOf, List.mem_singleton] at h; subst h; exact leafOk_int w
  | .tuple ts, l, h => leavesOfAll_ok ts l h
theorem leavesOfAll_ok : (ts : Tys) → ∀ l ∈ leavesOfAll ts, LeafOk l
  | .one t, l, h => leavesOf_ok t l h
  | .cons t ts, l, h => by
    rw [leavesOfAll, List.mem_append] at h
    rcases h with h | h
    · exact leavesOf_ok t l h
    · exact leavesOfAll_ok ts l h
end

mutual
theorem leavesOf_ne : (t : Ty) → leavesOf t ≠ []
  | .uint w => by simp [leavesOf]
  | .intModN w N h1 h2 => by simp [leavesOf]
  | .xorWrapper w => by simp [leavesOf]
  | .tuple ts => leavesOfAll_ne ts
theorem leavesOfAll_ne : (ts : Tys) → leavesOfAll ts ≠ []
  | .one t => leavesOf_ne t
  | .cons t ts => by
    rw [leavesOfAll]
    exact List.append_ne_nil_of_left_ne_nil (leavesOf_ne t) _
end

theorem restBytes_append (a b : List Leaf) (hb : b ≠ []) : restBytes (a ++ b) = allBytes a + restBytes b := by
  induction a with
  | nil => simp [allBytes]
  | cons l a ih =>
    have hne : a ++ b ≠ [] := List.append_ne_nil_of_right_ne_nil _ hb
    obtain ⟨l', m, e⟩ := List.exists_cons_of_ne_nil hne
    rw [List.cons_append, e, restBytes, ← e, ih]
    simp [allBytes, Nat.add_assoc]

mutual
theorem restBytes_leaves : (t : Ty) → restBytes (leavesOf t) + t.lastLeafBytes = t.leafBytes
  | .uint w => by simp [leavesOf, restBytes, Ty.lastLeafBytes, Ty.leafBytes]
  | .intModN w N h1 h2 => by simp [leavesOf, restBytes, Ty.lastLeafBytes, Ty.leafBytes]
  | .xorWrapper w => by simp [leavesOf, restBytes, Ty.lastLeafBytes, Ty.leafBytes]
  | .tuple ts => restBytes_leavesAll ts
theorem restBytes_leavesAll : (ts : Tys) → restBytes (leavesOfAll ts) + ts.lastLeafBytes = ts.leafBytes
  | .one t => restBytes_leaves t
  | .cons t ts => by
    rw [leavesOfAll, restBytes_append _ _ (leavesOfAll_ne ts), allBytes, leafBytes_eq, Tys.leafBytes,
      Tys.lastLeafBytes, ← restBytes_leavesAll ts]
    omega
end

theorem bytesRead_leaves {t : Ty} (h : t.noMod = false) : t.bytesRead = 16 + restBytes (leavesOf t) := by
  unfold Ty.bytesRead
  rw [h, if_neg (by decide)]
  have := restBytes_leaves t
  omega

theorem count_int (w : Width) : (Leaf.int w.bits).count = 256 ^ ((Leaf.int w.bits).width / 8) := by
  cases w <;> rfl

mutual
theorem leavesOf_count : (t : Ty) → t.noMod = true → ∀ l ∈ leavesOf t, l.count = 256 ^ (l.width / 8)
  | .uint w, _, l, h => by
    rw [leavesOf, List.mem_singleton] at h; subst h; exact count_int w
  | .intModN w N h1 h2, hn, l, h => by simp [Ty.noMod] at hn
  | .xorWrapper w, _, l, h => by
    rw [leavesOf, List.mem_singleton] at h; subst h; exact count_int w
  | .tuple ts, hn, l, h => leavesOfAll_count ts hn l h
theorem leavesOfAll_count : (ts : Tys) → ts.noMod = true → ∀ l ∈ leavesOfAll ts, l.count = 256 ^ (l.width / 8)
  | .one t, hn, l, h => leavesOf_count t hn l h
  | .cons t ts, hn, l, h => by
    rw [Tys.noMod, Bool.and_eq_true] at hn
    rw [leavesOfAll, List.mem_append] at h
    rcases h with h | h
    · exact leavesOf_count t hn.1 l h
    · exact leavesOfAll_count ts hn.2 l h
end

/-- Elements side by side. -/
theorem stored_replicate (ls : List Leaf) (n : Nat) (b : Bytes) :
    stored (List.replicate n ls).flatten b =
      ((List.range n).map fun i => stored ls (b.drop (i * allBytes ls))).flatten := by
  induction n generalizing b with
  | zero => rfl
  | succ n ih =>
    rw [List.replicate_succ, List.flatten_cons, stored_append, ih, List.range_succ_eq_map, List.map_cons,
      List.flatten_cons, Nat.zero_mul, List.drop_zero, List.map_map]
    congr 3
    funext i
    rw [List.drop_drop, Function.comp]
    congr 2
    unfold allBytes
    rw [Nat.succ_mul]; omega

theorem stored_mem (ls : List Leaf) (h : ∀ l ∈ ls, l.count = 256 ^ (l.width / 8)) (b : Bytes) :
    stored ls b ∈ vectors (ls.map Leaf.count) := by
  rw [mem_vectors]
  induction ls generalizing b with
  | nil => exact .nil
  | cons l ls ih =>
    refine .cons ?_ (ih (fun m hm => h m (List.mem_cons_of_mem _ hm)) _)
    rw [h l List.mem_cons_self]
    unfold leAt
    refine Nat.lt_of_lt_of_le (leNat_lt _) ?_
    rw [show (256 : Nat) = 2 ^ 8 by rfl, ← Nat.pow_mul]
    refine Nat.pow_le_pow_right (by decide) ?_
    simp only [List.length_take]
    omega

theorem leavesOfAll_copies (t : Ty) (l : Leaf) (h : leavesOf t = [l]) (m : Nat) :
    leavesOfAll (copies t m) = List.replicate (m + 1) l := by
  induction m with
  | zero => rw [copies, leavesOfAll, h]; rfl
  | succ m ih => rw [copies, leavesOfAll, h, ih, List.replicate_succ (n := m + 1)]; rfl

theorem toValueTypes_copies (t : Ty) (m : Nat) :
    (copies t m).helper.toValueTypes = List.replicate (m + 1) t.helper.toValueType := by
  induction m with
  | zero => rfl
  | succ m ih =>
    rw [List.replicate_succ, ← ih]
    rfl

theorem countTuple_copies (c : Int) (i : IntegerP) (hi : ∃ N, valueIntegerToUint128 i = .ok N) (n a : Nat) :
    countTuple (List.replicate n (.intModN c i)) (some (.intModN c i)) a 0 = .ok (some (.intModN c i), a + n, 0) := by
  obtain ⟨N, hN⟩ := hi
  induction n generalizing a with
  | zero => rfl
  | succ n ih =>
    rw [List.replicate_succ]
    show (valueTypesAreEqual (.intModN c i) (.intModN c i) >>= fun eq =>
      failIf (eq = false) .unimplemented >>= fun _ => countTuple _ _ (a + 1) 0) = _
    have e : valueTypesAreEqual (.intModN c i) (.intModN c i) = .ok true := by
      simp [valueTypesAreEqual, hN, bind_ok]
    rw [e, bind_ok, failIf_false (by decide), bind_ok, ih]
    congr 3
    omega

theorem bitsNeeded_copies (fp : FpEnv) {w : Width} {N : U128} (h1 : 0 < N.toNat) (h2 : N.toNat < 2 ^ w.bits)
    (m : Nat) (sec : Sec) (bits : Int)
    (h : bitsNeeded fp (Ty.tuple (copies (.intModN w N h1 h2) m)).helper.toValueType sec = .ok bits) :
    IntModN.Sec.gt sec (fp.secLevel (m + 1 : Nat) N) = false := by
  have e : (Ty.tuple (copies (.intModN w N h1 h2) m)).helper.toValueType =
      .tuple (List.replicate (m + 1) (.intModN w.bits (uint128ToValueInteger N))) := by
    show ValueType.tuple ((copies (.intModN w N h1 h2) m).helper.toValueTypes) = _
    rw [toValueTypes_copies]
    rfl
  have hN : valueIntegerToUint128 (uint128ToValueInteger N) = .ok N := by
    exact valueInteger_roundtrip N
  rw [e, bitsNeeded, List.replicate_succ] at h
  rw [show countTuple (ValueType.intModN (w.bits : Int) (uint128ToValueInteger N) ::
      List.replicate m (.intModN w.bits (uint128ToValueInteger N))) none 0 0 =
      countTuple (List.replicate m (.intModN w.bits (uint128ToValueInteger N)))
        (some (.intModN w.bits (uint128ToValueInteger N))) 1 0 from rfl,
    countTuple_copies _ _ ⟨N, hN⟩, bind_ok] at h
  dsimp only at h
  rw [bitsNeededFirst, bind_ok, hN, bind_ok] at h
  cases hs : IntModN.Sec.gt sec (fp.secLevel (m + 1 : Nat) N) with
  | false => rfl
  | true =>
    have := getNumBytesRequired_width fp (m + 1) w N h2 sec (by omega)
    rw [if_pos hs] at this
    rw [Nat.add_comm 1 m, this] at h
    split at h <;> cases h

end Verif.Uniform
