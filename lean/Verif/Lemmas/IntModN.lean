import Verif.Model.IntModN
/-! Helper lemmas on machine-level modular arithmetic. -/
namespace Verif.IntModN

theorem mk_toNat (N : U128) {w : Nat} (hw : w ≤ 128) (v : BitVec w) :
    (mk N v).toNat = v.toNat % N.toNat := by
  have hv := v.isLt
  have h128 : v.toNat < 2 ^ 128 := Nat.lt_of_lt_of_le hv (Nat.pow_le_pow_right (by decide) hw)
  have : v.toNat % N.toNat < 2 ^ w := Nat.lt_of_le_of_lt (Nat.mod_le _ _) hv
  simp only [mk, BitVec.toNat_setWidth, BitVec.toNat_umod]
  rw [Nat.mod_eq_of_lt h128, Nat.mod_eq_of_lt this]

theorem subBase_toNat (N : U128) {w : Nat} (hw : w ≤ 128) (hNw : N.toNat < 2 ^ w)
    (v a : BitVec w) (hv : v.toNat < N.toNat) (ha : a.toNat ≤ N.toNat) :
    (subBase N v a).toNat = (v.toNat + (N.toNat - a.toNat)) % N.toNat := by
  have hw2 : 2 ^ w ≤ 2 ^ 128 := Nat.pow_le_pow_right (by decide) hw
  unfold subBase
  split
  · rename_i h
    have h' : a.toNat ≤ v.toNat := h
    rw [BitVec.toNat_sub_of_le h]
    have : v.toNat + (N.toNat - a.toNat) = (v.toNat - a.toNat) + N.toNat := by omega
    rw [this, Nat.add_mod_right, Nat.mod_eq_of_lt (by omega)]
  · rename_i h
    have h' : v.toNat < a.toNat := by
      have : ¬ a.toNat ≤ v.toNat := h
      omega
    have e1 : a.toNat % 2 ^ 128 = a.toNat := Nat.mod_eq_of_lt (by omega)
    have e2 : v.toNat % 2 ^ 128 = v.toNat := Nat.mod_eq_of_lt (by omega)
    simp only [BitVec.toNat_setWidth, BitVec.toNat_add, BitVec.toNat_sub, e1, e2]
    have e3 : (2 ^ 128 - a.toNat + N.toNat) % 2 ^ 128 = N.toNat - a.toNat := by
      have : 2 ^ 128 - a.toNat + N.toNat = (N.toNat - a.toNat) + 2 ^ 128 := by omega
      rw [this, Nat.add_mod_right, Nat.mod_eq_of_lt (by omega)]
    rw [e3]
    have e4 : (N.toNat - a.toNat + v.toNat) % 2 ^ 128 = N.toNat - a.toNat + v.toNat :=
      Nat.mod_eq_of_lt (by omega)
    rw [e4, Nat.mod_eq_of_lt (by omega), Nat.mod_eq_of_lt (by omega)]
    omega

theorem addBase_toNat (N : U128) {w : Nat} (hw : w ≤ 128) (hNw : N.toNat < 2 ^ w)
    (v a : BitVec w) (hv : v.toNat < N.toNat) (ha : a.toNat < N.toNat) :
    (addBase N v a).toNat = (v.toNat + a.toNat) % N.toNat := by
  have hw2 : 2 ^ w ≤ 2 ^ 128 := Nat.pow_le_pow_right (by decide) hw
  have e1 : a.toNat % 2 ^ 128 = a.toNat := Nat.mod_eq_of_lt (by omega)
  have e : ((N - a.setWidth 128).setWidth w).toNat = N.toNat - a.toNat := by
    simp only [BitVec.toNat_setWidth, BitVec.toNat_sub, e1]
    have : 2 ^ 128 - a.toNat + N.toNat = (N.toNat - a.toNat) + 2 ^ 128 := by omega
    rw [this, Nat.add_mod_right, Nat.mod_eq_of_lt (by omega : N.toNat - a.toNat < 2 ^ 128),
      Nat.mod_eq_of_lt (by omega)]
  unfold addBase
  rw [subBase_toNat N hw hNw v _ hv (by rw [e]; omega), e]
  congr 1; omega

theorem neg_toNat (N : U128) {w : Nat} (hw : w ≤ 128) (hNw : N.toNat < 2 ^ w)
    (a : BitVec w) (ha : a.toNat < N.toNat) :
    (neg N a).toNat = (N.toNat - a.toNat) % N.toNat := by
  have h0 : (mk N (0 : BitVec w)).toNat = 0 := by
    rw [mk_toNat N hw]; simp
  unfold neg
  rw [subBase_toNat N hw hNw _ a (by rw [h0]; omega) (by omega), h0, Nat.zero_add]

theorem mk_lt (N : U128) {w : Nat} (hw : w ≤ 128) (hN : 0 < N.toNat) (v : BitVec w) :
    (mk N v).toNat < N.toNat := by
  rw [mk_toNat N hw]; exact Nat.mod_lt _ hN

theorem subBase_lt (N : U128) {w : Nat} (hw : w ≤ 128) (hNw : N.toNat < 2 ^ w)
    (v a : BitVec w) (hv : v.toNat < N.toNat) (ha : a.toNat ≤ N.toNat) :
    (subBase N v a).toNat < N.toNat := by
  rw [subBase_toNat N hw hNw v a hv ha]; exact Nat.mod_lt _ (by omega)

theorem addBase_lt (N : U128) {w : Nat} (hw : w ≤ 128) (hNw : N.toNat < 2 ^ w)
    (v a : BitVec w) (hv : v.toNat < N.toNat) (ha : a.toNat < N.toNat) :
    (addBase N v a).toNat < N.toNat := by
  rw [addBase_toNat N hw hNw v a hv ha]; exact Nat.mod_lt _ (by omega)

theorem neg_lt (N : U128) {w : Nat} (hw : w ≤ 128) (hNw : N.toNat < 2 ^ w)
    (a : BitVec w) (ha : a.toNat < N.toNat) : (neg N a).toNat < N.toNat := by
  rw [neg_toNat N hw hNw a ha]; exact Nat.mod_lt _ (by omega)

end Verif.IntModN
