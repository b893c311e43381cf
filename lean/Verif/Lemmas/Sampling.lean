import Verif.Spec.Sampling
import Verif.Lemmas.Decode
/-!
# Elements from pseudorandom bytes
-/
namespace Verif
open Res Spec

theorem stored_append (a b : List Leaf) (bs : Bytes) :
    stored (a ++ b) bs = stored a bs ++ stored b (bs.drop ((a.map fun l => l.width / 8).sum)) := by
  induction a generalizing bs with
  | nil => simp [stored]
  | cons l a ih => simp [stored, ih, List.drop_drop]

/-- State and bytes after sampling. -/
def afterSampling : List Leaf → Nat → Bytes → Nat × Bytes
  | [], s, b => (s, b)
  | l :: ls, s, b => afterSampling ls (l.refill s (leAt b 0 (l.width / 8))) (b.drop (l.width / 8))

theorem sampled_append (a b : List Leaf) (s : Nat) (bs : Bytes) :
    sampled (a ++ b) s bs =
      sampled a s bs ++ sampled b (afterSampling a s bs).1 (afterSampling a s bs).2 := by
  induction a generalizing s bs with
  | nil => rfl
  | cons l a ih => simp [sampled, afterSampling, ih]

theorem afterSampling_append (a b : List Leaf) (s : Nat) (bs : Bytes) :
    afterSampling (a ++ b) s bs =
      afterSampling b (afterSampling a s bs).1 (afterSampling a s bs).2 := by
  induction a generalizing s bs with
  | nil => rfl
  | cons l a ih => simp [afterSampling, ih]

mutual
theorem leafBytes_eq : (t : Ty) → ((leavesOf t).map fun l => l.width / 8).sum = t.leafBytes
  | .uint _ => by simp [leavesOf, Leaf.width, Ty.leafBytes]
  | .intModN _ _ _ _ => by simp [leavesOf, Leaf.width, Ty.leafBytes]
  | .xorWrapper _ => by simp [leavesOf, Leaf.width, Ty.leafBytes]
  | .tuple ts => leafBytesAll_eq ts
theorem leafBytesAll_eq : (ts : Tys) → ((leavesOfAll ts).map fun l => l.width / 8).sum = ts.leafBytes
  | .one t => leafBytes_eq t
  | .cons t ts => by
    rw [leavesOfAll, List.map_append, List.sum_append, leafBytes_eq t, leafBytesAll_eq ts]; rfl
end

theorem stored_take (ls : List Leaf) (b : Bytes) (n : Nat) (h : (ls.map fun l => l.width / 8).sum ≤ n) :
    stored ls (b.take n) = stored ls b := by
  induction ls generalizing b n with
  | nil => rfl
  | cons l ls ih =>
    simp only [List.map_cons, List.sum_cons] at h
    rw [stored, stored, List.drop_take, ih _ _ (by omega)]
    congr 1
    unfold leAt
    rw [List.drop_zero, List.drop_zero, List.take_take, Nat.min_eq_left (by omega)]

theorem convert_toNat {w : Width} {b : Bytes} {x : BitVec w.bits}
    (h : IntModN.convertBytesTo w.bits b = ok x) : b.length = w.bits / 8 ∧ x.toNat = leNat b := by
  unfold IntModN.convertBytesTo at h
  split at h
  · rename_i hl
    simp only [ok.injEq] at h
    refine ⟨hl, ?_⟩
    rw [← h, BitVec.toNat_ofNat]
    apply Nat.mod_eq_of_lt
    have := leNat_lt b
    rw [hl, ← w.bits_dvd] at this
    exact this
  · cases h

mutual
theorem Ty.directly_spec : (t : Ty) → t.noMod = true → (b : Bytes) → (x : t.den) →
    t.helper.directlyFromBytes b = ok x → numbersOf t x = stored (leavesOf t) b
  | .uint w, _, b, x, h => by
    obtain ⟨h1, h2⟩ := convert_toNat (w := w) h
    simp only [numbersOf, leavesOf, stored, Leaf.width]
    rw [h2]; unfold leAt
    rw [List.drop_zero, ← h1, List.take_length]
  | .intModN _ _ _ _, h, _, _, _ => by simp [Ty.noMod] at h
  | .xorWrapper w, _, b, x, h => by
    obtain ⟨h1, h2⟩ := convert_toNat (w := w) h
    simp only [numbersOf, leavesOf, stored, Leaf.width]
    rw [h2]; unfold leAt
    rw [List.drop_zero, ← h1, List.take_length]
  | .tuple ts, hm, b, x, h => by
    have h' : (check (8 * b.length ≥ ts.helper.totalBitSize) >>= fun _ =>
      ts.helper.directlyAt b 0) = ok x := h
    obtain ⟨_, _, h'⟩ := bind_eq_ok.mp h'
    have := Tys.directlyAt_spec ts hm b 0 x h'
    rw [List.drop_zero] at this
    exact this
theorem Tys.directlyAt_spec : (ts : Tys) → ts.noMod = true → (b : Bytes) → (off : Nat) → (x : ts.den) →
    ts.helper.directlyAt b off = ok x → numbersOfAll ts x = stored (leavesOfAll ts) (b.drop off)
  | .one t, hm, b, off, x, h => by
    have hsz : (t.helper.totalBitSize + 7) / 8 = t.leafBytes := by
      rw [Ty.totalBitSize_eq t hm]; omega
    have h' : (substr b off ((t.helper.totalBitSize + 7) / 8) >>= t.helper.directlyFromBytes) = ok x := h
    obtain ⟨s, h1, h2⟩ := bind_eq_ok.mp h'
    unfold substr at h1
    split at h1
    · cases h1
    · simp only [ok.injEq] at h1
      have := Ty.directly_spec t hm s x h2
      rw [← h1, hsz, stored_take _ _ _ (Nat.le_of_eq (leafBytes_eq t))] at this
      exact this
  | .cons t ts, hm, b, off, x, h => by
    simp only [Tys.noMod, Bool.and_eq_true] at hm
    have hsz : (t.helper.totalBitSize + 7) / 8 = t.leafBytes := by
      rw [Ty.totalBitSize_eq t hm.1]; omega
    have h' : (substr b off ((t.helper.totalBitSize + 7) / 8) >>= fun s =>
      t.helper.directlyFromBytes s >>= fun a =>
      ts.helper.directlyAt b (off + (t.helper.totalBitSize + 7) / 8) >>= fun c => ok (a, c)) = ok x := h
    obtain ⟨s, h1, h'⟩ := bind_eq_ok.mp h'
    obtain ⟨a, h2, h'⟩ := bind_eq_ok.mp h'
    obtain ⟨c, h3, h'⟩ := bind_eq_ok.mp h'
    simp only [ok.injEq] at h'
    subst h'
    unfold substr at h1
    split at h1
    · cases h1
    · simp only [ok.injEq] at h1
      have e1 := Ty.directly_spec t hm.1 s a h2
      rw [← h1, hsz, stored_take _ _ _ (Nat.le_of_eq (leafBytes_eq t))] at e1
      have e2 := Tys.directlyAt_spec ts hm.2 b _ c h3
      rw [hsz] at e2
      show numbersOf t a ++ numbersOfAll ts c = stored (leavesOf t ++ leavesOfAll ts) (b.drop off)
      rw [stored_append, e1, e2, leafBytes_eq, List.drop_drop]
end

theorem masked_toNat {w : Width} (hw : w.bits < 128) (block : U128) (x : BitVec w.bits) :
    (block &&& ~~~(((BitVec.allOnes w.bits)).setWidth 128) ||| x.setWidth 128).toNat =
      block.toNat / 2 ^ w.bits * 2 ^ w.bits + x.toNat := by
  have hx := x.isLt
  have e : (block &&& ~~~(((BitVec.allOnes w.bits)).setWidth 128)) = (block >>> w.bits) <<< w.bits := by
    apply BitVec.eq_of_getLsbD_eq
    intro i hi
    simp only [BitVec.getLsbD_and, BitVec.getLsbD_not, BitVec.getLsbD_setWidth, BitVec.getLsbD_allOnes,
      BitVec.getLsbD_shiftLeft, BitVec.getLsbD_ushiftRight]
    by_cases h : i < w.bits
    · simp [h]
    · simp [h, hi, show w.bits + (i - w.bits) = i by omega]
  rw [e, BitVec.toNat_or, setWidth_toNat_lt (by omega) x, BitVec.toNat_shiftLeft, BitVec.toNat_ushiftRight,
    Nat.shiftRight_eq_div_pow, Nat.shiftLeft_eq]
  have hlt : block.toNat / 2 ^ w.bits * 2 ^ w.bits < 2 ^ 128 :=
    Nat.lt_of_le_of_lt (Nat.div_mul_le_self _ _) block.isLt
  rw [Nat.mod_eq_of_lt hlt, Nat.mul_comm, ← Nat.two_pow_add_eq_or_of_lt hx]

/-- What sampling does to state and bytes. -/
def SampleSpec (ls : List Leaf) (u : Bool) (block : U128) (rest : Bytes) (ns : List Nat) (block' : U128)
    (rest' : Bytes) : Prop :=
  ns = sampled ls block.toNat rest ∧
    (u = true → (block'.toNat, rest') = afterSampling ls block.toNat rest)

theorem fresh_spec {w : Width} {rest s rest' : Bytes} {x : BitVec w.bits}
    (h1 : substr rest 0 (w.bits / 8) = ok s) (h2 : IntModN.convertBytesTo w.bits s = ok x)
    (h3 : substrFrom rest (w.bits / 8) = ok rest') :
    x.toNat = leAt rest 0 (w.bits / 8) ∧ rest' = rest.drop (w.bits / 8) := by
  unfold substr at h1
  split at h1
  · cases h1
  simp only [ok.injEq] at h1
  unfold substrFrom at h3
  split at h3
  · cases h3
  simp only [ok.injEq] at h3
  exact ⟨by rw [(convert_toNat h2).2, ← h1]; rfl, h3.symm⟩

theorem uint_sample_spec (w : Width) (u : Bool) (block : U128) (rest : Bytes) (x : BitVec w.bits)
    (block' : U128) (rest' : Bytes)
    (h : (uintHelper w.bits).sampleAndUpdateBytes u block rest = ok (x, block', rest')) :
    SampleSpec [.int w.bits] u block rest [x.toNat] block' rest' := by
  unfold uintHelper at h
  dsimp only at h
  cases u with
  | false =>
    simp only [Bool.false_eq_true, if_false, ok.injEq, Prod.mk.injEq] at h
    refine ⟨?_, by simp⟩
    rw [← h.1]
    simp [sampled, Leaf.count]
  | true =>
    rw [if_pos rfl] at h
    obtain ⟨s, h1, h⟩ := bind_eq_ok.mp h
    obtain ⟨f, h2, h⟩ := bind_eq_ok.mp h
    obtain ⟨r, h3, h⟩ := bind_eq_ok.mp h
    simp only [ok.injEq, Prod.mk.injEq] at h
    obtain ⟨ha, hb, hc⟩ := h
    obtain ⟨e1, e2⟩ := fresh_spec h1 h2 h3
    refine ⟨?_, fun _ => ?_⟩
    · rw [← ha]
      simp [sampled, Leaf.count]
    · simp only [afterSampling, Leaf.refill, Leaf.width, Prod.mk.injEq]
      rw [← hb, ← hc]
      refine ⟨?_, e2⟩
      rw [← e1]
      by_cases hw : w.bits < 128
      · rw [if_pos hw, if_pos hw]
        exact masked_toNat hw block f
      · rw [if_neg hw, if_neg hw]
        simp [Nat.mod_eq_of_lt (Nat.lt_of_lt_of_le f.isLt (Nat.pow_le_pow_right (by decide) w.bits_le))]

theorem intModN_sample_spec (w : Width) (N : U128) (hp : 0 < N.toNat) (hl : N.toNat < 2 ^ w.bits) (u : Bool)
    (block : U128) (rest : Bytes) (x : { v : BitVec w.bits // v.toNat < N.toNat }) (block' : U128)
    (rest' : Bytes) (h : (intModNHelper w.bits w.bits_le N hp hl).sampleAndUpdateBytes u block rest =
      ok (x, block', rest')) :
    SampleSpec [.mod w.bits N.toNat] u block rest [x.1.toNat] block' rest' := by
  have hmk : (IntModN.mk N ((block % N).setWidth w.bits)).toNat = block.toNat % N.toNat := by
    have hm : block.toNat % N.toNat < N.toNat := Nat.mod_lt _ hp
    rw [IntModN.mk_toNat N w.bits_le, BitVec.toNat_setWidth, BitVec.toNat_umod,
      Nat.mod_eq_of_lt (by omega : block.toNat % N.toNat < 2 ^ w.bits), Nat.mod_eq_of_lt hm]
  unfold intModNHelper at h
  dsimp only at h
  cases u with
  | false =>
    simp only [Bool.false_eq_true, if_false, ok.injEq, Prod.mk.injEq] at h
    refine ⟨?_, by simp⟩
    rw [← h.1]
    simp only [sampled, Leaf.count]
    rw [hmk]
  | true =>
    rw [if_pos rfl] at h
    obtain ⟨s, h1, h⟩ := bind_eq_ok.mp h
    obtain ⟨f, h2, h⟩ := bind_eq_ok.mp h
    obtain ⟨r, h3, h⟩ := bind_eq_ok.mp h
    simp only [ok.injEq, Prod.mk.injEq] at h
    obtain ⟨ha, hb, hc⟩ := h
    obtain ⟨e1, e2⟩ := fresh_spec h1 h2 h3
    refine ⟨?_, fun _ => ?_⟩
    · rw [← ha]
      simp only [sampled, Leaf.count]
      rw [hmk]
    · simp only [afterSampling, Leaf.refill, Leaf.width, Prod.mk.injEq]
      rw [← hb, ← hc]
      refine ⟨?_, e2⟩
      rw [← e1]
      by_cases hw : w.bits < 128
      · have := refill_toNat (N := N) w.bits_le block f
        unfold refill at this
        rw [if_pos hw, if_pos hw] at this
        rw [if_pos hw, if_pos hw]
        exact this
      · rw [if_neg hw, if_neg hw]
        simp [Nat.mod_eq_of_lt (Nat.lt_of_lt_of_le f.isLt (Nat.pow_le_pow_right (by decide) w.bits_le))]

mutual
theorem Ty.sample_spec : (t : Ty) → (u : Bool) → (block : U128) → (rest : Bytes) → (x : t.den) →
    (block' : U128) → (rest' : Bytes) →
    t.helper.sampleAndUpdateBytes u block rest = ok (x, block', rest') →
    SampleSpec (leavesOf t) u block rest (numbersOf t x) block' rest'
  | .uint w, u, block, rest, x, block', rest', h => uint_sample_spec w u block rest x block' rest' h
  | .intModN w N hp hl, u, block, rest, x, block', rest', h =>
    intModN_sample_spec w N hp hl u block rest x block' rest' h
  | .xorWrapper w, u, block, rest, x, block', rest', h => uint_sample_spec w u block rest x block' rest' h
  | .tuple ts, u, block, rest, x, block', rest', h => Tys.sample_spec ts u block rest x block' rest' h
theorem Tys.sample_spec : (ts : Tys) → (u : Bool) → (block : U128) → (rest : Bytes) → (x : ts.den) →
    (block' : U128) → (rest' : Bytes) → ts.helper.sample u block rest = ok (x, block', rest') →
    SampleSpec (leavesOfAll ts) u block rest (numbersOfAll ts x) block' rest'
  | .one t, u, block, rest, x, block', rest', h => Ty.sample_spec t u block rest x block' rest' h
  | .cons t ts, u, block, rest, x, block', rest', h => by
    have h' : (t.helper.sampleAndUpdateBytes true block rest >>= fun (a, block, remaining) =>
      ts.helper.sample u block remaining >>= fun (c, block, remaining) =>
      ok ((a, c), block, remaining)) = ok (x, block', rest') := h
    obtain ⟨⟨a, b1, r1⟩, h1, h'⟩ := bind_eq_ok.mp h'
    obtain ⟨⟨c, b2, r2⟩, h2, h'⟩ := bind_eq_ok.mp h'
    simp only [ok.injEq, Prod.mk.injEq] at h'
    obtain ⟨rfl, rfl, rfl⟩ := h'
    obtain ⟨e1, e2⟩ := Ty.sample_spec t true block rest a b1 r1 h1
    obtain ⟨e3, e4⟩ := Tys.sample_spec ts u b1 r1 c b2 r2 h2
    have e2 := e2 rfl
    refine ⟨?_, fun hu => ?_⟩
    · show numbersOf t a ++ numbersOfAll ts c = sampled (leavesOf t ++ leavesOfAll ts) _ _
      rw [sampled_append, ← e2, e1, e3]
    · show _ = afterSampling (leavesOf t ++ leavesOfAll ts) _ _
      rw [afterSampling_append, ← e2]
      exact e4 hu
end

end Verif
