import Verif.Lemmas.Res
import Verif.Spec.Group
/-! Helper lemmas on value types. -/
namespace Verif
open Res

/-! ### Integer messages -/

theorem extract_append_left (a b : BitVec 64) : (a ++ b : BitVec 128).extractLsb' 64 64 = a := by
  apply BitVec.eq_of_getLsbD_eq
  intro i h
  simp only [BitVec.getLsbD_extractLsb', BitVec.getLsbD_append]
  simp [h]

theorem extract_append_right (a b : BitVec 64) : (a ++ b : BitVec 128).extractLsb' 0 64 = b := by
  apply BitVec.eq_of_getLsbD_eq
  intro i h
  simp only [BitVec.getLsbD_extractLsb', BitVec.getLsbD_append]
  simp [h]

theorem makeU128_split (x : U128) : makeU128 (high64 x) (low64 x) = x := by
  apply BitVec.eq_of_getLsbD_eq
  intro i h
  simp only [makeU128, high64, low64, BitVec.getLsbD_append, BitVec.getLsbD_extractLsb']
  by_cases h1 : i < 64
  · simp [h1]
  · simp [h1, show i - 64 < 64 by omega, show 64 + (i - 64) = i by omega]

theorem makeU128_toNat (hi lo : BitVec 64) :
    (makeU128 hi lo).toNat = hi.toNat * 2 ^ 64 + lo.toNat := by
  simp only [makeU128, BitVec.toNat_append]
  rw [← Nat.shiftLeft_add_eq_or_of_lt lo.isLt, Nat.shiftLeft_eq]

theorem high64_toNat (x : U128) : (high64 x).toNat = x.toNat / 2 ^ 64 := by
  simp only [high64, BitVec.extractLsb'_toNat, Nat.shiftRight_eq_div_pow]
  have := x.isLt
  omega

theorem low64_toNat (x : U128) : (low64 x).toNat = x.toNat % 2 ^ 64 := by
  simp [low64]

theorem valueInteger_roundtrip (x : U128) :
    valueIntegerToUint128 (uint128ToValueInteger x) = ok x := by
  unfold uint128ToValueInteger
  split
  · rename_i h
    simp only [valueIntegerToUint128]
    congr 1
    apply BitVec.eq_of_toNat_eq
    have := congrArg BitVec.toNat h
    rw [high64_toNat] at this
    simp only [BitVec.toNat_setWidth, low64_toNat]
    simp at this
    have := x.isLt
    omega
  · simp only [valueIntegerToUint128, makeU128_split]

theorem uint128ToValueInteger_inj {x y : U128}
    (h : uint128ToValueInteger x = uint128ToValueInteger y) : x = y := by
  have h1 := valueInteger_roundtrip x
  rw [h, valueInteger_roundtrip] at h1
  exact (ok.inj h1).symm

theorem uint128To_setWidth {w : Nat} (hw : w ≤ 64 ∨ w = 128) (x : BitVec w) :
    uint128To w (x.setWidth 128) = ok x := by
  have hx := x.isLt
  have hw' : w ≤ 128 := by omega
  unfold uint128To
  rw [if_neg]
  · congr 1
    apply BitVec.eq_of_toNat_eq
    simp only [BitVec.toNat_setWidth]
    rw [Nat.mod_eq_of_lt (Nat.lt_of_lt_of_le hx (Nat.pow_le_pow_right (by decide) hw')),
      Nat.mod_eq_of_lt hx]
  · rintro ⟨h1, h2⟩
    have : w ≤ 64 := by omega
    have h64 : x.toNat < 2 ^ 64 := Nat.lt_of_lt_of_le hx (Nat.pow_le_pow_right (by decide) this)
    rw [low64_toNat] at h2
    simp only [BitVec.toNat_setWidth] at h2
    rw [Nat.mod_eq_of_lt (a := x.toNat) (b := 2 ^ 128) (by omega), Nat.mod_eq_of_lt h64] at h2
    omega

theorem Width.small_or (w : Width) : w.bits ≤ 64 ∨ w.bits = 128 := by cases w <;> decide

/-! ### Group laws -/

theorem uintHelper_isGroup (w : Nat) : (uintHelper w).IsGroup where
  add_assoc a b c := BitVec.add_assoc a b c
  add_comm a b := BitVec.add_comm a b
  add_zero a := BitVec.add_zero a
  add_neg a := by simp only [uintHelper]; rw [BitVec.add_neg_eq_sub, BitVec.sub_self]; rfl
  sub_eq a b := BitVec.sub_eq_add_neg a b

theorem xorHelper_isGroup (w : Nat) : (xorHelper w).IsGroup where
  add_assoc a b c := BitVec.xor_assoc a b c
  add_comm a b := BitVec.xor_comm a b
  add_zero _ := BitVec.xor_zero
  add_neg _ := BitVec.xor_self
  sub_eq _ _ := rfl

theorem modSub {a n : Nat} (h : a < n) : (n - a) % n = if a = 0 then 0 else n - a := by
  split
  · subst a; simp
  · exact Nat.mod_eq_of_lt (by omega)

theorem intModNHelper_isGroup (w : Nat) (hw : w ≤ 128) (N : U128) (hpos : 0 < N.toNat)
    (hlt : N.toNat < 2 ^ w) : (intModNHelper w hw N hpos hlt).IsGroup where
  add_assoc a b c := by
    apply Subtype.ext; apply BitVec.eq_of_toNat_eq
    have l1 := IntModN.addBase_lt N hw hlt _ _ a.2 b.2
    have l2 := IntModN.addBase_lt N hw hlt _ _ b.2 c.2
    simp only [intModNHelper]
    rw [IntModN.addBase_toNat N hw hlt _ _ l1 c.2, IntModN.addBase_toNat N hw hlt _ _ a.2 l2,
      IntModN.addBase_toNat N hw hlt _ _ a.2 b.2, IntModN.addBase_toNat N hw hlt _ _ b.2 c.2]
    simp only [Nat.mod_add_mod, Nat.add_mod_mod, Nat.add_assoc]
  add_comm a b := by
    apply Subtype.ext; apply BitVec.eq_of_toNat_eq
    simp only [intModNHelper]
    rw [IntModN.addBase_toNat N hw hlt _ _ a.2 b.2, IntModN.addBase_toNat N hw hlt _ _ b.2 a.2,
      Nat.add_comm]
  add_zero a := by
    apply Subtype.ext; apply BitVec.eq_of_toNat_eq
    have l := IntModN.mk_lt N hw hpos (0 : BitVec w)
    simp only [intModNHelper]
    rw [IntModN.addBase_toNat N hw hlt _ _ a.2 l, IntModN.mk_toNat N hw]
    simp [Nat.mod_eq_of_lt a.2]
  add_neg a := by
    apply Subtype.ext; apply BitVec.eq_of_toNat_eq
    have l := IntModN.neg_lt N hw hlt _ a.2
    have ha := a.2
    simp only [intModNHelper]
    rw [IntModN.addBase_toNat N hw hlt _ _ a.2 l, IntModN.mk_toNat N hw,
      IntModN.neg_toNat N hw hlt _ a.2, Nat.add_mod_mod,
      show a.1.toNat + (N.toNat - a.1.toNat) = N.toNat by omega]
    simp
  sub_eq a b := by
    apply Subtype.ext; apply BitVec.eq_of_toNat_eq
    have l := IntModN.neg_lt N hw hlt _ b.2
    have hb := b.2
    simp only [intModNHelper]
    rw [IntModN.addBase_toNat N hw hlt _ _ a.2 l,
      IntModN.subBase_toNat N hw hlt _ _ a.2 (Nat.le_of_lt b.2), IntModN.neg_toNat N hw hlt _ b.2,
      Nat.add_mod_mod]

/-- Group laws of a pack. -/
structure TupHelper.IsGroup {α : Type} (H : TupHelper α) : Prop where
  add_assoc : ∀ a b c, H.add (H.add a b) c = H.add a (H.add b c)
  add_comm : ∀ a b, H.add a b = H.add b a
  add_zero : ∀ a, H.add a H.zero = a
  add_neg : ∀ a, H.add a (H.neg a) = H.zero

mutual
theorem Ty.helper_isGroup : (t : Ty) → t.helper.IsGroup
  | .uint w => uintHelper_isGroup w.bits
  | .intModN w N hp hl => intModNHelper_isGroup w.bits w.bits_le N hp hl
  | .xorWrapper w => xorHelper_isGroup w.bits
  | .tuple ts =>
    let g := Tys.helper_isGroup ts
    ⟨g.add_assoc, g.add_comm, g.add_zero, g.add_neg, fun _ _ => rfl⟩
theorem Tys.helper_isGroup : (ts : Tys) → ts.helper.IsGroup
  | .one t =>
    let g := Ty.helper_isGroup t
    ⟨g.add_assoc, g.add_comm, g.add_zero, g.add_neg⟩
  | .cons t ts =>
    let g := Ty.helper_isGroup t
    let g' := Tys.helper_isGroup ts
    ⟨fun a b c => Prod.ext (g.add_assoc a.1 b.1 c.1) (g'.add_assoc a.2 b.2 c.2),
     fun a b => Prod.ext (g.add_comm a.1 b.1) (g'.add_comm a.2 b.2),
     fun a => Prod.ext (g.add_zero a.1) (g'.add_zero a.2),
     fun a => Prod.ext (g.add_neg a.1) (g'.add_neg a.2)⟩
end

/-! ### Encoding round trip -/

theorem Tys.toValues_length : (ts : Tys) → (x : ts.den) →
    (ts.helper.toValues x).length = ts.helper.size
  | .one _, _ => rfl
  | .cons _ ts, x => by
    show (ts.helper.toValues x.2).length + 1 = ts.helper.size + 1
    rw [Tys.toValues_length ts]

theorem Tys.toValueTypes_length : (ts : Tys) → ts.helper.toValueTypes.length = ts.helper.size
  | .one _ => rfl
  | .cons _ ts => by
    show ts.helper.toValueTypes.length + 1 = ts.helper.size + 1
    rw [Tys.toValueTypes_length ts]

theorem intModN_fromValue_toValue (w : Nat) (hw : w ≤ 128) (N : U128) (hpos : 0 < N.toNat)
    (hlt : N.toNat < 2 ^ w) (x : { v : BitVec w // v.toNat < N.toNat }) :
    (intModNHelper w hw N hpos hlt).fromValue ((intModNHelper w hw N hpos hlt).toValue x) =
      ok x := by
  have hx := x.2
  have h128 : x.1.toNat < 2 ^ 128 :=
    Nat.lt_of_lt_of_le x.1.isLt (Nat.pow_le_pow_right (by decide) hw)
  simp only [intModNHelper, valueInteger_roundtrip, bind_ok]
  rw [failIf_false, bind_ok]
  · congr 1
    apply Subtype.ext; apply BitVec.eq_of_toNat_eq
    simp only []
    rw [IntModN.mk_toNat N hw]
    simp only [BitVec.toNat_setWidth]
    rw [Nat.mod_eq_of_lt h128, Nat.mod_eq_of_lt x.1.isLt, Nat.mod_eq_of_lt hx]
  · simp only [ge_iff_le, BitVec.le_def, BitVec.toNat_setWidth]
    rw [Nat.mod_eq_of_lt h128]
    omega

mutual
theorem Ty.fromValue_toValue : (t : Ty) → (x : t.den) →
    t.helper.fromValue (t.helper.toValue x) = ok x
  | .uint w, x => by
    show (valueIntegerToUint128 (uint128ToValueInteger _) >>= uint128To w.bits) = ok x
    rw [valueInteger_roundtrip, bind_ok, uint128To_setWidth w.small_or]
  | .intModN w N hp hl, x => intModN_fromValue_toValue w.bits w.bits_le N hp hl x
  | .xorWrapper w, x => by
    show (valueIntegerToUint128 (uint128ToValueInteger _) >>= uint128To w.bits) = ok x
    rw [valueInteger_roundtrip, bind_ok, uint128To_setWidth w.small_or]
  | .tuple ts, x => by
    show (failIf ((ts.helper.toValues x).length ≠ ts.helper.size) .invalidArgument >>=
      fun _ => ts.helper.fromValues (ts.helper.toValues x)) = ok x
    rw [failIf_false (by simp [Tys.toValues_length]), bind_ok, Tys.fromValues_toValues ts x]
theorem Tys.fromValues_toValues : (ts : Tys) → (x : ts.den) →
    ts.helper.fromValues (ts.helper.toValues x) = ok x
  | .one t, x => Ty.fromValue_toValue t x
  | .cons t ts, x => by
    show (t.helper.fromValue (t.helper.toValue x.1) >>= fun a =>
      ts.helper.fromValues (ts.helper.toValues x.2) >>= fun b => ok (a, b)) = ok x
    rw [Ty.fromValue_toValue t x.1, bind_ok, Tys.fromValues_toValues ts x.2, bind_ok]
end

/-! ### Sizes -/

theorem Width.bits_dvd (w : Width) : w.bits = 8 * (w.bits / 8) := by cases w <;> decide
theorem Width.bytes_pos (w : Width) : 0 < w.bits / 8 := by cases w <;> decide
theorem Width.bytes_le (w : Width) : w.bits / 8 ≤ 16 := by cases w <;> decide

mutual
theorem Ty.canDirect_eq : (t : Ty) → t.helper.canDirect = t.noMod
  | .uint _ => rfl
  | .intModN _ _ _ _ => rfl
  | .xorWrapper _ => rfl
  | .tuple ts => Tys.canDirect_eq ts
theorem Tys.canDirect_eq : (ts : Tys) → ts.helper.canDirect = ts.noMod
  | .one t => Ty.canDirect_eq t
  | .cons t ts => by
    show (t.helper.canDirect && ts.helper.canDirect) = (t.noMod && ts.noMod)
    rw [Ty.canDirect_eq, Tys.canDirect_eq]
end

mutual
theorem Ty.totalBitSize_eq : (t : Ty) → t.noMod = true → t.helper.totalBitSize = 8 * t.leafBytes
  | .uint w, _ => w.bits_dvd
  | .intModN _ _ _ _, h => by simp [Ty.noMod] at h
  | .xorWrapper w, _ => w.bits_dvd
  | .tuple ts, h => Tys.totalBitSize_eq ts h
theorem Tys.totalBitSize_eq : (ts : Tys) → ts.noMod = true →
    ts.helper.totalBitSize = 8 * ts.leafBytes
  | .one t, h => Ty.totalBitSize_eq t h
  | .cons t ts, h => by
    simp only [Tys.noMod, Bool.and_eq_true] at h
    show t.helper.totalBitSize + ts.helper.totalBitSize = 8 * (t.leafBytes + ts.leafBytes)
    rw [Ty.totalBitSize_eq t h.1, Tys.totalBitSize_eq ts h.2]; omega
end

mutual
theorem Ty.leafBytes_pos : (t : Ty) → 0 < t.leafBytes
  | .uint w => w.bytes_pos
  | .intModN w _ _ _ => w.bytes_pos
  | .xorWrapper w => w.bytes_pos
  | .tuple ts => Tys.leafBytes_pos ts
theorem Tys.leafBytes_pos : (ts : Tys) → 0 < ts.leafBytes
  | .one t => Ty.leafBytes_pos t
  | .cons t ts => by
    have := Ty.leafBytes_pos t
    show 0 < t.leafBytes + ts.leafBytes
    omega
end

mutual
theorem Ty.lastLeafBytes_le : (t : Ty) → t.lastLeafBytes ≤ t.leafBytes
  | .uint _ => Nat.le_refl _
  | .intModN _ _ _ _ => Nat.le_refl _
  | .xorWrapper _ => Nat.le_refl _
  | .tuple ts => Tys.lastLeafBytes_le ts
theorem Tys.lastLeafBytes_le : (ts : Tys) → ts.lastLeafBytes ≤ ts.leafBytes
  | .one t => Ty.lastLeafBytes_le t
  | .cons t ts => by
    have := Tys.lastLeafBytes_le ts
    show ts.lastLeafBytes ≤ t.leafBytes + ts.leafBytes
    omega
end

/-! ### Conversion from bytes -/

theorem substr_ok {b : Bytes} {pos n : Nat} (h : pos ≤ b.length) :
    substr b pos n = ok ((b.drop pos).take n) := by
  simp [substr, Nat.not_lt.mpr h]

theorem substrFrom_ok {b : Bytes} {pos : Nat} (h : pos ≤ b.length) :
    substrFrom b pos = ok (b.drop pos) := by
  simp [substrFrom, Nat.not_lt.mpr h]

theorem convertBytesTo_ok {w : Nat} {b : Bytes} (h : b.length = w / 8) :
    IntModN.convertBytesTo w b = ok (BitVec.ofNat w (leNat b)) := by
  simp [IntModN.convertBytesTo, h]

mutual
theorem Ty.directlyFromBytes_ok : (t : Ty) → t.noMod = true → (b : Bytes) →
    b.length = t.leafBytes → ∃ x, t.helper.directlyFromBytes b = ok x
  | .uint w, _, b, hb => ⟨_, convertBytesTo_ok hb⟩
  | .intModN _ _ _ _, h, _, _ => by simp [Ty.noMod] at h
  | .xorWrapper w, _, b, hb => ⟨_, convertBytesTo_ok hb⟩
  | .tuple ts, h, b, hb => by
    obtain ⟨x, hx⟩ := Tys.directlyAt_ok ts h b 0 (by
      have : b.length = ts.leafBytes := hb
      omega)
    refine ⟨x, ?_⟩
    show (check (8 * b.length ≥ ts.helper.totalBitSize) >>= fun _ =>
      ts.helper.directlyAt b 0) = ok x
    rw [check_true, bind_ok, hx]
    rw [Tys.totalBitSize_eq ts h]
    have : b.length = ts.leafBytes := hb
    omega
theorem Tys.directlyAt_ok : (ts : Tys) → ts.noMod = true → (b : Bytes) → (off : Nat) →
    off + ts.leafBytes ≤ b.length → ∃ x, ts.helper.directlyAt b off = ok x
  | .one t, h, b, off, hb => by
    have hb' : off + t.leafBytes ≤ b.length := hb
    have hsz : (t.helper.totalBitSize + 7) / 8 = t.leafBytes := by
      rw [Ty.totalBitSize_eq t h]; omega
    obtain ⟨x, hx⟩ := Ty.directlyFromBytes_ok t h ((b.drop off).take t.leafBytes) (by simp; omega)
    refine ⟨x, ?_⟩
    show (substr b off ((t.helper.totalBitSize + 7) / 8) >>= t.helper.directlyFromBytes) = ok x
    rw [hsz, substr_ok (by omega), bind_ok, hx]
  | .cons t ts, h, b, off, hb => by
    simp only [Tys.noMod, Bool.and_eq_true] at h
    have hb' : off + (t.leafBytes + ts.leafBytes) ≤ b.length := hb
    have hsz : (t.helper.totalBitSize + 7) / 8 = t.leafBytes := by
      rw [Ty.totalBitSize_eq t h.1]; omega
    obtain ⟨x, hx⟩ := Ty.directlyFromBytes_ok t h.1 ((b.drop off).take t.leafBytes) (by simp; omega)
    obtain ⟨y, hy⟩ := Tys.directlyAt_ok ts h.2 b (off + t.leafBytes) (by omega)
    refine ⟨(x, y), ?_⟩
    show (substr b off ((t.helper.totalBitSize + 7) / 8) >>= fun s =>
      t.helper.directlyFromBytes s >>= fun a =>
      ts.helper.directlyAt b (off + (t.helper.totalBitSize + 7) / 8) >>= fun c => ok (a, c)) = _
    rw [hsz, substr_ok (by omega), bind_ok, hx, bind_ok, hy, bind_ok]
end

theorem uint_sample_ok (w : Width) (u : Bool) (block : U128) (rest : Bytes)
    (h : (Ty.uint w).leafBytes - (if u then 0 else (Ty.uint w).lastLeafBytes) ≤ rest.length) :
    ∃ x block', (Ty.uint w).helper.sampleAndUpdateBytes u block rest =
      ok (x, block', rest.drop ((Ty.uint w).leafBytes -
        (if u then 0 else (Ty.uint w).lastLeafBytes))) := by
  cases u
  · simp only [Ty.helper, uintHelper, Ty.leafBytes, Ty.lastLeafBytes, Bool.false_eq_true, if_false,
      Nat.sub_self, List.drop_zero]
    exact ⟨_, _, rfl⟩
  · have h' : w.bits / 8 ≤ rest.length := by simpa [Ty.leafBytes] using h
    have e1 := substr_ok (b := rest) (n := w.bits / 8) (Nat.zero_le rest.length)
    have e2 := substrFrom_ok h'
    have e3 := convertBytesTo_ok (w := w.bits) (b := (rest.drop 0).take (w.bits / 8)) (by
      simp; omega)
    simp only [Ty.helper, uintHelper, Ty.leafBytes, if_true, e1, e2, e3, bind_ok]
    exact ⟨_, _, rfl⟩

mutual
/-- Sampling consumes the sizes of all integers, without the last one if there is no update. -/
theorem Ty.sample_ok : (t : Ty) → (u : Bool) → (block : U128) → (rest : Bytes) →
    t.leafBytes - (if u then 0 else t.lastLeafBytes) ≤ rest.length →
    ∃ x block', t.helper.sampleAndUpdateBytes u block rest =
      ok (x, block', rest.drop (t.leafBytes - (if u then 0 else t.lastLeafBytes)))
  | .uint w, u, block, rest, h => uint_sample_ok w u block rest h
  | .intModN w N hp hl, u, block, rest, h => by
    cases u
    · simp only [Ty.helper, intModNHelper, Ty.leafBytes, Ty.lastLeafBytes, Bool.false_eq_true,
        if_false, Nat.sub_self, List.drop_zero]
      exact ⟨_, _, rfl⟩
    · have h' : w.bits / 8 ≤ rest.length := by simpa [Ty.leafBytes] using h
      have e1 := substr_ok (b := rest) (n := w.bits / 8) (Nat.zero_le rest.length)
      have e2 := substrFrom_ok h'
      have e3 := convertBytesTo_ok (w := w.bits) (b := (rest.drop 0).take (w.bits / 8)) (by
        simp; omega)
      simp only [Ty.helper, intModNHelper, Ty.leafBytes, if_true, e1, e2, e3, bind_ok]
      exact ⟨_, _, rfl⟩
  | .xorWrapper w, u, block, rest, h => uint_sample_ok w u block rest h
  | .tuple ts, u, block, rest, h => Tys.sample_ok ts u block rest h
@[inherit_doc Ty.sample_ok]
theorem Tys.sample_ok : (ts : Tys) → (u : Bool) → (block : U128) → (rest : Bytes) →
    ts.leafBytes - (if u then 0 else ts.lastLeafBytes) ≤ rest.length →
    ∃ x block', ts.helper.sample u block rest =
      ok (x, block', rest.drop (ts.leafBytes - (if u then 0 else ts.lastLeafBytes)))
  | .one t, u, block, rest, h => Ty.sample_ok t u block rest h
  | .cons t ts, u, block, rest, h => by
    have hl : (Tys.cons t ts).leafBytes = t.leafBytes + ts.leafBytes := rfl
    have hll : (Tys.cons t ts).lastLeafBytes = ts.lastLeafBytes := rfl
    have hle := Tys.lastLeafBytes_le ts
    rw [hl, hll] at h ⊢
    have hsum : t.leafBytes + ts.leafBytes - (if u = true then 0 else ts.lastLeafBytes) =
        t.leafBytes + (ts.leafBytes - (if u = true then 0 else ts.lastLeafBytes)) := by
      cases u <;> simp <;> omega
    rw [hsum] at h ⊢
    obtain ⟨x, b1, e1⟩ := Ty.sample_ok t true block rest (by simp; omega)
    simp only [if_true, Nat.sub_zero] at e1
    obtain ⟨y, b2, e2⟩ := Tys.sample_ok ts u b1 (rest.drop t.leafBytes) (by simp; omega)
    refine ⟨(x, y), b2, ?_⟩
    show (t.helper.sampleAndUpdateBytes true block rest >>= fun (a, block, remaining) =>
      ts.helper.sample u block remaining >>= fun (c, block, remaining) =>
      ok ((a, c), block, remaining)) = _
    rw [e1, bind_ok]
    simp only []
    rw [e2, bind_ok, List.drop_drop]
end

theorem Ty.elementsPerBlock_eq (t : Ty) : t.helper.elementsPerBlock =
    if t.noMod then (if t.leafBytes ≤ 16 then 16 / t.leafBytes else 1) else 1 := by
  unfold Helper.elementsPerBlock
  rw [Ty.canDirect_eq]
  by_cases h : t.noMod = true
  · rw [if_pos h, if_pos h, Ty.totalBitSize_eq t h]
    have hp := t.leafBytes_pos
    by_cases h2 : t.leafBytes ≤ 16
    · rw [if_pos h2, if_pos (by omega), show 128 = 8 * 16 from rfl,
        Nat.mul_div_mul_left _ _ (by decide)]
    · rw [if_neg h2, if_neg (by omega)]
  · rw [if_neg h, if_neg h]

theorem Ty.elementsPerBlock_pos (t : Ty) : 0 < t.helper.elementsPerBlock := by
  rw [Ty.elementsPerBlock_eq]
  have hp := t.leafBytes_pos
  split
  · split
    · exact Nat.div_pos (by assumption) hp
    · exact Nat.one_pos
  · exact Nat.one_pos

/-- Enough bytes: conversion to an array succeeds, with one element per slot. -/
theorem Ty.convert_ok (t : Ty) (b : Bytes) (hb : t.bytesRead ≤ b.length) :
    ∃ xs, t.helper.convertBytesToArrayOf b = ok xs ∧ xs.length = t.helper.elementsPerBlock := by
  unfold Helper.convertBytesToArrayOf
  unfold Ty.bytesRead at hb
  rw [Ty.canDirect_eq]
  by_cases h : t.noMod = true
  · rw [if_pos h] at hb ⊢
    have hsz : (t.helper.totalBitSize + 7) / 8 = t.leafBytes := by
      rw [Ty.totalBitSize_eq t h]; omega
    have hmul : t.helper.elementsPerBlock * t.leafBytes ≤ b.length := by
      rw [Ty.elementsPerBlock_eq, if_pos h]
      split at hb
      · rename_i h1; rw [if_pos h1]; exact hb
      · rename_i h1; rw [if_neg h1]; omega
    dsimp only
    rw [hsz, check_true hmul, bind_ok]
    have hex : ∀ i, i < t.helper.elementsPerBlock → ∃ x,
        (substr b (i * t.leafBytes) t.leafBytes >>= fun s => t.helper.fromBytes s) = ok x := by
      intro i hi
      have h1 := Nat.mul_le_mul_right t.leafBytes (show i + 1 ≤ _ from hi)
      rw [Nat.succ_mul] at h1
      rw [substr_ok (by omega), bind_ok]
      unfold Helper.fromBytes
      rw [Ty.canDirect_eq, if_pos h]
      exact Ty.directlyFromBytes_ok t h _ (by simp; omega)
    obtain ⟨x0, _⟩ := hex 0 t.elementsPerBlock_pos
    have : ∃ g : Nat → t.den, ∀ i, i < t.helper.elementsPerBlock →
        (substr b (i * t.leafBytes) t.leafBytes >>= fun s => t.helper.fromBytes s) = ok (g i) := by
      refine ⟨fun i => if hi : i < t.helper.elementsPerBlock then (hex i hi).choose else x0, ?_⟩
      intro i hi
      simp only [dif_pos hi]
      exact (hex i hi).choose_spec
    obtain ⟨g, hg⟩ := this
    rw [mapRes_eq_ok_map (g := g) (fun i hi => hg i (by simpa using hi))]
    exact ⟨_, rfl, by simp⟩
  · rw [if_neg h] at hb ⊢
    unfold Helper.fromBytes
    rw [Ty.canDirect_eq, if_neg h, substr_ok (Nat.zero_le _), bind_ok, convertBytesTo_ok (by
      simp; omega), bind_ok, substrFrom_ok (by omega), bind_ok]
    obtain ⟨x, b', e⟩ := Ty.sample_ok t false
      (BitVec.ofNat 128 (leNat ((b.drop 0).take 16))) (b.drop 16) (by simp; omega)
    rw [e]
    exact ⟨[x], rfl, by rw [Ty.elementsPerBlock_eq, if_neg h]; rfl⟩

end Verif
