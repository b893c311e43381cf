import Verif.Lemmas.Values
import Verif.Model.Validator
/-! Helper lemmas on `ValueType` and `Value` messages. -/
namespace Verif
open Res

/-! ### Validation of the type's own description -/

theorem Width.validateIntegerType_ok (w : Width) : validateIntegerType w.bits = ok () := by
  cases w <;> decide

theorem validateIntegerValue_ok {w : Nat} (x : U128) (hx : x.toNat < 2 ^ w) :
    validateIntegerValue (uint128ToValueInteger x) (w : Int) = ok () := by
  unfold validateIntegerValue
  split
  · rename_i h
    rw [valueInteger_roundtrip, bind_ok, shl128_ok (by omega), bind_ok, failIf_false]
    simp only [ge_iff_le, BitVec.le_def, BitVec.toNat_shiftLeft]
    have hw : w < 128 := by omega
    have : 2 ^ w < 2 ^ 128 := Nat.pow_lt_pow_right (by decide) hw
    simp only [Nat.shiftLeft_eq]
    rw [show BitVec.toNat (1 : U128) = 1 from rfl, Nat.one_mul, Nat.mod_eq_of_lt this]
    omega
  · rfl

mutual
theorem Ty.validateValueType_ok : (t : Ty) → validateValueType t.helper.toValueType = ok ()
  | .uint w => w.validateIntegerType_ok
  | .intModN w N hp hl => by
    show (validateIntegerType w.bits >>= fun _ =>
      validateIntegerValue (uint128ToValueInteger N) w.bits) = ok ()
    rw [w.validateIntegerType_ok, bind_ok, validateIntegerValue_ok N hl]
  | .xorWrapper w => w.validateIntegerType_ok
  | .tuple ts => Tys.validateValueTypes_ok ts
theorem Tys.validateValueTypes_ok : (ts : Tys) → validateValueTypes ts.helper.toValueTypes = ok ()
  | .one t => by
    show (validateValueType t.helper.toValueType >>= fun _ => ok ()) = ok ()
    rw [Ty.validateValueType_ok t]; rfl
  | .cons t ts => by
    show (validateValueType t.helper.toValueType >>= fun _ =>
      validateValueTypes ts.helper.toValueTypes) = ok ()
    rw [Ty.validateValueType_ok t, bind_ok, Tys.validateValueTypes_ok ts]
end

theorem setWidth_toNat_lt {w : Nat} (hw : w ≤ 128) (x : BitVec w) :
    (x.setWidth 128).toNat = x.toNat := by
  rw [BitVec.toNat_setWidth, Nat.mod_eq_of_lt]
  exact Nat.lt_of_lt_of_le x.isLt (Nat.pow_le_pow_right (by decide) hw)

mutual
theorem Ty.validateValue_ok : (t : Ty) → (x : t.den) →
    validateValue t.helper.toValueType (t.helper.toValue x) = ok ()
  | .uint w, x => validateIntegerValue_ok _ (by
      rw [setWidth_toNat_lt w.bits_le]; exact BitVec.isLt x)
  | .intModN w N hp hl, x => by
    have hx : (x.1.setWidth 128).toNat < 2 ^ w.bits := by
      rw [setWidth_toNat_lt w.bits_le]; exact x.1.isLt
    show (validateIntegerValue (uint128ToValueInteger (x.1.setWidth 128)) w.bits >>= fun _ =>
      valueIntegerToUint128 (uint128ToValueInteger (x.1.setWidth 128)) >>= fun v128 =>
      valueIntegerToUint128 (uint128ToValueInteger N) >>= fun m128 =>
      failIf (v128 ≥ m128) .invalidArgument) = ok ()
    rw [validateIntegerValue_ok _ hx, bind_ok, valueInteger_roundtrip, bind_ok,
      valueInteger_roundtrip, bind_ok, failIf_false]
    have h1 := x.2
    simp only [ge_iff_le, BitVec.le_def]
    rw [setWidth_toNat_lt w.bits_le]
    omega
  | .xorWrapper w, x => validateIntegerValue_ok _ (by
      rw [setWidth_toNat_lt w.bits_le]; exact BitVec.isLt x)
  | .tuple ts, x => by
    show (if (ts.helper.toValues x).length ≠ ts.helper.toValueTypes.length then
      err .invalidArgument else validateValues ts.helper.toValueTypes (ts.helper.toValues x)) = ok ()
    rw [if_neg (by simp [Tys.toValues_length, Tys.toValueTypes_length]), Tys.validateValues_ok ts x]
theorem Tys.validateValues_ok : (ts : Tys) → (x : ts.den) →
    validateValues ts.helper.toValueTypes (ts.helper.toValues x) = ok ()
  | .one t, x => by
    show (validateValue t.helper.toValueType (t.helper.toValue x) >>= fun _ => ok ()) = ok ()
    rw [Ty.validateValue_ok t x]; rfl
  | .cons t ts, x => by
    show (validateValue t.helper.toValueType (t.helper.toValue x.1) >>= fun _ =>
      validateValues ts.helper.toValueTypes (ts.helper.toValues x.2)) = ok ()
    rw [Ty.validateValue_ok t x.1, bind_ok, Tys.validateValues_ok ts x.2]
end

/-! ### Injectivity of the description -/

theorem Width.bits_inj {a b : Width} (h : a.bits = b.bits) : a = b := by
  cases a <;> cases b <;> first | rfl | (exact absurd h (by decide))

mutual
theorem Ty.toValueType_inj : (s t : Ty) → s.helper.toValueType = t.helper.toValueType → s = t
  | .uint w, t, h => by
    cases t with
    | uint w' =>
      have h : ValueType.integer (w.bits : Int) = .integer (w'.bits : Int) := h
      rw [Width.bits_inj (a := w) (b := w') (by have := ValueType.integer.inj h; omega)]
    | intModN w' N hp hl =>
      exact absurd (show ValueType.integer _ = .intModN _ _ from h) (by simp)
    | xorWrapper w' => exact absurd (show ValueType.integer _ = .xorWrapper _ from h) (by simp)
    | tuple ts => exact absurd (show ValueType.integer _ = .tuple _ from h) (by simp)
  | .intModN w N hp hl, t, h => by
    cases t with
    | uint w' => exact absurd (show ValueType.intModN _ _ = .integer _ from h) (by simp)
    | intModN w' N' hp' hl' =>
      have h : ValueType.intModN (w.bits : Int) (uint128ToValueInteger N) =
        .intModN (w'.bits : Int) (uint128ToValueInteger N') := h
      simp only [ValueType.intModN.injEq] at h
      have h1 : w = w' := Width.bits_inj (by omega)
      have h2 := uint128ToValueInteger_inj h.2
      subst h1; subst h2; rfl
    | xorWrapper w' => exact absurd (show ValueType.intModN _ _ = .xorWrapper _ from h) (by simp)
    | tuple ts => exact absurd (show ValueType.intModN _ _ = .tuple _ from h) (by simp)
  | .xorWrapper w, t, h => by
    cases t with
    | uint w' => exact absurd (show ValueType.xorWrapper _ = .integer _ from h) (by simp)
    | intModN w' N hp hl =>
      exact absurd (show ValueType.xorWrapper _ = .intModN _ _ from h) (by simp)
    | xorWrapper w' =>
      have h : ValueType.xorWrapper (w.bits : Int) = .xorWrapper (w'.bits : Int) := h
      rw [Width.bits_inj (a := w) (b := w') (by have := ValueType.xorWrapper.inj h; omega)]
    | tuple ts => exact absurd (show ValueType.xorWrapper _ = .tuple _ from h) (by simp)
  | .tuple ts, t, h => by
    cases t with
    | uint w' => exact absurd (show ValueType.tuple _ = .integer _ from h) (by simp)
    | intModN w' N hp hl => exact absurd (show ValueType.tuple _ = .intModN _ _ from h) (by simp)
    | xorWrapper w' => exact absurd (show ValueType.tuple _ = .xorWrapper _ from h) (by simp)
    | tuple ts' =>
      have h : ValueType.tuple ts.helper.toValueTypes = .tuple ts'.helper.toValueTypes := h
      rw [Tys.toValueTypes_inj ts ts' (by simpa using h)]
theorem Tys.toValueTypes_inj : (s t : Tys) → s.helper.toValueTypes = t.helper.toValueTypes → s = t
  | .one s, t, h => by
    cases t with
    | one t =>
      have h : [s.helper.toValueType] = [t.helper.toValueType] := h
      rw [Ty.toValueType_inj s t (by simpa using h)]
    | cons t ts =>
      have h : [s.helper.toValueType] = t.helper.toValueType :: ts.helper.toValueTypes := h
      have hl := Tys.toValueTypes_length ts
      have : 0 < ts.helper.size := by
        cases ts <;> exact Nat.succ_pos _
      simp only [List.cons.injEq] at h
      rw [← h.2] at hl
      simp at hl
      omega
  | .cons s ss, t, h => by
    cases t with
    | one t =>
      have h : s.helper.toValueType :: ss.helper.toValueTypes = [t.helper.toValueType] := h
      have hl := Tys.toValueTypes_length ss
      have : 0 < ss.helper.size := by
        cases ss <;> exact Nat.succ_pos _
      simp only [List.cons.injEq] at h
      rw [h.2] at hl
      simp at hl
      omega
    | cons t ts =>
      have h : s.helper.toValueType :: ss.helper.toValueTypes =
        t.helper.toValueType :: ts.helper.toValueTypes := h
      simp only [List.cons.injEq] at h
      rw [Ty.toValueType_inj s t h.1, Tys.toValueTypes_inj ss ts h.2]
end

/-! ### `ValueTypesAreEqual` on descriptions -/

mutual
theorem Ty.valueTypesAreEqual_self : (t : Ty) →
    valueTypesAreEqual t.helper.toValueType t.helper.toValueType = ok true
  | .uint w => by simp [Ty.helper, uintHelper, valueTypesAreEqual]
  | .intModN w N hp hl => by
    simp [Ty.helper, intModNHelper, valueTypesAreEqual, valueInteger_roundtrip]
  | .xorWrapper w => by simp [Ty.helper, xorHelper, valueTypesAreEqual]
  | .tuple ts => by
    show (if ts.helper.toValueTypes.length = ts.helper.toValueTypes.length then
      valueTypesAreEqualList ts.helper.toValueTypes ts.helper.toValueTypes else ok false) = ok true
    rw [if_pos rfl, Tys.valueTypesAreEqualList_self ts]
theorem Tys.valueTypesAreEqualList_self : (ts : Tys) →
    valueTypesAreEqualList ts.helper.toValueTypes ts.helper.toValueTypes = ok true
  | .one t => by
    show (valueTypesAreEqual t.helper.toValueType t.helper.toValueType >>= fun r =>
      (ok true : Res Bool) >>= fun rs => ok (r && rs)) = ok true
    rw [Ty.valueTypesAreEqual_self t]; rfl
  | .cons t ts => by
    show (valueTypesAreEqual t.helper.toValueType t.helper.toValueType >>= fun r =>
      valueTypesAreEqualList ts.helper.toValueTypes ts.helper.toValueTypes >>= fun rs =>
      ok (r && rs)) = ok true
    rw [Ty.valueTypesAreEqual_self t, Tys.valueTypesAreEqualList_self ts]; rfl
end

mutual
theorem Ty.eq_of_equal : (s t : Ty) →
    valueTypesAreEqual s.helper.toValueType t.helper.toValueType = ok true → s = t
  | .uint w, t, h => by
    cases t with
    | uint w' =>
      have h : ok ((w.bits : Int) == (w'.bits : Int)) = ok true := h
      simp only [ok.injEq, beq_iff_eq] at h
      rw [Width.bits_inj (a := w) (b := w') (by omega)]
    | intModN w' N hp hl => exact absurd (show ok false = ok true from h) (by simp)
    | xorWrapper w' => exact absurd (show ok false = ok true from h) (by simp)
    | tuple ts => exact absurd (show ok false = ok true from h) (by simp)
  | .intModN w N hp hl, t, h => by
    cases t with
    | uint w' => exact absurd (show ok false = ok true from h) (by simp)
    | intModN w' N' hp' hl' =>
      have h : (valueIntegerToUint128 (uint128ToValueInteger N) >>= fun m128 =>
        valueIntegerToUint128 (uint128ToValueInteger N') >>= fun n128 =>
        ok ((w.bits : Int) == (w'.bits : Int) && m128 == n128)) = ok true := h
      rw [valueInteger_roundtrip, valueInteger_roundtrip, bind_ok, bind_ok] at h
      simp only [ok.injEq, Bool.and_eq_true, beq_iff_eq] at h
      have h1 : w = w' := Width.bits_inj (by omega)
      have h2 := h.2
      subst h1; subst h2; rfl
    | xorWrapper w' => exact absurd (show ok false = ok true from h) (by simp)
    | tuple ts => exact absurd (show ok false = ok true from h) (by simp)
  | .xorWrapper w, t, h => by
    cases t with
    | uint w' => exact absurd (show ok false = ok true from h) (by simp)
    | intModN w' N hp hl => exact absurd (show ok false = ok true from h) (by simp)
    | xorWrapper w' =>
      have h : ok ((w.bits : Int) == (w'.bits : Int)) = ok true := h
      simp only [ok.injEq, beq_iff_eq] at h
      rw [Width.bits_inj (a := w) (b := w') (by omega)]
    | tuple ts => exact absurd (show ok false = ok true from h) (by simp)
  | .tuple ts, t, h => by
    cases t with
    | uint w' => exact absurd (show ok false = ok true from h) (by simp)
    | intModN w' N hp hl => exact absurd (show ok false = ok true from h) (by simp)
    | xorWrapper w' => exact absurd (show ok false = ok true from h) (by simp)
    | tuple ts' =>
      have h : (if ts.helper.toValueTypes.length = ts'.helper.toValueTypes.length then
        valueTypesAreEqualList ts.helper.toValueTypes ts'.helper.toValueTypes else ok false) =
        ok true := h
      split at h
      · rename_i hl
        rw [Tys.eq_of_equal ts ts' hl h]
      · simp at h
theorem Tys.eq_of_equal : (s t : Tys) →
    s.helper.toValueTypes.length = t.helper.toValueTypes.length →
    valueTypesAreEqualList s.helper.toValueTypes t.helper.toValueTypes = ok true → s = t
  | .one s, t, hl, h => by
    cases t with
    | one t =>
      have h : (valueTypesAreEqual s.helper.toValueType t.helper.toValueType >>= fun r =>
        (ok true : Res Bool) >>= fun rs => ok (r && rs)) = ok true := h
      obtain ⟨r, h1, h2⟩ := bind_eq_ok.mp h
      simp only [bind_ok, Bool.and_true, ok.injEq] at h2
      rw [h2] at h1
      rw [Ty.eq_of_equal s t h1]
    | cons t ts =>
      exfalso
      have hl : 1 = ts.helper.toValueTypes.length + 1 := hl
      rw [Tys.toValueTypes_length ts] at hl
      have : 0 < ts.helper.size := by cases ts <;> exact Nat.succ_pos _
      omega
  | .cons s ss, t, hl, h => by
    cases t with
    | one t =>
      exfalso
      have hl : ss.helper.toValueTypes.length + 1 = 1 := hl
      rw [Tys.toValueTypes_length ss] at hl
      have : 0 < ss.helper.size := by cases ss <;> exact Nat.succ_pos _
      omega
    | cons t ts =>
      have hl : ss.helper.toValueTypes.length + 1 = ts.helper.toValueTypes.length + 1 := hl
      have h : (valueTypesAreEqual s.helper.toValueType t.helper.toValueType >>= fun r =>
        valueTypesAreEqualList ss.helper.toValueTypes ts.helper.toValueTypes >>= fun rs =>
        ok (r && rs)) = ok true := h
      obtain ⟨r, h1, h2⟩ := bind_eq_ok.mp h
      obtain ⟨rs, h2, h3⟩ := bind_eq_ok.mp h2
      simp only [ok.injEq, Bool.and_eq_true] at h3
      rw [h3.1] at h1
      rw [h3.2] at h2
      rw [Ty.eq_of_equal s t h1, Tys.eq_of_equal ss ts (by omega) h2]
end

/-! ### `BitsNeeded` on descriptions -/

/-- Is the type itself an `IntModN`? -/
def ValueType.isMod : ValueType → Bool
  | .intModN _ _ => true
  | _ => false

theorem countTuple_noMod (els : List ValueType) (h : ∀ el ∈ els, el.isMod = false)
    (im : Option ValueType) (a b : Nat) :
    countTuple els im a b = ok (im, a, b + els.length) := by
  induction els generalizing b with
  | nil => rfl
  | cons el els ih =>
    have hel := h el (by simp)
    have := ih (fun e he => h e (by simp [he])) (b + 1)
    cases el <;> simp_all [countTuple, ValueType.isMod] <;> omega

theorem Ty.isMod_eq : (t : Ty) → t.noMod = true → t.helper.toValueType.isMod = false
  | .uint _, _ => rfl
  | .intModN _ _ _ _, h => by simp [Ty.noMod] at h
  | .xorWrapper _, _ => rfl
  | .tuple _, _ => rfl

theorem Tys.isMod_eq : (ts : Tys) → ts.noMod = true →
    ∀ el ∈ ts.helper.toValueTypes, el.isMod = false
  | .one t, h, el, hel => by
    have hel : el ∈ [t.helper.toValueType] := hel
    simp only [List.mem_singleton] at hel
    rw [hel]; exact Ty.isMod_eq t h
  | .cons t ts, h, el, hel => by
    simp only [Tys.noMod, Bool.and_eq_true] at h
    have hel : el ∈ t.helper.toValueType :: ts.helper.toValueTypes := hel
    simp only [List.mem_cons] at hel
    rcases hel with rfl | hel
    · exact Ty.isMod_eq t h.1
    · exact Tys.isMod_eq ts h.2 el hel

mutual
theorem Ty.bitsNeeded_noMod_of (fp : FpEnv) : (t : Ty) → t.noMod = true → (sec : Sec) →
    8 * t.leafBytes < 2 ^ 31 →
    bitsNeeded fp t.helper.toValueType sec = ok ((8 * t.leafBytes : Nat) : Int)
  | .uint w, _, _, _ => by
    show ok (w.bits : Int) = _
    rw [show (Ty.uint w).leafBytes = w.bits / 8 from rfl, ← w.bits_dvd]
  | .intModN _ _ _ _, h, _, _ => by simp [Ty.noMod] at h
  | .xorWrapper w, _, _, _ => by
    show ok (w.bits : Int) = _
    rw [show (Ty.xorWrapper w).leafBytes = w.bits / 8 from rfl, ← w.bits_dvd]
  | .tuple ts, h, sec, hs => by
    have hs : 8 * ts.leafBytes < 2 ^ 31 := hs
    show bitsNeeded fp (.tuple ts.helper.toValueTypes) sec = _
    rw [bitsNeeded, countTuple_noMod _ (Tys.isMod_eq ts h), bind_ok]
    simp only [Nat.zero_add]
    have e := Tys.bitsNeededFirst_noMod_of fp ts h (sec.add (fp.log2 ts.helper.size)) 0 (by omega)
    rw [Tys.toValueTypes_length]
    refine (congrArg (· >>= _) e).trans ?_
    rw [bind_ok, bind_ok, intRange_of (by omega) (by omega)]
    simp [Ty.leafBytes]
theorem Tys.bitsNeededFirst_noMod_of (fp : FpEnv) : (ts : Tys) → ts.noMod = true → (sec : Sec) →
    (acc : Nat) → acc + 8 * ts.leafBytes < 2 ^ 31 →
    bitsNeededFirst fp ts.helper.toValueTypes ts.helper.size sec acc =
      ok ((acc + 8 * ts.leafBytes : Nat) : Int)
  | .one t, h, sec, acc, hs => by
    have hs : acc + 8 * t.leafBytes < 2 ^ 31 := hs
    show (bitsNeeded fp t.helper.toValueType sec >>= fun b => intRange (acc + b) >>= fun r => ok r) = _
    rw [Ty.bitsNeeded_noMod_of fp t h _ (by omega), bind_ok, intRange_of (by omega) (by omega)]
    simp [Tys.leafBytes]
  | .cons t ts, h, sec, acc, hs => by
    have hs : acc + 8 * (t.leafBytes + ts.leafBytes) < 2 ^ 31 := hs
    simp only [Tys.noMod, Bool.and_eq_true] at h
    show (bitsNeeded fp t.helper.toValueType sec >>= fun b => intRange (acc + b) >>= fun r =>
      bitsNeededFirst fp ts.helper.toValueTypes ts.helper.size sec r) = _
    rw [Ty.bitsNeeded_noMod_of fp t h.1 _ (by omega), bind_ok, intRange_of (by omega) (by omega), bind_ok,
      ← Int.natCast_add, Tys.bitsNeededFirst_noMod_of fp ts h.2 _ _ (by omega)]
    simp [Tys.leafBytes]; omega
end

mutual
theorem Ty.bitsNeeded_noMod (fp : FpEnv) : (t : Ty) → t.noMod = true → (sec : Sec) → (b : Int) →
    bitsNeeded fp t.helper.toValueType sec = ok b → b = ((8 * t.leafBytes : Nat) : Int)
  | .uint w, _, _, b, hb => by
    have hb : (ok (w.bits : Int) : Res Int) = ok b := hb
    simp only [ok.injEq] at hb
    rw [show (Ty.uint w).leafBytes = w.bits / 8 from rfl, ← w.bits_dvd, hb]
  | .intModN _ _ _ _, h, _, _, _ => by simp [Ty.noMod] at h
  | .xorWrapper w, _, _, b, hb => by
    have hb : (ok (w.bits : Int) : Res Int) = ok b := hb
    simp only [ok.injEq] at hb
    rw [show (Ty.xorWrapper w).leafBytes = w.bits / 8 from rfl, ← w.bits_dvd, hb]
  | .tuple ts, h, sec, b, hb => by
    have hb : bitsNeeded fp (.tuple ts.helper.toValueTypes) sec = ok b := hb
    rw [bitsNeeded, countTuple_noMod _ (Tys.isMod_eq ts h), bind_ok] at hb
    simp only [Nat.zero_add] at hb
    rw [Tys.toValueTypes_length, bind_eq_ok] at hb
    obtain ⟨r, hr, hb⟩ := hb
    rw [bind_ok, intRange_eq_ok] at hb
    have := Tys.bitsNeededFirst_noMod fp ts h _ _ _ hr
    have e : (Ty.tuple ts).leafBytes = ts.leafBytes := rfl
    rw [e]
    omega
theorem Tys.bitsNeededFirst_noMod (fp : FpEnv) : (ts : Tys) → ts.noMod = true → (sec : Sec) →
    (acc b : Int) → bitsNeededFirst fp ts.helper.toValueTypes ts.helper.size sec acc = ok b →
    b = acc + ((8 * ts.leafBytes : Nat) : Int)
  | .one t, h, sec, acc, b, hb => by
    have hb : (bitsNeeded fp t.helper.toValueType sec >>= fun b =>
      intRange (acc + b) >>= fun r => ok r) = ok b := hb
    simp only [bind_eq_ok, intRange_eq_ok, ok.injEq] at hb
    obtain ⟨b1, h1, r, ⟨_, h2⟩, h3⟩ := hb
    have := Ty.bitsNeeded_noMod fp t h _ _ h1
    have e : (Tys.one t).leafBytes = t.leafBytes := rfl
    rw [e]
    omega
  | .cons t ts, h, sec, acc, b, hb => by
    simp only [Tys.noMod, Bool.and_eq_true] at h
    have hb : (bitsNeeded fp t.helper.toValueType sec >>= fun b => intRange (acc + b) >>= fun r =>
      bitsNeededFirst fp ts.helper.toValueTypes ts.helper.size sec r) = ok b := hb
    simp only [bind_eq_ok, intRange_eq_ok] at hb
    obtain ⟨b1, h1, r, ⟨_, h2⟩, h3⟩ := hb
    have := Ty.bitsNeeded_noMod fp t h.1 _ _ h1
    have := Tys.bitsNeededFirst_noMod fp ts h.2 _ _ _ h3
    have e : (Tys.cons t ts).leafBytes = t.leafBytes + ts.leafBytes := rfl
    rw [e]
    omega
end

theorem intRange_ub {x : Int} (h : 2 ^ 31 ≤ x) : intRange x = ub := by
  unfold intRange; rw [if_neg (by omega)]

mutual
theorem Ty.bitsNeeded_noMod_ub (fp : FpEnv) : (t : Ty) → t.noMod = true → (sec : Sec) →
    2 ^ 31 ≤ 8 * t.leafBytes → bitsNeeded fp t.helper.toValueType sec = ub
  | .uint w, _, _, hs => by
    have hs : 2 ^ 31 ≤ 8 * (w.bits / 8) := hs
    have := w.bits_le; omega
  | .intModN _ _ _ _, h, _, _ => by simp [Ty.noMod] at h
  | .xorWrapper w, _, _, hs => by
    have hs : 2 ^ 31 ≤ 8 * (w.bits / 8) := hs
    have := w.bits_le; omega
  | .tuple ts, h, sec, hs => by
    have hs : 2 ^ 31 ≤ 8 * ts.leafBytes := hs
    show bitsNeeded fp (.tuple ts.helper.toValueTypes) sec = _
    rw [bitsNeeded, countTuple_noMod _ (Tys.isMod_eq ts h), bind_ok]
    simp only [Nat.zero_add]
    have e := Tys.bitsNeededFirst_noMod_ub fp ts h (sec.add (fp.log2 ts.helper.size)) 0 (by omega) (by omega)
    rw [Tys.toValueTypes_length]
    exact (congrArg (· >>= _) e).trans rfl
theorem Tys.bitsNeededFirst_noMod_ub (fp : FpEnv) : (ts : Tys) → ts.noMod = true → (sec : Sec) →
    (acc : Nat) → acc < 2 ^ 31 → 2 ^ 31 ≤ acc + 8 * ts.leafBytes →
    bitsNeededFirst fp ts.helper.toValueTypes ts.helper.size sec acc = ub
  | .one t, h, sec, acc, ha, hs => by
    have hs : 2 ^ 31 ≤ acc + 8 * t.leafBytes := hs
    show (bitsNeeded fp t.helper.toValueType sec >>= fun b => intRange (acc + b) >>= fun r => ok r) = _
    rcases Nat.lt_or_ge (8 * t.leafBytes) (2 ^ 31) with hb | hb
    · rw [Ty.bitsNeeded_noMod_of fp t h _ hb, bind_ok, intRange_ub (by omega)]; rfl
    · rw [Ty.bitsNeeded_noMod_ub fp t h _ hb]; rfl
  | .cons t ts, h, sec, acc, ha, hs => by
    have hs : 2 ^ 31 ≤ acc + 8 * (t.leafBytes + ts.leafBytes) := hs
    simp only [Tys.noMod, Bool.and_eq_true] at h
    show (bitsNeeded fp t.helper.toValueType sec >>= fun b => intRange (acc + b) >>= fun r =>
      bitsNeededFirst fp ts.helper.toValueTypes ts.helper.size sec r) = _
    rcases Nat.lt_or_ge (8 * t.leafBytes) (2 ^ 31) with hb | hb
    · rw [Ty.bitsNeeded_noMod_of fp t h.1 _ hb, bind_ok]
      rcases Nat.lt_or_ge (acc + 8 * t.leafBytes) (2 ^ 31) with hc | hc
      · rw [intRange_of (by omega) (by omega), bind_ok, ← Int.natCast_add,
          Tys.bitsNeededFirst_noMod_ub fp ts h.2 _ _ hc (by omega)]
      · rw [intRange_ub (by omega)]; rfl
    · rw [Ty.bitsNeeded_noMod_ub fp t h.1 _ hb]; rfl
end

theorem getNumBytesRequired_ok {fp : FpEnv} {n b : Int} {N : U128} {sec : Sec} {r : Int}
    (h : IntModN.getNumBytesRequired fp n b N sec = ok r) :
    1 ≤ n ∧ 1 ≤ b ∧ b ≤ 128 ∧ r = 16 + (b + 7) / 8 * (n - 1) := by
  unfold IntModN.getNumBytesRequired at h
  rw [bind_eq_ok] at h
  obtain ⟨_, h1, h2⟩ := h
  unfold IntModN.checkParameters at h1
  simp only [bind_eq_ok, failIf_eq_ok] at h1
  obtain ⟨_, hn, _, hb, _, hb', _⟩ := h1
  exact ⟨by omega, by omega, by omega, (intRange_eq_ok.mp h2).2.symm⟩

theorem getNumBytesRequired_ge {fp : FpEnv} {n b : Int} {N : U128} {sec : Sec} {r : Int}
    (h : IntModN.getNumBytesRequired fp n b N sec = ok r) : 16 ≤ r := by
  obtain ⟨hn, hb, _, rfl⟩ := getNumBytesRequired_ok h
  have : 0 ≤ (b + 7) / 8 * (n - 1) := Int.mul_nonneg (by omega) (by omega)
  omega

theorem countTuple_counts {els : List ValueType} {im : Option ValueType} {a b : Nat}
    {im' : Option ValueType} {a' b' : Nat} (h : countTuple els im a b = ok (im', a', b')) :
    a' + b' = a + b + els.length ∧ a ≤ a' ∧ b ≤ b' ∧
    (a < a' → im'.isSome = true) ∧ (im.isSome = true → im'.isSome = true) ∧
    ((∀ x, im = some x → x.isMod = true) → ∀ x, im' = some x → x.isMod = true) ∧
    (im' = none → ∀ el ∈ els, el.isMod = false) := by
  induction els generalizing im a b with
  | nil =>
    simp only [countTuple, ok.injEq, Prod.mk.injEq] at h
    obtain ⟨rfl, rfl, rfl⟩ := h
    simp
  | cons el els ih =>
    have other : el.isMod = false → countTuple els im a (b + 1) = ok (im', a', b') →
        a' + b' = a + b + (el :: els).length ∧ a ≤ a' ∧ b ≤ b' ∧
        (a < a' → im'.isSome = true) ∧ (im.isSome = true → im'.isSome = true) ∧
        ((∀ x, im = some x → x.isMod = true) → ∀ x, im' = some x → x.isMod = true) ∧
        (im' = none → ∀ e ∈ el :: els, e.isMod = false) := by
      intro hel h
      obtain ⟨h1, h2, h3, h4, h5, h6, h7⟩ := ih h
      refine ⟨by simp; omega, h2, by omega, h4, h5, h6, ?_⟩
      intro hn e he
      simp only [List.mem_cons] at he
      rcases he with rfl | he
      · exact hel
      · exact h7 hn e he
    cases el with
    | intModN bb m =>
      cases im with
      | none =>
        simp only [countTuple] at h
        obtain ⟨h1, h2, h3, h4, h5, h6, h7⟩ := ih h
        have hs := h5 rfl
        refine ⟨by simp; omega, by omega, h3, fun _ => hs, fun _ => hs, ?_, ?_⟩
        · intro _ x hx
          exact h6 (by simp [ValueType.isMod]) x hx
        · intro hn; rw [hn] at hs; simp at hs
      | some im0 =>
        simp only [countTuple, bind_eq_ok] at h
        obtain ⟨_, _, _, _, h⟩ := h
        obtain ⟨h1, h2, h3, h4, h5, h6, h7⟩ := ih h
        have hs := h5 rfl
        refine ⟨by simp; omega, by omega, h3, fun _ => hs, fun _ => hs, h6, ?_⟩
        intro hn; rw [hn] at hs; simp at hs
    | notSet => exact other rfl (by simpa [countTuple] using h)
    | integer _ => exact other rfl (by simpa [countTuple] using h)
    | tuple _ => exact other rfl (by simpa [countTuple] using h)
    | xorWrapper _ => exact other rfl (by simpa [countTuple] using h)

mutual
theorem Ty.bitsNeeded_nonneg (fp : FpEnv) : (t : Ty) → (sec : Sec) → (b : Int) →
    bitsNeeded fp t.helper.toValueType sec = ok b → 0 ≤ b ∧ (t.noMod = false → 128 ≤ b)
  | .uint w, _, b, h => by
    have h : (ok (w.bits : Int) : Res Int) = ok b := h
    simp only [ok.injEq] at h
    exact ⟨by omega, by simp [Ty.noMod]⟩
  | .intModN w N hp hl, sec, b, h => by
    have h : (valueIntegerToUint128 (uint128ToValueInteger N) >>= fun modulus =>
      IntModN.getNumBytesRequired fp 1 w.bits modulus sec >>= fun n => ok (8 * n)) = ok b := h
    rw [valueInteger_roundtrip, bind_ok, bind_eq_ok] at h
    obtain ⟨n, h1, h2⟩ := h
    have := getNumBytesRequired_ge h1
    simp only [ok.injEq] at h2
    omega
  | .xorWrapper w, _, b, h => by
    have h : (ok (w.bits : Int) : Res Int) = ok b := h
    simp only [ok.injEq] at h
    exact ⟨by omega, by simp [Ty.noMod]⟩
  | .tuple ts, sec, b, h => by
    have h : bitsNeeded fp (.tuple ts.helper.toValueTypes) sec = ok b := h
    rw [bitsNeeded, bind_eq_ok] at h
    obtain ⟨⟨im, nMod, nOther⟩, h1, h2⟩ := h
    simp only [bind_eq_ok] at h2
    obtain ⟨other, h3, mods, h4, h5⟩ := h2
    rw [intRange_eq_ok] at h5
    obtain ⟨c1, c2, c3, c4, c5, c6, c7⟩ := countTuple_counts h1
    have hn := Tys.bitsNeededFirst_nonneg fp ts nOther _ 0 other h3
    have him : 0 ≤ mods ∧ (im ≠ none → 128 ≤ mods) := by
      cases im with
      | none => simp at h4; exact ⟨by omega, by simp⟩
      | some v =>
        have := c6 (by simp) v rfl
        cases v with
        | intModN bb m =>
          simp only [bind_eq_ok] at h4
          obtain ⟨m', _, n, h6, h7⟩ := h4
          have := getNumBytesRequired_ge h6
          rw [intRange_eq_ok] at h7
          omega
        | _ => simp [ValueType.isMod] at this
    refine ⟨by omega, ?_⟩
    intro hmod
    by_cases hi : im = none
    · have hz : nOther = ts.helper.size := by
        have : nMod = 0 := by
          rcases Nat.eq_zero_or_pos nMod with h | h
          · exact h
          · have := c4 h; rw [hi] at this; simp at this
        rw [← Tys.toValueTypes_length ts]; omega
      have := hn.2 (by omega) hmod
      omega
    · have := him.2 hi
      omega
theorem Tys.bitsNeededFirst_nonneg (fp : FpEnv) : (ts : Tys) → (n : Nat) → (sec : Sec) →
    (acc b : Int) → bitsNeededFirst fp ts.helper.toValueTypes n sec acc = ok b →
    acc ≤ b ∧ (ts.helper.size ≤ n → ts.noMod = false → acc + 128 ≤ b)
  | .one t, 0, sec, acc, b, h => by
    have h : (ok acc : Res Int) = ok b := h
    simp only [ok.injEq] at h
    exact ⟨by omega, fun h1 => absurd h1 (by show ¬ 1 ≤ 0; omega)⟩
  | .one t, n + 1, sec, acc, b, h => by
    have h : (bitsNeeded fp t.helper.toValueType sec >>= fun b => intRange (acc + b) >>= fun r =>
      bitsNeededFirst fp [] n sec r) = ok b := h
    simp only [bind_eq_ok, intRange_eq_ok] at h
    obtain ⟨b1, h1, r, ⟨_, h2⟩, h3⟩ := h
    have hb := Ty.bitsNeeded_nonneg fp t sec b1 h1
    have hr : b = r := by
      cases n with
      | zero => simpa [bitsNeededFirst] using h3.symm
      | succ n => simp [bitsNeededFirst] at h3
    refine ⟨by omega, ?_⟩
    intro _ hm
    have := hb.2 hm
    omega
  | .cons t ts, 0, sec, acc, b, h => by
    have h : (ok acc : Res Int) = ok b := h
    simp only [ok.injEq] at h
    exact ⟨by omega, fun h1 => absurd h1 (by show ¬ _ + 1 ≤ 0; omega)⟩
  | .cons t ts, n + 1, sec, acc, b, h => by
    have h : (bitsNeeded fp t.helper.toValueType sec >>= fun b => intRange (acc + b) >>= fun r =>
      bitsNeededFirst fp ts.helper.toValueTypes n sec r) = ok b := h
    simp only [bind_eq_ok, intRange_eq_ok] at h
    obtain ⟨b1, h1, r, ⟨_, h2⟩, h3⟩ := h
    have hb := Ty.bitsNeeded_nonneg fp t sec b1 h1
    have hr := Tys.bitsNeededFirst_nonneg fp ts n sec r b h3
    refine ⟨by omega, ?_⟩
    intro hs hm
    have hs : ts.helper.size + 1 ≤ n + 1 := hs
    have hm : (t.noMod && ts.noMod) = false := hm
    rw [Bool.and_eq_false_iff] at hm
    rcases hm with hm | hm
    · have := hb.2 hm; omega
    · have := hr.2 (by omega) hm; omega
end

end Verif
