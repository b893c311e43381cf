import Verif.Lemmas.Decode
import Verif.Lemmas.Levels
/-! `ValidateValue` against the description of a type. -/
namespace Verif
open Res Spec

theorem Width.validBits (w : Width) : ValidBits w.bits :=
  (validateIntegerType_iff _).mp w.validateIntegerType_ok

theorem Width.validateIntegerValue_of {w : Width} {i : IntegerP} {n : Nat}
    (h : intMsg i = some n) (hn : n < 2 ^ w.bits) : validateIntegerValue i w.bits = ok () := by
  rw [validateIntegerValue_iff w.validBits]
  refine Or.inr ⟨_, valueInteger_of_intMsg h, ?_⟩
  rw [BitVec.toNat_ofNat, Nat.mod_eq_of_lt (intMsg_lt h), Int.toNat_natCast]
  exact hn

theorem Width.below64_of {w : Width} {i : IntegerP} (h : validateIntegerValue i w.bits = ok ())
    (hw : w ≠ .w128) : below64 i := by
  intro n hn
  rcases (validateIntegerValue_iff w.validBits).mp h with h | ⟨v, h1, h2⟩
  · cases w <;> simp [Width.bits] at h hw
  · rw [valueInteger_eq_ok, hn] at h1
    simp only [Option.some.injEq] at h1
    rw [h1]
    rw [Int.toNat_natCast] at h2
    refine Nat.lt_of_lt_of_le h2 (Nat.pow_le_pow_right (by decide) ?_)
    cases w <;> first | decide | exact absurd rfl hw

mutual
theorem Ty.validateValue_of_represents : (t : Ty) → (v : Value) → (x : t.den) → Represents t v x →
    validateValue t.helper.toValueType v = ok ()
  | .uint w, v, x, h => by
    obtain ⟨i, rfl, h⟩ := h
    show validateIntegerValue i w.bits = ok ()
    exact Width.validateIntegerValue_of h (BitVec.isLt x)
  | .xorWrapper w, v, x, h => by
    obtain ⟨i, rfl, h⟩ := h
    show validateIntegerValue i w.bits = ok ()
    exact Width.validateIntegerValue_of h (BitVec.isLt x)
  | .intModN w N hp hl, v, x, h => by
    obtain ⟨i, rfl, h⟩ := h
    show (validateIntegerValue i w.bits >>= fun _ => valueIntegerToUint128 i >>= fun v128 =>
      valueIntegerToUint128 (uint128ToValueInteger N) >>= fun m128 =>
      failIf (v128 ≥ m128) .invalidArgument) = ok ()
    rw [Width.validateIntegerValue_of h (Nat.lt_trans x.2 hl), bind_ok, valueInteger_of_intMsg h,
      bind_ok, valueInteger_roundtrip, bind_ok, failIf_false]
    show ¬ (N ≤ _)
    rw [BitVec.le_def, BitVec.toNat_ofNat, Nat.mod_eq_of_lt (intMsg_lt h)]
    have := x.2
    omega
  | .tuple ts, v, x, h => by
    obtain ⟨vs, rfl, h⟩ := h
    show (if vs.length ≠ ts.helper.toValueTypes.length then err .invalidArgument
      else validateValues ts.helper.toValueTypes vs) = ok ()
    rw [if_neg (by rw [Tys.toValueTypes_length, Tys.representsAll_length ts vs x h]; simp)]
    exact Tys.validateValues_of_represents ts vs x h
theorem Tys.validateValues_of_represents : (ts : Tys) → (vs : List Value) → (x : ts.den) →
    RepresentsAll ts vs x → validateValues ts.helper.toValueTypes vs = ok ()
  | .one t, vs, x, h => by
    obtain ⟨v, rfl, h⟩ := h
    show (validateValue t.helper.toValueType v >>= fun _ => ok ()) = ok ()
    rw [Ty.validateValue_of_represents t v x h]; rfl
  | .cons t ts, vs, x, h => by
    obtain ⟨v, vs', rfl, h1, h2⟩ := h
    show (validateValue t.helper.toValueType v >>= fun _ =>
      validateValues ts.helper.toValueTypes vs') = ok ()
    rw [Ty.validateValue_of_represents t v x.1 h1, bind_ok]
    exact Tys.validateValues_of_represents ts vs' x.2 h2
end

set_option maxRecDepth 8000 in
mutual
theorem Ty.noWide_of_validateValue : (t : Ty) → (v : Value) →
    validateValue t.helper.toValueType v = ok () → NoWide t v
  | .uint w, v, h => by
    cases v with
    | integer i =>
      have h : validateIntegerValue i w.bits = ok () := h
      rw [NoWide]; exact fun hw => Width.below64_of h hw
    | _ => simp [NoWide]
  | .xorWrapper w, v, h => by
    cases v with
    | xorWrapper i =>
      have h : validateIntegerValue i w.bits = ok () := h
      rw [NoWide]; exact fun hw => Width.below64_of h hw
    | _ => simp [NoWide]
  | .intModN w N hp hl, v, h => by
    cases v <;> simp [NoWide]
  | .tuple ts, v, h => by
    cases v with
    | tuple vs =>
      have h : (if vs.length ≠ ts.helper.toValueTypes.length then err .invalidArgument
        else validateValues ts.helper.toValueTypes vs) = ok () := h
      split at h
      · simp at h
      · rw [NoWide]; exact Tys.noWide_of_validateValues ts vs h
    | _ => simp [NoWide]
theorem Tys.noWide_of_validateValues : (ts : Tys) → (vs : List Value) →
    validateValues ts.helper.toValueTypes vs = ok () → NoWideAll ts vs
  | .one t, vs, h => by
    cases vs with
    | nil => simp [NoWideAll]
    | cons v vs =>
      have h : (validateValue t.helper.toValueType v >>= fun _ => validateValues [] vs) = ok () := h
      obtain ⟨_, h, _⟩ := bind_eq_ok.mp h
      rw [NoWideAll]; exact Ty.noWide_of_validateValue t v h
  | .cons t ts, vs, h => by
    cases vs with
    | nil => simp [NoWideAll]
    | cons v vs =>
      have h : (validateValue t.helper.toValueType v >>= fun _ =>
        validateValues ts.helper.toValueTypes vs) = ok () := h
      obtain ⟨_, h1, h2⟩ := bind_eq_ok.mp h
      rw [NoWideAll]; exact ⟨Ty.noWide_of_validateValue t v h1, Tys.noWide_of_validateValues ts vs h2⟩
end

theorem Ty.represents_iff (t : Ty) (v : Value) (x : t.den) : Represents t v x ↔
    validateValue t.helper.toValueType v = ok () ∧ t.helper.fromValue v = ok x :=
  ⟨fun h => ⟨t.validateValue_of_represents v x h, t.fromValue_of_represents v x h⟩,
    fun h => t.represents_of_fromValue v x h.2 (t.noWide_of_validateValue v h.1)⟩

mutual
/-- Validation of a value either succeeds or gives INVALID_ARGUMENT. -/
theorem validateValue_cases : (t : ValueType) → ValidType t → (v : Value) → OkOrInvalid (validateValue t v)
  | .notSet, h, v => by simp [ValidType] at h
  | .integer b, h, v => by
    cases v with
    | integer i => exact validateIntegerValue_cases (by have := Spec.ValidBits.range h; omega)
    | _ => exact Or.inr rfl
  | .xorWrapper b, h, v => by
    cases v with
    | xorWrapper i => exact validateIntegerValue_cases (by have := Spec.ValidBits.range h; omega)
    | _ => exact Or.inr rfl
  | .intModN b m, h, v => by
    refine (validateIntegerValue_cases (by have := Spec.ValidBits.range h.1; omega)).bind
      fun _ _ => (OkOrInvalid.valueInteger _).bind fun _ _ =>
      (OkOrInvalid.valueInteger _).bind fun _ _ => OkOrInvalid.failIf _
  | .tuple ts, h, v => by
    cases v with
    | tuple vs =>
      show OkOrInvalid (if vs.length ≠ ts.length then err .invalidArgument else validateValues ts vs)
      split
      · exact Or.inr rfl
      · exact validateValues_cases ts h vs
    | _ => exact Or.inr rfl
theorem validateValues_cases : (ts : List ValueType) → ValidTypes ts → (vs : List Value) →
    OkOrInvalid (validateValues ts vs)
  | [], _, vs => by simp only [validateValues]; exact .ok _
  | t :: ts, h, [] => by simp only [validateValues]; exact .ok _
  | t :: ts, h, v :: vs => by
    rw [validateValues]
    exact (validateValue_cases t h.1 v).bind fun _ _ => validateValues_cases ts h.2 vs
end

theorem validateIntegerValue_iff_fits {i : IntegerP} {b : Int} (hb : ValidBits b) :
    validateIntegerValue i b = ok () ↔ fitsBits i b := by
  rw [validateIntegerValue_iff hb, fitsBits]
  constructor
  · rintro (h | ⟨v, h1, h2⟩)
    · exact Or.inl h
    · exact Or.inr ⟨v.toNat, valueInteger_eq_ok.mp h1, h2⟩
  · rintro (h | ⟨n, h1, h2⟩)
    · exact Or.inl h
    · refine Or.inr ⟨_, valueInteger_of_intMsg h1, ?_⟩
      rwa [BitVec.toNat_ofNat, Nat.mod_eq_of_lt (intMsg_lt h1)]

mutual
/-- `ValidateValue` accepts exactly the messages matching the type. -/
theorem validateValue_iff : (t : ValueType) → ValidType t → (v : Value) →
    (validateValue t v = ok () ↔ Matches t v)
  | .notSet, h, v => by simp [ValidType] at h
  | .integer b, h, v => by
    have hb : ValidBits b := by simpa [ValidType] using h
    rw [Matches]
    cases v with
    | integer i =>
      show validateIntegerValue i b = ok () ↔ _
      rw [validateIntegerValue_iff_fits hb]; simp
    | _ => simp [validateValue]
  | .xorWrapper b, h, v => by
    have hb : ValidBits b := by simpa [ValidType] using h
    rw [Matches]
    cases v with
    | xorWrapper i =>
      show validateIntegerValue i b = ok () ↔ _
      rw [validateIntegerValue_iff_fits hb]; simp
    | _ => simp [validateValue]
  | .intModN b m, h, v => by
    have hb : ValidBits b := by
      rw [ValidType] at h
      exact h.1
    rw [Matches]
    show (validateIntegerValue v.getIntModN b >>= fun _ => valueIntegerToUint128 v.getIntModN >>= fun v128 =>
      valueIntegerToUint128 m >>= fun m128 => failIf (v128 ≥ m128) .invalidArgument) = ok () ↔ _
    constructor
    · intro h
      obtain ⟨_, h1, h⟩ := bind_eq_ok.mp h
      obtain ⟨x, h2, h⟩ := bind_eq_ok.mp h
      obtain ⟨y, h3, h4⟩ := bind_eq_ok.mp h
      rw [failIf_eq_ok] at h4
      rw [validateIntegerValue_iff_fits hb] at h1
      cases v with
      | intModN i =>
        refine ⟨i, x.toNat, y.toNat, rfl, valueInteger_eq_ok.mp h2, valueInteger_eq_ok.mp h3, ?_, h1⟩
        rw [ge_iff_le, BitVec.le_def] at h4
        omega
      | _ => simp [Value.getIntModN, valueIntegerToUint128] at h2
    · rintro ⟨i, n, N, rfl, h1, h2, h3, h4⟩
      show (validateIntegerValue i b >>= fun _ => valueIntegerToUint128 i >>= fun v128 =>
        valueIntegerToUint128 m >>= fun m128 => failIf (v128 ≥ m128) .invalidArgument) = ok ()
      rw [(validateIntegerValue_iff_fits hb).mpr h4, bind_ok, valueInteger_of_intMsg h1, bind_ok,
        valueInteger_of_intMsg h2, bind_ok, failIf_false]
      rw [ge_iff_le, BitVec.le_def, BitVec.toNat_ofNat, BitVec.toNat_ofNat,
        Nat.mod_eq_of_lt (intMsg_lt h1), Nat.mod_eq_of_lt (intMsg_lt h2)]
      omega
  | .tuple ts, h, v => by
    rw [ValidType] at h
    rw [Matches]
    cases v with
    | tuple vs =>
      show (if vs.length ≠ ts.length then err .invalidArgument else validateValues ts vs) = ok () ↔ _
      have := validateValues_iff ts h vs
      constructor
      · intro h'
        split at h'
        · simp at h'
        · rename_i hl
          exact ⟨vs, rfl, this.mp ⟨by omega, h'⟩⟩
      · rintro ⟨vs', e, h'⟩
        simp only [Value.tuple.injEq] at e
        subst e
        obtain ⟨h1, h2⟩ := this.mpr h'
        rw [if_neg (by omega)]; exact h2
    | _ => simp [validateValue]
theorem validateValues_iff : (ts : List ValueType) → ValidTypes ts → (vs : List Value) →
    (vs.length = ts.length ∧ validateValues ts vs = ok () ↔ MatchesAll ts vs)
  | [], _, vs => by
    rw [MatchesAll]
    constructor
    · rintro ⟨h, _⟩; simpa using h
    · rintro rfl; exact ⟨rfl, by simp [validateValues]⟩
  | t :: ts, h, [] => by rw [MatchesAll]; simp
  | t :: ts, h, v :: vs => by
    rw [ValidTypes] at h
    rw [validateValues, MatchesAll, bind_eq_ok]
    have h1 := validateValue_iff t h.1 v
    have h2 := validateValues_iff ts h.2 vs
    constructor
    · rintro ⟨hl, _, e1, e2⟩
      exact ⟨v, vs, rfl, h1.mp e1, h2.mp ⟨by simpa using hl, e2⟩⟩
    · rintro ⟨v', vs', e, e1, e2⟩
      simp only [List.cons.injEq] at e
      obtain ⟨rfl, rfl⟩ := e
      obtain ⟨hl, e3⟩ := h2.mpr e2
      exact ⟨by simp [hl], (), h1.mpr e1, e3⟩
end

end Verif
