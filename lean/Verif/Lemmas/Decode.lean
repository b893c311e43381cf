import Verif.Lemmas.Levels
import Verif.Spec.Values
/-! Helper lemmas on decoding, comparison of types and sampling. -/
namespace Verif
open Res Spec

theorem valueInteger_eq_ok {i : IntegerP} {v : U128} :
    valueIntegerToUint128 i = ok v ↔ intMsg i = some v.toNat := by
  cases i with
  | notSet => simp [valueIntegerToUint128, intMsg]
  | u64 x =>
    simp only [valueIntegerToUint128, intMsg, ok.injEq, Option.some.injEq]
    have hx : (x.setWidth 128).toNat = x.toNat := setWidth_toNat_lt (by decide) x
    constructor
    · rintro rfl; exact hx.symm
    · intro h; apply BitVec.eq_of_toNat_eq; omega
  | u128 hi lo =>
    simp only [valueIntegerToUint128, intMsg, ok.injEq, Option.some.injEq]
    rw [← makeU128_toNat]
    constructor
    · rintro rfl; rfl
    · intro h; exact BitVec.eq_of_toNat_eq h

theorem intMsg_lt {i : IntegerP} {n : Nat} (h : intMsg i = some n) : n < 2 ^ 128 := by
  cases i with
  | notSet => simp [intMsg] at h
  | u64 x => simp only [intMsg, Option.some.injEq] at h; have := x.isLt; omega
  | u128 hi lo =>
    simp only [intMsg, Option.some.injEq] at h
    have := hi.isLt; have := lo.isLt; omega

/-- A set integer message converts. -/
theorem valueInteger_of_intMsg {i : IntegerP} {n : Nat} (h : intMsg i = some n) :
    valueIntegerToUint128 i = ok (BitVec.ofNat 128 n) := by
  rw [valueInteger_eq_ok, h, BitVec.toNat_ofNat, Nat.mod_eq_of_lt (intMsg_lt h)]

theorem uint128To_eq_ok {w : Width} {v : U128} {x : BitVec w.bits} :
    uint128To w.bits v = ok x ↔
      (w ≠ .w128 → v.toNat % 2 ^ 64 < 2 ^ w.bits) ∧ v.toNat % 2 ^ w.bits = x.toNat := by
  unfold uint128To
  have hpos : 0 < 2 ^ w.bits := Nat.two_pow_pos _
  split
  · rename_i h
    rw [low64_toNat] at h
    simp only [reduceCtorEq, false_iff, not_and]
    intro h1
    exfalso
    have : w ≠ .w128 := by rintro rfl; exact h.1 rfl
    have := h1 this
    omega
  · rename_i h
    rw [low64_toNat] at h
    simp only [ok.injEq]
    constructor
    · rintro rfl
      refine ⟨fun hw => ?_, by simp⟩
      have : w.bits ≠ 128 := by cases w <;> simp_all [Width.bits]
      simp only [this, ne_eq, not_false_eq_true, true_and] at h
      omega
    · rintro ⟨_, h2⟩
      apply BitVec.eq_of_toNat_eq
      simpa using h2

theorem uint_decode_ok {w : Width} {i : IntegerP} {x : BitVec w.bits} :
    intMsg i = some x.toNat →
    (valueIntegerToUint128 i >>= uint128To w.bits) = ok x := by
  intro h
  rw [valueInteger_of_intMsg h, bind_ok, uint128To_eq_ok]
  have := x.isLt
  have hle : 2 ^ w.bits ≤ 2 ^ 128 := Nat.pow_le_pow_right (by decide) w.bits_le
  rw [BitVec.toNat_ofNat, Nat.mod_eq_of_lt (by omega : x.toNat < 2 ^ 128)]
  refine ⟨fun _ => Nat.lt_of_le_of_lt (Nat.mod_le _ _) this, Nat.mod_eq_of_lt this⟩

theorem uint_decode_spec {w : Width} {i : IntegerP} {x : BitVec w.bits}
    (h : (valueIntegerToUint128 i >>= uint128To w.bits) = ok x) (hw : w ≠ .w128 → below64 i) :
    intMsg i = some x.toNat := by
  rw [bind_eq_ok] at h
  obtain ⟨v, h1, h2⟩ := h
  rw [valueInteger_eq_ok] at h1
  rw [uint128To_eq_ok] at h2
  rw [h1]
  congr 1
  by_cases hw' : w = .w128
  · subst hw'
    have := v.isLt
    have h3 : v.toNat % 2 ^ 128 = x.toNat := h2.2
    rw [← h3]; omega
  · have hb := hw hw' _ h1
    have h3 := h2.1 hw'
    rw [Nat.mod_eq_of_lt hb] at h3
    rw [← h2.2, Nat.mod_eq_of_lt h3]

theorem OkOrInvalid.uint128To (w : Nat) (v : U128) : OkOrInvalid (uint128To w v) := by
  unfold Verif.uint128To; split
  · exact Or.inr rfl
  · exact Or.inl ⟨_, rfl⟩

theorem Tys.representsAll_length : (ts : Tys) → (vs : List Value) → (x : ts.den) →
    RepresentsAll ts vs x → vs.length = ts.helper.size
  | .one t, vs, x, h => by
    obtain ⟨v, rfl, _⟩ := h; rfl
  | .cons t ts, vs, x, h => by
    obtain ⟨v, vs', rfl, _, h2⟩ := h
    have := Tys.representsAll_length ts vs' x.2 h2
    show vs'.length + 1 = ts.helper.size + 1
    omega

mutual
theorem Ty.fromValue_of_represents : (t : Ty) → (v : Value) → (x : t.den) → Represents t v x →
    t.helper.fromValue v = ok x
  | .uint w, v, x, h => by
    obtain ⟨i, rfl, h⟩ := h
    exact uint_decode_ok h
  | .xorWrapper w, v, x, h => by
    obtain ⟨i, rfl, h⟩ := h
    exact uint_decode_ok h
  | .intModN w N hp hl, v, x, h => by
    obtain ⟨i, rfl, h⟩ := h
    show (valueIntegerToUint128 i >>= fun v => failIf (v ≥ N) .invalidArgument >>= fun _ =>
      ok ⟨IntModN.mk N (v.setWidth w.bits), IntModN.mk_lt N w.bits_le hp _⟩) = ok x
    have hx := x.2
    have hN := N.isLt
    have e : (BitVec.ofNat 128 x.1.toNat).toNat = x.1.toNat := by
      rw [BitVec.toNat_ofNat, Nat.mod_eq_of_lt (by omega)]
    rw [valueInteger_of_intMsg h, bind_ok, failIf_false (by
      simp only [ge_iff_le, BitVec.le_def, e]; omega), bind_ok]
    congr 1
    apply Subtype.ext
    apply BitVec.eq_of_toNat_eq
    have hb := x.1.isLt
    rw [IntModN.mk_toNat N w.bits_le, BitVec.toNat_setWidth, e, Nat.mod_eq_of_lt hb,
      Nat.mod_eq_of_lt hx]
  | .tuple ts, v, x, h => by
    obtain ⟨vs, rfl, h⟩ := h
    show (failIf (vs.length ≠ ts.helper.size) .invalidArgument >>= fun _ =>
      ts.helper.fromValues vs) = ok x
    rw [failIf_false (by simp [Tys.representsAll_length ts vs x h]), bind_ok]
    exact Tys.fromValues_of_represents ts vs x h
theorem Tys.fromValues_of_represents : (ts : Tys) → (vs : List Value) → (x : ts.den) →
    RepresentsAll ts vs x → ts.helper.fromValues vs = ok x
  | .one t, vs, x, h => by
    obtain ⟨v, rfl, h⟩ := h
    exact Ty.fromValue_of_represents t v x h
  | .cons t ts, vs, x, h => by
    obtain ⟨v, vs', rfl, h1, h2⟩ := h
    show (t.helper.fromValue v >>= fun a => ts.helper.fromValues vs' >>= fun b => ok (a, b)) = ok x
    rw [Ty.fromValue_of_represents t v x.1 h1, bind_ok,
      Tys.fromValues_of_represents ts vs' x.2 h2, bind_ok]
end

mutual
theorem Ty.represents_of_fromValue : (t : Ty) → (v : Value) → (x : t.den) →
    t.helper.fromValue v = ok x → NoWide t v → Represents t v x
  | .uint w, v, x, h, hw => by
    cases v with
    | integer i => exact ⟨i, rfl, uint_decode_spec h hw⟩
    | notSet => exact absurd (show (err _ : Res _) = ok x from h) (by simp)
    | tuple _ => exact absurd (show (err _ : Res _) = ok x from h) (by simp)
    | intModN _ => exact absurd (show (err _ : Res _) = ok x from h) (by simp)
    | xorWrapper _ => exact absurd (show (err _ : Res _) = ok x from h) (by simp)
  | .xorWrapper w, v, x, h, hw => by
    cases v with
    | xorWrapper i => exact ⟨i, rfl, uint_decode_spec h hw⟩
    | notSet => exact absurd (show (err _ : Res _) = ok x from h) (by simp)
    | tuple _ => exact absurd (show (err _ : Res _) = ok x from h) (by simp)
    | intModN _ => exact absurd (show (err _ : Res _) = ok x from h) (by simp)
    | integer _ => exact absurd (show (err _ : Res _) = ok x from h) (by simp)
  | .intModN w N hp hl, v, x, h, hw => by
    cases v with
    | intModN i =>
      have h : (valueIntegerToUint128 i >>= fun v => failIf (v ≥ N) .invalidArgument >>= fun _ =>
        ok ⟨IntModN.mk N (v.setWidth w.bits), IntModN.mk_lt N w.bits_le hp _⟩) = ok x := h
      simp only [bind_eq_ok, failIf_eq_ok] at h
      obtain ⟨u, h1, _, h2, h3⟩ := h
      rw [valueInteger_eq_ok] at h1
      simp only [ok.injEq] at h3
      simp only [ge_iff_le, BitVec.le_def] at h2
      refine ⟨i, rfl, ?_⟩
      rw [h1, ← h3]
      simp only []
      rw [IntModN.mk_toNat N w.bits_le, BitVec.toNat_setWidth,
        Nat.mod_eq_of_lt (by omega : u.toNat < 2 ^ w.bits), Nat.mod_eq_of_lt (by omega)]
    | notSet => exact absurd (show (err _ : Res _) = ok x from h) (by simp)
    | tuple _ => exact absurd (show (err _ : Res _) = ok x from h) (by simp)
    | xorWrapper _ => exact absurd (show (err _ : Res _) = ok x from h) (by simp)
    | integer _ => exact absurd (show (err _ : Res _) = ok x from h) (by simp)
  | .tuple ts, v, x, h, hw => by
    cases v with
    | tuple vs =>
      have h : (failIf (vs.length ≠ ts.helper.size) .invalidArgument >>= fun _ =>
        ts.helper.fromValues vs) = ok x := h
      rw [bind_eq_ok] at h
      obtain ⟨_, h1, h2⟩ := h
      rw [failIf_eq_ok] at h1
      exact ⟨vs, rfl, Tys.represents_of_fromValues ts vs x (by omega) h2 hw⟩
    | notSet => exact absurd (show (err _ : Res _) = ok x from h) (by simp)
    | intModN _ => exact absurd (show (err _ : Res _) = ok x from h) (by simp)
    | xorWrapper _ => exact absurd (show (err _ : Res _) = ok x from h) (by simp)
    | integer _ => exact absurd (show (err _ : Res _) = ok x from h) (by simp)
theorem Tys.represents_of_fromValues : (ts : Tys) → (vs : List Value) → (x : ts.den) →
    vs.length = ts.helper.size → ts.helper.fromValues vs = ok x → NoWideAll ts vs →
    RepresentsAll ts vs x
  | .one t, vs, x, hl, h, hw => by
    match vs, hl, h, hw with
    | [v], _, h, hw => exact ⟨v, rfl, Ty.represents_of_fromValue t v x h hw⟩
  | .cons t ts, vs, x, hl, h, hw => by
    have hl' : vs.length = ts.helper.size + 1 := hl
    match vs, hl', h, hw with
    | v :: vs, hl', h, hw =>
      have h : (t.helper.fromValue v >>= fun a => ts.helper.fromValues vs >>= fun b =>
        ok (a, b)) = ok x := h
      simp only [bind_eq_ok] at h
      obtain ⟨a, h1, b, h2, h3⟩ := h
      simp only [ok.injEq] at h3
      subst h3
      exact ⟨v, vs, rfl, Ty.represents_of_fromValue t v a h1 hw.1,
        Tys.represents_of_fromValues ts vs b (by simpa using hl') h2 hw.2⟩
end

theorem uint_decode_iff {w : Width} {i : IntegerP} {x : BitVec w.bits} :
    (valueIntegerToUint128 i >>= uint128To w.bits) = ok x ↔
      ∃ n, intMsg i = some n ∧ readAs w n = x.toNat := by
  have hx := x.isLt
  rw [bind_eq_ok]
  constructor
  · rintro ⟨v, h1, h2⟩
    rw [valueInteger_eq_ok] at h1
    rw [uint128To_eq_ok] at h2
    refine ⟨_, h1, ?_⟩
    unfold readAs
    by_cases hw : w = .w128
    · subst hw
      rw [if_pos rfl, ← h2.2]
      exact (Nat.mod_eq_of_lt v.isLt).symm
    · rw [if_neg hw, ← h2.2]
      have h3 := h2.1 hw
      have hd : 2 ^ w.bits ∣ 2 ^ 64 := Nat.pow_dvd_pow 2 (by cases w <;> simp_all [Width.bits])
      rw [← Nat.mod_mod_of_dvd _ hd, Nat.mod_eq_of_lt h3]
  · rintro ⟨n, h1, h2⟩
    refine ⟨_, valueInteger_of_intMsg h1, ?_⟩
    rw [uint128To_eq_ok, BitVec.toNat_ofNat, Nat.mod_eq_of_lt (intMsg_lt h1)]
    unfold readAs at h2
    by_cases hw : w = .w128
    · subst hw
      rw [if_pos rfl] at h2
      exact ⟨fun h => absurd rfl h, by rw [h2]; exact Nat.mod_eq_of_lt hx⟩
    · rw [if_neg hw] at h2
      have hd : 2 ^ w.bits ∣ 2 ^ 64 := Nat.pow_dvd_pow 2 (by cases w <;> simp_all [Width.bits])
      refine ⟨fun _ => by omega, ?_⟩
      rw [← Nat.mod_mod_of_dvd _ hd, h2, Nat.mod_eq_of_lt hx]

theorem intModN_reads (w : Width) (N : U128) (hp hl) (v : Value)
    (x : (Ty.intModN w N hp hl).den) :
    (Ty.intModN w N hp hl).helper.fromValue v = ok x ↔ Represents (.intModN w N hp hl) v x := by
  constructor
  · intro h
    exact Ty.represents_of_fromValue _ v x h (by cases v <;> trivial)
  · exact Ty.fromValue_of_represents _ v x

mutual
theorem Ty.fromValue_iff : (t : Ty) → (v : Value) → (x : t.den) →
    (t.helper.fromValue v = ok x ↔ Reads t v x)
  | .uint w, v, x => by
    cases v with
    | integer i =>
      refine uint_decode_iff.trans ⟨fun ⟨n, h1, h2⟩ => ⟨i, n, rfl, h1, h2⟩, ?_⟩
      rintro ⟨j, n, hj, h1, h2⟩
      cases hj
      exact ⟨n, h1, h2⟩
    | _ =>
      refine ⟨fun h => absurd (show (err _ : Res _) = ok x from h) (by simp), ?_⟩
      rintro ⟨_, _, h, _⟩; cases h
  | .xorWrapper w, v, x => by
    cases v with
    | xorWrapper i =>
      refine uint_decode_iff.trans ⟨fun ⟨n, h1, h2⟩ => ⟨i, n, rfl, h1, h2⟩, ?_⟩
      rintro ⟨j, n, hj, h1, h2⟩
      cases hj
      exact ⟨n, h1, h2⟩
    | _ =>
      refine ⟨fun h => absurd (show (err _ : Res _) = ok x from h) (by simp), ?_⟩
      rintro ⟨_, _, h, _⟩; cases h
  | .intModN w N hp hl, v, x => intModN_reads w N hp hl v x
  | .tuple ts, v, x => by
    cases v with
    | tuple vs =>
      have e : (Ty.tuple ts).helper.fromValue (.tuple vs) =
        (failIf (vs.length ≠ ts.helper.size) .invalidArgument >>= fun _ =>
          ts.helper.fromValues vs) := rfl
      rw [e]
      constructor
      · intro h
        obtain ⟨_, h1, h2⟩ := bind_eq_ok.mp h
        rw [failIf_eq_ok] at h1
        exact ⟨vs, rfl, (Tys.fromValues_iff ts vs x (by omega)).mp h2⟩
      · rintro ⟨vs', hv, h⟩
        cases hv
        have hl := Tys.readsAll_length ts vs x h
        rw [failIf_false (by simp [hl]), bind_ok]
        exact (Tys.fromValues_iff ts vs x hl).mpr h
    | _ =>
      refine ⟨fun h => absurd (show (err _ : Res _) = ok x from h) (by simp), ?_⟩
      rintro ⟨_, h, _⟩; cases h
theorem Tys.readsAll_length : (ts : Tys) → (vs : List Value) → (x : ts.den) →
    ReadsAll ts vs x → vs.length = ts.helper.size
  | .one t, vs, x, h => by
    obtain ⟨v, rfl, _⟩ := h; rfl
  | .cons t ts, vs, x, h => by
    obtain ⟨v, vs', rfl, _, h2⟩ := h
    have := Tys.readsAll_length ts vs' x.2 h2
    show vs'.length + 1 = ts.helper.size + 1
    omega
theorem Tys.fromValues_iff : (ts : Tys) → (vs : List Value) → (x : ts.den) →
    vs.length = ts.helper.size → (ts.helper.fromValues vs = ok x ↔ ReadsAll ts vs x)
  | .one t, vs, x, hl => by
    match vs, hl with
    | [v], _ =>
      refine (Ty.fromValue_iff t v x).trans ⟨fun h => ⟨v, rfl, h⟩, ?_⟩
      rintro ⟨v', hv, h⟩
      cases hv
      exact h
  | .cons t ts, vs, x, hl => by
    have hl' : vs.length = ts.helper.size + 1 := hl
    match vs, hl' with
    | v :: vs, hl' =>
      have hl2 : vs.length = ts.helper.size := by simpa using hl'
      have e : (Tys.cons t ts).helper.fromValues (v :: vs) =
        (t.helper.fromValue v >>= fun a => ts.helper.fromValues vs >>= fun b =>
          ok (a, b)) := rfl
      rw [e]
      constructor
      · intro h
        obtain ⟨a, h1, h⟩ := bind_eq_ok.mp h
        obtain ⟨b, h2, h3⟩ := bind_eq_ok.mp h
        cases Res.ok.inj h3
        exact ⟨v, vs, rfl, (Ty.fromValue_iff t v a).mp h1, (Tys.fromValues_iff ts vs b hl2).mp h2⟩
      · rintro ⟨v', vs', hv, h1, h2⟩
        cases hv
        rw [(Ty.fromValue_iff t v x.1).mpr h1, bind_ok, (Tys.fromValues_iff ts vs x.2 hl2).mpr h2,
          bind_ok]
end

mutual
theorem Ty.fromValue_cases : (t : Ty) → (v : Value) → OkOrInvalid (t.helper.fromValue v)
  | .uint w, v => by
    cases v with
    | integer i => exact (OkOrInvalid.valueInteger i).bind fun _ _ => OkOrInvalid.uint128To _ _
    | _ => exact Or.inr rfl
  | .xorWrapper w, v => by
    cases v with
    | xorWrapper i => exact (OkOrInvalid.valueInteger i).bind fun _ _ => OkOrInvalid.uint128To _ _
    | _ => exact Or.inr rfl
  | .intModN w N hp hl, v => by
    cases v with
    | intModN i =>
      exact (OkOrInvalid.valueInteger i).bind fun _ _ => (OkOrInvalid.failIf _).bind fun _ _ =>
        OkOrInvalid.ok _
    | _ => exact Or.inr rfl
  | .tuple ts, v => by
    cases v with
    | tuple vs =>
      refine (OkOrInvalid.failIf _).bind fun _ h => ?_
      rw [failIf_eq_ok] at h
      exact Tys.fromValues_cases ts vs (by omega)
    | _ => exact Or.inr rfl
theorem Tys.fromValues_cases : (ts : Tys) → (vs : List Value) → vs.length = ts.helper.size →
    OkOrInvalid (ts.helper.fromValues vs)
  | .one t, vs, hl => by
    match vs, hl with
    | [v], _ => exact Ty.fromValue_cases t v
  | .cons t ts, vs, hl => by
    have hl' : vs.length = ts.helper.size + 1 := hl
    match vs, hl' with
    | v :: vs, hl' =>
      exact (Ty.fromValue_cases t v).bind fun _ _ =>
        (Tys.fromValues_cases ts vs (by simpa using hl')).bind fun _ _ => OkOrInvalid.ok _
end

/-! ### Comparison of value types -/

theorem intMsg_valueInteger (m : IntegerP) :
    (∃ v, intMsg m = some v.toNat ∧ valueIntegerToUint128 m = ok v) ∨
    (intMsg m = none ∧ valueIntegerToUint128 m = err .invalidArgument) := by
  cases m with
  | notSet => exact Or.inr ⟨rfl, rfl⟩
  | u64 v => exact Or.inl ⟨_, valueInteger_eq_ok.mp rfl, rfl⟩
  | u128 hi lo => exact Or.inl ⟨_, valueInteger_eq_ok.mp rfl, rfl⟩

theorem canons_length {els : List ValueType} {cs : List Canon} (h : canons els = some cs) :
    cs.length = els.length := by
  induction els generalizing cs with
  | nil => simp only [canons, Option.some.injEq] at h; subst h; rfl
  | cons el els ih =>
    rw [canons] at h
    split at h
    · rename_i c cs' h1 h2
      simp only [Option.some.injEq] at h
      subst h
      simp [ih h2]
    · simp at h

mutual
theorem valueTypesAreEqual_canon : (a b : ValueType) → (x y : Canon) → canon a = some x →
    canon b = some y → ∃ r, valueTypesAreEqual a b = ok r ∧ (r = true ↔ x = y)
  | .notSet, _, _, _, h, _ => by simp [canon] at h
  | .integer c, b, x, y, hx, hy => by
    simp only [canon, Option.some.injEq] at hx; subst hx
    cases b with
    | notSet => simp [canon] at hy
    | integer d =>
      simp only [canon, Option.some.injEq] at hy; subst hy
      exact ⟨_, rfl, by simp⟩
    | xorWrapper d =>
      simp only [canon, Option.some.injEq] at hy; subst hy
      exact ⟨_, rfl, by simp⟩
    | intModN d m =>
      simp only [canon, Option.map_eq_some_iff] at hy
      obtain ⟨_, _, rfl⟩ := hy
      exact ⟨_, rfl, by simp⟩
    | tuple els =>
      simp only [canon, Option.map_eq_some_iff] at hy
      obtain ⟨_, _, rfl⟩ := hy
      exact ⟨_, rfl, by simp⟩
  | .xorWrapper c, b, x, y, hx, hy => by
    simp only [canon, Option.some.injEq] at hx; subst hx
    cases b with
    | notSet => simp [canon] at hy
    | integer d =>
      simp only [canon, Option.some.injEq] at hy; subst hy
      exact ⟨_, rfl, by simp⟩
    | xorWrapper d =>
      simp only [canon, Option.some.injEq] at hy; subst hy
      exact ⟨_, rfl, by simp⟩
    | intModN d m =>
      simp only [canon, Option.map_eq_some_iff] at hy
      obtain ⟨_, _, rfl⟩ := hy
      exact ⟨_, rfl, by simp⟩
    | tuple els =>
      simp only [canon, Option.map_eq_some_iff] at hy
      obtain ⟨_, _, rfl⟩ := hy
      exact ⟨_, rfl, by simp⟩
  | .intModN c m, b, x, y, hx, hy => by
    simp only [canon, Option.map_eq_some_iff] at hx
    obtain ⟨n, hn, rfl⟩ := hx
    cases b with
    | notSet => simp [canon] at hy
    | integer d =>
      simp only [canon, Option.some.injEq] at hy; subst hy
      exact ⟨_, rfl, by simp⟩
    | xorWrapper d =>
      simp only [canon, Option.some.injEq] at hy; subst hy
      exact ⟨_, rfl, by simp⟩
    | intModN d m' =>
      simp only [canon, Option.map_eq_some_iff] at hy
      obtain ⟨n', hn', rfl⟩ := hy
      have h1 := valueInteger_of_intMsg hn
      have h2 := valueInteger_of_intMsg hn'
      refine ⟨c == d && BitVec.ofNat 128 n == BitVec.ofNat 128 n', by
        simp [valueTypesAreEqual, h1, h2], ?_⟩
      simp only [Bool.and_eq_true, beq_iff_eq, Canon.intModN.injEq]
      refine and_congr_right fun _ => ⟨fun h => ?_, fun h => by rw [h]⟩
      have := congrArg BitVec.toNat h
      simpa [Nat.mod_eq_of_lt (intMsg_lt hn), Nat.mod_eq_of_lt (intMsg_lt hn')] using this
    | tuple els =>
      simp only [canon, Option.map_eq_some_iff] at hy
      obtain ⟨_, _, rfl⟩ := hy
      exact ⟨_, rfl, by simp⟩
  | .tuple as, b, x, y, hx, hy => by
    simp only [canon, Option.map_eq_some_iff] at hx
    obtain ⟨xs, hxs, rfl⟩ := hx
    cases b with
    | notSet => simp [canon] at hy
    | integer d =>
      simp only [canon, Option.some.injEq] at hy; subst hy
      exact ⟨_, rfl, by simp⟩
    | xorWrapper d =>
      simp only [canon, Option.some.injEq] at hy; subst hy
      exact ⟨_, rfl, by simp⟩
    | intModN d m =>
      simp only [canon, Option.map_eq_some_iff] at hy
      obtain ⟨_, _, rfl⟩ := hy
      exact ⟨_, rfl, by simp⟩
    | tuple bs =>
      simp only [canon, Option.map_eq_some_iff] at hy
      obtain ⟨ys, hys, rfl⟩ := hy
      show ∃ r, (if as.length = bs.length then valueTypesAreEqualList as bs else ok false) = ok r ∧ _
      have lx := canons_length hxs
      have ly := canons_length hys
      split
      · rename_i hl
        obtain ⟨r, h1, h2⟩ := valueTypesAreEqualList_canon as bs xs ys hxs hys hl
        exact ⟨r, h1, by rw [h2]; simp⟩
      · rename_i hl
        refine ⟨false, rfl, ?_⟩
        simp only [Bool.false_eq_true, Canon.tuple.injEq, false_iff]
        rintro rfl
        exact hl (by omega)
theorem valueTypesAreEqualList_canon : (as bs : List ValueType) → (xs ys : List Canon) →
    canons as = some xs → canons bs = some ys → as.length = bs.length →
    ∃ r, valueTypesAreEqualList as bs = ok r ∧ (r = true ↔ xs = ys)
  | [], bs, xs, ys, hx, hy, hl => by
    match bs, hl with
    | [], _ =>
      simp only [canons, Option.some.injEq] at hx hy
      subst hx; subst hy
      exact ⟨true, rfl, by simp⟩
  | a :: as, bs, xs, ys, hx, hy, hl => by
    match bs, hl with
    | b :: bs, hl =>
      rw [canons] at hx hy
      split at hx
      · rename_i c cs h1 h2
        split at hy
        · rename_i d ds h3 h4
          simp only [Option.some.injEq] at hx hy
          subst hx; subst hy
          obtain ⟨r, e1, i1⟩ := valueTypesAreEqual_canon a b c d h1 h3
          obtain ⟨rs, e2, i2⟩ := valueTypesAreEqualList_canon as bs cs ds h2 h4 (by simpa using hl)
          refine ⟨r && rs, by simp [valueTypesAreEqualList, e1, e2], ?_⟩
          simp [i1, i2]
        · simp at hy
      · simp at hx
end

mutual
theorem canon_of_equal : (a b : ValueType) → valueTypesAreEqual a b = ok true →
    (canon a).isSome = true ∧ (canon b).isSome = true
  | .notSet, b, h => by simp [valueTypesAreEqual] at h
  | .integer c, b, h => by
    cases b <;> simp [valueTypesAreEqual, canon] at h ⊢
  | .xorWrapper c, b, h => by
    cases b <;> simp [valueTypesAreEqual, canon] at h ⊢
  | .intModN c m, b, h => by
    cases b with
    | intModN d m' =>
      rw [valueTypesAreEqual, bind_eq_ok] at h
      obtain ⟨v, h1, h⟩ := h
      rw [bind_eq_ok] at h
      obtain ⟨v', h2, h⟩ := h
      rw [valueInteger_eq_ok] at h1 h2
      simp [canon, h1, h2]
    | _ => simp [valueTypesAreEqual] at h
  | .tuple as, b, h => by
    cases b with
    | tuple bs =>
      rw [valueTypesAreEqual] at h
      split at h
      · rename_i hl
        have := canons_of_equal as bs hl h
        simp only [Option.isSome_iff_exists] at this
        obtain ⟨⟨x, hx⟩, ⟨y, hy⟩⟩ := this
        simp [canon, hx, hy]
      · simp at h
    | _ => simp [valueTypesAreEqual] at h
theorem canons_of_equal : (as bs : List ValueType) → as.length = bs.length →
    valueTypesAreEqualList as bs = ok true → (canons as).isSome = true ∧ (canons bs).isSome = true
  | [], bs, hl, h => by
    match bs, hl with
    | [], _ => simp [canons]
  | a :: as, bs, hl, h => by
    match bs, hl with
    | b :: bs, hl =>
      rw [valueTypesAreEqualList, bind_eq_ok] at h
      obtain ⟨r, h1, h⟩ := h
      rw [bind_eq_ok] at h
      obtain ⟨rs, h2, h⟩ := h
      simp only [ok.injEq, Bool.and_eq_true] at h
      rw [h.1] at h1
      rw [h.2] at h2
      have e1 := canon_of_equal a b h1
      have e2 := canons_of_equal as bs (by simpa using hl) h2
      simp only [Option.isSome_iff_exists] at e1 e2
      obtain ⟨⟨x, hx⟩, ⟨y, hy⟩⟩ := e1
      obtain ⟨⟨xs, hxs⟩, ⟨ys, hys⟩⟩ := e2
      simp [canons, hx, hy, hxs, hys]
end

mutual
theorem valueTypesAreEqual_cases : (a b : ValueType) → OkOrInvalid (valueTypesAreEqual a b)
  | .notSet, b => Or.inr (by simp [valueTypesAreEqual])
  | .integer c, b => by cases b <;> first | exact Or.inl ⟨_, rfl⟩ | exact Or.inr rfl
  | .xorWrapper c, b => by cases b <;> first | exact Or.inl ⟨_, rfl⟩ | exact Or.inr rfl
  | .intModN c m, b => by
    cases b with
    | intModN d m' =>
      exact (OkOrInvalid.valueInteger m).bind fun _ _ =>
        (OkOrInvalid.valueInteger m').bind fun _ _ => OkOrInvalid.ok _
    | _ => first | exact Or.inl ⟨_, rfl⟩ | exact Or.inr rfl
  | .tuple as, b => by
    cases b with
    | tuple bs =>
      rw [valueTypesAreEqual]
      split
      · exact valueTypesAreEqualList_cases as bs
      · exact OkOrInvalid.ok _
    | _ => first | exact Or.inl ⟨_, rfl⟩ | exact Or.inr rfl
theorem valueTypesAreEqualList_cases : (as bs : List ValueType) →
    OkOrInvalid (valueTypesAreEqualList as bs)
  | [], _ => OkOrInvalid.ok _
  | _ :: _, [] => OkOrInvalid.ok _
  | a :: as, b :: bs => (valueTypesAreEqual_cases a b).bind fun _ _ =>
      (valueTypesAreEqualList_cases as bs).bind fun _ _ => OkOrInvalid.ok _
end

/-! ### Sampling -/

theorem leNat_lt (b : Bytes) : leNat b < 2 ^ (8 * b.length) := by
  induction b with
  | nil => simp [leNat]
  | cons x b ih =>
    have := x.isLt
    simp only [leNat, List.length_cons]
    rw [show 8 * (b.length + 1) = 8 * b.length + 8 by omega, Nat.pow_add]
    omega

theorem refill_toNat {N : U128} {w : Nat} (hw : w ≤ 128) (r : U128) (x : BitVec w) :
    ((if w < 128 then (r / N) <<< w else r / N) ||| x.setWidth 128).toNat =
      refill N.toNat w r.toNat x.toNat := by
  unfold refill
  have hx : (x.setWidth 128).toNat = x.toNat := setWidth_toNat_lt hw x
  rw [BitVec.toNat_or, hx]
  split
  · rename_i hlt
    rw [BitVec.toNat_shiftLeft, BitVec.toNat_udiv, Nat.shiftLeft_eq]
    have e : (r.toNat / N.toNat * 2 ^ w) % 2 ^ 128 =
        2 ^ w * ((r.toNat / N.toNat) % 2 ^ (128 - w)) := by
      rw [Nat.mul_comm, show (2 : Nat) ^ 128 = 2 ^ w * 2 ^ (128 - w) by
        rw [← Nat.pow_add]; congr 1; omega, Nat.mul_mod_mul_left]
    rw [e, Nat.two_pow_add_eq_or_of_lt x.isLt]
  · rw [BitVec.toNat_udiv]

theorem sampleLoop_toNat {N : U128} {w : Nat} (hw : w ≤ 128) (hlt : N.toNat < 2 ^ w)
    (hpos : 0 < N.toNat) (r : U128) (xs : List (BitVec w)) :
    (IntModN.sampleLoop N r xs).map (·.toNat) =
      residues N.toNat w r.toNat (xs.map (·.toNat)) := by
  have hmk : ∀ r : U128, (IntModN.mk N ((r % N).setWidth w)).toNat = r.toNat % N.toNat := by
    intro r
    have hm : r.toNat % N.toNat < N.toNat := Nat.mod_lt _ hpos
    rw [IntModN.mk_toNat N hw, BitVec.toNat_setWidth, BitVec.toNat_umod,
      Nat.mod_eq_of_lt (by omega : r.toNat % N.toNat < 2 ^ w), Nat.mod_eq_of_lt hm]
  induction xs generalizing r with
  | nil => simp [IntModN.sampleLoop, residues, hmk]
  | cons x xs ih =>
    simp only [IntModN.sampleLoop, List.map_cons, residues, hmk, ih]
    rw [refill_toNat hw]

theorem residues_lt {N : Nat} (w : Nat) (hN : 0 < N) (r : Nat) (xs : List Nat) :
    ∀ v ∈ residues N w r xs, v < N := by
  induction xs generalizing r with
  | nil => simp [residues, Nat.mod_lt _ hN]
  | cons x xs ih =>
    simp only [residues, List.mem_cons]
    rintro v (rfl | hv)
    · exact Nat.mod_lt _ hN
    · exact ih _ v hv

theorem residues_length (N w r : Nat) (xs : List Nat) :
    (residues N w r xs).length = xs.length + 1 := by
  induction xs generalizing r with
  | nil => rfl
  | cons x xs ih => simp [residues, ih]

theorem convertAt_ok {w : Nat} (hw8 : 8 * (w / 8) = w) {b : Bytes} {pos : Nat}
    (h : pos + w / 8 ≤ b.length) :
    (substr b pos (w / 8) >>= IntModN.convertBytesTo w) =
      ok (BitVec.ofNat w (leAt b pos (w / 8))) ∧ leAt b pos (w / 8) < 2 ^ w := by
  have hl : ((b.drop pos).take (w / 8)).length = w / 8 := by simp; omega
  refine ⟨?_, ?_⟩
  · rw [substr_ok (by omega), bind_ok, convertBytesTo_ok hl]; rfl
  · have := leNat_lt ((b.drop pos).take (w / 8))
    rw [hl, hw8] at this
    exact this

theorem unsafeSample_ok {N : U128} {w : Nat} (hw : w ≤ 128) (hw8 : 8 * (w / 8) = w)
    (hlt : N.toNat < 2 ^ w) (hpos : 0 < N.toNat) (b : Bytes) (n : Nat) (hn : 0 < n)
    (hb : 16 + w / 8 * (n - 1) ≤ b.length) :
    ∃ samples, IntModN.unsafeSampleFromBytes N w b n = ok samples ∧
      samples.map (·.toNat) = residues N.toNat w (leAt b 0 16)
        ((List.range (n - 1)).map fun i => leAt b (16 + i * (w / 8)) (w / 8)) := by
  have hat : ∀ i, i < n - 1 → 16 + i * (w / 8) + w / 8 ≤ b.length := by
    intro i hi
    have h1 : w / 8 * (i + 1) ≤ w / 8 * (n - 1) := Nat.mul_le_mul_left _ (by omega)
    have h2 : w / 8 * (i + 1) = i * (w / 8) + w / 8 := by rw [Nat.mul_add, Nat.mul_comm]; omega
    omega
  have h0 := convertAt_ok (w := 128) (by decide) (b := b) (pos := 0) (by omega)
  have hm : mapRes (fun i => substr b (16 + i * (w / 8)) (w / 8) >>= IntModN.convertBytesTo w)
      (List.range (n - 1)) =
      ok ((List.range (n - 1)).map fun i => BitVec.ofNat w (leAt b (16 + i * (w / 8)) (w / 8))) :=
    mapRes_eq_ok_map (fun i hi => (convertAt_ok hw8 (hat i (by simpa using hi))).1)
  refine ⟨IntModN.sampleLoop N (BitVec.ofNat 128 (leAt b 0 (128 / 8)))
    ((List.range (n - 1)).map fun i => BitVec.ofNat w (leAt b (16 + i * (w / 8)) (w / 8))), ?_, ?_⟩
  · unfold IntModN.unsafeSampleFromBytes
    rw [if_neg (by omega)]
    show (substr b 0 16 >>= fun s => IntModN.convertBytesTo 128 s >>= fun r =>
      mapRes (fun i => substr b (16 + i * (w / 8)) (w / 8) >>= IntModN.convertBytesTo w)
        (List.range (n - 1)) >>= fun rs => ok (IntModN.sampleLoop N r rs)) = _
    rw [← bind_assoc, show substr b 0 16 >>= IntModN.convertBytesTo 128 = _ from h0.1, bind_ok, hm,
      bind_ok]
  · rw [sampleLoop_toNat hw hlt hpos, List.map_map]
    have hr : (BitVec.ofNat 128 (leAt b 0 16)).toNat = leAt b 0 16 := by
      rw [BitVec.toNat_ofNat, Nat.mod_eq_of_lt h0.2]
    rw [show (128 / 8 : Nat) = 16 from rfl, hr]
    congr 1
    apply List.map_congr_left
    intro i hi
    simp only [Function.comp]
    rw [BitVec.toNat_ofNat, Nat.mod_eq_of_lt (convertAt_ok hw8 (hat i (by simpa using hi))).2]

end Verif
