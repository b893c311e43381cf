import Verif.Lemmas.Short
import Verif.Lemmas.Decode
import Verif.Lemmas.Fits
import Verif.Lemmas.Create
/-!
# C20 - C26: value types, encoding, modular arithmetic, sampling
-/
namespace Verif
open Res Spec

/-- `Tuple<IntModN<uint32, 4294967291>, Tuple<uint64, uint64, uint64, uint64>>`, used as witness. -/
def exNested : Ty :=
  .tuple (.cons (.intModN .w32 4294967291#128 (by decide) (by decide))
    (.one (.tuple (.cons (.uint .w64) (.cons (.uint .w64) (.cons (.uint .w64)
      (.one (.uint .w64))))))))

/-! ## C20 -/

/-- C20: decoding an encoded element gives the element back. -/
theorem C20_roundtrip (t : Ty) (x : t.den) : t.helper.fromValue (t.helper.toValue x) = ok x :=
  t.fromValue_toValue x

/-- C20: the encoded element validates against the description of the type. -/
theorem C20_encoded_validates (t : Ty) (x : t.den) :
    validateValue t.helper.toValueType (t.helper.toValue x) = ok () := t.validateValue_ok x

/-- C20: the description of a type is a valid value type. -/
theorem C20_description_valid (t : Ty) : validateValueType t.helper.toValueType = ok () :=
  t.validateValueType_ok

/-- C20: the encoded element represents the element. -/
theorem C20_encoded_represents (t : Ty) (x : t.den) : Represents t (t.helper.toValue x) x := by
  refine Ty.represents_of_fromValue t _ x (t.fromValue_toValue x) ?_
  exact noWide_toValue t x

/-- C20: different types have different descriptions, also according to `ValueTypesAreEqual`. -/
theorem C20_descriptions_differ (s t : Ty) (h : s ≠ t) :
    s.helper.toValueType ≠ t.helper.toValueType ∧
    valueTypesAreEqual s.helper.toValueType t.helper.toValueType ≠ ok true :=
  ⟨fun e => h (Ty.toValueType_inj s t e), fun e => h (Ty.eq_of_equal s t e)⟩

/-- Integers of 16 bits in a tuple and the same with XOR. -/
example : valueTypesAreEqual (Ty.helper (.tuple (.cons (.uint .w8) (.one (.uint .w16))))).toValueType
    (Ty.helper (.tuple (.cons (.uint .w8) (.one (.xorWrapper .w16))))).toValueType ≠ ok true :=
  (C20_descriptions_differ _ _ (by simp)).2

/-- C20 on a 128-bit element of a tuple with an `IntModN`. -/
example : ∃ (t : Ty) (x : t.den),
    t.helper.toValue x = .tuple [.intModN (.u64 7), .integer (.u128 1 2)] :=
  ⟨.tuple (.cons (.intModN .w32 11#128 (by decide) (by decide)) (.one (.uint .w128))),
    (⟨7#32, by decide⟩, 0x10000000000000002#128), by decide⟩

/-! ## C21 -/

/-- C21: every message representing an element decodes to it. -/
theorem C21_fromValue_accepts (t : Ty) (v : Value) (x : t.den) (h : Represents t v x) :
    t.helper.fromValue v = ok x := t.fromValue_of_represents v x h

/-- C21, restricted to messages in which no 8- to 64-bit integer position holds a number of `2^64`
or more: decoding gives the represented element, and INVALID_ARGUMENT if there is none. The full
statement (without `NoWide`) is false, see `C21_refuted`. -/
theorem C21_fromValue_partial (t : Ty) (v : Value) (hv : NoWide t v) :
    (∃ x, Represents t v x ∧ t.helper.fromValue v = ok x) ∨
    ((∀ x, ¬ Represents t v x) ∧ t.helper.fromValue v = err .invalidArgument) := by
  rcases t.fromValue_cases v with ⟨x, hx⟩ | he
  · exact Or.inl ⟨x, t.represents_of_fromValue v x hx hv, hx⟩
  · refine Or.inr ⟨fun x h => ?_, he⟩
    rw [t.fromValue_of_represents v x h] at he
    exact absurd he (by simp)

/-- C21 on a tuple: in another encoding, and with a number that does not fit 8 bits. -/
example : (Ty.helper (.tuple (.cons (.uint .w8) (.one (.uint .w128))))).fromValue
      (.tuple [.integer (.u128 0 30), .integer (.u128 1 1)]) = ok (30#8, 0x10000000000000001#128) ∧
    (Ty.helper (.tuple (.cons (.uint .w8) (.one (.uint .w128))))).fromValue
      (.tuple [.integer (.u64 300), .integer (.u128 1 1)]) = err .invalidArgument := by
  refine ⟨C21_fromValue_accepts _ _ _ ?_, ?_⟩
  · exact ⟨_, rfl, _, _, rfl, ⟨_, rfl, rfl⟩, _, rfl, _, rfl, rfl⟩
  · rcases C21_fromValue_partial (.tuple (.cons (.uint .w8) (.one (.uint .w128))))
      (.tuple [.integer (.u64 300), .integer (.u128 1 1)]) (by simp [NoWide, NoWideAll, below64, intMsg]) with ⟨x, _, h⟩ | h
    · cases h
    · exact h.2

/-- C21, all messages: decoding never does anything but succeed or return INVALID_ARGUMENT. -/
theorem C21_fromValue_outcomes (t : Ty) (v : Value) :
    (∃ x, t.helper.fromValue v = ok x) ∨ t.helper.fromValue v = err .invalidArgument :=
  t.fromValue_cases v

/-- C21, all messages: what decoding does. It gives the element that the message holds when the numbers in the place of
8- to 64-bit integers are cut to 64 bits, and INVALID_ARGUMENT if there is none. -/
theorem C21_exact (t : Ty) (v : Value) :
    (∀ x, t.helper.fromValue v = ok x ↔ Reads t v x) ∧
    (t.helper.fromValue v = err .invalidArgument ↔ ∀ x, ¬ Reads t v x) := by
  refine ⟨fun x => t.fromValue_iff v x, ?_⟩
  rcases t.fromValue_cases v with ⟨x, hx⟩ | he
  · rw [hx]
    exact ⟨(fun h => nomatch h), fun h => absurd ((t.fromValue_iff v x).mp hx) (h x)⟩
  · refine ⟨fun _ x h => ?_, fun _ => he⟩
    rw [(t.fromValue_iff v x).mpr h] at he
    cases he

/-- `C21_exact` on a message that represents no element of its type: read as a 16-bit integer, `2^64 + 5` is 5. -/
example : Reads (.tuple (.cons (.uint .w16) (.one (.uint .w128))))
    (.tuple [.integer (.u128 1 5), .integer (.u128 1 5)]) (5#16, 0x10000000000000005#128) :=
  ((C21_exact _ _).1 _).mp (by decide)

/-- The unrestricted C21 is false of the code: `Uint128To<uint32_t>` looks at the low 64 bits only
(/repo/dpf/internal/value_type_helpers.h:168-179), so `2^64 + 5` decodes to 5. -/
theorem C21_refuted :
    ¬ ∀ (t : Ty) (v : Value) (x : t.den), t.helper.fromValue v = ok x → Represents t v x := by
  intro h
  obtain ⟨i, hi, hn⟩ := h (.uint .w32) (.integer (.u128 1 5)) 5#32 (by decide)
  simp only [Value.integer.injEq] at hi
  subst hi
  exact absurd hn (by decide)

/-- An element of the hypothesis of `C21_fromValue_partial`. -/
example : NoWide (.tuple (.cons (.uint .w8) (.one (.uint .w128))))
    (.tuple [.integer (.u64 300), .integer (.u128 1 1)]) := by
  simp [NoWide, NoWideAll, below64, intMsg]

/-! ## C22 -/

/-- C22: on types without unset parts the comparison succeeds and answers whether the two canonical
forms are the same. -/
theorem C22_compare (a b : ValueType) (x y : Canon) (ha : canon a = some x) (hb : canon b = some y) :
    ∃ r, valueTypesAreEqual a b = ok r ∧ (r = true ↔ x = y) :=
  valueTypesAreEqual_canon a b x y ha hb

/-- Two encodings of the same modulus. -/
example : ∃ r, valueTypesAreEqual (.tuple [.integer 8, .intModN 64 (.u64 5)])
    (.tuple [.integer 8, .intModN 64 (.u128 0 5)]) = ok r ∧ r = true := by
  obtain ⟨r, h, hr⟩ := C22_compare (.tuple [.integer 8, .intModN 64 (.u64 5)]) (.tuple [.integer 8, .intModN 64 (.u128 0 5)])
    _ _ rfl rfl
  exact ⟨r, h, hr.mpr rfl⟩

/-- C22: hence it is reflexive, symmetric and transitive. -/
theorem C22_equivalence :
    (∀ a, (canon a).isSome → valueTypesAreEqual a a = ok true) ∧
    (∀ a b, valueTypesAreEqual a b = ok true → valueTypesAreEqual b a = ok true) ∧
    (∀ a b c, valueTypesAreEqual a b = ok true → valueTypesAreEqual b c = ok true →
      valueTypesAreEqual a c = ok true) := by
  have key : ∀ a b, valueTypesAreEqual a b = ok true → ∃ x, canon a = some x ∧ canon b = some x := by
    intro a b h
    obtain ⟨ha, hb⟩ := canon_of_equal a b h
    obtain ⟨x, hx⟩ := Option.isSome_iff_exists.mp ha
    obtain ⟨y, hy⟩ := Option.isSome_iff_exists.mp hb
    obtain ⟨r, h1, h2⟩ := valueTypesAreEqual_canon a b x y hx hy
    rw [h] at h1
    simp only [ok.injEq] at h1
    have := h2.mp h1.symm
    exact ⟨x, hx, by rw [hy, this]⟩
  have mk : ∀ a b x, canon a = some x → canon b = some x → valueTypesAreEqual a b = ok true := by
    intro a b x ha hb
    obtain ⟨r, h1, h2⟩ := valueTypesAreEqual_canon a b x x ha hb
    rw [h1, h2.mpr rfl]
  refine ⟨?_, ?_, ?_⟩
  · intro a ha
    obtain ⟨x, hx⟩ := Option.isSome_iff_exists.mp ha
    exact mk a a x hx hx
  · intro a b h
    obtain ⟨x, ha, hb⟩ := key a b h
    exact mk b a x hb ha
  · intro a b c h1 h2
    obtain ⟨x, ha, hb⟩ := key a b h1
    obtain ⟨y, hb', hc⟩ := key b c h2
    rw [hb] at hb'
    simp only [Option.some.injEq] at hb'
    exact mk a c x ha (by rw [hc, hb'])

/-- C22: a type with an unset part is never reported equal to anything; the comparison then fails
with INVALID_ARGUMENT or says "different". -/
theorem C22_unset (a b : ValueType) (h : canon a = none ∨ canon b = none) :
    valueTypesAreEqual a b = ok false ∨ valueTypesAreEqual a b = err .invalidArgument := by
  rcases valueTypesAreEqual_cases a b with ⟨r, hr⟩ | he
  · left
    cases r with
    | false => exact hr
    | true =>
      have := canon_of_equal a b hr
      rcases h with h | h <;> simp [h] at this
  · exact Or.inr he

/-- A tuple with an unset part. -/
example : valueTypesAreEqual (.tuple [.integer 8, .notSet]) (.tuple [.integer 8, .notSet]) ≠ ok true := by
  rcases C22_unset (.tuple [.integer 8, .notSet]) (.tuple [.integer 8, .notSet]) (Or.inl rfl) with h | h <;> rw [h] <;> simp

/-- C22: two encodings of one modulus compare equal, also inside a tuple. -/
example : canon (.tuple [.integer 8, .intModN 64 (.u64 5)]) =
    canon (.tuple [.integer 8, .intModN 64 (.u128 0 5)]) ∧
    (canon (.tuple [.integer 8, .intModN 64 (.u64 5)])).isSome := by
  constructor <;> simp [canon, canons, intMsg]

/-! ## C23 -/

/-- C23: addition, subtraction and negation of `IntModN` are exact modulo `N` in machine
arithmetic, for every base width and every modulus that fits. -/
theorem C23_arithmetic (w : Width) (N : U128) (hp : 0 < N.toNat) (hl : N.toNat < 2 ^ w.bits)
    (a b : (Ty.intModN w N hp hl).den) :
    let H := (Ty.intModN w N hp hl).helper
    ((H.add a b).1.toNat : Int) = ((a.1.toNat : Int) + b.1.toNat) % N.toNat ∧
    ((H.sub a b).1.toNat : Int) = ((a.1.toNat : Int) - b.1.toNat) % N.toNat ∧
    ((H.neg a).1.toNat : Int) = (-(a.1.toNat : Int)) % N.toNat ∧
    H.zero.1.toNat = 0 := by
  intro H
  have ha := a.2
  have hb := b.2
  have hw := w.bits_le
  refine ⟨?_, ?_, ?_, ?_⟩
  · show ((IntModN.addBase N a.1 b.1).toNat : Int) = _
    rw [IntModN.addBase_toNat N hw hl _ _ ha hb]
    simp
  · show ((IntModN.subBase N a.1 b.1).toNat : Int) = _
    rw [IntModN.subBase_toNat N hw hl _ _ ha (Nat.le_of_lt hb)]
    rw [Int.natCast_emod]
    have : (((a.1.toNat + (N.toNat - b.1.toNat) : Nat)) : Int) =
        ((a.1.toNat : Int) - b.1.toNat) + N.toNat := by omega
    rw [this, Int.add_emod_right]
  · show ((IntModN.neg N a.1).toNat : Int) = _
    rw [IntModN.neg_toNat N hw hl _ ha, Int.natCast_emod]
    have : (((N.toNat - a.1.toNat : Nat)) : Int) = (-(a.1.toNat : Int)) + N.toNat := by omega
    rw [this, Int.add_emod_right]
  · show (IntModN.mk N (0 : BitVec w.bits)).toNat = 0
    rw [IntModN.mk_toNat N hw]; simp

/-- The largest 64-bit modulus. -/
example (a b : (Ty.intModN .w64 18446744073709551615#128 (by decide) (by decide)).den) :
    (((Ty.intModN .w64 18446744073709551615#128 (by decide) (by decide)).helper.add a b).1.toNat : Int) =
      ((a.1.toNat : Int) + b.1.toNat) % 18446744073709551615 :=
  (C23_arithmetic .w64 18446744073709551615#128 (by decide) (by decide) a b).1

/-- C23: an integer is reduced mod `N` on construction. -/
theorem C23_construct (N : U128) (w : Width) (v : BitVec w.bits) :
    (IntModN.mk N v).toNat = v.toNat % N.toNat := IntModN.mk_toNat N w.bits_le v

/-- C23 at the largest 64-bit modulus, where the sum does not fit into 64 bits. -/
example : IntModN.addBase (w := 64) 18446744073709551615#128 18446744073709551614#64
    18446744073709551613#64 = 18446744073709551612#64 := by decide

/-! ## C24 -/

/-- C24: with enough bytes (`16 + b (n - 1)`, less than 2^31) sampling succeeds; the samples are the residues of the
running state, which starts with the first 16 bytes and is refilled with `b` bytes per sample. -/
theorem C24_sample (fp : FpEnv) (N : U128) (w : Width) (hpos : 0 < N.toNat)
    (hlt : N.toNat < 2 ^ w.bits) (bytes : Bytes) (sec : Sec) (n : Nat) (hn : 1 ≤ n)
    (hsec : IntModN.Sec.gt sec (fp.secLevel n N) = false) (hr : 16 + w.bits / 8 * (n - 1) < 2 ^ 31)
    (hb : 16 + w.bits / 8 * (n - 1) ≤ bytes.length) :
    ∃ samples, IntModN.sampleFromBytes fp N w.bits bytes sec n = ok samples ∧
      samples.length = n ∧ (∀ s ∈ samples, s.toNat < N.toNat) ∧
      samples.map (·.toNat) = residues N.toNat w.bits (leAt bytes 0 16)
        ((List.range (n - 1)).map fun i => leAt bytes (16 + i * (w.bits / 8)) (w.bits / 8)) := by
  obtain ⟨samples, h1, h2⟩ := unsafeSample_ok w.bits_le (w.bits_dvd).symm hlt hpos bytes n (by omega) hb
  have hreq := getNumBytesRequired_of fp n w N hpos hlt sec hn hsec hr
  have hle := w.samples_le n
  refine ⟨samples, ?_, ?_, ?_, h2⟩
  · unfold IntModN.sampleFromBytes
    rw [failIf_false (by omega), bind_ok, wrapInt32_id (by omega), hreq, bind_ok, failIf_false (by omega),
      bind_ok, h1]
  · have := congrArg List.length h2
    rw [List.length_map, residues_length, List.length_map, List.length_range] at this
    omega
  · intro s hs
    have hm : s.toNat ∈ samples.map (·.toNat) := List.mem_map_of_mem hs
    rw [h2] at hm
    exact residues_lt w.bits hpos _ _ s.toNat hm

/-- C24: only the first `16 + b (n - 1)` bytes matter. -/
theorem C24_reads_prefix (fp : FpEnv) (N : U128) (w : Width) (hpos : 0 < N.toNat)
    (hlt : N.toNat < 2 ^ w.bits) (bytes : Bytes) (sec : Sec) (n : Nat) (hn : 1 ≤ n)
    (hsec : IntModN.Sec.gt sec (fp.secLevel n N) = false) (hr : 16 + w.bits / 8 * (n - 1) < 2 ^ 31)
    (hb : 16 + w.bits / 8 * (n - 1) ≤ bytes.length) :
    IntModN.sampleFromBytes fp N w.bits bytes sec n =
      IntModN.sampleFromBytes fp N w.bits (bytes.take (16 + w.bits / 8 * (n - 1))) sec n := by
  obtain ⟨s1, h1, _, _, e1⟩ := C24_sample fp N w hpos hlt bytes sec n hn hsec hr hb
  obtain ⟨s2, h2, _, _, e2⟩ := C24_sample fp N w hpos hlt
    (bytes.take (16 + w.bits / 8 * (n - 1))) sec n hn hsec hr (by simp; omega)
  rw [h1, h2]
  congr 1
  have hle : ∀ pos k, pos + k ≤ 16 + w.bits / 8 * (n - 1) →
      leAt (bytes.take (16 + w.bits / 8 * (n - 1))) pos k = leAt bytes pos k := by
    intro pos k h
    unfold leAt
    rw [List.drop_take, List.take_take, Nat.min_eq_left (by omega)]
  have e : s1.map (·.toNat) = s2.map (·.toNat) := by
    rw [e1, e2, hle 0 16 (by omega)]
    congr 1
    apply List.map_congr_left
    intro i hi
    rw [hle]
    have hi : i < n - 1 := by simpa using hi
    have h1 : w.bits / 8 * (i + 1) ≤ w.bits / 8 * (n - 1) := Nat.mul_le_mul_left _ (by omega)
    have h2 : w.bits / 8 * (i + 1) = i * (w.bits / 8) + w.bits / 8 := by
      rw [Nat.mul_add, Nat.mul_comm]; omega
    omega
  exact List.map_inj_right (f := fun x : BitVec w.bits => x.toNat)
    (fun _ _ h => BitVec.eq_of_toNat_eq h) |>.mp e

/-- Three samples modulo 11 from 8-bit integers read 18 bytes. -/
example (rest : Bytes) : IntModN.sampleFromBytes ⟨fun _ _ => 100, fun _ => 0⟩ 11#128 8
      ((List.range 18).map (fun i => BitVec.ofNat 8 (i + 200)) ++ rest) (.val 40) 3 =
    IntModN.sampleFromBytes ⟨fun _ _ => 100, fun _ => 0⟩ 11#128 8
      (((List.range 18).map (fun i => BitVec.ofNat 8 (i + 200)) ++ rest).take 18) (.val 40) 3 :=
  C24_reads_prefix _ 11#128 .w8 (by decide) (by decide) _ (.val 40) 3 (by decide) (by decide) (by decide)
    (by simp [Width.bits])

/-- C24: no samples, too few bytes or too high a security demand is rejected, and so are numbers of samples
from 2^31 on, which become negative as an `int`. -/
theorem C24_rejects (fp : FpEnv) (N : U128) (w : Width) (hpos : 0 < N.toNat)
    (hlt : N.toNat < 2 ^ w.bits) (bytes : Bytes) (sec : Sec) (n : Nat)
    (h : n = 0 ∨ (IntModN.Sec.gt sec (fp.secLevel n N) = true ∧ n < 2 ^ 31 - 1) ∨
      (bytes.length < 16 + w.bits / 8 * (n - 1) ∧ 16 + w.bits / 8 * (n - 1) < 2 ^ 31) ∨
      (2 ^ 31 ≤ n ∧ n < 2 ^ 32)) :
    IntModN.sampleFromBytes fp N w.bits bytes sec n = err .invalidArgument := by
  unfold IntModN.sampleFromBytes
  by_cases hn : n = 0
  · rw [failIf_true hn]; rfl
  · rw [failIf_false hn, bind_ok]
    have hle := w.samples_le n
    rcases Nat.lt_or_ge n (2 ^ 31) with h31 | h31
    · rw [wrapInt32_id h31, getNumBytesRequired_width fp n w N hlt sec (by omega)]
      cases hsec : IntModN.Sec.gt sec (fp.secLevel n N) with
      | false =>
        simp only [hn, hsec, Bool.false_eq_true, false_or, false_and] at h
        rw [if_neg (by omega), if_neg (by decide), if_neg (by omega), bind_ok, failIf_true (by omega)]
        rfl
      | true => rw [if_neg (by omega), if_pos rfl]; rfl
    · rw [getNumBytesRequired_general, if_pos (Or.inl (by unfold wrapInt32; omega))]
      rfl

/-- Too few bytes, and a security parameter that is not reached. -/
example : IntModN.sampleFromBytes ⟨fun _ _ => 100, fun _ => 0⟩ 11#128 8 (List.replicate 17 5) (.val 40) 3 =
      err .invalidArgument ∧
    IntModN.sampleFromBytes ⟨fun _ _ => 100, fun _ => 0⟩ 11#128 8 (List.replicate 18 5) (.val 101) 3 =
      err .invalidArgument :=
  ⟨C24_rejects _ 11#128 .w8 (by decide) (by decide) _ _ 3 (Or.inr (Or.inr (Or.inl (by decide)))),
   C24_rejects _ 11#128 .w8 (by decide) (by decide) _ _ 3 (Or.inr (Or.inl (by decide)))⟩

/-- C24: if the required number of bytes does not fit an `int`, computing it is undefined, whatever the
bytes; with 2^31 - 1 samples already the security level is undefined. -/
theorem C24_overflow (fp : FpEnv) (N : U128) (w : Width) (hpos : 0 < N.toNat)
    (hlt : N.toNat < 2 ^ w.bits) (bytes : Bytes) (sec : Sec) (n : Nat) (hn : 1 ≤ n) (h31 : n < 2 ^ 31)
    (hbig : n = 2 ^ 31 - 1 ∨ (IntModN.Sec.gt sec (fp.secLevel n N) = false ∧
      2 ^ 31 ≤ 16 + w.bits / 8 * (n - 1))) :
    IntModN.sampleFromBytes fp N w.bits bytes sec n = ub := by
  unfold IntModN.sampleFromBytes
  rw [failIf_false (by omega), bind_ok, wrapInt32_id h31]
  rcases hbig with h | ⟨hsec, hr⟩
  · rw [getNumBytesRequired_width fp n w N hlt sec hn, if_pos (by omega)]
    rfl
  · rw [getNumBytesRequired_over fp n w N hpos hlt sec hn hsec hr]
    rfl

/-- 2^30 samples of 32-bit integers: 2^32 bytes. -/
example (bytes : Bytes) : IntModN.sampleFromBytes ⟨fun _ _ => 100, fun _ => 0⟩ 11#128 32 bytes (.val 40) (2 ^ 30 : Nat) = ub :=
  C24_overflow _ 11#128 .w32 (by decide) (by decide) bytes (.val 40) (2 ^ 30) (by decide) (by decide)
    (Or.inr ⟨by decide, by decide⟩)

/-- A case of C24: three samples mod 11 of one byte each from 18 bytes. -/
example : ∃ s, IntModN.sampleFromBytes ⟨fun _ _ => 100, fun _ => 0⟩ 11#128 8
    ((List.range 18).map fun i => BitVec.ofNat 8 (i + 200)) (.val 40) 3 = ok s ∧ s.length = 3 :=
  ⟨_, rfl, rfl⟩

/-! ## C67 -/

/-- C67: `GetNumBytesRequired` for `n` samples with base integers of `b` bits (`k` bytes, rounded up) and any
security parameter: `16 + k (n - 1)` if `n ≥ 1`, `1 ≤ b ≤ 128`, the modulus is at most `2^b` and the security
parameter at most the level reached; INVALID_ARGUMENT otherwise. -/
theorem C67_bytes_required_partial (fp : FpEnv) (n b k : Int) (N : U128) (sec : Sec) (hk : b ≤ 8 * k)
    (hk' : 8 * k < b + 8) (hr : n < 2 ^ 31 - 1) (hr' : 16 + k * (n - 1) < 2 ^ 31) :
    IntModN.getNumBytesRequired fp n b N sec =
      if 1 ≤ n ∧ 1 ≤ b ∧ b ≤ 128 ∧ N.toNat ≤ 2 ^ b.toNat ∧ ¬ IntModN.Sec.gt sec (fp.secLevel n N) then
        ok (16 + k * (n - 1))
      else err .invalidArgument := by
  have : (b + 7) / 8 = k := by omega
  rw [getNumBytesRequired_general, this]
  by_cases h : n ≤ 0 ∨ b ≤ 0 ∨ 128 < b ∨ 2 ^ b.toNat < N.toNat
  · rw [if_pos h, if_neg (by omega)]
  · rw [if_neg h, if_neg (by omega)]
    by_cases hs : IntModN.Sec.gt sec (fp.secLevel n N) = true
    · rw [if_pos hs, if_neg (fun h => h.2.2.2.2 hs)]
    · rw [if_neg hs, if_neg (by omega), if_pos ⟨by omega, by omega, by omega, by omega, hs⟩]

/-- Without the bounds on the number of samples C67 is false: 2^31 - 1 samples, or 2^28 samples of 8 bytes. -/
theorem C67_refuted (fp : FpEnv) (sec : Sec) (N : U128) (b : Int) (h1 : 1 ≤ b) (h2 : b ≤ 128)
    (hN : N.toNat ≤ 2 ^ b.toNat) :
    IntModN.getNumBytesRequired fp (2 ^ 31 - 1) b N sec = ub ∧
      (57 ≤ b → IntModN.Sec.gt sec (fp.secLevel (2 ^ 28) N) = false →
        IntModN.getNumBytesRequired fp (2 ^ 28) b N sec = ub) := by
  constructor
  · rw [getNumBytesRequired_general, if_neg (by omega), if_pos (by decide)]
  · intro h hs
    rw [getNumBytesRequired_general, if_neg (by omega), if_neg (by decide), if_neg (by rw [hs]; decide),
      if_pos (by omega)]

/-- C67 on examples: 3 samples of 12 bits; a modulus of 2^12 + 1 is too large. -/
example : IntModN.getNumBytesRequired ⟨fun _ _ => 100, fun _ => 0⟩ 3 12 4096#128 (.val 40) = ok 20 ∧
    IntModN.getNumBytesRequired ⟨fun _ _ => 100, fun _ => 0⟩ 3 12 4097#128 (.val 40) =
      err .invalidArgument := by
  constructor
  · rw [C67_bytes_required_partial _ 3 12 2 _ _ (by decide) (by decide) (by decide) (by decide),
      if_pos (by decide +kernel)]
    rfl
  · rw [C67_bytes_required_partial _ 3 12 2 _ _ (by decide) (by decide) (by decide) (by decide),
      if_neg (by decide +kernel)]

/-! ## C25 -/

/-- C25: every output type is an abelian group under its operators. -/
theorem C25_group (t : Ty) :
    let H := t.helper
    (∀ a b c, H.add (H.add a b) c = H.add a (H.add b c)) ∧ (∀ a b, H.add a b = H.add b a) ∧
    (∀ a, H.add a H.zero = a) ∧ (∀ a, H.add a (H.neg a) = H.zero) ∧
    (∀ a b, H.sub a b = H.add a (H.neg b)) :=
  ⟨t.helper_isGroup.add_assoc, t.helper_isGroup.add_comm, t.helper_isGroup.add_zero,
    t.helper_isGroup.add_neg, t.helper_isGroup.sub_eq⟩

/-- C25 in a tuple type with three different kinds of elements. -/
example : ∃ (t : Ty) (a b : t.den), t.helper.add a b ≠ t.helper.zero :=
  ⟨.tuple (.cons (.uint .w8) (.cons (.intModN .w32 11#128 (by decide) (by decide))
    (.one (.xorWrapper .w16)))), (1#8, ⟨7#32, by decide⟩, 5#16), (2#8, ⟨9#32, by decide⟩, 5#16),
    by decide⟩

/-! ## C26 -/

/-- C26, restricted to types in which no tuple is nested in a tuple, or which contain no `IntModN`:
the blocks reserved by `CreateIncremental` for a level always suffice to build its elements. Missing:
tuples containing both an `IntModN` and another tuple; for those the claim is false, see
`C26_refuted`. -/
theorem C26_bytes_suffice_partial (fp : FpEnv) (params : List DpfParameters) (d : Dpf)
    (hd : Dpf.createIncremental fp params = ok d) (h : Nat) (p : DpfParameters)
    (hp : params[h]? = some p) (t : Ty) (ht : p.valueType = some t.helper.toValueType)
    (hflat : t.flat = true ∨ t.noMod = true) (k : Nat) (hk : d.blocksNeeded[h]? = some k)
    (blocks : List U128) (hb : blocks.length = k) :
    ∃ xs, t.helper.convertBytesToArrayOf (blocksBytes blocks) = ok xs ∧
      xs.length = t.helper.elementsPerBlock := by
  obtain ⟨bits, hbits, hkb⟩ := createIncremental_blocks hd hp hk
  refine t.convert_ok _ ?_
  rw [blocksBytes_length, hb]
  have hvt : p.vt = t.helper.toValueType := by simp [DpfParameters.vt, ht]
  rw [hvt] at hbits
  exact t.fits_of_flat fp hflat hbits hkb

/-- C26 is false in general: for `Tuple<IntModN<uint32, N>, Tuple<uint64 x 4>>` a DPF can be created
that reserves 2 blocks (32 bytes), but building an element aborts: `BitsNeeded` counts the first
`num_other` elements instead of the elements that are not `IntModN`
(/repo/dpf/internal/value_type_helpers.cc:105-114). -/
theorem C26_refuted : ∃ (fp : FpEnv) (d : Dpf) (k : Nat),
    Dpf.createIncremental fp [⟨10, some exNested.helper.toValueType, .val 40⟩] = ok d ∧
    d.blocksNeeded = [k] ∧ ∀ blocks : List U128, blocks.length = k →
      exNested.helper.convertBytesToArrayOf (blocksBytes blocks) = crash := by
  have h : (match Dpf.createIncremental ⟨fun _ _ => 80, fun _ => 0⟩
      [⟨10, some exNested.helper.toValueType, .val 40⟩] with
    | .ok d => some d.blocksNeeded
    | _ => none) = some [2] := by decide +kernel
  split at h
  · rename_i d hd
    refine ⟨_, d, 2, hd, by simpa using h, ?_⟩
    intro blocks hb
    match blocks, hb with
    | [a, b], _ => rfl
  · simp at h

/-- C26, the exact condition for every value type, nested ones included: building elements succeeds if the
blocks hold as many bytes as the type reads and aborts otherwise, whatever the blocks contain. -/
theorem C26_exact (t : Ty) (blocks : List U128) :
    (t.bytesRead ≤ 16 * blocks.length →
      ∃ xs, t.helper.convertBytesToArrayOf (blocksBytes blocks) = ok xs ∧ xs.length = t.helper.elementsPerBlock) ∧
    (16 * blocks.length < t.bytesRead → t.helper.convertBytesToArrayOf (blocksBytes blocks) = crash) :=
  ⟨fun h => t.convert_ok _ (by rw [blocksBytes_length]; exact h),
    fun h => t.convert_short _ (by rw [blocksBytes_length]; exact h)⟩

/-- The type of `C26_refuted` reads 44 bytes, 32 are reserved. -/
example : exNested.bytesRead = 44 ∧ (∀ a b, exNested.helper.convertBytesToArrayOf (blocksBytes [a, b]) = crash) ∧
    ∀ a b c, ∃ xs, exNested.helper.convertBytesToArrayOf (blocksBytes [a, b, c]) = ok xs ∧ xs.length = 1 :=
  ⟨by decide, fun a b => (C26_exact exNested [a, b]).2 (show 16 * 2 < exNested.bytesRead by decide),
    fun a b c => (C26_exact exNested [a, b, c]).1 (show exNested.bytesRead ≤ 16 * 3 by decide)⟩

/-- A type covered by `C26_bytes_suffice_partial`. -/
example : ∃ d, Dpf.createIncremental ⟨fun _ _ => 80, fun _ => 0⟩
    [⟨10, some (Ty.helper (.tuple (.cons (.uint .w64) (.one
      (.intModN .w32 11#128 (by decide) (by decide)))))).toValueType, .val 40⟩] = ok d ∧
    d.blocksNeeded = [2] := by
  have h : (match Dpf.createIncremental ⟨fun _ _ => 80, fun _ => 0⟩
      [⟨10, some (Ty.helper (.tuple (.cons (.uint .w64) (.one
        (.intModN .w32 11#128 (by decide) (by decide)))))).toValueType, .val 40⟩] with
    | .ok d => some d.blocksNeeded
    | _ => none) = some [2] := by decide +kernel
  split at h
  · rename_i d hd
    exact ⟨d, hd, by simpa using h⟩
  · simp at h

end Verif
