import Verif.Lemmas.Accept
import Verif.Props.Mic
/-!
# Creation of DPFs, DCFs and gates succeeds for valid parameters (C16, C29, C31)
-/
namespace Verif
open Res Spec

/-- C16, converse of `C16_rejects`: valid parameters with output types without `IntModN` of at most 2^28 - 16 bytes are accepted; larger types overflow an
`int` (`C16_accepts_refuted`). -/
theorem C16_accepts (fp : FpEnv) (params : List DpfParameters) (hv : ValidParams params)
    (hT : ∀ p ∈ params, ∃ T : Ty, T.noMod = true ∧ T.leafBytes ≤ 2 ^ 28 - 16 ∧
      p.valueType = some T.helper.toValueType) :
    ∃ d, Dpf.createIncremental fp params = ok d :=
  createIncremental_noMod fp hv hT

/-- C16: with a type of more than 2^28 - 16 bytes, computing the number of blocks overflows an `int`. -/
theorem C16_overflow (fp : FpEnv) (params : List DpfParameters) (hv : ValidParams params)
    (hT : ∀ p ∈ params, ∃ T : Ty, T.noMod = true ∧ p.valueType = some T.helper.toValueType)
    (hbig : ∃ p ∈ params, ∃ T : Ty, T.noMod = true ∧ p.valueType = some T.helper.toValueType ∧
      2 ^ 28 - 16 < T.leafBytes) : Dpf.createIncremental fp params = ub :=
  createIncremental_overflow fp hv hT hbig

/-- `n + 1` 128-bit integers. -/
def exWide : Nat → Tys
  | 0 => .one (.uint .w128)
  | n + 1 => .cons (.uint .w128) (exWide n)

theorem exWide_noMod : (n : Nat) → (exWide n).noMod = true
  | 0 => rfl
  | n + 1 => by
    have : ((Ty.uint .w128).noMod && (exWide n).noMod) = true := by rw [exWide_noMod n]; rfl
    exact this

theorem exWide_bytes : (n : Nat) → (exWide n).leafBytes = 16 * (n + 1)
  | 0 => rfl
  | n + 1 => by
    have : (exWide (n + 1)).leafBytes = 16 + (exWide n).leafBytes := rfl
    rw [this, exWide_bytes n]; omega

/-- The converse of `C16_rejects` without a bound on the size of types is false of the code: a tuple of
2^24 128-bit integers passes validation, but `BitsNeeded` overflows. -/
theorem C16_accepts_refuted : ∃ (fp : FpEnv) (params : List DpfParameters), ValidParams params ∧
    (∀ p ∈ params, ∃ T : Ty, T.noMod = true ∧ p.valueType = some T.helper.toValueType) ∧
    Dpf.createIncremental fp params = ub := by
  obtain ⟨m, hm⟩ : ∃ m, m = 2 ^ 24 - 1 := ⟨_, rfl⟩
  obtain ⟨T, hTe⟩ : ∃ T : Ty, T = .tuple (exWide m) := ⟨_, rfl⟩
  have hn : T.noMod = true := by rw [hTe]; exact exWide_noMod m
  have hb : T.leafBytes = 16 * (m + 1) := by rw [hTe]; exact exWide_bytes m
  have hv : ValidParams [⟨0, some T.helper.toValueType, .val 0⟩] := by
    refine ⟨by simp, ?_, by simp, ?_, ?_⟩ <;> intro p hp <;> simp only [List.mem_singleton] at hp <;> subst hp
    · exact ⟨Int.le_refl 0, (by decide : (0 : Int) ≤ 128)⟩
    · exact ⟨_, rfl, (validateValueType_iff _).mp (Ty.validateValueType_ok T)⟩
    · exact ⟨0, rfl, by decide, by decide⟩
  have hT : ∀ p ∈ ([⟨0, some T.helper.toValueType, .val 0⟩] : List DpfParameters),
      ∃ T : Ty, T.noMod = true ∧ p.valueType = some T.helper.toValueType := by
    intro p hp
    simp only [List.mem_singleton] at hp
    subst hp
    exact ⟨T, hn, rfl⟩
  exact ⟨exFp, _, hv, hT, C16_overflow exFp _ hv hT ⟨_, List.mem_singleton.mpr rfl, T, hn, rfl, by omega⟩⟩

/-- C16, converse of `C16_rejects` for any types: valid parameters are accepted if `BitsNeeded` succeeds
for the security parameter as given and with its default, and the number of blocks can be computed. -/
theorem C16_accepts_bits (fp : FpEnv) (params : List DpfParameters) (hv : ValidParams params)
    (hbits : ∀ p ∈ params, (∃ b, bitsNeeded fp p.vt p.securityParameter = ok b ∧ 0 ≤ b ∧ b + 127 < 2 ^ 31) ∧
      ∃ b, 0 < b ∧ bitsNeeded fp p.vt (if p.securityParameter = .val 0 then
        .val (40 + p.logDomainSize) else p.securityParameter) = ok b) :
    ∃ d, Dpf.createIncremental fp params = ok d := by
  refine createIncremental_ok fp hv fun p hp => ⟨(hbits p hp).1, ?_⟩
  obtain ⟨b, hpos, hb⟩ := (hbits p hp).2
  refine ⟨b, ?_, hpos⟩
  rw [← hb]
  unfold withDefaultSecurity
  obtain ⟨s, hs, _⟩ := hv.security p hp
  rw [hs]
  by_cases h0 : s = 0
  · subst h0; rfl
  · simp [Sec.isZero, h0, hs]

/-- C16: the stored parameters are the given ones, except that a security parameter 0 is replaced by 40
plus the log domain size. -/
theorem C16_default_security (fp : FpEnv) (params : List DpfParameters) (d : Dpf)
    (hd : Dpf.createIncremental fp params = ok d) :
    d.pv.parameters = params.map fun p => ⟨p.logDomainSize, p.valueType,
      if p.securityParameter = .val 0 then .val (40 + p.logDomainSize) else p.securityParameter⟩ := by
  obtain ⟨hpv, _, _⟩ := createIncremental_spec hd
  rw [(create_spec hpv).2.1]
  apply List.map_congr_left
  intro p hp
  obtain ⟨s, hs, _⟩ := (create_spec hpv).1.security p hp
  obtain ⟨l, t, sec⟩ := p
  dsimp only at hs
  subst hs
  unfold withDefaultSecurity
  by_cases h0 : s = 0
  · subst h0; rfl
  · simp [Sec.isZero, h0]

/-- C16 on an example with two levels, one security parameter given. -/
example : ∃ d, Dpf.createIncremental exFp
      [⟨3, some (.integer 8), .val 0⟩, ⟨20, some (.tuple [.integer 32, .xorWrapper 128]), .val 50⟩] = ok d ∧
    d.pv.parameters.map (·.securityParameter) = [.val 43, .val 50] := by
  obtain ⟨d, hd⟩ := C16_accepts exFp
    [⟨3, some (.integer 8), .val 0⟩, ⟨20, some (.tuple [.integer 32, .xorWrapper 128]), .val 50⟩]
    ((validateParameters_iff _).mp (by decide +kernel))
    (by
      intro p hp
      simp only [List.mem_cons, List.not_mem_nil, or_false] at hp
      rcases hp with rfl | rfl
      · exact ⟨.uint .w8, rfl, by decide, rfl⟩
      · exact ⟨.tuple (.cons (.uint .w32) (.one (.xorWrapper .w128))), rfl, by decide, rfl⟩)
  refine ⟨d, hd, ?_⟩
  rw [C16_default_security exFp _ d hd]
  decide +kernel

/-- C29, converse of `C29_create_partial`: domains of 2 to 2^128 points with an output type without
`IntModN` of at most 2^28 - 16 bytes are accepted. -/
theorem C29_accepts (fp : FpEnv) (p : DpfParameters) (h1 : 1 ≤ p.logDomainSize)
    (h2 : p.logDomainSize ≤ 128) (T : Ty) (hn : T.noMod = true) (hl : T.leafBytes ≤ 2 ^ 28 - 16)
    (hT : p.valueType = some T.helper.toValueType) : ∃ c, Dcf.create fp p = ok c := by
  have hvt : p.vt = T.helper.toValueType := by simp [DpfParameters.vt, hT]
  have hmem : ∀ q ∈ Dcf.dpfParameters p, ∃ i : Nat, i < p.logDomainSize.toNat ∧
      q = ⟨(i : Int), some T.helper.toValueType, .val 0⟩ := by
    intro q hq
    obtain ⟨i, hi, rfl⟩ := List.mem_map.mp hq
    exact ⟨i, List.mem_range.mp hi, by rw [hvt]⟩
  have hv : ValidParams (Dcf.dpfParameters p) := by
    refine ⟨?_, ?_, ?_, ?_, ?_⟩
    · intro h
      have := congrArg List.length h
      simp [Dcf.dpfParameters] at this
      omega
    · intro q hq
      obtain ⟨i, hi, rfl⟩ := hmem q hq
      dsimp only
      omega
    · unfold Dcf.dpfParameters
      rw [List.pairwise_map]
      refine List.Pairwise.imp ?_ List.pairwise_lt_range
      intro a b hab
      dsimp only
      omega
    · intro q hq
      obtain ⟨i, hi, rfl⟩ := hmem q hq
      exact ⟨_, rfl, (validateValueType_iff _).mp (Ty.validateValueType_ok T)⟩
    · intro q hq
      obtain ⟨i, hi, rfl⟩ := hmem q hq
      exact ⟨0, rfl, by decide, by decide⟩
  obtain ⟨d, hd⟩ := C16_accepts fp (Dcf.dpfParameters p) hv (by
    intro q hq
    obtain ⟨i, hi, rfl⟩ := hmem q hq
    exact ⟨T, hn, hl, rfl⟩)
  refine ⟨⟨p.logDomainSize, d⟩, ?_⟩
  unfold Dcf.create
  rw [failIf_false (by omega), bind_ok]
  dsimp only
  rw [(validateParameters_iff _).mpr hv, bind_ok, hd, bind_ok]

/-- XOR shares and a nested tuple over 2^128 points. -/
example (fp : FpEnv) : ∃ c, Dcf.create fp ⟨128, some (Ty.helper (.tuple (.cons (.xorWrapper .w128)
    (.one (.tuple (.cons (.uint .w8) (.one (.uint .w64)))))))).toValueType, .val 0⟩ = ok c :=
  C29_accepts fp _ (by decide) (by decide) _ rfl (by decide) rfl

/-- C31, converse of `C31_create_partial`: groups of size 2 to 2^127 and intervals inside the group, given
as 128-bit numbers, are accepted. -/
theorem C31_accepts (fp : FpEnv) (params : MicParameters) (h1 : 1 ≤ params.logGroupSize)
    (h2 : params.logGroupSize ≤ 127)
    (hi : ∀ iv ∈ params.intervals, ∃ p q, iv.Bounds p q ∧ p ≤ q ∧ q < 2 ^ params.logGroupSize.toNat) :
    ∃ g, Mic.create fp params = ok g := by
  obtain ⟨c, hc⟩ := C29_accepts fp ⟨params.logGroupSize, some (uintHelper 128).toValueType, .val 0⟩
    h1 (by dsimp only; omega) (.uint .w128) rfl (by decide) rfl
  refine ⟨⟨params, c⟩, ?_⟩
  unfold Mic.create
  rw [failIf_false (by omega), bind_ok]
  have e : params.logGroupSize = (params.logGroupSize.toNat : Int) := by omega
  have hN : shl128 1 params.logGroupSize = ok ((1 : U128) <<< params.logGroupSize.toNat) := by
    conv => lhs; rw [e]
    exact shl128_ok (by omega)
  have hNn : ((1 : U128) <<< params.logGroupSize.toNat).toNat = 2 ^ params.logGroupSize.toNat :=
    one_shl_toNat (by omega)
  have hm : mapRes (Mic.checkInterval ((1 : U128) <<< params.logGroupSize.toNat)) params.intervals =
      ok (params.intervals.map fun _ => ()) := by
    apply mapRes_eq_ok_map
    intro iv hiv
    obtain ⟨p, q, ⟨ph, pl, qh, ql, hl, hu, hp, hq⟩, hpq, hqN⟩ := hi iv hiv
    have hp' : iv.p.toNat = p := by
      simp only [Interval.p, hl, Option.getD_some, valueUint128, makeU128_toNat]; omega
    have hq' : iv.q.toNat = q := by
      simp only [Interval.q, hu, Option.getD_some, valueUint128, makeU128_toNat]; omega
    unfold Mic.checkInterval
    rw [failIf_false (by simp [hl, hu]), bind_ok,
      failIf_false (by rw [ge_iff_le, BitVec.le_def, hNn, hp']; omega), bind_ok,
      failIf_false (by rw [ge_iff_le, BitVec.le_def, hNn, hq']; omega), bind_ok,
      failIf_false (by rw [gt_iff_lt, BitVec.lt_def, hp', hq']; omega)]
  rw [hN, bind_ok, hm, bind_ok, hc, bind_ok]

/-- C31 on an example. -/
example : ∃ g, Mic.create exFp ⟨10, [⟨some (.u128 0 5), some (.u128 0 900)⟩]⟩ = ok g :=
  C31_accepts exFp ⟨10, [⟨some (.u128 0 5), some (.u128 0 900)⟩]⟩ (by decide) (by decide) (by
    intro iv hiv
    rw [List.mem_singleton] at hiv
    subst hiv
    exact ⟨5, 900, ⟨0, 5, 0, 900, rfl, rfl, rfl, rfl⟩, by decide, by decide⟩)

end Verif
