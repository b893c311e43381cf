import Verif.Lemmas.Decode
import Verif.Lemmas.Fits
import Verif.Model.Dpf
/-! Helper lemmas on `CreateIncremental`. -/
namespace Verif
open Res Spec

theorem blocksBytes_length (bs : List U128) : (blocksBytes bs).length = 16 * bs.length := by
  induction bs with
  | nil => rfl
  | cons b bs ih =>
    simp only [blocksBytes, List.flatMap_cons, List.length_append] at ih ⊢
    simp only [blockBytes, List.length_map, List.length_range, List.length_cons]
    omega

theorem createIncremental_spec {fp : FpEnv} {params : List DpfParameters} {d : Dpf}
    (h : Dpf.createIncremental fp params = ok d) :
    ProtoValidator.create fp params = ok d.pv ∧
    mapRes (fun (p : DpfParameters) => (do
      let bits ← bitsNeeded fp p.vt p.securityParameter
      let sum ← intRange (bits + 127)
      ok (sum.tdiv 128).toNat : Res Nat)) params = ok d.blocksNeeded ∧
    d.registry = [(ValueType.integer 128, (uintHelper 128).computeValueCorrectionFor),
      (.integer 64, (uintHelper 64).computeValueCorrectionFor),
      (.integer 32, (uintHelper 32).computeValueCorrectionFor),
      (.integer 16, (uintHelper 16).computeValueCorrectionFor),
      (.integer 8, (uintHelper 8).computeValueCorrectionFor)] := by
  unfold Dpf.createIncremental at h
  simp only [bind_eq_ok] at h
  obtain ⟨pv, h1, blocks, h2, h3⟩ := h
  simp only [ok.injEq] at h3
  subst h3
  exact ⟨h1, by simpa only [bind_eq_ok] using h2, rfl⟩

theorem createIncremental_blocks {fp : FpEnv} {params : List DpfParameters} {d : Dpf}
    (hd : Dpf.createIncremental fp params = ok d) {h : Nat} {p : DpfParameters}
    (hp : params[h]? = some p) {k : Nat} (hk : d.blocksNeeded[h]? = some k) :
    ∃ bits, bitsNeeded fp p.vt p.securityParameter = ok bits ∧
      k = ((bits + 127).tdiv 128).toNat := by
  obtain ⟨_, h2, _⟩ := createIncremental_spec hd
  rw [mapRes_eq_ok] at h2
  obtain ⟨hlt, rfl⟩ := List.getElem?_eq_some_iff.mp hp
  obtain ⟨hlt', rfl⟩ := List.getElem?_eq_some_iff.mp hk
  have := h2.2 h hlt hlt'
  rw [bind_eq_ok] at this
  obtain ⟨bits, h3, h4⟩ := this
  simp only [bind_eq_ok, intRange_eq_ok, ok.injEq] at h4
  obtain ⟨_, ⟨_, rfl⟩, h4⟩ := h4
  exact ⟨bits, h3, h4.symm⟩

theorem createIncremental_blocks_length {fp : FpEnv} {params : List DpfParameters} {d : Dpf}
    (hd : Dpf.createIncremental fp params = ok d) : d.blocksNeeded.length = params.length :=
  mapRes_length (createIncremental_spec hd).2.1

theorem tdiv_blocks {bits : Int} (h : 0 ≤ bits) :
    bits ≤ 128 * (((bits + 127).tdiv 128).toNat : Int) := by
  rw [Int.tdiv_eq_ediv_of_nonneg (by omega)]
  omega

/-- Reserved bytes suffice for the covered types. -/
theorem Ty.fits_of_flat (t : Ty) (fp : FpEnv) (hflat : t.flat = true ∨ t.noMod = true) {sec : Sec}
    {bits : Int} (hbits : bitsNeeded fp t.helper.toValueType sec = ok bits) {k : Nat}
    (hk : k = ((bits + 127).tdiv 128).toNat) : t.bytesRead ≤ 16 * k := by
  have hnn := Ty.bitsNeeded_nonneg fp t sec bits hbits
  have hb := tdiv_blocks hnn.1
  rw [← hk] at hb
  cases hn : t.noMod with
  | false =>
    have hf : t.flat = true := by simpa [hn] using hflat
    have := t.flat_bytesRead fp hf sec bits hbits hn
    omega
  | true =>
    have hbits := t.bitsNeeded_noMod fp hn _ _ hbits
    have hpos := t.leafBytes_pos
    unfold Ty.bytesRead
    rw [hn]
    simp only [if_true]
    split
    · have h1 : 16 / t.leafBytes * t.leafBytes ≤ 16 := Nat.div_mul_le_self 16 t.leafBytes
      omega
    · omega

mutual
theorem noWide_toValue : (t : Ty) → (x : t.den) → NoWide t (t.helper.toValue x)
  | .uint w, x => fun hw => by
    intro n hn
    have h := valueInteger_eq_ok.mp (valueInteger_roundtrip (BitVec.setWidth 128 x))
    rw [hn, setWidth_toNat_lt w.bits_le] at h
    simp only [Option.some.injEq] at h
    have := BitVec.isLt x
    have : 2 ^ w.bits ≤ 2 ^ 64 := Nat.pow_le_pow_right (by decide) (by
      cases w <;> simp_all [Width.bits])
    omega
  | .xorWrapper w, x => fun hw => by
    intro n hn
    have h := valueInteger_eq_ok.mp (valueInteger_roundtrip (BitVec.setWidth 128 x))
    rw [hn, setWidth_toNat_lt w.bits_le] at h
    simp only [Option.some.injEq] at h
    have := BitVec.isLt x
    have : 2 ^ w.bits ≤ 2 ^ 64 := Nat.pow_le_pow_right (by decide) (by
      cases w <;> simp_all [Width.bits])
    omega
  | .intModN _ _ _ _, _ => trivial
  | .tuple ts, x => noWideAll_toValues ts x
theorem noWideAll_toValues : (ts : Tys) → (x : ts.den) → NoWideAll ts (ts.helper.toValues x)
  | .one t, x => noWide_toValue t x
  | .cons t ts, x => ⟨noWide_toValue t x.1, noWideAll_toValues ts x.2⟩
end

theorem checkParameters_general (fp : FpEnv) (n b : Int) (N : U128) (sec : Sec) :
    IntModN.checkParameters fp n b N sec =
      if n ≤ 0 ∨ b ≤ 0 ∨ 128 < b ∨ 2 ^ b.toNat < N.toNat then err .invalidArgument
      else if 2 ^ 31 ≤ n + 1 then ub
      else failIf (IntModN.Sec.gt sec (fp.secLevel n N) = true) .invalidArgument := by
  unfold IntModN.checkParameters
  by_cases h1 : n ≤ 0
  · rw [failIf_true h1, if_pos (Or.inl h1)]; rfl
  rw [failIf_false h1, bind_ok]
  by_cases h2 : b ≤ 0
  · rw [failIf_true h2, if_pos (Or.inr (Or.inl h2))]; rfl
  rw [failIf_false h2, bind_ok]
  by_cases h3 : 128 < b
  · rw [failIf_true h3, if_pos (Or.inr (Or.inr (Or.inl h3)))]; rfl
  rw [failIf_false (by omega), bind_ok]
  have tail : (intRange (n + 1) >>= fun _ =>
      failIf (IntModN.Sec.gt sec (fp.secLevel n N) = true) .invalidArgument) =
      if 2 ^ 31 ≤ n + 1 then ub
      else failIf (IntModN.Sec.gt sec (fp.secLevel n N) = true) .invalidArgument := by
    split
    · rw [intRange_ub (by omega)]; rfl
    · rw [intRange_of (by omega) (by omega), bind_ok]
  have hN := N.isLt
  obtain ⟨m, rfl⟩ : ∃ m : Nat, b = m := ⟨b.toNat, by omega⟩
  simp only [Int.toNat_natCast]
  split
  · rename_i h
    have hone : ((1 : U128) <<< m).toNat = 2 ^ m := by
      simp only [BitVec.toNat_shiftLeft, Nat.shiftLeft_eq]
      rw [show BitVec.toNat (1 : U128) = 1 from rfl, Nat.one_mul, Nat.mod_eq_of_lt]
      exact Nat.pow_lt_pow_right (by decide) (by omega)
    rw [shl128_ok (by omega), bind_ok]
    by_cases h4 : 2 ^ m < N.toNat
    · rw [failIf_true (by rw [BitVec.lt_def, hone]; exact h4), if_pos (by omega)]
      rfl
    · rw [failIf_false (by rw [BitVec.lt_def, hone]; exact h4), bind_ok, if_neg (by omega), tail]
  · rename_i h
    have : m = 128 := by omega
    subst this
    rw [if_neg (by omega), tail]

theorem getNumBytesRequired_general (fp : FpEnv) (n b : Int) (N : U128) (sec : Sec) :
    IntModN.getNumBytesRequired fp n b N sec =
      if n ≤ 0 ∨ b ≤ 0 ∨ 128 < b ∨ 2 ^ b.toNat < N.toNat then err .invalidArgument
      else if 2 ^ 31 ≤ n + 1 then ub
      else if IntModN.Sec.gt sec (fp.secLevel n N) = true then err .invalidArgument
      else if 2 ^ 31 ≤ 16 + (b + 7) / 8 * (n - 1) then ub
      else ok (16 + (b + 7) / 8 * (n - 1)) := by
  unfold IntModN.getNumBytesRequired
  rw [checkParameters_general]
  split
  · rfl
  split
  · rfl
  split
  · rw [failIf_true (by assumption)]; rfl
  rw [failIf_false (by assumption), bind_ok]
  have : 0 ≤ (b + 7) / 8 * (n - 1) := Int.mul_nonneg (by omega) (by omega)
  split
  · exact intRange_ub (by omega)
  · exact intRange_of (by omega) (by omega)

theorem wrapInt32_id {n : Nat} (h : n < 2 ^ 31) : wrapInt32 n = n := by
  unfold wrapInt32; omega

theorem Width.samples_le (w : Width) (n : Nat) : n - 1 ≤ w.bits / 8 * (n - 1) := by
  have h1 : 1 * (n - 1) ≤ w.bits / 8 * (n - 1) := Nat.mul_le_mul_right _ (by cases w <;> decide)
  omega

theorem width_bytes (w : Width) : (((w.bits : Int) + 7) / 8) = ((w.bits / 8 : Nat) : Int) := by
  cases w <;> decide

theorem getNumBytesRequired_width (fp : FpEnv) (n : Nat) (w : Width) (N : U128)
    (hlt : N.toNat < 2 ^ w.bits) (sec : Sec) (hn : 1 ≤ n) :
    IntModN.getNumBytesRequired fp n w.bits N sec =
      if 2 ^ 31 ≤ n + 1 then ub
      else if IntModN.Sec.gt sec (fp.secLevel n N) = true then err .invalidArgument
      else if 2 ^ 31 ≤ 16 + w.bits / 8 * (n - 1) then ub
      else ok ((16 + w.bits / 8 * (n - 1) : Nat) : Int) := by
  have h1 : 1 ≤ w.bits := by cases w <;> decide
  have hle := w.bits_le
  have e2 : ((n : Int) - 1) = ((n - 1 : Nat) : Int) := by omega
  rw [getNumBytesRequired_general, if_neg (by simp only [Int.toNat_natCast]; omega), width_bytes, e2,
    show (16 : Int) + ((w.bits / 8 : Nat) : Int) * ((n - 1 : Nat) : Int) =
      ((16 + w.bits / 8 * (n - 1) : Nat) : Int) by simp]
  generalize 16 + w.bits / 8 * (n - 1) = r
  have a : (2 ^ 31 ≤ (n : Int) + 1) = (2 ^ 31 ≤ n + 1) := by apply propext; omega
  have b : (2 ^ 31 ≤ (r : Int)) = (2 ^ 31 ≤ r) := by apply propext; omega
  simp only [a, b]

theorem getNumBytesRequired_of (fp : FpEnv) (n : Nat) (w : Width) (N : U128) (_hp : 0 < N.toNat)
    (hlt : N.toNat < 2 ^ w.bits) (sec : Sec) (hn : 1 ≤ n)
    (hsec : IntModN.Sec.gt sec (fp.secLevel n N) = false) (hr : 16 + w.bits / 8 * (n - 1) < 2 ^ 31) :
    IntModN.getNumBytesRequired fp n w.bits N sec = ok ((16 + w.bits / 8 * (n - 1) : Nat) : Int) := by
  have h1 : 1 * (n - 1) ≤ w.bits / 8 * (n - 1) := Nat.mul_le_mul_right _ (by cases w <;> decide)
  rw [getNumBytesRequired_width fp n w N hlt sec hn, if_neg (by omega), if_neg (by simp [hsec]),
    if_neg (by omega)]

theorem getNumBytesRequired_over (fp : FpEnv) (n : Nat) (w : Width) (N : U128) (_hp : 0 < N.toNat)
    (hlt : N.toNat < 2 ^ w.bits) (sec : Sec) (hn : 1 ≤ n)
    (hsec : IntModN.Sec.gt sec (fp.secLevel n N) = false) (hr : 2 ^ 31 ≤ 16 + w.bits / 8 * (n - 1)) :
    IntModN.getNumBytesRequired fp n w.bits N sec = ub := by
  rw [getNumBytesRequired_width fp n w N hlt sec hn, if_neg (c := IntModN.Sec.gt _ _ = true) (by simp [hsec]),
    if_pos hr, ite_self]

theorem getNumBytesRequired_sec (fp : FpEnv) (n : Nat) (w : Width) (N : U128) (_hp : 0 < N.toNat)
    (hlt : N.toNat < 2 ^ w.bits) (sec : Sec) (hn : 1 ≤ n) (hi : n + 1 < 2 ^ 31)
    (hsec : IntModN.Sec.gt sec (fp.secLevel n N) = true) :
    IntModN.getNumBytesRequired fp n w.bits N sec = err .invalidArgument := by
  rw [getNumBytesRequired_width fp n w N hlt sec hn, if_neg (by omega), if_pos hsec]

end Verif
