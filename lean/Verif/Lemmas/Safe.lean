import Verif.Spec.Safety
import Verif.Lemmas.Create
/-! Creation is safe. -/
namespace Verif
open Res Spec

theorem Spec.Safe.ok {α : Type} (a : α) : Safe (Res.ok a) := ⟨by simp, by simp⟩
theorem Spec.Safe.err {α : Type} (c : Code) : Safe (Res.err c : Res α) := ⟨by simp, by simp⟩
theorem Spec.Safe.bind {α β : Type} {x : Res α} {f : α → Res β} (hx : Safe x)
    (hf : ∀ a, x = Res.ok a → Safe (f a)) : Safe (x >>= f) := by
  cases x with
  | ok a => exact hf a rfl
  | err c => exact .err c
  | ub => exact absurd rfl hx.1
  | crash => exact absurd rfl hx.2
theorem Spec.Safe.failIf (p : Prop) [Decidable p] (c : Code) : Safe (failIf p c) := by
  unfold Verif.failIf; split
  · exact .err _
  · exact .ok _
theorem OkOrInvalid.safe {α : Type} {x : Res α} (h : OkOrInvalid x) : Safe x := by
  rcases h with ⟨a, rfl⟩ | rfl
  · exact .ok _
  · exact .err _

theorem foldRes_safe {α σ : Type} {f : σ → α → Res σ} {l : List α} (hf : ∀ s, ∀ a ∈ l, Safe (f s a))
    (s : σ) : Safe (foldRes f s l) := by
  induction l generalizing s with
  | nil => exact .ok _
  | cons a l ih =>
    rw [foldRes_cons]
    exact (hf s a (by simp)).bind fun s' _ => ih (fun s a ha => hf s a (by simp [ha])) s'

theorem mapRes_safe {α β : Type} {f : α → Res β} {l : List α} (hf : ∀ a ∈ l, Safe (f a)) :
    Safe (mapRes f l) := by
  induction l with
  | nil => exact .ok _
  | cons a l ih =>
    rw [mapRes_cons]
    exact (hf a (by simp)).bind fun b _ => (ih fun a ha => hf a (by simp [ha])).bind fun _ _ => .ok _

theorem valueIntegerToUint128_safe (m : IntegerP) : Safe (valueIntegerToUint128 m) := by
  cases m <;> first | exact .ok _ | exact .err _

theorem intRange_safe {x : Int} (h0 : 0 ≤ x) (h : x < 2 ^ 31) : Safe (intRange x) := by
  rw [intRange_of h0 h]; exact .ok _

/-- Bounds on the number of bytes. -/
theorem numBytes_bounds {n b : Int} (hn : 1 ≤ n) (hb : 1 ≤ b) (hb' : b ≤ 128) :
    16 ≤ 16 + (b + 7) / 8 * (n - 1) ∧ 16 + (b + 7) / 8 * (n - 1) ≤ 16 * n := by
  have h1 : 0 ≤ (b + 7) / 8 * (n - 1) := Int.mul_nonneg (by omega) (by omega)
  have h2 : (b + 7) / 8 * (n - 1) ≤ 16 * (n - 1) :=
    Int.mul_le_mul_of_nonneg_right (by omega) (by omega)
  omega

theorem getNumBytesRequired_safe (fp : FpEnv) (n b : Int) (m : U128) (sec : Sec) (hn : 16 * n < 2 ^ 31) :
    Safe (IntModN.getNumBytesRequired fp n b m sec) := by
  unfold IntModN.getNumBytesRequired
  refine Safe.bind ?_ fun _ h => ?_
  · unfold IntModN.checkParameters
    refine (Safe.failIf _ _).bind fun _ h0 => (Safe.failIf _ _).bind fun _ h =>
      (Safe.failIf _ _).bind fun _ _ => ?_
    have hb : ¬ b ≤ 0 := by simpa using (failIf_eq_ok.mp h)
    have hn' := (failIf_eq_ok.mp h0)
    have tail : Safe (intRange (n + 1) >>= fun _ =>
        failIf (IntModN.Sec.gt sec (fp.secLevel n m) = true) .invalidArgument) :=
      (intRange_safe (by omega) (by omega)).bind fun _ _ => Safe.failIf _ _
    split
    · refine Safe.bind ?_ fun _ _ => (Safe.failIf _ _).bind fun _ _ => tail
      unfold shl128
      rw [if_neg (by omega)]
      exact .ok _
    · exact tail
  · unfold IntModN.checkParameters at h
    simp only [bind_eq_ok, failIf_eq_ok] at h
    obtain ⟨_, hn, _, hb, _, hb', _⟩ := h
    have := numBytes_bounds (n := n) (b := b) (by omega) (by omega) (by omega)
    exact intRange_safe (by omega) (by omega)

mutual
theorem leaves_pos : (t : ValueType) → NoEmptyTuple t → 1 ≤ leaves t
  | .tuple els, h => by
    rw [NoEmptyTuple] at h
    have := leavesAll_ge els h.2
    have : 0 < els.length := List.length_pos_iff.mpr h.1
    rw [leaves]; omega
  | .notSet, _ | .integer _, _ | .intModN _ _, _ | .xorWrapper _, _ => by simp [leaves]
theorem leavesAll_ge : (els : List ValueType) → NoEmptyTuples els → els.length ≤ leavesAll els
  | [], _ => by simp
  | el :: els, h => by
    rw [NoEmptyTuples] at h
    have := leaves_pos el h.1
    have := leavesAll_ge els h.2
    rw [leavesAll, List.length_cons]; omega
end

mutual
theorem valueTypesAreEqual_safe : (a b : ValueType) → Safe (valueTypesAreEqual a b)
  | .tuple as, .tuple bs => by
    rw [valueTypesAreEqual]
    split
    · exact valueTypesAreEqualList_safe as bs
    · exact .ok _
  | .intModN a m, .intModN b n => by
    rw [valueTypesAreEqual]
    exact (valueIntegerToUint128_safe m).bind fun _ _ => (valueIntegerToUint128_safe n).bind fun _ _ => .ok _
  | .notSet, b => by simp only [valueTypesAreEqual]; exact .err _
  | .integer a, b => by cases b <;> simp only [valueTypesAreEqual] <;> first | exact .err _ | exact .ok _
  | .xorWrapper a, b => by cases b <;> simp only [valueTypesAreEqual] <;> first | exact .err _ | exact .ok _
  | .tuple as, .notSet => by simp only [valueTypesAreEqual]; exact .err _
  | .tuple as, .integer _ => by simp only [valueTypesAreEqual]; exact .ok _
  | .tuple as, .xorWrapper _ => by simp only [valueTypesAreEqual]; exact .ok _
  | .tuple as, .intModN _ _ => by simp only [valueTypesAreEqual]; exact .ok _
  | .intModN _ _, .notSet => by simp only [valueTypesAreEqual]; exact .err _
  | .intModN _ _, .integer _ => by simp only [valueTypesAreEqual]; exact .ok _
  | .intModN _ _, .xorWrapper _ => by simp only [valueTypesAreEqual]; exact .ok _
  | .intModN _ _, .tuple _ => by simp only [valueTypesAreEqual]; exact .ok _
theorem valueTypesAreEqualList_safe : (as bs : List ValueType) → Safe (valueTypesAreEqualList as bs)
  | a :: as, b :: bs => by
    rw [valueTypesAreEqualList]
    exact (valueTypesAreEqual_safe a b).bind fun _ _ =>
      (valueTypesAreEqualList_safe as bs).bind fun _ _ => .ok _
  | [], _ => by simp only [valueTypesAreEqualList]; exact .ok _
  | _ :: _, [] => by simp only [valueTypesAreEqualList]; exact .ok _
end

theorem countTuple_safe (els : List ValueType) (im : Option ValueType) (a b : Nat) :
    Safe (countTuple els im a b) := by
  induction els generalizing im a b with
  | nil => exact .ok _
  | cons el els ih =>
    cases el with
    | intModN c m =>
      cases im with
      | none => exact ih _ _ _
      | some im' =>
        exact (valueTypesAreEqual_safe _ _).bind fun _ _ => (Safe.failIf _ _).bind fun _ _ => ih _ _ _
    | _ => exact ih _ _ _

theorem ValidBits.pos {b : Int} (h : ValidBits b) : 0 < b := by
  simp [ValidBits] at h; omega

mutual
/-- Safe, positive and bounded by the number of integers. -/
theorem bitsNeeded_safe (fp : FpEnv) : (t : ValueType) → (sec : Sec) → ValidType t → NoEmptyTuple t →
    leaves t < 2 ^ 23 →
    Safe (bitsNeeded fp t sec) ∧ ∀ b, bitsNeeded fp t sec = ok b → 0 < b ∧ b + 128 ≤ 256 * leaves t
  | .notSet, _, hv, _, _ => by simp [ValidType] at hv
  | .integer b, _, hv, _, _ => by
    rw [bitsNeeded]
    refine ⟨.ok _, ?_⟩
    rintro _ ⟨⟩
    have hv : ValidBits b := by simpa [ValidType] using hv
    have := ValidBits.pos hv
    simp only [leaves]
    simp [ValidBits] at hv
    omega
  | .xorWrapper b, _, hv, _, _ => by
    rw [bitsNeeded]
    refine ⟨.ok _, ?_⟩
    rintro _ ⟨⟩
    have hv : ValidBits b := by simpa [ValidType] using hv
    have := ValidBits.pos hv
    simp only [leaves]
    simp [ValidBits] at hv
    omega
  | .intModN b m, sec, _, _, _ => by
    rw [bitsNeeded]
    constructor
    · exact (valueIntegerToUint128_safe m).bind fun _ _ =>
        (getNumBytesRequired_safe _ _ _ _ _ (by decide)).bind fun _ _ => .ok _
    · intro c h
      simp only [bind_eq_ok] at h
      obtain ⟨_, _, n, h1, h2⟩ := h
      have := (getNumBytesRequired_ok h1).2.2.2
      simp only [ok.injEq] at h2
      simp only [leaves]
      omega
  | .tuple els, sec, hv, hn, hl => by
    rw [ValidType] at hv
    rw [NoEmptyTuple] at hn
    rw [leaves] at hl ⊢
    rw [bitsNeeded]
    have hge := leavesAll_ge els hn.2
    have hlen : 0 < els.length := List.length_pos_iff.mpr hn.1
    have hm : ∀ (im : Option ValueType) (nMod nOther : Nat), countTuple els none 0 0 = ok (im, nMod, nOther) →
        ∀ mods, (match (generalizing := false) im with
        | some (.intModN b m) =>
          valueIntegerToUint128 m >>= fun modulus =>
          IntModN.getNumBytesRequired fp nMod b modulus sec >>= fun n => intRange (n * 8)
        | _ => ok 0) = ok mods → 0 ≤ mods ∧ (im.isSome = true → 0 < mods) ∧ mods ≤ 128 * nMod := by
      intro im nMod nOther h1 mods h3
      have c := countTuple_counts h1
      cases im with
      | none =>
        simp at h3
        exact ⟨by omega, by simp, by omega⟩
      | some v =>
        have := c.2.2.2.2.2.1 (by simp) v rfl
        cases v with
        | intModN bb m =>
          simp only [bind_eq_ok] at h3
          obtain ⟨m', _, n, h6, h7⟩ := h3
          obtain ⟨k1, k2, k3, k4⟩ := getNumBytesRequired_ok h6
          have := numBytes_bounds k1 k2 k3
          rw [intRange_eq_ok] at h7
          omega
        | _ => simp [ValueType.isMod] at this
    constructor
    · refine (countTuple_safe _ _ _ _).bind fun ⟨im, nMod, nOther⟩ h1 => ?_
      have c := countTuple_counts h1
      have hf := bitsNeededFirst_safe fp els nOther (sec.add (fp.log2 nOther)) 0 hv hn.2 (by omega) (by omega)
        (by omega)
      refine hf.1.bind fun other ho => ?_
      have hb := hf.2 _ ho
      refine Safe.bind ?_ fun mods h3 => ?_
      · split
        · refine (valueIntegerToUint128_safe _).bind fun _ _ =>
            (getNumBytesRequired_safe _ _ _ _ _ (by omega)).bind fun n h6 => ?_
          obtain ⟨k1, k2, k3, k4⟩ := getNumBytesRequired_ok h6
          have := numBytes_bounds k1 k2 k3
          exact intRange_safe (by omega) (by omega)
        · exact .ok _
      · have := hm im nMod nOther h1 mods h3
        exact intRange_safe (by omega) (by omega)
    · intro c h
      rw [bind_eq_ok] at h
      obtain ⟨⟨im, nMod, nOther⟩, h1, h⟩ := h
      simp only [bind_eq_ok] at h
      obtain ⟨other, h2, mods, h3, h4⟩ := h
      have c := countTuple_counts h1
      have hs := (bitsNeededFirst_safe fp els nOther _ 0 hv hn.2 (by omega) (by omega) (by omega)).2 _ h2
      rw [intRange_eq_ok] at h4
      have hm := hm im nMod nOther h1 mods h3
      refine ⟨?_, by omega⟩
      rcases Nat.eq_zero_or_pos nMod with h0 | h0
      · have := hs.2.1 (by omega)
        omega
      · have := hm.2.1 (c.2.2.2.1 h0)
        omega
theorem bitsNeededFirst_safe (fp : FpEnv) : (els : List ValueType) → (n : Nat) → (sec : Sec) →
    (acc : Int) → ValidTypes els → NoEmptyTuples els → n ≤ els.length → 0 ≤ acc →
    acc + 256 * leavesAll els < 2 ^ 31 →
    Safe (bitsNeededFirst fp els n sec acc) ∧
      ∀ b, bitsNeededFirst fp els n sec acc = ok b → acc ≤ b ∧ (0 < n → acc < b) ∧
        b + 128 * n + 256 * (els.length - n : Nat) ≤ acc + 256 * leavesAll els
  | els, 0, sec, acc, _, hn, _, _, _ => by
    have e : bitsNeededFirst fp els 0 sec acc = ok acc := by cases els <;> rfl
    rw [e]
    refine ⟨.ok _, ?_⟩
    rintro _ ⟨⟩
    have := leavesAll_ge els hn
    omega
  | [], n + 1, _, _, _, _, h, _, _ => by simp at h
  | el :: els, n + 1, sec, acc, hv, hn, h, h0, hl => by
    rw [ValidTypes] at hv
    rw [NoEmptyTuples] at hn
    rw [leavesAll] at hl ⊢
    rw [bitsNeededFirst]
    have h1 := bitsNeeded_safe fp el sec hv.1 hn.1 (by omega)
    constructor
    · refine h1.1.bind fun b hb => (intRange_safe ?_ ?_).bind fun c hc => ?_
      · have := h1.2 _ hb; omega
      · have := h1.2 _ hb; omega
      · have := h1.2 _ hb
        rw [intRange_eq_ok] at hc
        exact (bitsNeededFirst_safe fp els n sec c hv.2 hn.2 (by simpa using h) (by omega) (by omega)).1
    · intro b hb
      simp only [bind_eq_ok] at hb
      obtain ⟨x, hx, y, hy, hb⟩ := hb
      rw [intRange_eq_ok] at hy
      have := h1.2 _ hx
      have := (bitsNeededFirst_safe fp els n sec y hv.2 hn.2 (by simpa using h) (by omega) (by omega)).2 _ hb
      rw [List.length_cons] at h ⊢
      omega
end

theorem ceilLog2_safe {b : Int} (h : 0 < b) : Safe (ceilLog2 b) := by
  unfold ceilLog2; rw [if_neg (by omega)]; exact .ok _

theorem create_safe (fp : FpEnv) (params : List DpfParameters)
    (hne : ∀ p ∈ params, NoEmptyTuple p.vt) (hl : ∀ p ∈ params, leaves p.vt < 2 ^ 23) : Safe (ProtoValidator.create fp params) := by
  unfold ProtoValidator.create
  refine (validateParameters_cases params).safe.bind fun _ h => ?_
  have hv := (validateParameters_iff params).mp h
  refine Safe.bind ?_ fun _ _ => .ok _
  apply foldRes_safe
  intro s p hp
  simp only [List.mem_map] at hp
  obtain ⟨q, hq, rfl⟩ := hp
  obtain ⟨t, ht, hvt⟩ := hv.types q hq
  have e : (withDefaultSecurity q).vt = t := by
    unfold withDefaultSecurity DpfParameters.vt
    split <;> simp [ht]
  have e' : q.vt = t := by simp [DpfParameters.vt, ht]
  unfold createStep
  rw [e]
  have hb := bitsNeeded_safe fp t (withDefaultSecurity q).securityParameter hvt (e' ▸ hne q hq)
    (e' ▸ hl q hq)
  exact hb.1.bind fun b hb' => (ceilLog2_safe (hb.2 b hb').1).bind fun _ _ => .ok _

theorem createIncremental_safe (fp : FpEnv) (params : List DpfParameters)
    (hne : ∀ p ∈ params, NoEmptyTuple p.vt) (hl : ∀ p ∈ params, leaves p.vt < 2 ^ 23) : Safe (Dpf.createIncremental fp params) := by
  unfold Dpf.createIncremental
  refine (create_safe fp params hne hl).bind fun pv h => ?_
  obtain ⟨hv, _⟩ := create_spec h
  refine Safe.bind ?_ fun _ _ => .ok _
  apply mapRes_safe
  intro p hp
  obtain ⟨t, ht, hvt⟩ := hv.types p hp
  have e : p.vt = t := by simp [DpfParameters.vt, ht]
  have hb := bitsNeeded_safe fp p.vt p.securityParameter (e ▸ hvt) (hne p hp) (hl p hp)
  have := hl p hp
  exact hb.1.bind fun b h => (intRange_safe (by have := hb.2 b h; omega) (by
    have := hb.2 b h; omega)).bind fun _ _ => .ok _

end Verif
