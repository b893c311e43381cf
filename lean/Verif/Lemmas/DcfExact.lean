import Verif.Spec.DcfExact
import Verif.Lemmas.Dcf
/-! Lemmas on the DCF for all types. -/
namespace Verif
open Res Spec

mutual
theorem compared_init : (t : Ty) → (b : t.den) → compared t b false false = t.helper.zero
  | .uint _, _ => rfl
  | .intModN _ _ _ _, _ => rfl
  | .xorWrapper _, _ => rfl
  | .tuple ts, b => comparedAll_init ts b
theorem comparedAll_init : (ts : Tys) → (b : ts.den) → comparedAll ts b false false = ts.helper.zero
  | .one t, b => compared_init t b
  | .cons t ts, b => Prod.ext (compared_init t b.1) (comparedAll_init ts b.2)
end

mutual
/-- A level at which the shares add up to all of `b`. -/
theorem compared_whole : (t : Ty) → (b : t.den) → (o : Bool) →
    t.helper.add (compared t b false o) b = compared t b true !o
  | .uint w, b, o => (Ty.uint w).helper_isGroup.zero_add b
  | .intModN w N hp hl, b, o => (Ty.intModN w N hp hl).helper_isGroup.zero_add b
  | .xorWrapper w, b, o => by
    cases o
    · exact (Ty.xorWrapper w).helper_isGroup.zero_add b
    · exact BitVec.xor_self
  | .tuple ts, b, o => comparedAll_whole ts b o
theorem comparedAll_whole : (ts : Tys) → (b : ts.den) → (o : Bool) →
    ts.helper.add (comparedAll ts b false o) b = comparedAll ts b true !o
  | .one t, b, o => compared_whole t b o
  | .cons t ts, b, o => Prod.ext (compared_whole t b.1 o) (comparedAll_whole ts b.2 o)
end

mutual
/-- A level at which the shares add up to the `XorWrapper` parts of `b`. -/
theorem compared_xor : (t : Ty) → (b : t.den) → (o : Bool) →
    t.helper.add (compared t b false o) (compared t b false true) = compared t b false !o
  | .uint w, b, o => (Ty.uint w).helper_isGroup.zero_add _
  | .intModN w N hp hl, b, o => (Ty.intModN w N hp hl).helper_isGroup.zero_add _
  | .xorWrapper w, b, o => by
    cases o
    · exact (Ty.xorWrapper w).helper_isGroup.zero_add b
    · exact BitVec.xor_self
  | .tuple ts, b, o => comparedAll_xor ts b o
theorem comparedAll_xor : (ts : Tys) → (b : ts.den) → (o : Bool) →
    ts.helper.add (comparedAll ts b false o) (comparedAll ts b false true) = comparedAll ts b false !o
  | .one t, b, o => compared_xor t b o
  | .cons t ts, b, o => Prod.ext (compared_xor t b.1 o) (comparedAll_xor ts b.2 o)
end

mutual
/-- Without `XorWrapper` only the comparison counts. -/
theorem compared_noXor : (t : Ty) → t.noXor = true → (b : t.den) → (l o : Bool) →
    compared t b l o = if l then b else t.helper.zero
  | .uint _, _, _, _, _ => rfl
  | .intModN _ _ _ _, _, _, _, _ => rfl
  | .xorWrapper _, h, _, _, _ => by simp [Ty.noXor] at h
  | .tuple ts, h, b, l, o => comparedAll_noXor ts (by simpa [Ty.noXor] using h) b l o
theorem comparedAll_noXor : (ts : Tys) → ts.noXor = true → (b : ts.den) → (l o : Bool) →
    comparedAll ts b l o = if l then b else ts.helper.zero
  | .one t, h, b, l, o => compared_noXor t (by simpa [Tys.noXor] using h) b l o
  | .cons t ts, h, b, l, o => by
    simp only [Tys.noXor, Bool.and_eq_true] at h
    have h1 := compared_noXor t h.1 b.1 l o
    have h2 := comparedAll_noXor ts h.2 b.2 l o
    cases l
    · exact Prod.ext h1 h2
    · exact Prod.ext h1 h2
end

mutual
theorem Spec.Represents.hasForm : (t : Ty) → (v : Value) → (b : t.den) → Represents t v b → HasForm t v b
  | .uint _, _, _, h => let ⟨i, e, _⟩ := h; ⟨i, e⟩
  | .intModN _ _ _ _, _, _, h => let ⟨i, e, _⟩ := h; ⟨i, e⟩
  | .xorWrapper _, _, _, h => h
  | .tuple ts, _, b, h => let ⟨vs, e, h⟩ := h; ⟨vs, e, RepresentsAll.hasForm ts vs b h⟩
theorem RepresentsAll.hasForm : (ts : Tys) → (vs : List Value) → (b : ts.den) → RepresentsAll ts vs b →
    HasFormAll ts vs b
  | .one t, _, b, h => let ⟨v, e, h⟩ := h; ⟨v, e, Spec.Represents.hasForm t v b h⟩
  | .cons t ts, _, b, h => let ⟨v, vs, e, h, h'⟩ := h
    ⟨v, vs, e, Spec.Represents.hasForm t v b.1 h, RepresentsAll.hasForm ts vs b.2 h'⟩
end

theorem Spec.Represents.accepted {T : Ty} {alpha : U128} {beta : Value} {b : T.den} (hb : Represents T beta b) :
    AcceptedBeta T alpha beta b := by
  unfold AcceptedBeta
  split
  · exact Spec.Represents.hasForm T beta b hb
  · exact hb

mutual
/-- What is left by `SetToZero`. -/
theorem setToZero_rep : (t : Ty) → (v : Value) → (b : t.den) → HasForm t v b →
    Represents t (setToZero v) (compared t b false true)
  | .uint w, v, b, h => by
    obtain ⟨i, rfl⟩ := h
    refine ⟨.u64 0, rfl, ?_⟩
    simp [intMsg, compared]
  | .intModN w N _ _, v, b, h => by
    obtain ⟨i, rfl⟩ := h
    refine ⟨.u64 0, rfl, ?_⟩
    simp [intMsg, compared, Ty.helper, intModNHelper, IntModN.mk]
  | .xorWrapper w, v, b, h => by
    obtain ⟨i, rfl, hi⟩ := h
    exact ⟨i, rfl, hi⟩
  | .tuple ts, v, b, h => by
    obtain ⟨vs, rfl, h⟩ := h
    exact ⟨_, rfl, setAllToZero_rep ts vs b h⟩
theorem setAllToZero_rep : (ts : Tys) → (vs : List Value) → (b : ts.den) → HasFormAll ts vs b →
    RepresentsAll ts (setAllToZero vs) (comparedAll ts b false true)
  | .one t, vs, b, h => by
    obtain ⟨v, rfl, h⟩ := h
    exact ⟨_, rfl, setToZero_rep t v b h⟩
  | .cons t ts, vs, b, h => by
    obtain ⟨v, vs', rfl, h, h'⟩ := h
    exact ⟨_, _, rfl, setToZero_rep t v b.1 h, setAllToZero_rep ts vs' b.2 h'⟩
end

mutual
/-- The form is visible after `SetToZero`. -/
theorem hasForm_of_setToZero : (t : Ty) → (v : Value) → (z : t.den) → Represents t (setToZero v) z → HasForm t v z
  | .uint w, v, z, h => by
    obtain ⟨i, e, _⟩ := h
    cases v <;> simp [setToZero] at e
    exact ⟨_, rfl⟩
  | .intModN w N _ _, v, z, h => by
    obtain ⟨i, e, _⟩ := h
    cases v <;> simp [setToZero] at e
    exact ⟨_, rfl⟩
  | .xorWrapper w, v, z, h => by
    obtain ⟨i, e, hi⟩ := h
    cases v <;> simp [setToZero] at e
    subst e
    exact ⟨_, rfl, hi⟩
  | .tuple ts, v, z, h => by
    obtain ⟨vs, e, h⟩ := h
    cases v <;> simp [setToZero] at e
    subst e
    exact ⟨_, rfl, hasFormAll_of_setToZero ts _ z h⟩
theorem hasFormAll_of_setToZero : (ts : Tys) → (vs : List Value) → (z : ts.den) →
    RepresentsAll ts (setAllToZero vs) z → HasFormAll ts vs z
  | .one t, vs, z, h => by
    obtain ⟨v, e, h⟩ := h
    cases vs with
    | nil => simp [setAllToZero] at e
    | cons a as =>
      cases as with
      | nil =>
        simp only [setAllToZero, List.cons.injEq, and_true] at e
        subst e
        exact ⟨_, rfl, hasForm_of_setToZero t a z h⟩
      | cons _ _ => simp [setAllToZero] at e
  | .cons t ts, vs, z, h => by
    obtain ⟨v, vs', e, h, h'⟩ := h
    cases vs with
    | nil => simp [setAllToZero] at e
    | cons a as =>
      simp only [setAllToZero, List.cons.injEq] at e
      obtain ⟨rfl, rfl⟩ := e
      exact ⟨_, _, rfl, hasForm_of_setToZero t a z.1 h, hasFormAll_of_setToZero ts as z.2 h'⟩
end

/-- A number in the domain other than zero has a bit set. -/
theorem exists_bit {n : Nat} {a : U128} (ha : a.toNat < 2 ^ n) (h0 : a ≠ 0) :
    ∃ k, k < n ∧ a.toNat / 2 ^ k % 2 = 1 := by
  apply Classical.byContradiction
  intro hno
  apply h0
  apply BitVec.eq_of_toNat_eq
  apply Nat.eq_of_testBit_eq
  intro k
  rw [Nat.testBit_eq_decide_div_mod_eq]
  have : ¬ a.toNat / 2 ^ k % 2 = 1 := by
    by_cases hk : k < n
    · intro e; exact hno ⟨k, hk, e⟩
    · rw [Nat.div_eq_of_lt (Nat.lt_of_lt_of_le ha (Nat.pow_le_pow_right (by omega) (by omega)))]
      omega
  simp [this]

namespace Spec.DcfSetup
variable {fp : FpEnv} {p : DpfParameters} {T : Ty} {c : Dcf} (hs : DcfSetup fp p T c)
include hs

theorem lastLogSize_eq : lastLogSize (Dcf.dpfParameters p) = p.logDomainSize.toNat - 1 := by
  have := hs.log_pos
  unfold lastLogSize
  rw [Dcf.dpfParameters_length, Dcf.logSize_eq (by omega)]

/-- The values of the levels of an accepted message. -/
theorem betasRepresent {alpha : U128} {beta : Value} {b : T.den} (hb : AcceptedBeta T alpha beta b) :
    BetasRepresent (Dcf.dpfParameters p) (fun _ => T)
      ((List.range p.logDomainSize.toNat).map fun i =>
        if alpha.toNat / 2 ^ (p.logDomainSize.toNat - i - 1) % 2 = 1 then beta else setToZero beta)
      (fun i => if alpha.toNat / 2 ^ (p.logDomainSize.toNat - i - 1) % 2 = 1 then b
        else compared T b false true) := by
  refine ⟨by simp [Dcf.dpfParameters_length], ?_⟩
  intro h v hv
  simp only [List.getElem?_map, Option.map_eq_some_iff] at hv
  obtain ⟨i, hi, rfl⟩ := hv
  rw [List.getElem?_eq_some_iff] at hi
  obtain ⟨hlt, e⟩ := hi
  simp only [List.getElem_range] at e
  subst e
  dsimp only
  unfold AcceptedBeta at hb
  split
  · rename_i hbit
    have h0 : alpha ≠ 0 := by
      rintro rfl
      simp at hbit
    rw [if_neg h0] at hb
    exact hb
  · apply setToZero_rep
    split at hb
    · exact hb
    · exact Spec.Represents.hasForm T beta b hb

/-- An accepted message, from the values of the levels. -/
theorem acceptedBeta {alpha : U128} {beta : Value} (ha : alpha.toNat < 2 ^ p.logDomainSize.toNat)
    {bs : (i : Nat) → T.den}
    (h : BetasRepresent (Dcf.dpfParameters p) (fun _ => T)
      ((List.range p.logDomainSize.toNat).map fun i =>
        if alpha.toNat / 2 ^ (p.logDomainSize.toNat - i - 1) % 2 = 1 then beta else setToZero beta) bs) :
    ∃ b, AcceptedBeta T alpha beta b := by
  have hpos := hs.log_pos
  have hget : ∀ i, i < p.logDomainSize.toNat → Represents T
      (if alpha.toNat / 2 ^ (p.logDomainSize.toNat - i - 1) % 2 = 1 then beta else setToZero beta) (bs i) := by
    intro i hi
    refine h.2 i _ ?_
    rw [List.getElem?_map, List.getElem?_range hi]
    rfl
  unfold AcceptedBeta
  by_cases h0 : alpha = 0
  · refine ⟨bs 0, ?_⟩
    rw [if_pos h0]
    have := hget 0 (by omega)
    rw [if_neg (by subst h0; simp)] at this
    exact hasForm_of_setToZero T beta _ this
  · obtain ⟨k, hk, hb⟩ := exists_bit ha h0
    refine ⟨bs (p.logDomainSize.toNat - 1 - k), ?_⟩
    rw [if_neg h0]
    have := hget (p.logDomainSize.toNat - 1 - k) (by omega)
    rwa [show p.logDomainSize.toNat - (p.logDomainSize.toNat - 1 - k) - 1 = k by omega, if_pos hb] at this

/-- What generated keys evaluate to, for all types. -/
theorem correct_all (env : Env) {alpha : U128} (halpha : alpha.toNat < 2 ^ p.logDomainSize.toNat)
    {beta : Value} {b : T.den} (hb : AcceptedBeta T alpha beta b) (seed0 seed1 : U128) :
    ∃ k0 k1, c.generateKeys env alpha beta seed0 seed1 = ok (k0, k1) ∧
      ∀ x : U128, x.toNat < 2 ^ p.logDomainSize.toNat →
        ∃ v0 v1, c.evaluate env T.helper k0 x = ok v0 ∧ c.evaluate env T.helper k1 x = ok v1 ∧
          T.helper.add v0 v1 = compared T b (decide (x.toNat < alpha.toNat))
            (decide (sharedZeros p.logDomainSize.toNat x.toNat alpha.toNat p.logDomainSize.toNat % 2 = 1)) := by
  have G := T.helper_isGroup
  have hpos := hs.log_pos
  have wf := hs.setup.wf
  have hn := hs.n_eq
  have hbetas := hs.betasRepresent hb
  rw [hs.generateKeys_unfold env alpha beta seed0 seed1]
  generalize hN : p.logDomainSize.toNat = N at *
  have hN1 : 1 ≤ N := by omega
  have hshr : (alpha >>> 1).toNat = alpha.toNat / 2 := by
    rw [Dpf.shr_toNat]
  have hlast : c.dpf.logAt (c.dpf.n - 1) = N - 1 := by
    rw [hn]; exact hs.logAt_eq (by omega)
  obtain ⟨k0, k1, hk, g⟩ := wf.generateKeys_ok env (hs.setup.betasOk hbetas) (alpha := alpha >>> 1)
    (by
      rw [hlast, hshr]
      have : 2 ^ N = 2 ^ (N - 1) * 2 := by rw [← Nat.pow_succ]; congr 1; omega
      omega) seed0 seed1
  refine ⟨k0, k1, hk, ?_⟩
  intro x hxlt
  obtain ⟨ok0, ok1⟩ := g.keyOk wf (fun h hh => hs.setup.typedAt hh)
  rw [hs.evaluate_ok env ok0, hs.evaluate_ok env ok1, hN]
  unfold Dcf.evalFold
  have key : ∀ j, j ≤ N → ∃ v0 v1 : T.den,
      foldRes (Dcf.stepAt T.helper N x (fun h =>
        c.dpf.getValueCorrectionAsArray T.helper k0 h >>= fun corr =>
        ok (c.dpf.share env T k0 h corr (x.toNat / 2 ^ (N - h))))) T.helper.zero (List.range j) = ok v0 ∧
      foldRes (Dcf.stepAt T.helper N x (fun h =>
        c.dpf.getValueCorrectionAsArray T.helper k1 h >>= fun corr =>
        ok (c.dpf.share env T k1 h corr (x.toNat / 2 ^ (N - h))))) T.helper.zero (List.range j) = ok v1 ∧
      T.helper.add v0 v1 = compared T b (decide (x.toNat / 2 ^ (N - j) < alpha.toNat / 2 ^ (N - j)))
        (decide (sharedZeros N x.toNat alpha.toNat j % 2 = 1)) := by
    intro j
    induction j with
    | zero =>
      intro _
      refine ⟨T.helper.zero, T.helper.zero, rfl, rfl, ?_⟩
      rw [Nat.sub_zero, Nat.div_eq_of_lt hxlt, Nat.div_eq_of_lt halpha, G.add_zero]
      exact (compared_init T b).symm
    | succ j ih =>
      intro hj
      obtain ⟨v0, v1, h0, h1, hsum⟩ := ih (by omega)
      have hjn : j < c.dpf.n := by omega
      have ht := hs.setup.typedAt hjn
      have hxj : x.toNat / 2 ^ (N - j) < 2 ^ c.dpf.logAt j := by
        rw [hs.logAt_eq (by omega), Nat.div_lt_iff_lt_mul (Nat.two_pow_pos _), ← Nat.pow_add,
          show j + (N - j) = N by omega]
        exact hxlt
      have hshare := g.share_sum wf hjn ht hxj
      rw [List.range_succ]
      rw [foldRes_append, h0, bind_ok, foldRes_append, h1, bind_ok, foldRes_cons, foldRes_cons]
      unfold Dcf.stepAt
      have hc0 := g.corr0 hjn ht
      have hc1 := g.corr1 hjn ht
      simp only [hc0, hc1, bind_ok, foldRes]
      refine ⟨_, _, rfl, rfl, ?_⟩
      have ea : alpha.toNat / 2 / 2 ^ (N - 1 - j) = alpha.toNat / 2 ^ (N - j) := by
        rw [Nat.div_div_eq_div_mul, ← Nat.pow_succ']; congr 2; omega
      rw [hlast, hs.logAt_eq (by omega), hshr, ea] at hshare
      have e1 : N - (j + 1) = N - j - 1 := by omega
      have ed : ∀ z : Nat, z / 2 ^ (N - j) = z / 2 ^ (N - j - 1) / 2 := by
        intro z
        rw [Nat.div_div_eq_div_mul, ← Nat.pow_succ]; congr 2; omega
      rw [e1, sharedZeros]
      rw [ed, ed alpha.toNat] at hsum
      rw [ed, ed alpha.toNat] at hshare
      rw [ed, ed alpha.toNat]
      generalize sharedZeros N x.toNat alpha.toNat j = Z at *
      generalize x.toNat / 2 ^ (N - j - 1) = X at *
      generalize alpha.toNat / 2 ^ (N - j - 1) = A at *
      generalize c.dpf.share env T k0 j (Dpf.genCorr c.dpf env (alpha >>> 1) (fun _ => T) _ k0 k1 j) (X / 2) = s0 at *
      generalize c.dpf.share env T k1 j (Dpf.genCorr c.dpf env (alpha >>> 1) (fun _ => T) _ k0 k1 j) (X / 2) = s1 at *
      have hlt := lt_step X A
      by_cases hX : X % 2 = 1
      · rw [if_pos hX, if_pos hX, hsum, if_neg (by omega), Nat.add_zero]
        have : X < A ↔ X / 2 < A / 2 := by omega
        simp only [this]
      · rw [if_neg hX, if_neg hX]
        have hadd : T.helper.add (T.helper.add v0 s0) (T.helper.add v1 s1) =
            T.helper.add (T.helper.add v0 v1) (T.helper.add s0 s1) := by
          rw [G.add_assoc, G.add_assoc, G.add_left_comm s0]
        rw [hadd, hsum, hshare]
        by_cases h2 : X / 2 = A / 2
        · rw [if_pos h2, if_pos (show X / 2 = A / 2 ∧ X % 2 = 0 from ⟨h2, by omega⟩), decide_eq_false (show ¬ X / 2 < A / 2 by omega)]
          have eo : decide ((Z + 1) % 2 = 1) = !decide (Z % 2 = 1) := by
            rw [← decide_not]; apply decide_eq_decide.mpr; omega
          rw [eo]
          by_cases h3 : A % 2 = 1
          · rw [if_pos h3, decide_eq_true (show X < A by omega)]
            exact compared_whole T b _
          · rw [if_neg h3, decide_eq_false (show ¬ X < A by omega)]
            exact compared_xor T b _
        · rw [if_neg h2, if_neg (fun h => h2 h.1), G.add_zero, Nat.add_zero]
          have : X < A ↔ X / 2 < A / 2 := by omega
          simp only [this]
  obtain ⟨v0, v1, h0, h1, h⟩ := key N (by omega)
  refine ⟨v0, v1, h0, h1, ?_⟩
  simpa using h

end Spec.DcfSetup
end Verif
