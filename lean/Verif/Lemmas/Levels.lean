import Verif.Lemmas.ValueTypes
import Verif.Spec.Params
/-! Helper lemmas on parameter validation and the hierarchy/tree level maps. -/
namespace Verif
open Res Spec

/-- Induction over the processed prefix of a loop that ended well. -/
theorem foldRes_prefix_inv {α : Type} {σ : Type} {f : σ → α → Res σ} (inv : List α → σ → Prop)
    {l : List α} {s s' : σ} (h0 : inv [] s)
    (hs : ∀ ps p rest st st', l = ps ++ p :: rest → inv ps st → f st p = ok st' →
      inv (ps ++ [p]) st')
    (h : foldRes f s l = ok s') : inv l s' := by
  suffices H : ∀ (rest ps : List α) (st : σ), l = ps ++ rest → inv ps st →
      foldRes f st rest = ok s' → inv l s' from H l [] s rfl h0 h
  intro rest
  induction rest with
  | nil =>
    intro ps st hl hi hf
    simp only [foldRes_nil, ok.injEq] at hf
    rw [hl, List.append_nil, ← hf]; exact hi
  | cons p rest ih =>
    intro ps st hl hi hf
    rw [foldRes_cons, bind_eq_ok] at hf
    obtain ⟨st', h1, h2⟩ := hf
    exact ih (ps ++ [p]) st' (by simp [hl]) (hs ps p rest st st' hl hi h1) h2

/-! ### Validation -/

theorem OkOrInvalid.valueInteger (i : IntegerP) : OkOrInvalid (valueIntegerToUint128 i) := by
  cases i
  · exact Or.inr rfl
  · exact Or.inl ⟨_, rfl⟩
  · exact Or.inl ⟨_, rfl⟩

theorem validateIntegerType_iff (b : Int) : validateIntegerType b = ok () ↔ ValidBits b := by
  unfold validateIntegerType
  constructor
  · intro h
    simp only [bind_eq_ok, failIf_eq_ok] at h
    obtain ⟨_, h1, _, h2, h3⟩ := h
    have h4 : ∀ n : Fin 129, notPowerOfTwo ((n.val : Nat) : Int) = false → 1 ≤ n.val →
        ((n.val : Nat) : Int) ∈ [1, 2, 4, 8, 16, 32, 64, 128] := by decide +kernel
    have := h4 ⟨b.toNat, by omega⟩ (by
      simp only []
      rw [Int.toNat_of_nonneg (by omega)]
      simpa using h3) (by simp only []; omega)
    simp only [] at this
    rw [Int.toNat_of_nonneg (by omega)] at this
    exact this
  · intro h
    simp only [ValidBits, List.mem_cons, List.not_mem_nil, or_false] at h
    rcases h with rfl | rfl | rfl | rfl | rfl | rfl | rfl | rfl <;> decide

theorem validateIntegerType_cases (b : Int) : OkOrInvalid (validateIntegerType b) := by
  unfold validateIntegerType
  exact (OkOrInvalid.failIf _).bind fun _ _ => (OkOrInvalid.failIf _).bind fun _ _ =>
    OkOrInvalid.failIf _

theorem Spec.ValidBits.range {b : Int} (h : ValidBits b) : 1 ≤ b ∧ b ≤ 128 := by
  simp only [ValidBits, List.mem_cons, List.not_mem_nil, or_false] at h
  omega

theorem validateIntegerValue_iff {i : IntegerP} {b : Int} (hb : ValidBits b) :
    validateIntegerValue i b = ok () ↔
      (b = 128 ∨ ∃ v : U128, valueIntegerToUint128 i = .ok v ∧ v.toNat < 2 ^ b.toNat) := by
  have hr := hb.range
  unfold validateIntegerValue
  split
  · rename_i h
    have hbn : b = (b.toNat : Int) := (Int.toNat_of_nonneg (by omega)).symm
    have hlt : b.toNat < 128 := by omega
    have hone : ((1 : U128) <<< b.toNat).toNat = 2 ^ b.toNat := by
      simp only [BitVec.toNat_shiftLeft, Nat.shiftLeft_eq]
      rw [show BitVec.toNat (1 : U128) = 1 from rfl, Nat.one_mul, Nat.mod_eq_of_lt]
      exact Nat.pow_lt_pow_right (by decide) hlt
    rw [hbn, shl128_ok hlt]
    simp only [Int.toNat_natCast]
    constructor
    · intro h
      simp only [bind_eq_ok, failIf_eq_ok] at h
      obtain ⟨v, h1, _, h2, h3⟩ := h
      right
      refine ⟨v, h1, ?_⟩
      simp only [ok.injEq] at h2
      rw [← h2] at h3
      simp only [ge_iff_le, BitVec.le_def, hone] at h3
      omega
    · rintro (h | ⟨v, h1, h2⟩)
      · omega
      · rw [h1, bind_ok, bind_ok, failIf_false]
        simp only [ge_iff_le, BitVec.le_def, hone]
        omega
  · simp only [true_iff]
    left; omega

theorem validateIntegerValue_cases {i : IntegerP} {b : Int} (hb : 0 ≤ b) :
    OkOrInvalid (validateIntegerValue i b) := by
  unfold validateIntegerValue
  split
  · rename_i h
    refine (OkOrInvalid.valueInteger i).bind fun v _ => ?_
    rw [show b = (b.toNat : Int) from (Int.toNat_of_nonneg hb).symm, shl128_ok (by omega), bind_ok]
    exact OkOrInvalid.failIf _
  · exact OkOrInvalid.ok _

mutual
theorem validateValueType_iff : (t : ValueType) → (validateValueType t = ok () ↔ ValidType t)
  | .notSet => by simp [validateValueType, ValidType]
  | .integer b => validateIntegerType_iff b
  | .xorWrapper b => validateIntegerType_iff b
  | .intModN b m => by
    show (validateIntegerType b >>= fun _ => validateIntegerValue m b) = ok () ↔ _
    rw [bind_eq_ok]
    constructor
    · rintro ⟨_, h1, h2⟩
      have hb := (validateIntegerType_iff b).mp h1
      exact ⟨hb, (validateIntegerValue_iff hb).mp h2⟩
    · rintro ⟨hb, h⟩
      exact ⟨(), (validateIntegerType_iff b).mpr hb, (validateIntegerValue_iff hb).mpr h⟩
  | .tuple els => validateValueTypes_iff els
theorem validateValueTypes_iff : (ts : List ValueType) →
    (validateValueTypes ts = ok () ↔ ValidTypes ts)
  | [] => by simp [validateValueTypes, ValidTypes]
  | t :: ts => by
    show (validateValueType t >>= fun _ => validateValueTypes ts) = ok () ↔ _
    rw [bind_eq_ok]
    constructor
    · rintro ⟨_, h1, h2⟩
      exact ⟨(validateValueType_iff t).mp h1, (validateValueTypes_iff ts).mp h2⟩
    · rintro ⟨h1, h2⟩
      exact ⟨(), (validateValueType_iff t).mpr h1, (validateValueTypes_iff ts).mpr h2⟩
end

mutual
theorem validateValueType_cases : (t : ValueType) → OkOrInvalid (validateValueType t)
  | .notSet => Or.inr rfl
  | .integer b => validateIntegerType_cases b
  | .xorWrapper b => validateIntegerType_cases b
  | .intModN b m => (validateIntegerType_cases b).bind fun _ h =>
      validateIntegerValue_cases (by
        have := ((validateIntegerType_iff b).mp h).range
        omega)
  | .tuple els => validateValueTypes_cases els
theorem validateValueTypes_cases : (ts : List ValueType) → OkOrInvalid (validateValueTypes ts)
  | [] => OkOrInvalid.ok _
  | t :: ts => (validateValueType_cases t).bind fun _ _ => validateValueTypes_cases ts
end

theorem validateOneParameter_unfold (prev : Option Int) (p : DpfParameters) :
    validateOneParameter prev p = (do
      failIf (p.logDomainSize < 0) .invalidArgument
      failIf (p.logDomainSize > 128) .invalidArgument
      failIf (notAscending prev p.logDomainSize) .invalidArgument
      let _ ← (match p.valueType with
        | some t => validateValueType t
        | none => (err .invalidArgument : Res Unit))
      failIf (p.securityParameter = .nan) .invalidArgument
      failIf p.securityParameter.outOfRange .invalidArgument
      ok (some p.logDomainSize)) := by
  unfold validateOneParameter
  cases p.valueType <;> rfl

theorem validateOneParameter_iff (prev : Option Int) (p : DpfParameters) (r : Option Int) :
    validateOneParameter prev p = ok r ↔
      r = some p.logDomainSize ∧ 0 ≤ p.logDomainSize ∧ p.logDomainSize ≤ 128 ∧
      (∀ l, prev = some l → l < p.logDomainSize) ∧ (∃ t, p.valueType = some t ∧ ValidType t) ∧
      ∃ s : Rat, p.securityParameter = .val s ∧ 0 ≤ s ∧ s ≤ 128 := by
  rw [validateOneParameter_unfold]
  simp only [bind_eq_ok, failIf_eq_ok]
  constructor
  · rintro ⟨_, h1, _, h2, _, h3, _, h4, _, h5, _, h6, h7⟩
    simp only [ok.injEq] at h7
    refine ⟨h7.symm, by omega, by omega, ?_, ?_, ?_⟩
    · rintro l rfl
      simpa [notAscending] using h3
    · cases hv : p.valueType with
      | none => rw [hv] at h4; simp at h4
      | some t =>
        rw [hv] at h4
        exact ⟨t, rfl, (validateValueType_iff t).mp h4⟩
    · cases hv : p.securityParameter with
      | nan => rw [hv] at h5; simp at h5
      | val s =>
        rw [hv] at h6
        simp only [Sec.outOfRange, decide_eq_true_eq, not_or, Rat.not_lt] at h6
        exact ⟨s, rfl, h6.1, h6.2⟩
  · rintro ⟨rfl, h1, h2, h3, ⟨t, ht, hv⟩, s, hs, hs1, hs2⟩
    refine ⟨(), by omega, (), by omega, (), ?_, (), ?_, (), ?_, (), ?_, rfl⟩
    · cases prev with
      | none => simp [notAscending]
      | some l => simpa [notAscending] using h3 l rfl
    · rw [ht]; exact (validateValueType_iff t).mpr hv
    · rw [hs]; simp
    · rw [hs]
      simp only [Sec.outOfRange, decide_eq_true_eq, not_or, Rat.not_lt]
      exact ⟨hs1, hs2⟩

theorem validateOneParameter_cases (prev : Option Int) (p : DpfParameters) :
    OkOrInvalid (validateOneParameter prev p) := by
  rw [validateOneParameter_unfold]
  refine (OkOrInvalid.failIf _).bind fun _ _ => (OkOrInvalid.failIf _).bind fun _ _ =>
    (OkOrInvalid.failIf _).bind fun _ _ => OkOrInvalid.bind ?_ fun _ _ =>
    (OkOrInvalid.failIf _).bind fun _ _ => (OkOrInvalid.failIf _).bind fun _ _ => OkOrInvalid.ok _
  cases p.valueType with
  | none => exact Or.inr rfl
  | some t => exact validateValueType_cases t

theorem foldRes_cases {α σ : Type} {f : σ → α → Res σ} (hf : ∀ s a, OkOrInvalid (f s a)) (s : σ)
    (l : List α) : OkOrInvalid (foldRes f s l) := by
  induction l generalizing s with
  | nil => exact OkOrInvalid.ok _
  | cons a l ih => rw [foldRes_cons]; exact (hf s a).bind fun s' _ => ih s'

theorem validateParameters_cases (ps : List DpfParameters) : OkOrInvalid (validateParameters ps) :=
  (OkOrInvalid.failIf _).bind fun _ _ => (foldRes_cases validateOneParameter_cases _ _).bind
    fun _ _ => OkOrInvalid.ok _

theorem validateLoop_iff (prev : Option Int) (ps : List DpfParameters) :
    (∃ r, foldRes validateOneParameter prev ps = ok r) ↔
      (∀ p ∈ ps, 0 ≤ p.logDomainSize ∧ p.logDomainSize ≤ 128) ∧
      (∀ l, prev = some l → ∀ p ∈ ps, l < p.logDomainSize) ∧
      (ps.Pairwise fun p q => p.logDomainSize < q.logDomainSize) ∧
      (∀ p ∈ ps, ∃ t, p.valueType = some t ∧ ValidType t) ∧
      (∀ p ∈ ps, ∃ s : Rat, p.securityParameter = .val s ∧ 0 ≤ s ∧ s ≤ 128) := by
  induction ps generalizing prev with
  | nil => simp
  | cons p ps ih =>
    simp only [foldRes_cons, bind_eq_ok, validateOneParameter_iff]
    constructor
    · rintro ⟨r, s', ⟨rfl, h1, h2, h3, h4, h5⟩, h⟩
      obtain ⟨i1, i2, i3, i4, i5⟩ := (ih (some p.logDomainSize)).mp ⟨r, h⟩
      refine ⟨?_, ?_, ?_, ?_, ?_⟩
      · simpa using ⟨⟨h1, h2⟩, i1⟩
      · intro l hl q hq
        have := h3 l hl
        simp only [List.mem_cons] at hq
        rcases hq with rfl | hq
        · exact this
        · have := i2 _ rfl q hq; omega
      · rw [List.pairwise_cons]
        exact ⟨fun q hq => i2 _ rfl q hq, i3⟩
      · intro q hq
        simp only [List.mem_cons] at hq
        rcases hq with rfl | hq
        · exact h4
        · exact i4 q hq
      · intro q hq
        simp only [List.mem_cons] at hq
        rcases hq with rfl | hq
        · exact h5
        · exact i5 q hq
    · rintro ⟨h1, h2, h3, h4, h5⟩
      rw [List.pairwise_cons] at h3
      obtain ⟨r, hr⟩ := (ih (some p.logDomainSize)).mpr
        ⟨fun q hq => h1 q (by simp [hq]), by
          rintro l hl q hq
          simp only [Option.some.injEq] at hl
          rw [← hl]; exact h3.1 q hq, h3.2,
          fun q hq => h4 q (by simp [hq]), fun q hq => h5 q (by simp [hq])⟩
      have := h1 p (by simp)
      exact ⟨r, _, ⟨rfl, this.1, this.2, fun l hl => h2 l hl p (by simp), h4 p (by simp),
        h5 p (by simp)⟩, hr⟩

theorem validateParameters_iff (ps : List DpfParameters) :
    validateParameters ps = ok () ↔ ValidParams ps := by
  unfold validateParameters
  simp only [bind_eq_ok, failIf_eq_ok]
  constructor
  · rintro ⟨_, h1, r, h2, _⟩
    obtain ⟨i1, _, i3, i4, i5⟩ := (validateLoop_iff none ps).mp ⟨r, h2⟩
    exact ⟨h1, i1, i3, i4, i5⟩
  · intro h
    obtain ⟨r, hr⟩ := (validateLoop_iff none ps).mpr
      ⟨h.log_range, by simp, h.log_ascending, h.types, h.security⟩
    exact ⟨(), h.nonempty, r, hr, trivial⟩

/-! ### Level maps -/

theorem ceilLog2_spec {b : Int} {c : Nat} (h : ceilLog2 b = ok c) :
    0 < b ∧ b ≤ ((2 ^ c : Nat) : Int) ∧ (c ≠ 0 → ((2 ^ (c - 1) : Nat) : Int) < b) := by
  unfold ceilLog2 at h
  split at h
  · simp at h
  · rename_i hb
    simp only [ok.injEq] at h
    split at h
    · rename_i h1
      subst h; subst h1
      simp
    · rename_i h1
      subst h
      have hn : b.toNat - 1 ≠ 0 := by omega
      have h2 := Nat.log2_self_le hn
      have h3 := @Nat.lt_log2_self (b.toNat - 1)
      refine ⟨by omega, ?_, ?_⟩
      · omega
      · intro _
        simp only [Nat.add_sub_cancel]
        omega

/-- Invariant of the loop of `Create` after the parameters `ps`. -/
structure CreateInv (fp : FpEnv) (ps : List DpfParameters) (st : List Nat × List (Nat × Nat) × Nat) :
    Prop where
  len : st.1.length = ps.length
  t2h : st.2.1 = st.1.zipIdx.reverse
  lt : ∀ t ∈ st.1, t < st.2.2
  last : st.2.2 = match st.1.getLast? with | some t => t + 1 | none => 0
  asc : st.1.Pairwise (· < ·)
  bounds : ∀ i (h : i < st.1.length) (h' : i < ps.length),
    ((st.1[i] : Nat) : Int) ≤ ps[i].logDomainSize ∧
    ∃ bits lb, bitsNeeded fp ps[i].vt ps[i].securityParameter = ok bits ∧ ceilLog2 bits = ok lb ∧
      ps[i].logDomainSize - 7 + min (lb : Int) 7 ≤ ((st.1[i] : Nat) : Int)
  needed_le : ∀ p, ps.getLast? = some p → (st.2.2 : Int) ≤ p.logDomainSize + 1

theorem createStep_inv (fp : FpEnv) {ps : List DpfParameters} {p : DpfParameters}
    {st st' : List Nat × List (Nat × Nat) × Nat} (h : CreateInv fp ps st)
    (hlog : 0 ≤ p.logDomainSize) (hasc : ∀ q ∈ ps, q.logDomainSize < p.logDomainSize)
    (hs : createStep fp st p = ok st') : CreateInv fp (ps ++ [p]) st' := by
  obtain ⟨h2t, t2h, needed⟩ := st
  unfold createStep at hs
  simp only [bind_eq_ok] at hs
  obtain ⟨bits, hb, lb, hlb, hs⟩ := hs
  simp only [ok.injEq] at hs
  generalize ht : (max (needed : Int) (p.logDomainSize - 7 + min (lb : Int) 7)).toNat = t at hs
  have hlen : h2t.length = ps.length := h.len
  have hneed : (needed : Int) ≤ p.logDomainSize := by
    cases hp : ps.getLast? with
    | none =>
      have : ps = [] := by simpa using hp
      have h1 := h.last
      have : h2t = [] := by
        apply List.eq_nil_of_length_eq_zero; rw [hlen, this]; rfl
      simp only [this, List.getLast?_nil] at h1
      omega
    | some q =>
      have h1 := h.needed_le q hp
      have h2 := hasc q (List.mem_of_getLast? hp)
      simp only [] at h1
      omega
  have htge : needed ≤ t := by omega
  have htle : (t : Int) ≤ p.logDomainSize := by omega
  have htlb : p.logDomainSize - 7 + min (lb : Int) 7 ≤ t := by omega
  have hmax : max needed (t + 1) = t + 1 := by omega
  subst hs
  refine ⟨?_, ?_, ?_, ?_, ?_, ?_, ?_⟩
  · simp [hlen]
  · simp only []
    have : t2h = h2t.zipIdx.reverse := h.t2h
    rw [this, List.zipIdx_append]
    simp
  · intro x hx
    simp only [List.mem_append, List.mem_singleton] at hx
    simp only [hmax]
    rcases hx with hx | rfl
    · have : x < needed := h.lt x hx
      omega
    · omega
  · simp [hmax]
  · simp only [List.pairwise_append, List.pairwise_cons, List.not_mem_nil, false_implies,
      implies_true, List.Pairwise.nil, List.mem_singleton, true_and, and_true]
    refine ⟨h.asc, ?_⟩
    rintro x hx y rfl
    have : x < needed := h.lt x hx
    omega
  · intro i hi hi'
    simp only [] at hi ⊢
    rcases Nat.lt_or_ge i h2t.length with hlt | hge
    · rw [List.getElem_append_left hlt, List.getElem_append_left (by omega)]
      exact h.bounds i hlt (by omega)
    · have : i = h2t.length := by simp at hi; omega
      subst this
      have e1 : (h2t ++ [t])[h2t.length] = t := by simp
      have e2 : (ps ++ [p])[h2t.length] = p := by
        simp [hlen]
      rw [e1, e2]
      exact ⟨htle, bits, lb, hb, hlb, htlb⟩
  · intro q hq
    simp only [List.getLast?_append, List.getLast?_singleton, Option.some_or, Option.some.injEq] at hq
    subst hq
    simp only [hmax]
    omega

theorem withDefaultSecurity_log (p : DpfParameters) :
    (withDefaultSecurity p).logDomainSize = p.logDomainSize := by
  unfold withDefaultSecurity; split <;> rfl
theorem withDefaultSecurity_vt (p : DpfParameters) :
    (withDefaultSecurity p).valueType = p.valueType := by
  unfold withDefaultSecurity; split <;> rfl

/-- What `ProtoValidator::Create` guarantees. -/
theorem create_spec {fp : FpEnv} {params : List DpfParameters} {pv : ProtoValidator}
    (h : ProtoValidator.create fp params = ok pv) :
    ValidParams params ∧ pv.parameters = params.map withDefaultSecurity ∧
    CreateInv fp pv.parameters (pv.hierarchyToTree, pv.treeToHierarchy, pv.treeLevelsNeeded) := by
  unfold ProtoValidator.create at h
  simp only [bind_eq_ok] at h
  obtain ⟨_, h1, ⟨h2t, t2h, needed⟩, h2, h3⟩ := h
  have hv := (validateParameters_iff params).mp h1
  simp only [ok.injEq] at h3
  subst h3
  refine ⟨hv, rfl, ?_⟩
  simp only []
  refine foldRes_prefix_inv (fun ps st => CreateInv fp ps st) ?_ ?_ h2
  · exact ⟨rfl, rfl, by simp, rfl, List.Pairwise.nil, by simp, by simp⟩
  · intro ps p rest st st' hl hi hs
    have hmem : p ∈ params.map withDefaultSecurity := by rw [hl]; simp
    obtain ⟨p0, hp0, rfl⟩ := List.mem_map.mp hmem
    refine createStep_inv fp hi ?_ ?_ hs
    · rw [withDefaultSecurity_log]; exact (hv.log_range p0 hp0).1
    · intro q hq
      have hpw : (params.map withDefaultSecurity).Pairwise
          fun p q => p.logDomainSize < q.logDomainSize := by
        rw [List.pairwise_map]
        simp only [withDefaultSecurity_log]
        exact hv.log_ascending
      rw [hl, List.pairwise_append] at hpw
      exact hpw.2.2 q hq _ (by simp)

end Verif
