import Verif.Lemmas.Wire
/-!
# Lemmas: messages that are nested too deeply
-/
namespace Verif
open Spec Wire

theorem foldRecords_none {σ : Type} {f : σ → Record → Option σ} {rs : List Record} {r : Record} (hr : r ∈ rs)
    (h : ∀ s, f s r = none) (s : σ) : foldRecords f s rs = none := by
  induction rs generalizing s with
  | nil => cases hr
  | cons x rs ih =>
    rw [foldRecords]
    rcases List.mem_cons.mp hr with rfl | hr
    · rw [h s]; rfl
    · cases f s x with
      | none => rfl
      | some t => exact ih hr t

theorem integer_deep {limit : Nat} {v : IntegerP} (h : limit < nestingInteger v) (s : IntegerP) :
    merge (integerField limit) s (wire (putInteger v)) = none := by
  rw [merge_wire _ _ (fits_integer v) (by have := integer_length_le v; unfold maxMessage; omega)]
  cases v with
  | notSet => simp [nestingInteger] at h
  | u64 v => simp [nestingInteger] at h
  | u128 hi lo =>
    simp only [nestingInteger] at h
    refine foldRecords_none (List.mem_singleton.mpr rfl) ?_ s
    intro s
    simp only [inner, integerField]
    rw [if_pos (by omega)]

mutual
theorem value_deep : ∀ (v : Value) (limit : Nat) (s : Value), limit < nestingValue v →
    (wire (putValue v)).length < maxMessage → merge (valueField limit) s (wire (putValue v)) = none
  | .notSet, limit, s, h, _ => by simp [nestingValue] at h
  | .integer v, limit, s, h, hb => by
    rw [merge_wire _ _ (fits_value _) hb]
    rw [nestingValue] at h
    rw [putValue]
    refine foldRecords_none (List.mem_singleton.mpr rfl) ?_ s
    intro s
    cases limit with
    | zero => simp only [inner, valueField]
    | succ limit =>
      simp only [inner, valueField]
      rw [integer_deep (by omega)]
      rfl
  | .tuple vs, limit, s, h, hb => by
    rw [merge_wire _ _ (fits_value _) hb]
    rw [nestingValue] at h
    rw [putValue] at hb ⊢
    refine foldRecords_none (List.mem_singleton.mpr rfl) ?_ s
    intro s
    cases limit with
    | zero => simp only [inner, valueField]
    | succ limit =>
      have hb' := inner_single_length hb
      simp only [inner, valueField]
      rw [merge_wire _ _ (fits_values vs) hb', values_deep vs limit _ (by omega) hb']
      rfl
  | .intModN v, limit, s, h, hb => by
    rw [merge_wire _ _ (fits_value _) hb]
    rw [nestingValue] at h
    rw [putValue]
    refine foldRecords_none (List.mem_singleton.mpr rfl) ?_ s
    intro s
    cases limit with
    | zero => simp only [inner, valueField]
    | succ limit =>
      simp only [inner, valueField]
      rw [integer_deep (by omega)]
      rfl
  | .xorWrapper v, limit, s, h, hb => by
    rw [merge_wire _ _ (fits_value _) hb]
    rw [nestingValue] at h
    rw [putValue]
    refine foldRecords_none (List.mem_singleton.mpr rfl) ?_ s
    intro s
    cases limit with
    | zero => simp only [inner, valueField]
    | succ limit =>
      simp only [inner, valueField]
      rw [integer_deep (by omega)]
      rfl
theorem values_deep : ∀ (vs : List Value) (limit : Nat) (us : List Value), limit < nestingValues vs →
    (wire (putValues vs)).length < maxMessage → foldRecords (tupleField limit) us (putValues vs) = none
  | [], limit, us, h, _ => by simp [nestingValues] at h
  | v :: vs, limit, us, h, hb => by
    rw [nestingValues] at h
    rw [putValues] at hb ⊢
    have hb1 : (wire (putValue v)).length < maxMessage :=
      Nat.lt_of_le_of_lt (inner_length_le (List.mem_cons_self ..)) hb
    have hb2 : (wire (putValues vs)).length < maxMessage := by
      rw [wire_cons, List.length_append] at hb; omega
    rw [foldRecords]
    by_cases hv : limit < 1 + nestingValue v
    · have : tupleField limit us (inner 1 (putValue v)) = none := by
        cases limit with
        | zero => simp only [inner, tupleField]
        | succ limit =>
          simp only [inner, tupleField]
          rw [value_deep v limit _ (by omega) hb1]
          rfl
      rw [this]
      rfl
    · cases tupleField limit us (inner 1 (putValue v)) with
      | none => rfl
      | some us' => exact values_deep vs limit us' (by omega) hb2
end

mutual
theorem type_deep : ∀ (t : ValueType) (limit : Nat) (s : ValueType), limit < nestingType t →
    (wire (putType t)).length < maxMessage → merge (typeField limit) s (wire (putType t)) = none
  | .notSet, limit, s, h, _ => by simp [nestingType] at h
  | .integer b, limit, s, h, hb => by
    rw [merge_wire _ _ (fits_type _) hb]
    rw [nestingType] at h
    obtain rfl : limit = 0 := by omega
    rw [putType]
    refine foldRecords_none (List.mem_singleton.mpr rfl) ?_ s
    intro s
    simp only [inner, typeField]
  | .tuple ts, limit, s, h, hb => by
    rw [merge_wire _ _ (fits_type _) hb]
    rw [nestingType] at h
    rw [putType] at hb ⊢
    refine foldRecords_none (List.mem_singleton.mpr rfl) ?_ s
    intro s
    cases limit with
    | zero => simp only [inner, typeField]
    | succ limit =>
      have hb' := inner_single_length hb
      simp only [inner, typeField]
      rw [merge_wire _ _ (fits_types ts) hb', types_deep ts limit _ (by omega) hb']
      rfl
  | .intModN b m, limit, s, h, hb => by
    rw [merge_wire _ _ (fits_type _) hb]
    rw [nestingType] at h
    rw [putType] at hb ⊢
    refine foldRecords_none (List.mem_singleton.mpr rfl) ?_ s
    intro s
    cases limit with
    | zero => simp only [inner, typeField]
    | succ limit =>
      have hb' := inner_single_length hb
      simp only [inner, typeField]
      rw [merge_wire _ _ (fits_modType b m) hb']
      rw [foldRecords_none (r := inner 2 (putInteger m)) (by simp [putModType])]
      · rfl
      · intro s
        simp only [inner, modTypeField]
        split
        · rfl
        · rw [integer_deep (by omega)]
          rfl
  | .xorWrapper b, limit, s, h, hb => by
    rw [merge_wire _ _ (fits_type _) hb]
    rw [nestingType] at h
    obtain rfl : limit = 0 := by omega
    rw [putType]
    refine foldRecords_none (List.mem_singleton.mpr rfl) ?_ s
    intro s
    simp only [inner, typeField]
theorem types_deep : ∀ (ts : List ValueType) (limit : Nat) (us : List ValueType), limit < nestingTypes ts →
    (wire (putTypes ts)).length < maxMessage → foldRecords (tupleTypeField limit) us (putTypes ts) = none
  | [], limit, us, h, _ => by simp [nestingTypes] at h
  | t :: ts, limit, us, h, hb => by
    rw [nestingTypes] at h
    rw [putTypes] at hb ⊢
    have hb1 : (wire (putType t)).length < maxMessage :=
      Nat.lt_of_le_of_lt (inner_length_le (List.mem_cons_self ..)) hb
    have hb2 : (wire (putTypes ts)).length < maxMessage := by
      rw [wire_cons, List.length_append] at hb; omega
    rw [foldRecords]
    by_cases hv : limit < 1 + nestingType t
    · have : tupleTypeField limit us (inner 1 (putType t)) = none := by
        cases limit with
        | zero => simp only [inner, tupleTypeField]
        | succ limit =>
          simp only [inner, tupleTypeField]
          rw [type_deep t limit _ (by omega) hb1]
          rfl
      rw [this]
      rfl
    · cases tupleTypeField limit us (inner 1 (putType t)) with
      | none => rfl
      | some us' => exact types_deep ts limit us' (by omega) hb2
end

theorem nestingValues_attained {vs : List Value} {n : Nat} (h : n < nestingValues vs) :
    ∃ v ∈ vs, n < 1 + nestingValue v := by
  induction vs with
  | nil => simp [nestingValues] at h
  | cons v vs ih =>
    rw [nestingValues] at h
    by_cases hv : n < 1 + nestingValue v
    · exact ⟨v, List.mem_cons_self, hv⟩
    · obtain ⟨u, hu, h'⟩ := ih (by omega)
      exact ⟨u, List.mem_cons_of_mem _ hu, h'⟩

theorem largest_attained {l : List Nat} {n : Nat} (h : n < largest l) : ∃ m ∈ l, n < m := by
  induction l with
  | nil => simp [largest] at h
  | cons m l ih =>
    rw [largest] at h
    by_cases hm : n < m
    · exact ⟨m, List.mem_cons_self, hm⟩
    · obtain ⟨u, hu, h'⟩ := ih (by omega)
      exact ⟨u, List.mem_cons_of_mem _ hu, h'⟩

theorem word_deep {w : CorrectionWord} {limit : Nat} (h : limit < nestingWord w)
    (hb : (wire (putWord w)).length < maxMessage) (s : CorrectionWord) :
    merge (wordField limit) s (wire (putWord w)) = none := by
  rw [merge_wire _ _ (fits_word w) hb]
  unfold nestingWord at h
  by_cases h0 : limit = 0
  · subst h0
    refine foldRecords_none (r := inner 1 (putBlock w.seed)) (by simp [putWord]) ?_ s
    intro s
    simp only [inner, wordField, if_true]
  · obtain ⟨v, hv, h'⟩ := nestingValues_attained (n := limit) (vs := w.valueCorrection) (by omega)
    have hm : inner 5 (putValue v) ∈ putWord w := List.mem_append_right _ (List.mem_map.mpr ⟨v, hv, rfl⟩)
    refine foldRecords_none hm ?_ s
    intro s
    simp only [inner, wordField]
    rw [if_neg h0, value_deep v _ _ (by omega) (inner_lt hb hm)]
    rfl

theorem key_deep {k : DpfKey} {limit : Nat} (hs : k.seed ≠ none) (h : limit < nestingKey k)
    (hb : (wire (putKey k)).length < maxMessage) (s : DpfKey) :
    merge (keyField limit) s (wire (putKey k)) = none := by
  rw [merge_wire _ _ (fits_key k) hb]
  unfold nestingKey at h
  by_cases h0 : limit = 0
  · subst h0
    obtain ⟨x, hx⟩ := Option.ne_none_iff_exists'.mp hs
    refine foldRecords_none (r := inner 1 (putBlock x)) (by simp [putKey, hx]) ?_ s
    intro s
    simp only [inner, keyField, if_true]
  · by_cases h1 : limit < largest (k.correctionWords.map fun w => 1 + nestingWord w)
    · obtain ⟨m, hm, h'⟩ := largest_attained h1
      obtain ⟨w, hw, rfl⟩ := List.mem_map.mp hm
      have hm : inner 2 (putWord w) ∈ putKey k := List.mem_append_left _
        (List.mem_append_left _ (List.mem_append_right _ (List.mem_map.mpr ⟨w, hw, rfl⟩)))
      refine foldRecords_none hm ?_ s
      intro s
      simp only [inner, keyField]
      rw [if_neg h0, word_deep (by omega) (inner_lt hb hm)]
      rfl
    · obtain ⟨v, hv, h'⟩ := nestingValues_attained (n := limit) (vs := k.lastLevelValueCorrection) (by omega)
      have hm : inner 5 (putValue v) ∈ putKey k := List.mem_append_right _ (List.mem_map.mpr ⟨v, hv, rfl⟩)
      refine foldRecords_none hm ?_ s
      intro s
      simp only [inner, keyField]
      rw [if_neg h0, value_deep v _ _ (by omega) (inner_lt hb hm)]
      rfl

end Verif
