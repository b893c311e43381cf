import Verif.Spec.Answers
import Verif.Lemmas.ServerSafety
/-! Answers of servers to arbitrary keys. -/
namespace Verif
open Res Spec

theorem selection_points {fp : FpEnv} {l : Nat} {d : Dpf} (h : Dpf.create fp (pirParams l) = ok d) (env : Env)
    (key : DpfKey) (hl : l < 63) :
    (Evaluable d env key ∧ ∃ s, DenseServer.selection d env key = ok s ∧ s.length = 2 ^ l ∧
      ∀ i, i / 128 < 2 ^ l → selectionBit s i = keyBit d env key i) ∨
    (¬ Evaluable d env key ∧ DenseServer.selection d env key = err .invalidArgument) := by
  have hs := pirDpf_setup h
  have wf := hs.wf
  have hcr := hs.toCreated
  have hlog : logSize [pirParams l] 0 = l := rfl
  have hh : 0 < (d.registerValueType pirTy.helper).n := by rw [hcr.n_eq]; exact Nat.one_pos
  have hlogAt : (d.registerValueType pirTy.helper).logAt 0 = l := by rw [hcr.logAt_eq, hlog]
  have eAt : ∀ points, d.evaluateAt env pirTy.helper key 0 points =
      (d.registerValueType pirTy.helper).evaluateAt env pirTy.helper key (0 : Nat) points := fun _ => rfl
  have hpt : ∀ x, x < 2 ^ l → (BitVec.ofNat 128 x).toNat = x := by
    intro x hx
    have : 2 ^ l < 2 ^ 128 := Nat.pow_lt_pow_right (by decide) (by omega)
    rw [BitVec.toNat_ofNat, Nat.mod_eq_of_lt (by omega)]
  have hpos : 0 < 2 ^ l := Nat.two_pow_pos l
  rcases wf.validateDpfKey_cases key with hv | hv
  rotate_left
  · right
    have bad : d.pv.validateDpfKey key = err .invalidArgument := hv
    refine ⟨?_, ?_⟩
    · rintro ⟨v, hv'⟩
      rw [eAt] at hv'
      rcases wf.checkEvaluateAt_cases key (0 : Nat) [0] with ⟨_, _, _, hk, _⟩ | he
      · rw [(wf.validateDpfKey_iff key).mpr hk] at hv
        cases hv
      · unfold Dpf.evaluateAt at hv'
        rw [he] at hv'
        cases hv'
    · unfold DenseServer.selection Dpf.createEvaluationContext
      rw [bad]; rfl
  have hk := (wf.validateDpfKey_iff key).mp hv
  have hsel : DenseServer.selection d env key =
      (d.registerValueType pirTy.helper).evaluateAt env pirTy.helper key (0 : Nat) (allPoints [pirParams l] 0) := by
    rw [← selection_register]
    unfold DenseServer.selection
    obtain ⟨c, hc⟩ : ∃ c, (d.registerValueType pirTy.helper).createEvaluationContext key = ok c := by
      unfold Dpf.createEvaluationContext
      rw [hv]
      exact ⟨_, rfl⟩
    rw [hc, bind_ok]
    exact C02_next fp _ _ _ hs env key _ hc (by rw [hlog]; exact hl)
  have hall : ∀ x ∈ allPoints [pirParams l] 0, x.toNat < 2 ^ (d.registerValueType pirTy.helper).logAt 0 := by
    intro x hx
    unfold allPoints at hx
    obtain ⟨y, hy, rfl⟩ := List.mem_map.mp hx
    rw [List.mem_range, hlog] at hy
    rw [hlogAt, hpt y hy]
    exact hy
  have hne : allPoints [pirParams l] 0 ≠ [] := by
    intro e
    have := congrArg List.length e
    unfold allPoints at this
    rw [List.length_map, List.length_range, hlog] at this
    simp at this
  rw [wf.evaluateAt_ok env hk hh (hs.typedAt hh) hall, if_neg hne] at hsel
  have hpoint : ∀ x, x < 2 ^ l → d.evaluateAt env pirTy.helper key 0 [BitVec.ofNat 128 x] =
      ((d.registerValueType pirTy.helper).getValueCorrectionAsArray pirTy.helper key 0 >>= fun corr =>
        ok [(d.registerValueType pirTy.helper).share env pirTy key 0 corr x]) := by
    intro x hx
    rw [eAt, wf.evaluateAt_ok env hk hh (hs.typedAt hh) (by
      intro y hy
      rw [List.mem_singleton.mp hy, hlogAt, hpt x hx]
      exact hx), if_neg (by simp)]
    simp only [List.map_cons, List.map_nil, hpt x hx]
  rcases wf.getValueCorrection_cases hk hh pirTy with ⟨corr, hcorr⟩ | hcorr
  · left
    let f : Nat → U128 := (d.registerValueType pirTy.helper).share env pirTy key 0 corr
    have e1 : DenseServer.selection d env key = ok ((allPoints [pirParams l] 0).map fun x => f x.toNat) := by
      rw [hsel, hcorr, bind_ok]; rfl
    have e2 : ∀ x, x < 2 ^ l → d.evaluateAt env pirTy.helper key 0 [BitVec.ofNat 128 x] = ok [f x] := by
      intro x hx
      rw [hpoint x hx, hcorr, bind_ok]
      rfl
    clear_value f
    refine ⟨⟨[f 0], e2 0 hpos⟩, _, e1, ?_, ?_⟩
    · rw [List.length_map]
      unfold allPoints
      rw [List.length_map, List.length_range, hlog]
    · intro i hi
      unfold keyBit selectionBit
      rw [e2 _ hi]
      unfold allPoints
      rw [List.getD_eq_getElem?_getD, List.map_map, List.getElem?_map, List.getElem?_range (by rw [hlog]; exact hi)]
      simp only [Option.map_some, Option.getD_some, Function.comp_apply, hpt _ hi]
  · right
    refine ⟨?_, by rw [hsel, hcorr]; rfl⟩
    rintro ⟨v, hv'⟩
    rw [show (0 : U128) = BitVec.ofNat 128 0 from rfl, hpoint 0 hpos, hcorr] at hv'
    cases hv'

theorem selectedRecords_congr {records : List Bytes} {f g : Nat → Bool} (h : ∀ i, i < records.length → f i = g i) :
    selectedRecords records f = selectedRecords records g := by
  unfold selectedRecords
  congr 1
  apply List.filter_congr
  intro vi hvi
  exact h _ (List.snd_lt_of_mem_zipIdx hvi)

theorem selections_bad {fp : FpEnv} {l : Nat} {d : Dpf} (h : Dpf.create fp (pirParams l) = ok d) (env : Env)
    (hl : l < 63) {keys : List DpfKey} (hk : ∃ k ∈ keys, ¬ Evaluable d env k) :
    mapRes (DenseServer.selection d env) keys = err .invalidArgument := by
  induction keys with
  | nil => obtain ⟨k, hk, _⟩ := hk; cases hk
  | cons a keys ih =>
    rw [mapRes_cons]
    rcases selection_points h env a hl with ⟨h1, s, h2, _⟩ | ⟨_, h1⟩
    · rw [h2, bind_ok, ih]
      · rfl
      · obtain ⟨k, hk, hn⟩ := hk
        rcases List.mem_cons.mp hk with rfl | hk
        · exact absurd h1 hn
        · exact ⟨k, hk, hn⟩
    · rw [h1]; rfl

theorem selections_good {fp : FpEnv} {l : Nat} {d : Dpf} (h : Dpf.create fp (pirParams l) = ok d) (env : Env)
    (hl : l < 63) {keys : List DpfKey} (hk : ∀ k ∈ keys, Evaluable d env k) :
    ∃ sels, mapRes (DenseServer.selection d env) keys = ok sels ∧ (∀ s ∈ sels, s.length = 2 ^ l) ∧
      ∀ records : List Bytes, records.length ≤ 2 ^ l →
        (sels.map fun s => xorPadded (maxLength records) (selectedRecords records (selectionBit s))) =
          keys.map (answerTo records d env) := by
  induction keys with
  | nil => exact ⟨[], rfl, by simp, fun _ _ => rfl⟩
  | cons a keys ih =>
    obtain ⟨sels, e1, e2, e3⟩ := ih fun k hkk => hk k (List.mem_cons_of_mem _ hkk)
    rcases selection_points h env a hl with ⟨_, s, h1, h2, h3⟩ | ⟨h1, _⟩
    · refine ⟨s :: sels, by rw [mapRes_cons, h1, bind_ok, e1]; rfl, ?_, ?_⟩
      · intro x hx
        rcases List.mem_cons.mp hx with rfl | hx
        · exact h2
        · exact e2 x hx
      · intro records hr
        rw [List.map_cons, List.map_cons, e3 records hr]
        unfold answerTo
        rw [selectedRecords_congr (g := keyBit d env a)]
        intro i hi
        exact h3 i (by omega)
    · exact absurd (hk a (by simp)) h1

theorem dense_product_small {records : List Bytes} {db : DenseDb} (hh : db.Holds records) {simd : SimdEnv}
    (hok : SimdOk simd) {L : Nat} (hL : L ≤ 2 ^ 24) (hn : records.length ≤ L) {selections : List (List U128)}
    (hlen : ∀ s ∈ selections, s.length = L) (hpos : 0 < maxLength records) :
    db.innerProductWith simd selections =
      ok (selections.map fun s => xorPadded (maxLength records) (selectedRecords records (selectionBit s))) := by
  unfold DenseDb.innerProductWith
  rw [hh.content, bind_ok, hh.max]
  exact C32_inner_product_partial simd hok records selections _ L hpos hlen hL (by omega) (by omega)
    fun v hv => length_le_maxLength hv

theorem dense_product_empty {records : List Bytes} {db : DenseDb} (hh : db.Holds records) {simd : SimdEnv}
    {selections : List (List U128)} (hne : selections ≠ []) (h0 : maxLength records = 0) :
    db.innerProductWith simd selections = err .invalidArgument := by
  unfold DenseDb.innerProductWith
  rw [hh.content, bind_ok, hh.max]
  exact C32_rejects _ _ _ _ hne (Or.inr (Or.inr (Or.inl (by rw [h0]; decide))))

end Verif
