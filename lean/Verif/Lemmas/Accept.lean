import Verif.Lemmas.Create
import Verif.Lemmas.Setup
/-!
# `CreateIncremental` accepts valid parameters
-/
namespace Verif
open Res Spec

theorem ceilLog2_ok {b : Int} (h : 0 < b) : ∃ c, ceilLog2 b = ok c := by
  unfold ceilLog2
  rw [if_neg (by omega)]
  exact ⟨_, rfl⟩

theorem foldRes_total {α σ : Type} {f : σ → α → Res σ} {l : List α}
    (h : ∀ s, ∀ a ∈ l, ∃ s', f s a = ok s') (s : σ) : ∃ s', foldRes f s l = ok s' := by
  induction l generalizing s with
  | nil => exact ⟨s, rfl⟩
  | cons a l ih =>
    obtain ⟨s', hs⟩ := h s a (by simp)
    obtain ⟨s'', hs'⟩ := ih (fun s a ha => h s a (by simp [ha])) s'
    exact ⟨s'', by rw [foldRes_cons, hs, bind_ok, hs']⟩

theorem createIncremental_ok (fp : FpEnv) {params : List DpfParameters} (hv : ValidParams params)
    (hbits : ∀ p ∈ params, (∃ b, bitsNeeded fp p.vt p.securityParameter = ok b ∧ 0 ≤ b ∧ b + 127 < 2 ^ 31) ∧
      ∃ b, bitsNeeded fp p.vt (withDefaultSecurity p).securityParameter = ok b ∧ 0 < b) :
    ∃ d, Dpf.createIncremental fp params = ok d := by
  have h1 := (validateParameters_iff params).mpr hv
  obtain ⟨⟨h2t, t2h, needed⟩, h2⟩ := foldRes_total (f := createStep fp)
    (l := params.map withDefaultSecurity) (by
      rintro ⟨a, b, c⟩ p' hp'
      obtain ⟨p, hp, rfl⟩ := List.mem_map.mp hp'
      obtain ⟨_, bits, hb, hpos⟩ := hbits p hp
      obtain ⟨lb, hlb⟩ := ceilLog2_ok hpos
      unfold createStep
      dsimp only
      have : (withDefaultSecurity p).vt = p.vt := by
        unfold DpfParameters.vt; rw [withDefaultSecurity_vt]
      rw [this, hb, bind_ok, hlb, bind_ok]
      exact ⟨_, rfl⟩) ([], [], 0)
  have h3 : ∃ bs, mapRes (fun (p : DpfParameters) => (do
      let bits ← bitsNeeded fp p.vt p.securityParameter
      let sum ← intRange (bits + 127)
      ok (sum.tdiv 128).toNat : Res Nat)) params = ok bs := by
    refine ⟨_, mapRes_eq_ok_map (g := fun p : DpfParameters =>
      match bitsNeeded fp p.vt p.securityParameter with
      | .ok b => ((b + 127).tdiv 128).toNat
      | _ => 0) fun p hp => ?_⟩
    obtain ⟨⟨b, hb, h0, hr⟩, _⟩ := hbits p hp
    rw [hb, bind_ok, intRange_of (by omega) (by omega), bind_ok]
  obtain ⟨bs, h3⟩ := h3
  unfold Dpf.createIncremental ProtoValidator.create
  rw [h1, bind_ok]
  dsimp only
  rw [h2, bind_ok]
  dsimp only
  rw [bind_ok, h3, bind_ok]
  exact ⟨_, rfl⟩

theorem createIncremental_noMod (fp : FpEnv) {params : List DpfParameters} (hv : ValidParams params)
    (hT : ∀ p ∈ params, ∃ T : Ty, T.noMod = true ∧ T.leafBytes ≤ 2 ^ 28 - 16 ∧
      p.valueType = some T.helper.toValueType) :
    ∃ d, Dpf.createIncremental fp params = ok d := by
  refine createIncremental_ok fp hv fun p hp => ?_
  obtain ⟨T, hn, hl, hvt⟩ := hT p hp
  have : p.vt = T.helper.toValueType := by simp [DpfParameters.vt, hvt]
  rw [this]
  have hpos := T.leafBytes_pos
  have hb := fun sec => T.bitsNeeded_noMod_of fp hn sec (by omega)
  exact ⟨⟨_, hb _, by omega, by omega⟩, _, hb _, by omega⟩

theorem mapRes_ub {α β : Type} {f : α → Res β} : {l : List α} →
    (∀ x ∈ l, (∃ v, f x = ok v) ∨ f x = ub) → (∃ x ∈ l, f x = ub) → mapRes f l = ub
  | [], _, h => by obtain ⟨_, h, _⟩ := h; cases h
  | a :: l, ha, h => by
    rw [mapRes_cons]
    rcases ha a (by simp) with ⟨v, e⟩ | e
    · rw [e, bind_ok]
      obtain ⟨x, hx, hu⟩ := h
      rcases List.mem_cons.mp hx with rfl | hx
      · rw [e] at hu; cases hu
      · rw [mapRes_ub (fun y hy => ha y (List.mem_cons_of_mem _ hy)) ⟨x, hx, hu⟩]; rfl
    · rw [e]; rfl

theorem foldRes_ub {α σ : Type} {f : σ → α → Res σ} : {l : List α} →
    (∀ x ∈ l, (∀ s, ∃ v, f s x = ok v) ∨ ∀ s, f s x = ub) → (∃ x ∈ l, ∀ s, f s x = ub) →
    (s : σ) → foldRes f s l = ub
  | [], _, h, _ => by obtain ⟨_, h, _⟩ := h; cases h
  | a :: l, ha, h, s => by
    rw [foldRes_cons]
    rcases ha a (by simp) with e | e
    · obtain ⟨v, e'⟩ := e s
      rw [e', bind_ok]
      obtain ⟨x, hx, hu⟩ := h
      rcases List.mem_cons.mp hx with rfl | hx
      · rw [hu s] at e'; cases e'
      · exact foldRes_ub (fun y hy => ha y (List.mem_cons_of_mem _ hy)) ⟨x, hx, hu⟩ v
    · rw [e s]; rfl

theorem createIncremental_overflow (fp : FpEnv) {params : List DpfParameters} (hv : ValidParams params)
    (hT : ∀ p ∈ params, ∃ T : Ty, T.noMod = true ∧ p.valueType = some T.helper.toValueType)
    (hbig : ∃ p ∈ params, ∃ T : Ty, T.noMod = true ∧ p.valueType = some T.helper.toValueType ∧
      2 ^ 28 - 16 < T.leafBytes) : Dpf.createIncremental fp params = ub := by
  have h1 := (validateParameters_iff params).mpr hv
  have hvt : ∀ {p : DpfParameters} {T : Ty}, p.valueType = some T.helper.toValueType →
      p.vt = T.helper.toValueType ∧ (withDefaultSecurity p).vt = T.helper.toValueType := by
    intro p T h
    refine ⟨by simp [DpfParameters.vt, h], ?_⟩
    unfold DpfParameters.vt; rw [withDefaultSecurity_vt, h]; rfl
  have step : ∀ (p : DpfParameters) (T : Ty), T.noMod = true → p.valueType = some T.helper.toValueType →
      (8 * T.leafBytes < 2 ^ 31 → ∀ s, ∃ v, createStep fp s (withDefaultSecurity p) = ok v) ∧
      (2 ^ 31 ≤ 8 * T.leafBytes → ∀ s, createStep fp s (withDefaultSecurity p) = ub) := by
    intro p T hn h
    refine ⟨fun hb s => ?_, fun hb s => ?_⟩ <;> obtain ⟨a, b, c⟩ := s <;> unfold createStep <;> dsimp only <;>
      rw [(hvt h).2]
    · have := T.leafBytes_pos
      obtain ⟨lb, hlb⟩ := ceilLog2_ok (b := ((8 * T.leafBytes : Nat) : Int)) (by omega)
      rw [T.bitsNeeded_noMod_of fp hn _ hb, bind_ok, hlb, bind_ok]
      exact ⟨_, rfl⟩
    · rw [T.bitsNeeded_noMod_ub fp hn _ hb]; rfl
  unfold Dpf.createIncremental ProtoValidator.create
  rw [h1, bind_ok]
  dsimp only
  by_cases hall : ∃ p ∈ params, ∃ T : Ty, T.noMod = true ∧ p.valueType = some T.helper.toValueType ∧
      2 ^ 31 ≤ 8 * T.leafBytes
  · obtain ⟨p, hp, T, hn, ht, hb⟩ := hall
    rw [foldRes_ub (f := createStep fp) (l := params.map withDefaultSecurity) ?_ ?_ ([], [], 0)]
    · rfl
    · intro x hx
      obtain ⟨q, hq, rfl⟩ := List.mem_map.mp hx
      obtain ⟨S, hs, hsv⟩ := hT q hq
      rcases Nat.lt_or_ge (8 * S.leafBytes) (2 ^ 31) with h | h
      · exact .inl ((step q S hs hsv).1 h)
      · exact .inr ((step q S hs hsv).2 h)
    · exact ⟨_, List.mem_map.mpr ⟨p, hp, rfl⟩, (step p T hn ht).2 hb⟩
  · have hlt : ∀ p ∈ params, ∀ T : Ty, T.noMod = true → p.valueType = some T.helper.toValueType →
        8 * T.leafBytes < 2 ^ 31 := by
      intro p hp T hn ht
      rcases Nat.lt_or_ge (8 * T.leafBytes) (2 ^ 31) with h | h
      · exact h
      · exact absurd ⟨p, hp, T, hn, ht, h⟩ hall
    obtain ⟨⟨h2t, t2h, needed⟩, h2⟩ := foldRes_total (f := createStep fp)
      (l := params.map withDefaultSecurity) (by
        intro s x hx
        obtain ⟨q, hq, rfl⟩ := List.mem_map.mp hx
        obtain ⟨S, hs, hsv⟩ := hT q hq
        exact (step q S hs hsv).1 (hlt q hq S hs hsv) s) ([], [], 0)
    rw [h2, bind_ok]
    dsimp only
    rw [bind_ok, mapRes_ub]
    · rfl
    · intro p hp
      obtain ⟨S, hs, hsv⟩ := hT p hp
      rw [(hvt hsv).1, S.bitsNeeded_noMod_of fp hs _ (hlt p hp S hs hsv), bind_ok]
      rcases Nat.lt_or_ge (8 * S.leafBytes + 127) (2 ^ 31) with h | h
      · rw [intRange_of (by omega) (by omega)]; exact .inl ⟨_, rfl⟩
      · rw [intRange_ub (by omega)]; exact .inr rfl
    · obtain ⟨p, hp, T, hn, ht, hb⟩ := hbig
      refine ⟨p, hp, ?_⟩
      rw [(hvt ht).1, T.bitsNeeded_noMod_of fp hn _ (hlt p hp T hn ht), bind_ok, intRange_ub (by omega)]
      rfl

end Verif
