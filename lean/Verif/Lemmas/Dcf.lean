import Verif.Spec.Dcf
import Verif.Lemmas.Apply
/-! Lemmas on the DCF. -/
namespace Verif
open Res Spec

theorem Width.bits_pos (w : Width) : 0 < w.bits := by cases w <;> decide

mutual
theorem Ty.setToZero_represents : (t : Ty) → (v : Value) → (x : t.den) → t.noXor = true →
    Represents t v x → Represents t (setToZero v) t.helper.zero
  | .uint w, v, x, _, h => by
    obtain ⟨i, rfl, hi⟩ := h
    refine ⟨.u64 0, rfl, ?_⟩
    simp [intMsg, Ty.helper, uintHelper]
  | .intModN w N _ _, v, x, _, h => by
    obtain ⟨i, rfl, hi⟩ := h
    refine ⟨.u64 0, rfl, ?_⟩
    simp [intMsg, Ty.helper, intModNHelper, IntModN.mk]
  | .xorWrapper w, v, x, hx, h => by simp [Ty.noXor] at hx
  | .tuple ts, v, x, hx, h => by
    obtain ⟨vs, rfl, hv⟩ := h
    exact ⟨_, rfl, Tys.setToZero_represents ts vs x (by simpa [Ty.noXor] using hx) hv⟩
theorem Tys.setToZero_represents : (ts : Tys) → (vs : List Value) → (x : ts.den) → ts.noXor = true →
    RepresentsAll ts vs x → RepresentsAll ts (setAllToZero vs) ts.helper.zero
  | .one t, vs, x, hx, h => by
    obtain ⟨v, rfl, hv⟩ := h
    exact ⟨_, rfl, Ty.setToZero_represents t v x (by simpa [Tys.noXor] using hx) hv⟩
  | .cons t ts, vs, x, hx, h => by
    obtain ⟨v, vs', rfl, hv, hvs⟩ := h
    simp only [Tys.noXor, Bool.and_eq_true] at hx
    exact ⟨_, _, rfl, Ty.setToZero_represents t v x.1 hx.1 hv,
      Tys.setToZero_represents ts vs' x.2 hx.2 hvs⟩
end

/-- The mask selects a bit. -/
theorem and_one_shl (x : U128) {k : Nat} (hk : k < 128) :
    (x &&& ((1 : U128) <<< k) ≠ 0) ↔ x.toNat / 2 ^ k % 2 = 1 := by
  have h := pathBit_eq x k
  unfold pathBit at h
  rw [if_pos (by omega), shl128_ok hk, bind_ok] at h
  simp only [ok.injEq] at h
  have e : x.getLsbD k = decide (x.toNat / 2 ^ k % 2 = 1) := by
    rw [BitVec.getLsbD, Nat.testBit_eq_decide_div_mod_eq]
  rw [e] at h
  constructor
  · intro hne
    have : (x &&& 1#128 <<< k != 0#128) = true := by simpa using hne
    rw [this] at h
    simpa using h.symm
  · intro hb he
    have : (x &&& 1#128 <<< k != 0#128) = false := by simpa using he
    rw [this] at h
    simp [hb] at h

namespace Dcf

/-- What one level adds to the output. -/
def stepAt {α : Type} (H : Helper α) (log : Nat) (x : U128) (g : Nat → Res α) (o : α) (h : Nat) : Res α :=
  g h >>= fun v => ok (if x.toNat / 2 ^ (log - h - 1) % 2 = 1 then o else H.add o v)

theorem accumulate_ok {α : Type} (H : Helper α) {n log : Nat} {points : List U128}
    (hp : points.length = n) (hlog : log ≤ 128) {h : Nat} (hh : h < log) {out values : List α}
    (hout : out.length = n) (hv : values.length = n) :
    accumulate H log n points ⟨ok (), h, out⟩ values = (true, ⟨ok (), h + 1, (List.range n).map fun j =>
      if (points.getD j 0).toNat / 2 ^ (log - h - 1) % 2 = 1 then out.getD j H.zero
      else H.add (out.getD j H.zero) (values.getD j H.zero)⟩) := by
  have e : (log : Int) - (h : Nat) - 1 = ((log - h - 1 : Nat) : Int) := by omega
  unfold accumulate
  rw [if_neg (by omega)]
  dsimp only
  rw [e, shl128_ok (by omega), bind_ok, mapRes_eq_ok_map (g := fun j =>
      if (points.getD j 0).toNat / 2 ^ (log - h - 1) % 2 = 1 then out.getD j H.zero
      else H.add (out.getD j H.zero) (values.getD j H.zero))]
  intro j hj
  simp only [List.mem_range] at hj
  unfold accumulateAt
  rw [rd_getD (show j < points.length by omega) 0, bind_ok, rd_getD (show j < out.length by omega) H.zero,
    bind_ok, rd_getD (show j < values.length by omega) H.zero, bind_ok]
  simp only [and_one_shl _ (show log - h - 1 < 128 by omega)]

/-- The result of the loop over all levels, one key at a time. -/
theorem accumulate_run {α : Type} (H : Helper α) {n log : Nat} {points : List U128}
    (hp : points.length = n) (hlog : log ≤ 128) (g : Nat → Nat → Res α)
    (hg : ∀ h j, h < log → j < n → OkOrInvalid (g j h)) :
    ∀ (m h : Nat) (out : List α), h + m = log → out.length = n →
    (let r := runCallback (accumulate H log n points)
      ((List.range' h m).map fun h => mapRes (fun j => g j h) (List.range n)) ⟨ok (), h, out⟩
     ((r.1 >>= fun _ => r.2.status) >>= fun _ => ok r.2.output)) =
    mapRes (fun j => foldRes (stepAt H log (points.getD j 0) (g j)) (out.getD j H.zero)
      (List.range' h m)) (List.range n) := by
  intro m
  induction m with
  | zero =>
    intro h out _ hout
    simp only [List.range'_zero, List.map_nil, runCallback, bind_ok, foldRes]
    rw [mapRes_eq_ok_map (g := fun j => out.getD j H.zero) (fun _ _ => rfl)]
    congr 1
    rw [← hout]
    exact (range_map_getD out H.zero id).symm ▸ (by simp)
  | succ m ih =>
    intro h out hm hout
    rw [List.range'_succ, List.map_cons, Dpf.runCallback_cons]
    rcases OkOrInvalid.mapRes_unit (f := fun j => g j h) (l := List.range n) (fun j hj =>
      hg h j (by omega) (by simpa using hj)) with ⟨values, hvs⟩ | he
    · have hl := mapRes_length hvs
      rw [hvs, Dpf.keep_ok, accumulate_ok H hp hlog (by omega) hout (by simpa using hl)]
      dsimp only
      rw [if_pos rfl, ih (h + 1) _ (by omega) (by simp)]
      apply mapRes_congr
      intro j hj
      simp only [List.mem_range] at hj
      rw [foldRes_cons]
      have hgj : g j h = ok (values.getD j H.zero) := by
        have := (mapRes_eq_ok.mp hvs).2 j (by simpa using hj) (by rw [hl]; simpa using hj)
        simpa [List.getD, hl, hj] using this
      rw [stepAt, hgj, bind_ok, bind_ok]
      congr 1
      simp only [List.getD, List.getElem?_map, List.getElem?_range hj, Option.map_some, Option.getD_some]
    · rw [he, Dpf.keep_err]
      dsimp only
      rw [bind_err, bind_err]
      symm
      have hf : ∀ j, j ∈ List.range n → OkOrInvalid (g j h) := fun j hj => hg h j (by omega) (by simpa using hj)
      apply Dpf.mapRes_err
      · intro j hj
        have hj' : j < n := by simpa using hj
        have : ∀ (l : List Nat) (o : α), (∀ h ∈ l, h < log) →
            OkOrInvalid (foldRes (stepAt H log (points.getD j 0) (g j)) o l) := by
          intro l
          induction l with
          | nil => intro o _; exact OkOrInvalid.ok _
          | cons a l ih =>
            intro o hl
            rw [foldRes_cons]
            refine OkOrInvalid.bind ?_ fun _ _ => ih _ (fun h hh => hl h (by simp [hh]))
            exact (hg a j (hl a (by simp)) hj').bind fun _ _ => OkOrInvalid.ok _
        apply this
        intro a ha
        simp only [List.mem_cons, List.mem_range'_1] at ha
        omega
      · have : ∃ j ∈ List.range n, g j h = err .invalidArgument := by
          apply Classical.byContradiction
          intro hno
          have : mapRes (fun j => g j h) (List.range n) ≠ err .invalidArgument := by
            obtain ⟨vs, hvs⟩ : ∃ vs, mapRes (fun j => g j h) (List.range n) = ok vs := by
              clear he
              have : ∀ l : List Nat, (∀ j ∈ l, ∃ v, g j h = ok v) → ∃ vs, mapRes (fun j => g j h) l = ok vs := by
                intro l hl
                induction l with
                | nil => exact ⟨[], rfl⟩
                | cons a l ih =>
                  obtain ⟨v, hv⟩ := hl a (by simp)
                  obtain ⟨vs, hvs⟩ := ih fun j hj => hl j (by simp [hj])
                  exact ⟨v :: vs, by rw [mapRes_cons, hv, bind_ok, hvs]; rfl⟩
              apply this
              intro j hj
              rcases hf j hj with h1 | h1
              · exact h1
              · exact absurd ⟨j, hj, h1⟩ hno
            rw [hvs]; simp
          exact this he
        obtain ⟨j, hj, e⟩ := this
        refine ⟨j, hj, ?_⟩
        rw [foldRes_cons, stepAt, e]; rfl

/-- The value of one key at one point. -/
def evalFold (d : Dpf) (env : Env) (T : Ty) (log : Nat) (key : DpfKey) (x : U128) : Res T.den :=
  foldRes (stepAt T.helper log x (fun h => d.getValueCorrectionAsArray T.helper key h >>= fun corr =>
    ok (d.share env T key h corr (x.toNat / 2 ^ (log - h))))) T.helper.zero (List.range log)

end Dcf

theorem Dcf.dpfParameters_length (p : DpfParameters) :
    (Dcf.dpfParameters p).length = p.logDomainSize.toNat := by simp [Dcf.dpfParameters]

theorem Dcf.dpfParameters_get {p q : DpfParameters} {h : Nat}
    (hq : (Dcf.dpfParameters p)[h]? = some q) :
    h < p.logDomainSize.toNat ∧ q = ⟨(h : Int), some p.vt, .val 0⟩ := by
  simp only [Dcf.dpfParameters, List.getElem?_map, Option.map_eq_some_iff] at hq
  obtain ⟨i, hi, rfl⟩ := hq
  rw [List.getElem?_eq_some_iff] at hi
  obtain ⟨hlt, e⟩ := hi
  simp only [List.length_range] at hlt
  simp only [List.getElem_range] at e
  subst e
  exact ⟨hlt, rfl⟩

theorem Dcf.logSize_eq {p : DpfParameters} {h : Nat} (hh : h < p.logDomainSize.toNat) :
    logSize (Dcf.dpfParameters p) h = h := by
  unfold logSize
  have : (Dcf.dpfParameters p)[h]? = some ⟨(h : Int), some p.vt, .val 0⟩ := by
    simp [Dcf.dpfParameters, List.getElem?_range hh]
  rw [this]; simp

theorem Dcf.create_spec {fp : FpEnv} {p : DpfParameters} {c : Dcf} (h : Dcf.create fp p = ok c) :
    1 ≤ p.logDomainSize ∧ c.logDomainSize = p.logDomainSize ∧
    Dpf.createIncremental fp (Dcf.dpfParameters p) = ok c.dpf := by
  unfold Dcf.create at h
  obtain ⟨_, h1, h⟩ := bind_eq_ok.mp h
  obtain ⟨_, h2, h⟩ := bind_eq_ok.mp h
  obtain ⟨d, h3, h⟩ := bind_eq_ok.mp h
  simp only [ok.injEq] at h
  subst h
  exact ⟨by have := failIf_eq_ok.mp h1; omega, rfl, h3⟩

namespace Spec.DcfSetup
variable {fp : FpEnv} {p : DpfParameters} {T : Ty} {c : Dcf} (hs : DcfSetup fp p T c)
include hs

theorem log_pos : 1 ≤ p.logDomainSize := by
  obtain ⟨c0, Ts, h0, _, _⟩ := hs.created
  exact (Dcf.create_spec h0).1

theorem log_eq : c.logDomainSize = (p.logDomainSize.toNat : Int) := by
  obtain ⟨c0, Ts, h0, rfl, _⟩ := hs.created
  have := Dcf.create_spec h0
  show c0.logDomainSize = _
  omega

theorem setup : Setup fp (Dcf.dpfParameters p) (fun _ => T) c.dpf := by
  obtain ⟨c0, Ts, h0, rfl, hT⟩ := hs.created
  refine ⟨⟨c0.dpf, Ts, (Dcf.create_spec h0).2.2, rfl, fun _ _ => hT⟩, ?_, ?_⟩
  · intro h q hq
    obtain ⟨_, rfl⟩ := Dcf.dpfParameters_get hq
    simp [DpfParameters.vt, hs.type]
  · intro h k hk
    exact hs.bytes k (List.mem_of_getElem? hk)

theorem n_eq : c.dpf.n = p.logDomainSize.toNat := by
  rw [hs.setup.toCreated.n_eq, Dcf.dpfParameters_length]

theorem logAt_eq {h : Nat} (hh : h < p.logDomainSize.toNat) : c.dpf.logAt h = h := by
  rw [hs.setup.toCreated.logAt_eq, Dcf.logSize_eq hh]

theorem shift_eq {h : Nat} (hh : h < p.logDomainSize.toNat) :
    1 + c.dpf.logAt (c.dpf.n - 1) - c.dpf.logAt h = p.logDomainSize.toNat - h := by
  have := hs.log_pos
  rw [hs.n_eq, hs.logAt_eq hh, hs.logAt_eq (by omega)]
  omega

/-- Tree levels are hierarchy levels. -/
theorem treeAt_eq : ∀ {h : Nat}, h < p.logDomainSize.toNat → c.dpf.treeAt h = h := by
  have wf := hs.setup.wf
  have key : ∀ h, h < p.logDomainSize.toNat → h ≤ c.dpf.treeAt h := by
    intro h
    induction h with
    | zero => intros; omega
    | succ h ih =>
      intro hh
      have := ih (by omega)
      have := wf.tree_asc h (h + 1) (by omega) (by rw [hs.n_eq]; exact hh)
      omega
  intro h hh
  have h1 := wf.tree_le h
  rw [hs.logAt_eq hh] at h1
  have := key h hh
  omega

/-- One tree level between hierarchy levels. -/
theorem step_le {h : Nat} (hh : h < c.dpf.n) : c.dpf.treeAt h - c.dpf.startOf h ≤ 1 := by
  rw [hs.n_eq] at hh
  unfold Dpf.startOf
  split
  · rw [hs.treeAt_eq hh, hs.treeAt_eq (by omega)]; omega
  · rw [hs.treeAt_eq hh]; omega

theorem step_int {K : Nat} (hK : K < 2 ^ 31) (h : Nat) (hh : h < c.dpf.n) :
    (c.dpf.treeAt h - c.dpf.startOf h) * K < 2 ^ 31 :=
  Nat.lt_of_le_of_lt (Nat.mul_le_mul_right _ (hs.step_le hh)) (by omega)

/-- Batch evaluation of valid keys. -/
theorem batch_ok (env : Env) {keys : List DpfKey} {points : List U128} {out : List T.den}
    (hlen : points.length = keys.length) (hout : out.length = keys.length)
    (hk : ∀ k ∈ keys, c.dpf.KeyOk k) (hint : keys.length < 2 ^ 31) :
    ((c.batchEvaluateInto env T.helper keys points out).1 >>= fun _ =>
      ok (c.batchEvaluateInto env T.helper keys points out).2) =
    mapRes (fun j => Dcf.evalFold c.dpf env T p.logDomainSize.toNat (keys.getD j DpfKey.default)
      (points.getD j 0)) (List.range keys.length) := by
  have wf := hs.setup.wf
  have hp := hs.log_pos
  have hle := hs.log_le
  unfold Dcf.batchEvaluateInto
  have h1 : ¬ (keys.length ≠ points.length) := by omega
  have h2 : ¬ (out.length ≠ keys.length) := by omega
  have h3 : ¬ ((keys.length : Int) < 0) := by omega
  rw [if_neg h1, if_neg h2, wrapInt32_nat hint, if_neg h3, Int.toNat_natCast]
  unfold Dcf.batchRun
  dsimp only
  rw [hs.log_eq, hout, List.take_length]
  have := wf.evaluateAndApply_ok env hlen hk (T := T) (fun h hh => hs.setup.typedAt hh) 1
    (by rw [hs.n_eq, hs.logAt_eq (by omega)]; omega) (hs.step_int hint)
    (Dcf.accumulate T.helper (p.logDomainSize.toNat : Int) keys.length points)
    ⟨ok (), 0, List.replicate keys.length T.helper.zero⟩
  rw [show ((1 : Nat) : Int) = 1 from rfl] at this
  rw [this, hs.n_eq]
  have e : (List.range p.logDomainSize.toNat).map (c.dpf.applyShares env T keys points 1) =
      (List.range p.logDomainSize.toNat).map fun h => mapRes (fun j =>
        c.dpf.getValueCorrectionAsArray T.helper (keys.getD j DpfKey.default) h >>= fun corr =>
        ok (c.dpf.share env T (keys.getD j DpfKey.default) h corr
          ((points.getD j 0).toNat / 2 ^ (p.logDomainSize.toNat - h)))) (List.range keys.length) := by
    apply List.map_congr_left
    intro h hh
    simp only [List.mem_range] at hh
    unfold Dpf.applyShares
    rw [hs.shift_eq hh]
  rw [e, List.range_eq_range' (n := p.logDomainSize.toNat)]
  have run := Dcf.accumulate_run T.helper (n := keys.length) (log := p.logDomainSize.toNat)
    (points := points) hlen (by omega) (fun j h =>
      c.dpf.getValueCorrectionAsArray T.helper (keys.getD j DpfKey.default) h >>= fun corr =>
        ok (c.dpf.share env T (keys.getD j DpfKey.default) h corr
          ((points.getD j 0).toNat / 2 ^ (p.logDomainSize.toNat - h))))
    (by
      intro h j hh hj
      refine OkOrInvalid.bind (wf.getValueCorrection_cases (hk _ ?_) (by rw [hs.n_eq]; exact hh) T)
        fun _ _ => OkOrInvalid.ok _
      simp [List.getD, hj])
    p.logDomainSize.toNat 0 (List.replicate keys.length T.helper.zero) (by omega) (by simp)
  refine run.trans ?_
  apply mapRes_congr
  intro j hj
  simp only [List.mem_range] at hj
  unfold Dcf.evalFold
  rw [List.range_eq_range']
  congr 1
  simp [List.getD, hj]

/-- Batch evaluation with an invalid key. -/
theorem batch_bad (env : Env) {keys : List DpfKey} {points : List U128} {out : List T.den}
    (hlen : points.length = keys.length) (hout : out.length = keys.length)
    (hk : ∃ k ∈ keys, ¬ c.dpf.KeyOk k) (hint : keys.length < 2 ^ 31) :
    (c.batchEvaluateInto env T.helper keys points out).1 = err .invalidArgument := by
  have wf := hs.setup.wf
  unfold Dcf.batchEvaluateInto
  have h1 : ¬ (keys.length ≠ points.length) := by omega
  have h2 : ¬ (out.length ≠ keys.length) := by omega
  have h3 : ¬ ((keys.length : Int) < 0) := by omega
  rw [if_neg h1, if_neg h2, wrapInt32_nat hint, if_neg h3, Int.toNat_natCast]
  unfold Dcf.batchRun
  dsimp only
  rw [List.take_length]
  unfold Dpf.evaluateAndApply
  rw [failIf_false (by omega), Dpf.keep_ok]
  obtain ⟨k, hkm, hb⟩ := hk
  rw [Dpf.mapRes_err (c := .invalidArgument) (fun k _ => by
    rcases wf.validateDpfKey_cases k with h | h
    · exact Or.inl ⟨(), h⟩
    · exact Or.inr h)
    ⟨k, hkm, by
      rcases wf.validateDpfKey_cases k with h | h
      · exact absurd ((wf.validateDpfKey_iff k).mp h) hb
      · exact h⟩]
  rfl

theorem evaluate_ok (env : Env) {key : DpfKey} (hk : c.dpf.KeyOk key) (x : U128) :
    c.evaluate env T.helper key x = Dcf.evalFold c.dpf env T p.logDomainSize.toNat key x := by
  have h := hs.batch_ok env (keys := [key]) (points := [x]) (out := [T.helper.zero]) rfl rfl
    (by intro k hkk; simp only [List.mem_singleton] at hkk; exact hkk ▸ hk)
    (show (1 : Nat) < 2 ^ 31 by decide)
  unfold Dcf.evaluate
  dsimp only
  generalize c.batchEvaluateInto env T.helper [key] [x] [T.helper.zero] = r at h ⊢
  obtain ⟨r1, r2⟩ := r
  dsimp only at h ⊢
  have e : mapRes (fun j => Dcf.evalFold c.dpf env T p.logDomainSize.toNat
      ([key].getD j DpfKey.default) ([x].getD j 0)) (List.range [key].length) =
      (Dcf.evalFold c.dpf env T p.logDomainSize.toNat key x >>= fun v => ok [v]) := by
    show mapRes _ [0] = _
    rw [mapRes_cons]; rfl
  rw [e] at h
  cases r1 with
  | ok u =>
    rw [bind_ok] at h ⊢
    cases h2 : Dcf.evalFold c.dpf env T p.logDomainSize.toNat key x <;> rw [h2] at h <;> simp at h
    subst h; rfl
  | _ =>
    cases h2 : Dcf.evalFold c.dpf env T p.logDomainSize.toNat key x <;> rw [h2] at h <;> simp at h ⊢
    try exact h

theorem evaluate_bad (env : Env) {key : DpfKey} (hk : ¬ c.dpf.KeyOk key) (x : U128) :
    c.evaluate env T.helper key x = err .invalidArgument := by
  unfold Dcf.evaluate
  dsimp only
  rw [hs.batch_bad env (keys := [key]) (points := [x]) rfl rfl ⟨key, by simp, hk⟩ (show (1 : Nat) < 2 ^ 31 by decide)]; rfl

theorem evalFold_cases (env : Env) {key : DpfKey} (hk : c.dpf.KeyOk key) (x : U128) :
    OkOrInvalid (Dcf.evalFold c.dpf env T p.logDomainSize.toNat key x) := by
  unfold Dcf.evalFold
  have : ∀ (l : List Nat) (o : T.den), (∀ h ∈ l, h < p.logDomainSize.toNat) →
      OkOrInvalid (foldRes (Dcf.stepAt T.helper p.logDomainSize.toNat x (fun h =>
        c.dpf.getValueCorrectionAsArray T.helper key h >>= fun corr =>
        ok (c.dpf.share env T key h corr (x.toNat / 2 ^ (p.logDomainSize.toNat - h))))) o l) := by
    intro l
    induction l with
    | nil => intro o _; exact OkOrInvalid.ok _
    | cons a l ih =>
      intro o hl
      rw [foldRes_cons]
      refine OkOrInvalid.bind ?_ fun _ _ => ih _ (fun h hh => hl h (by simp [hh]))
      refine OkOrInvalid.bind ?_ fun _ _ => OkOrInvalid.ok _
      exact (hs.setup.wf.getValueCorrection_cases hk (by rw [hs.n_eq]; exact hl a (by simp)) T).bind
        fun _ _ => OkOrInvalid.ok _
  exact this _ _ (by simp)

/-- Values of the levels. -/
theorem levelValues (alpha : U128) (beta : Value) :
    mapRes (Dcf.levelValue c.logDomainSize alpha beta) (List.range c.logDomainSize.toNat) =
    ok ((List.range p.logDomainSize.toNat).map fun i =>
      if alpha.toNat / 2 ^ (p.logDomainSize.toNat - i - 1) % 2 = 1 then beta else setToZero beta) := by
  have hle := hs.log_le
  rw [hs.log_eq, Int.toNat_natCast]
  apply mapRes_eq_ok_map
  intro i hi
  simp only [List.mem_range] at hi
  unfold Dcf.levelValue
  have e : (p.logDomainSize.toNat : Int) - (i : Nat) - 1 = ((p.logDomainSize.toNat - i - 1 : Nat) : Int) := by
    omega
  rw [e, shl128_ok (by omega), bind_ok]
  simp only [and_one_shl _ (show p.logDomainSize.toNat - i - 1 < 128 by omega)]

theorem generateKeys_unfold (env : Env) (alpha : U128) (beta : Value) (seed0 seed1 : U128) :
    c.generateKeys env alpha beta seed0 seed1 = c.dpf.generateKeysIncremental env (alpha >>> 1)
      ((List.range p.logDomainSize.toNat).map fun i =>
        if alpha.toNat / 2 ^ (p.logDomainSize.toNat - i - 1) % 2 = 1 then beta else setToZero beta)
      seed0 seed1 := by
  unfold Dcf.generateKeys
  rw [hs.levelValues, bind_ok]

end Spec.DcfSetup

/-- One more bit of a comparison. -/
theorem lt_step (x a : Nat) : (x < a ↔ x / 2 < a / 2 ∨ (x / 2 = a / 2 ∧ x % 2 = 0 ∧ a % 2 = 1)) := by
  omega

namespace Spec.DcfSetup
variable {fp : FpEnv} {p : DpfParameters} {T : Ty} {c : Dcf} (hs : DcfSetup fp p T c)
include hs

/-- Correctness of generated keys. -/
theorem correct (env : Env) {alpha : U128} (halpha : alpha.toNat < 2 ^ p.logDomainSize.toNat)
    (hx : T.noXor = true) {beta : Value} {b : T.den} (hb : Represents T beta b) (seed0 seed1 : U128) :
    ∃ k0 k1, c.generateKeys env alpha beta seed0 seed1 = ok (k0, k1) ∧
      ∀ x : U128, x.toNat < 2 ^ p.logDomainSize.toNat →
        ∃ v0 v1, c.evaluate env T.helper k0 x = ok v0 ∧ c.evaluate env T.helper k1 x = ok v1 ∧
          T.helper.add v0 v1 = if x.toNat < alpha.toNat then b else T.helper.zero := by
  have G := T.helper_isGroup
  have hpos := hs.log_pos
  have wf := hs.setup.wf
  have hn := hs.n_eq
  rw [hs.generateKeys_unfold env alpha beta seed0 seed1]
  generalize hN : p.logDomainSize.toNat = N at *
  have hN1 : 1 ≤ N := by omega
  have hbetas : BetasRepresent (Dcf.dpfParameters p) (fun _ => T)
      ((List.range N).map fun i =>
        if alpha.toNat / 2 ^ (N - i - 1) % 2 = 1 then beta else setToZero beta)
      (fun i => if alpha.toNat / 2 ^ (N - i - 1) % 2 = 1 then b else T.helper.zero) := by
    refine ⟨by simp [Dcf.dpfParameters_length, hN], ?_⟩
    intro h v hv
    simp only [List.getElem?_map, Option.map_eq_some_iff] at hv
    obtain ⟨i, hi, rfl⟩ := hv
    rw [List.getElem?_eq_some_iff] at hi
    obtain ⟨hlt, e⟩ := hi
    simp only [List.getElem_range] at e
    subst e
    dsimp only
    split
    · exact hb
    · exact T.setToZero_represents beta b hx hb
  have hshr : (alpha >>> 1).toNat = alpha.toNat / 2 := by
    rw [Dpf.shr_toNat]
  have hlast : c.dpf.logAt (c.dpf.n - 1) = N - 1 := by
    rw [hn]; exact hs.logAt_eq (by omega)
  obtain ⟨k0, k1, hk, g⟩ := wf.generateKeys_ok env (hs.setup.betasOk hbetas) (alpha := alpha >>> 1)
    (by
      rw [hlast, hshr]
      have : 2 ^ N = 2 ^ (N - 1) * 2 := by rw [← Nat.pow_succ]; congr 1; omega
      omega) seed0 seed1
  refine ⟨k0, k1, hk, ?_⟩
  intro x hxlt
  obtain ⟨ok0, ok1⟩ := g.keyOk wf (fun h hh => hs.setup.typedAt hh)
  rw [hs.evaluate_ok env ok0, hs.evaluate_ok env ok1, hN]
  unfold Dcf.evalFold
  have key : ∀ j, j ≤ N → ∃ v0 v1 : T.den,
      foldRes (Dcf.stepAt T.helper N x (fun h =>
        c.dpf.getValueCorrectionAsArray T.helper k0 h >>= fun corr =>
        ok (c.dpf.share env T k0 h corr (x.toNat / 2 ^ (N - h))))) T.helper.zero (List.range j) = ok v0 ∧
      foldRes (Dcf.stepAt T.helper N x (fun h =>
        c.dpf.getValueCorrectionAsArray T.helper k1 h >>= fun corr =>
        ok (c.dpf.share env T k1 h corr (x.toNat / 2 ^ (N - h))))) T.helper.zero (List.range j) = ok v1 ∧
      T.helper.add v0 v1 = if x.toNat / 2 ^ (N - j) < alpha.toNat / 2 ^ (N - j) then b
        else T.helper.zero := by
    intro j
    induction j with
    | zero =>
      intro _
      refine ⟨T.helper.zero, T.helper.zero, rfl, rfl, ?_⟩
      rw [Nat.sub_zero, Nat.div_eq_of_lt hxlt, Nat.div_eq_of_lt halpha, if_neg (by omega), G.add_zero]
    | succ j ih =>
      intro hj
      obtain ⟨v0, v1, h0, h1, hsum⟩ := ih (by omega)
      have hjn : j < c.dpf.n := by omega
      have ht := hs.setup.typedAt hjn
      have hxj : x.toNat / 2 ^ (N - j) < 2 ^ c.dpf.logAt j := by
        rw [hs.logAt_eq (by omega), Nat.div_lt_iff_lt_mul (Nat.two_pow_pos _), ← Nat.pow_add,
          show j + (N - j) = N by omega]
        exact hxlt
      have hshare := g.share_sum wf hjn ht hxj
      rw [List.range_succ]
      rw [foldRes_append, h0, bind_ok, foldRes_append, h1, bind_ok, foldRes_cons, foldRes_cons]
      unfold Dcf.stepAt
      have hc0 := g.corr0 hjn ht
      have hc1 := g.corr1 hjn ht
      simp only [hc0, hc1, bind_ok, foldRes]
      refine ⟨_, _, rfl, rfl, ?_⟩
      have ea : alpha.toNat / 2 / 2 ^ (N - 1 - j) = alpha.toNat / 2 ^ (N - j) := by
        rw [Nat.div_div_eq_div_mul, ← Nat.pow_succ']; congr 2; omega
      rw [hlast, hs.logAt_eq (by omega), hshr, ea] at hshare
      have e1 : N - (j + 1) = N - j - 1 := by omega
      have ed : ∀ z : Nat, z / 2 ^ (N - j) = z / 2 ^ (N - j - 1) / 2 := by
        intro z
        rw [Nat.div_div_eq_div_mul, ← Nat.pow_succ]; congr 2; omega
      rw [e1]
      rw [ed, ed alpha.toNat] at hsum
      rw [ed, ed alpha.toNat] at hshare
      rw [ed]
      generalize x.toNat / 2 ^ (N - j - 1) = X at *
      generalize alpha.toNat / 2 ^ (N - j - 1) = A at *
      generalize c.dpf.share env T k0 j (Dpf.genCorr c.dpf env (alpha >>> 1) (fun _ => T) _ k0 k1 j) (X / 2) = s0 at *
      generalize c.dpf.share env T k1 j (Dpf.genCorr c.dpf env (alpha >>> 1) (fun _ => T) _ k0 k1 j) (X / 2) = s1 at *
      have hlt := lt_step X A
      by_cases hX : X % 2 = 1
      · rw [if_pos hX, if_pos hX, hsum]
        have : X < A ↔ X / 2 < A / 2 := by omega
        simp only [this]
      · rw [if_neg hX, if_neg hX]
        have hadd : T.helper.add (T.helper.add v0 s0) (T.helper.add v1 s1) =
            T.helper.add (T.helper.add v0 v1) (T.helper.add s0 s1) := by
          rw [G.add_assoc, G.add_assoc, G.add_left_comm s0]
        rw [hadd, hsum, hshare]
        by_cases h1 : X / 2 < A / 2
        · rw [if_pos h1, if_neg (by omega), if_pos (by omega), G.add_zero]
        · rw [if_neg h1, G.zero_add]
          by_cases h2 : X / 2 = A / 2
          · rw [if_pos h2]
            by_cases h3 : A % 2 = 1
            · rw [if_pos h3, if_pos (by omega)]
            · rw [if_neg h3, if_neg (by omega)]
          · rw [if_neg h2, if_neg (by omega)]
  obtain ⟨v0, v1, h0, h1, h⟩ := key N (by omega)
  refine ⟨v0, v1, h0, h1, ?_⟩
  simpa using h

end Spec.DcfSetup
end Verif
