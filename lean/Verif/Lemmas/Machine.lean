import Verif.Lemmas.Apply
import Verif.Lemmas.ServerSafety
import Verif.Lemmas.Mic
import Verif.Model.KeyGenOverloads
import Verif.Model.Random
/-! Nothing depends on the vector units of the machine. -/
namespace Verif
open Res Spec

variable {env env' : Env}

theorem bind_congr_ok {α β : Type} {x : Res α} {f g : α → Res β} (h : ∀ a, x = ok a → f a = g a) :
    (x >>= f) = (x >>= g) := by
  cases x with
  | ok a => exact h a rfl
  | err _ => rfl
  | ub => rfl
  | crash => rfl

theorem prgOf_aes (h : env.aes = env'.aes) (keyL keyR : U128) : prgOf env keyL keyR = prgOf env' keyL keyR := by
  unfold prgOf hash
  rw [h]

theorem evaluateSeeds_aes (h : env.aes = env'.aes) (ev : DpfExpansion) (paths : List U128)
    {cws : List CorrectionWord} (hc : cws.length < 2 ^ 31) :
    evaluateSeeds env ev paths cws = evaluateSeeds env' ev paths cws := by
  unfold evaluateSeeds
  by_cases hl : ev.seeds.length ≠ ev.controlBits.length ∨ ev.seeds.length ≠ paths.length
  · rw [failIf_true hl]; rfl
  · rw [failIf_false hl, bind_ok, bind_ok]
    split
    · rfl
    · dsimp only
      have e := fun env => evaluateSeedsInternal_noHwy env kPrgKeyLeft kPrgKeyRight ev.seeds.length cws.length
        cws.length ev.seeds ev.controlBits paths 0 ⟨cws.map (·.seed), cws.map (·.controlLeft), cws.map (·.controlRight)⟩
        true ev.seeds ev.controlBits rfl (by omega) (by omega) rfl (by omega) (q := cws.length) (by simp) (by simp)
        (by simp) (Nat.le_refl _) hc (by omega) (fun _ => ⟨rfl, rfl⟩)
      rw [show ((0 : Nat) : Int) = 0 from rfl] at e
      rw [e env, e env', evaluateSeedsNoHwy_aes h]

theorem expandSeeds_aes (h : env.aes = env'.aes) : expandSeeds env = expandSeeds env' := by
  funext ev cws
  unfold expandSeeds expandLevel
  rw [hash_aes h]

namespace Dpf

theorem generateKeysIncremental_aes (d : Dpf) (h : env.aes = env'.aes) :
    d.generateKeysIncremental env = d.generateKeysIncremental env' := by
  have e1 : d.computeValueCorrection env = d.computeValueCorrection env' := by
    funext a b c e f
    unfold computeValueCorrection
    rw [hash_aes h]
  have e2 : d.generateNext env = d.generateNext env' := by
    funext a b c e
    unfold generateNext valueCorrectionAt
    rw [hash_aes h, e1]
  funext a b c e
  unfold generateKeysIncremental
  rw [e2, e1]

theorem hashExpandedSeeds_aes (d : Dpf) (h : env.aes = env'.aes) :
    d.hashExpandedSeeds env = d.hashExpandedSeeds env' := by
  funext a b
  unfold hashExpandedSeeds
  rw [hash_aes h]

theorem keep_congr {α β κ : Type} {x : Res α} {c : κ} {f g : α → Res β × κ} (h : ∀ a, x = ok a → f a = g a) :
    keep x c f = keep x c g := by
  cases x with
  | ok a => exact h a rfl
  | err _ => rfl
  | ub => rfl
  | crash => rfl

theorem subspan_length {α : Type} {l r : List α} {a : Nat} {n : Int} (h : subspan l a n = ok r) :
    r.length ≤ l.length := by
  unfold subspan at h
  split at h
  · cases h
  · split at h
    · rw [← ok.inj h, List.length_drop]; omega
    · rw [← ok.inj h, List.length_take, List.length_drop]; omega

variable {d : Dpf}

theorem WF.key_int (wf : d.WF) {key : DpfKey} (h : d.pv.validateDpfKey key = ok ()) :
    key.correctionWords.length < 2 ^ 31 := by
  have := ((wf.validateDpfKey_iff key).mp h).len
  have := wf.needed
  have := wf.tree_le (d.n - 1)
  have := wf.log_le (d.n - 1)
  omega

theorem computePartialEvaluations_aes (d : Dpf) (h : env.aes = env'.aes) (prefixes : List U128) (l : Int) (b : Bool)
    {ctx : EvaluationContext} (hc : ctx.keyD.correctionWords.length < 2 ^ 31) :
    d.computePartialEvaluations env prefixes l b ctx = d.computePartialEvaluations env' prefixes l b ctx := by
  unfold computePartialEvaluations
  refine bind_congr_ok fun _ _ => bind_congr_ok fun _ _ => bind_congr_ok fun _ _ => bind_congr_ok fun cws e => ?_
  have := subspan_length e
  rw [evaluateSeeds_aes h _ _ (by omega)]

/-- The key of the context stays. -/
theorem computePartialEvaluations_key {prefixes : List U128} {l : Int} {b : Bool}
    {ctx : EvaluationContext} {x : DpfExpansion × EvaluationContext}
    (h : d.computePartialEvaluations env prefixes l b ctx = ok x) : x.2.keyD = ctx.keyD := by
  unfold computePartialEvaluations at h
  obtain ⟨_, _, h⟩ := bind_eq_ok.mp h
  obtain ⟨_, _, h⟩ := bind_eq_ok.mp h
  obtain ⟨_, _, h⟩ := bind_eq_ok.mp h
  obtain ⟨_, _, h⟩ := bind_eq_ok.mp h
  obtain ⟨_, _, h⟩ := bind_eq_ok.mp h
  rw [← ok.inj h]
  rfl

theorem WF.evaluateUntil_aes (wf : d.WF) (h : env.aes = env'.aes) {α : Type} (H : Helper α) :
    d.evaluateUntil env H = d.evaluateUntil env' H := by
  funext l prefixes ctx
  unfold evaluateUntil
  refine keep_congr fun _ e => ?_
  have hc : ctx.keyD.correctionWords.length < 2 ^ 31 := by
    unfold checkEvaluateUntil at e
    obtain ⟨_, e, _⟩ := bind_eq_ok.mp e
    unfold ProtoValidator.validateEvaluationContext at e
    obtain ⟨_, _, e⟩ := bind_eq_ok.mp e
    obtain ⟨_, _, e⟩ := bind_eq_ok.mp e
    obtain ⟨_, _, e⟩ := bind_eq_ok.mp e
    obtain ⟨_, e, _⟩ := bind_eq_ok.mp e
    exact wf.key_int e
  refine keep_congr fun _ _ => ?_
  unfold expandAndUpdateContext finishUntil
  rw [expandSeeds_aes h, hashExpandedSeeds_aes d h]
  dsimp only
  rw [computePartialEvaluations_aes d h _ _ _ hc]

theorem WF.evaluateNext_aes (wf : d.WF) (h : env.aes = env'.aes) {α : Type} (H : Helper α) :
    d.evaluateNext env H = d.evaluateNext env' H := by
  funext a b
  unfold evaluateNext
  rw [wf.evaluateUntil_aes h]

theorem finishAt_aes (d : Dpf) (h : env.aes = env'.aes) {α : Type} (H : Helper α) {key : DpfKey}
    (hc : key.correctionWords.length < 2 ^ 31) : d.finishAt env H key = d.finishAt env' H key := by
  funext b c e f g
  unfold finishAt
  rw [hashExpandedSeeds_aes d h]
  refine bind_congr_ok fun _ _ => bind_congr_ok fun cws e => ?_
  have := subspan_length e
  rw [evaluateSeeds_aes h _ _ (by omega)]

theorem checkEvaluateAt_key {key : DpfKey} {l : Int} {points : List U128} {x : Nat}
    (h : d.checkEvaluateAt key l points = ok x) : d.pv.validateDpfKey key = ok () := by
  unfold checkEvaluateAt at h
  obtain ⟨_, _, h⟩ := bind_eq_ok.mp h
  obtain ⟨_, _, h⟩ := bind_eq_ok.mp h
  obtain ⟨_, _, h⟩ := bind_eq_ok.mp h
  dsimp only at h
  split at h
  · obtain ⟨_, _, h⟩ := bind_eq_ok.mp h
    obtain ⟨_, _, h⟩ := bind_eq_ok.mp h
    obtain ⟨_, _, h⟩ := bind_eq_ok.mp h
    obtain ⟨_, h, _⟩ := bind_eq_ok.mp h
    exact h
  · obtain ⟨_, _, h⟩ := bind_eq_ok.mp h
    obtain ⟨_, _, h⟩ := bind_eq_ok.mp h
    obtain ⟨_, h, _⟩ := bind_eq_ok.mp h
    exact h

theorem WF.evaluateAt_aes (wf : d.WF) (h : env.aes = env'.aes) {α : Type} (H : Helper α) :
    d.evaluateAt env H = d.evaluateAt env' H := by
  funext key l points
  unfold evaluateAt
  refine bind_congr_ok fun _ e => ?_
  rw [finishAt_aes d h H (wf.key_int (checkEvaluateAt_key e))]

theorem WF.evaluateAtCtx_aes (wf : d.WF) (h : env.aes = env'.aes) {α : Type} (H : Helper α) :
    d.evaluateAtCtx env H = d.evaluateAtCtx env' H := by
  funext l points ctx
  unfold evaluateAtCtx
  refine keep_congr fun _ e => ?_
  have hc := wf.key_int (checkEvaluateAt_key e)
  split
  · rfl
  · refine keep_congr fun _ _ => ?_
    rw [computePartialEvaluations_aes d h _ _ _ hc]
    refine keep_congr fun x e => keep_congr fun _ _ => ?_
    rw [finishAt_aes d h H (by rw [computePartialEvaluations_key e]; exact hc)]

theorem WF.applySeeds_aes (wf : d.WF) (h : env.aes = env'.aes) {keys : List DpfKey} {points : List U128}
    (hlen : points.length = keys.length) (hk : ∀ k ∈ keys, d.KeyOk k) {l : Nat} (hl : l < d.n)
    (r : Nat) (hr : r + d.logAt (d.n - 1) < 2 ^ 31) (a : Nat) {ns : List Node} (hnl : ns.length = keys.length) :
    applySeeds env keys points ((r : Int) + (d.logAt (d.n - 1) : Int) - (d.treeAt l : Int)) a (d.treeAt l)
      (.ofNodes ns) =
    applySeeds env' keys points ((r : Int) + (d.logAt (d.n - 1) : Int) - (d.treeAt l : Int)) a (d.treeAt l)
      (.ofNodes ns) := by
  by_cases ha : a < d.treeAt l
  · by_cases hw : (d.treeAt l - a) * keys.length < 2 ^ 31
    · rw [wf.applySeeds_own env hlen hk hl r hr ha hw hnl, wf.applySeeds_own env' hlen hk hl r hr ha hw hnl,
        prgOf_aes h]
    · by_cases he : wrapInt32 (((d.treeAt l - a) * keys.length : Nat) : Int) = ((d.treeAt l - a : Nat) : Int)
      · rw [wf.applySeeds_wrapped env hlen hk hl r hr ha he hnl, wf.applySeeds_wrapped env' hlen hk hl r hr ha he hnl,
          prgOf_aes h]
      · rw [wf.applySeeds_tooMany env points hk hl _ ha (by omega) he,
          wf.applySeeds_tooMany env' points hk hl _ ha (by omega) he]
  · unfold applySeeds
    dsimp only
    rw [if_neg ha, if_neg ha]

theorem WF.applyLevel_aes (wf : d.WF) (h : env.aes = env'.aes) {α : Type} (H : Helper α)
    {keys : List DpfKey} {points : List U128} (hlen : points.length = keys.length) (hk : ∀ k ∈ keys, d.KeyOk k)
    (r : Nat) {l : Nat} (hl : l < d.n) {ns : List Node} (hnl : ns.length = keys.length) {stop : Nat}
    (hstop : 0 < l ∨ stop = d.treeAt l) :
    d.applyLevel env H keys points r ⟨.ofNodes ns, stop⟩ l = d.applyLevel env' H keys points r ⟨.ofNodes ns, stop⟩ l ∧
    ∀ x, d.applyLevel env H keys points r ⟨.ofNodes ns, stop⟩ l = ok x →
      ∃ ns' : List Node, ns'.length = keys.length ∧ x.1 = ⟨.ofNodes ns', d.treeAt l⟩ := by
  unfold applyLevel
  obtain ⟨p, hp1, _⟩ := wf.param_ok hl
  have hlast := wf.log_le_last hl
  have e0 : (if l > 0 then d.treeAt l else stop) = d.treeAt l := by
    split
    · rfl
    · rcases hstop with h | h
      · omega
      · exact h
  dsimp only
  rw [wf.tree_ok hl, bind_ok, bind_ok, hp1, bind_ok, bind_ok, wf.lastLog_ok, bind_ok, bind_ok, e0]
  by_cases hr : r + d.logAt (d.n - 1) < 2 ^ 31
  · rw [intRange_of (by omega) (by omega), bind_ok, bind_ok, ← wf.applySeeds_aes h hlen hk hl r hr _ hnl,
      hashExpandedSeeds_aes d h]
    refine ⟨rfl, fun x hx => ?_⟩
    rcases wf.applySeeds_cases env hlen hk hl r hr (if l > 0 then stop else 0) hnl with ⟨ns', hl', e⟩ | e
    · rw [e, bind_ok] at hx
      obtain ⟨_, _, hx⟩ := bind_eq_ok.mp hx
      obtain ⟨_, _, hx⟩ := bind_eq_ok.mp hx
      obtain ⟨_, _, hx⟩ := bind_eq_ok.mp hx
      exact ⟨ns', hl', by rw [← ok.inj hx]⟩
    · rw [e] at hx; cases hx
  · rw [intRange_ub (x := (r : Int) + (d.logAt (d.n - 1) : Int)) (by omega)]
    simp only [bind_ub]
    exact ⟨trivial, fun x hx => by cases hx⟩

theorem WF.applyLoop_aes (wf : d.WF) (h : env.aes = env'.aes) {α σ : Type} (H : Helper α)
    {keys : List DpfKey} {points : List U128} (hlen : points.length = keys.length) (hk : ∀ k ∈ keys, d.KeyOk k)
    (r : Nat) (op : σ → List α → Bool × σ) (m : Nat) : ∀ (l : Nat) (ns : List Node) (stop : Nat) (s : σ),
    l + m = d.n → ns.length = keys.length → 0 < l ∨ stop = d.treeAt l →
    d.applyLoop env H keys points r op (List.range' l m) ⟨.ofNodes ns, stop⟩ s =
      d.applyLoop env' H keys points r op (List.range' l m) ⟨.ofNodes ns, stop⟩ s := by
  induction m with
  | zero => intros; rfl
  | succ m ih =>
    intro l ns stop s hm hnl hstop
    rw [List.range'_succ]
    unfold applyLoop
    obtain ⟨e1, e2⟩ := wf.applyLevel_aes h H hlen hk r (by omega) hnl hstop
    rw [← e1]
    refine keep_congr fun x hx => ?_
    obtain ⟨ns', e3, e4⟩ := e2 x hx
    obtain ⟨st, values⟩ := x
    dsimp only at e4 ⊢
    subst e4
    split
    · exact ih (l + 1) ns' _ _ (by omega) e3 (Or.inl (by omega))
    · rfl

theorem WF.evaluateAndApply_aes (wf : d.WF) (h : env.aes = env'.aes) {α σ : Type} (H : Helper α)
    (keys : List DpfKey) (points : List U128) (op : σ → List α → Bool × σ) (s : σ) (r : Nat) :
    d.evaluateAndApply env H keys points op s r = d.evaluateAndApply env' H keys points op s r := by
  by_cases hp : points.length = keys.length
  · by_cases hk : ∀ k ∈ keys, d.KeyOk k
    · rw [wf.evaluateAndApply_loop env hp hk H r r, wf.evaluateAndApply_loop env' hp hk H r r,
        ← WF.applyStart d env' keys points r, WF.applyStart d env keys points r]
      exact wf.applyLoop_aes h H hp hk r op d.n 0 _ _ s (by omega) (by simp [applyNodes]) (Or.inr rfl)
    · unfold evaluateAndApply
      rw [failIf_false (by omega), keep_ok, keep_ok]
      refine keep_congr fun us e => ?_
      exact absurd (fun k hkk => (wf.validateDpfKey_iff k).mp (mapRes_unit_eq_ok.mp ⟨us, e⟩ k hkk)) hk
  · unfold evaluateAndApply
    rw [failIf_true hp]; rfl

end Dpf

theorem Dcf.batchEvaluateInto_aes {c : Dcf} (wf : c.dpf.WF) (h : env.aes = env'.aes) {α : Type} (H : Helper α) :
    c.batchEvaluateInto env H = c.batchEvaluateInto env' H := by
  funext keys points output
  have e : c.batchRun env H = c.batchRun env' H := by
    funext keys points output n
    unfold batchRun
    have := fun keys op s => wf.evaluateAndApply_aes h H keys points op s 1 (σ := Dcf.Acc α)
    rw [show ((1 : Nat) : Int) = 1 from rfl] at this
    rw [this]
  unfold batchEvaluateInto
  rw [e]

theorem Dcf.batchEvaluate_aes {c : Dcf} (wf : c.dpf.WF) (h : env.aes = env'.aes) {α : Type} (H : Helper α) :
    c.batchEvaluate env H = c.batchEvaluate env' H := by
  funext keys points
  unfold batchEvaluate
  rw [Dcf.batchEvaluateInto_aes wf h]

theorem Dcf.evaluate_aes {c : Dcf} (wf : c.dpf.WF) (h : env.aes = env'.aes) {α : Type} (H : Helper α) :
    c.evaluate env H = c.evaluate env' H := by
  funext key x
  unfold evaluate
  rw [Dcf.batchEvaluateInto_aes wf h]

theorem Dcf.generateKeys_aes (c : Dcf) (h : env.aes = env'.aes) : c.generateKeys env = c.generateKeys env' := by
  funext a b s t
  unfold generateKeys
  rw [Dpf.generateKeysIncremental_aes _ h]

theorem Dcf.generateKeysFor_aes (c : Dcf) (h : env.aes = env'.aes) {α : Type} (H : Helper α) :
    c.generateKeysFor env H = c.generateKeysFor env' H := by
  funext a b s t
  unfold generateKeysFor
  dsimp only
  rw [Dcf.generateKeys_aes _ h]

theorem Mic.gen_aes (g : Mic) (h : env.aes = env'.aes) : g.gen env = g.gen env' := by
  funext rIn rOut s t rand
  unfold gen
  rw [Dcf.generateKeysFor_aes _ h]

theorem Mic.batchEval_aes {g : Mic} (wf : g.dcf.dpf.WF) (h : env.aes = env'.aes) :
    g.batchEval env = g.batchEval env' := by
  funext keys points
  unfold batchEval
  rw [Dcf.batchEvaluate_aes wf h]

theorem selection_aes {d : Dpf} (wf : d.WF) (h : env.aes = env'.aes) :
    DenseServer.selection d env = DenseServer.selection d env' := by
  funext key
  unfold DenseServer.selection
  rw [wf.evaluateNext_aes h]

theorem DenseClient.createPlainRequests_aes (c : DenseClient) (h : env.aes = env'.aes) :
    c.createPlainRequests env = c.createPlainRequests env' := by
  funext queries seeds random
  unfold createPlainRequests keysFor
  rw [Dpf.generateKeysIncremental_aes _ h]

theorem CuckooClient.createPlainRequests_aes (c : CuckooClient) (h : env.aes = env'.aes) :
    c.createPlainRequests env = c.createPlainRequests env' := by
  funext queries seeds random
  unfold createPlainRequests
  rw [DenseClient.createPlainRequests_aes _ h]

theorem SimpleClient.createPlainRequests_aes (c : SimpleClient) (h : env.aes = env'.aes) :
    c.createPlainRequests env = c.createPlainRequests env' := by
  funext queries seeds random
  unfold createPlainRequests
  rw [DenseClient.createPlainRequests_aes _ h]

/-! ### Inner products -/

theorem dense_product_eq {records : List Bytes} {db : DenseDb} (hh : db.Holds records) {simd simd' : SimdEnv}
    (hok : SimdOk simd) (hok' : SimdOk simd') {L : Nat}
    (hL : L ≤ 2 ^ 24 ∨ (Vectorised simd ∧ L < 2 ^ 31) ∨ 2 ^ 31 ≤ L)
    (hL' : L ≤ 2 ^ 24 ∨ (Vectorised simd' ∧ L < 2 ^ 31) ∨ 2 ^ 31 ≤ L)
    (hn : records.length ≤ L) {selections : List (List U128)} (hne : selections ≠ [])
    (hlen : ∀ s ∈ selections, s.length = L) :
    db.innerProductWith simd selections = db.innerProductWith simd' selections := by
  unfold DenseDb.innerProductWith
  rw [hh.content, bind_ok, bind_ok, hh.max]
  rcases Nat.eq_zero_or_pos (maxLength records) with h0 | hpos
  · rw [C32_rejects simd _ _ _ hne (Or.inr (Or.inr (Or.inl (by rw [h0]; decide)))),
      C32_rejects simd' _ _ _ hne (Or.inr (Or.inr (Or.inl (by rw [h0]; decide))))]
  · rcases Nat.lt_or_ge L (2 ^ 31) with h | h
    · have a : ∀ {P : Prop}, L ≤ 2 ^ 24 ∨ (P ∧ L < 2 ^ 31) ∨ 2 ^ 31 ≤ L → L ≤ 2 ^ 24 ∨ (P ∧ L < 2 ^ 31) :=
        fun hP => (or_assoc.mpr hP).resolve_right (by omega)
      rw [innerProduct_visits hok hpos hlen (a hL) (by omega) (by omega) fun v hv => length_le_maxLength hv,
        innerProduct_visits hok' hpos hlen (a hL') (by omega) (by omega) fun v hv => length_le_maxLength hv]
    · rw [innerProduct_large hne hlen h, innerProduct_large hne hlen h]

theorem mapRes_selection_lengths {fp : FpEnv} {l : Nat} {d : Dpf} (hd : Dpf.create fp (pirParams l) = ok d)
    {keys : List DpfKey} (h0 : keys.length ≠ 0) {sel : List (List U128)}
    (h : mapRes (DenseServer.selection d env) keys = ok sel) : sel ≠ [] ∧ ∀ s ∈ sel, s.length = 2 ^ l := by
  constructor
  · rintro rfl
    exact h0 (mapRes_length h).symm
  · intro s hs
    obtain ⟨key, _, e⟩ := mapRes_mem h hs
    rcases selection_any hd env key with ⟨s', e1, e2⟩ | e1
    · rw [e] at e1
      rw [ok.inj e1]
      exact e2
    · rw [e] at e1
      cases e1

variable {simd simd' : SimdEnv} {fp : FpEnv} {l : Nat} {d : Dpf}

theorem dense_plain_eq {records : List Bytes} {db : DenseDb} (hh : db.Holds records)
    (hd : Dpf.create fp (pirParams l) = ok d) (hok : SimdOk simd) (hok' : SimdOk simd')
    (hL : 2 ^ l ≤ 2 ^ 24 ∨ (Vectorised simd ∧ 2 ^ l < 2 ^ 31) ∨ 2 ^ 31 ≤ 2 ^ l)
    (hL' : 2 ^ l ≤ 2 ^ 24 ∨ (Vectorised simd' ∧ 2 ^ l < 2 ^ 31) ∨ 2 ^ 31 ≤ 2 ^ l)
    (hn : records.length ≤ 2 ^ l) (role : Role) (h : env.aes = env'.aes) :
    DenseServer.handlePlainRequest env simd ⟨d, db, role⟩ =
      DenseServer.handlePlainRequest env' simd' ⟨d, db, role⟩ := by
  funext request
  unfold DenseServer.handlePlainRequest
  rw [selection_aes (createIncremental_wf hd) h]
  match request with
  | none => rfl
  | some (.leader _ _) => rfl
  | some (.encrypted _) => rfl
  | some .notSet => rfl
  | some (.plain r) =>
    refine bind_congr_ok fun _ e0 => bind_congr_ok fun sel e1 => ?_
    obtain ⟨e2, e3⟩ := mapRes_selection_lengths hd (failIf_eq_ok.mp e0) e1
    rw [dense_product_eq hh hok hok' hL hL' hn e2 e3]

theorem cuckoo_plain_eq {K V : List Bytes} {db : CuckooDb} (hk : db.keys.Holds K) (hv : db.values.Holds V)
    (hd : Dpf.create fp (pirParams l) = ok d) (hok : SimdOk simd) (hok' : SimdOk simd')
    (hL : 2 ^ l ≤ 2 ^ 24 ∨ (Vectorised simd ∧ 2 ^ l < 2 ^ 31) ∨ 2 ^ 31 ≤ 2 ^ l)
    (hL' : 2 ^ l ≤ 2 ^ 24 ∨ (Vectorised simd' ∧ 2 ^ l < 2 ^ 31) ∨ 2 ^ 31 ≤ 2 ^ l)
    (hK : K.length ≤ 2 ^ l) (hV : V.length ≤ 2 ^ l) (params : PublicParams) (f : Int) (role : Role)
    (h : env.aes = env'.aes) :
    CuckooServer.handlePlainRequest env simd ⟨params, d, db, f, role⟩ =
      CuckooServer.handlePlainRequest env' simd' ⟨params, d, db, f, role⟩ := by
  funext request
  unfold CuckooServer.handlePlainRequest
  rw [selection_aes (createIncremental_wf hd) h]
  match request with
  | none => rfl
  | some (.leader _ _) => rfl
  | some (.encrypted _) => rfl
  | some .notSet => rfl
  | some (.plain r) =>
    refine bind_congr_ok fun _ e0 => bind_congr_ok fun _ _ => bind_congr_ok fun sel e1 => ?_
    obtain ⟨e2, e3⟩ := mapRes_selection_lengths hd (failIf_eq_ok.mp e0) e1
    unfold CuckooDb.innerProductWith
    rw [dense_product_eq hk hok hok' hL hL' hK e2 e3, dense_product_eq hv hok hok' hL hL' hV e2 e3]

theorem simple_plain_eq {buckets : List Bytes} {db : SimpleDb} (hh : db.dense.Holds buckets)
    (hd : Dpf.create fp (pirParams l) = ok d) (hok : SimdOk simd) (hok' : SimdOk simd')
    (hL : 2 ^ l ≤ 2 ^ 24 ∨ (Vectorised simd ∧ 2 ^ l < 2 ^ 31) ∨ 2 ^ 31 ≤ 2 ^ l)
    (hL' : 2 ^ l ≤ 2 ^ 24 ∨ (Vectorised simd' ∧ 2 ^ l < 2 ^ 31) ∨ 2 ^ 31 ≤ 2 ^ l)
    (hn : buckets.length ≤ 2 ^ l) (params : PublicParams) (f : Int) (role : Role) (h : env.aes = env'.aes) :
    SimpleServer.handlePlainRequest env simd ⟨params, d, db, f, role⟩ =
      SimpleServer.handlePlainRequest env' simd' ⟨params, d, db, f, role⟩ := by
  funext request
  unfold SimpleServer.handlePlainRequest
  rw [selection_aes (createIncremental_wf hd) h]
  match request with
  | none => rfl
  | some (.leader _ _) => rfl
  | some (.encrypted _) => rfl
  | some .notSet => rfl
  | some (.plain r) =>
    refine bind_congr_ok fun _ e0 => bind_congr_ok fun _ _ => bind_congr_ok fun sel e1 => ?_
    obtain ⟨e2, e3⟩ := mapRes_selection_lengths hd (failIf_eq_ok.mp e0) e1
    unfold SimpleDb.innerProductWith
    rw [dense_product_eq hh hok hok' hL hL' hn e2 e3]

theorem pirDpf_inv2 (fp : FpEnv) {c : CeilLog2} {n : Nat} {d : Dpf} (hc : ExactAt c n)
    (h : CanServe n simd) (h' : CanServe n simd') (hd : Dpf.create fp (pirParameters c n) = ok d) :
    ∃ l, n ≤ 2 ^ l ∧ Dpf.create fp (pirParams l) = ok d ∧
      (2 ^ l ≤ 2 ^ 24 ∨ (Vectorised simd ∧ 2 ^ l < 2 ^ 31) ∨ 2 ^ 31 ≤ 2 ^ l) ∧
      (2 ^ l ≤ 2 ^ 24 ∨ (Vectorised simd' ∧ 2 ^ l < 2 ^ 31) ∨ 2 ^ 31 ≤ 2 ^ l) := by
  have hc' := hc
  obtain ⟨l, e1, e2, _⟩ := hc'
  refine ⟨l, e2, ?_, canServe_pow h hc e1, canServe_pow h' hc e1⟩
  unfold pirParameters at hd
  rw [e1] at hd
  exact hd

end Verif
