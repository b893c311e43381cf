import Verif.Lemmas.Work
import Verif.Lemmas.Dcf
/-! # Calls of the cipher and of the allocator when evaluating many keys -/
namespace Verif
open Res Spec Faulty

theorem evaluateSeedsInternal_costs {env : Env} {vector : Option Nat} (hp : UsesVectors env vector) (keyL keyR : U128)
    {numSeeds numLevels : Nat} (h1 : numSeeds ≠ 0) (h2 : numLevels ≠ 0) (numCw : Int) (seedsIn : List U128)
    (controlIn : List Bool) (paths : List U128) (rightshift : Int) (corr : CorrArrays) (alias : Bool)
    (seedsOut : List U128) (controlOut : List Bool) :
    Costs (evaluateSeedsInternalF env keyL keyR numSeeds numLevels numCw seedsIn controlIn paths rightshift corr alias
      seedsOut controlOut) (evaluateSeedsInternal env keyL keyR numSeeds numLevels numCw seedsIn controlIn paths
      rightshift corr alias seedsOut controlOut)
      (match vector with
        | none => 2 * numLevels * batches numSeeds
        | some blocks => 2 + if numSeeds % blocks = 0 then 0 else 1) := by
  unfold evaluateSeedsInternalF evaluateSeedsInternal
  refine .liftThen fun _ _ => ?_
  dsimp only
  cases vector with
  | none =>
    have hp : ∀ numSeeds numLevels numCw seeds paths, env.target numSeeds numLevels numCw seeds paths = none := hp
    rw [hp]
    exact (evaluateSeedsNoHwy_costs _ _ _ _ _ _ _ _ _ _ _ _ _ _).cast (by
      rw [Nat.mul_comm, Nat.mul_comm numLevels])
  | some b =>
    obtain ⟨hb, ht⟩ := hp
    obtain ⟨t, ht, ha, hl⟩ := ht numSeeds numLevels numCw.toNat seedsIn paths
    rw [ht]
    exact evaluateSeedsHwy_costs _ ha hb hl _ _ _ h1 h2 _ _ _ _ _ _ _ _ _

namespace Dpf
variable {d : Dpf}

theorem applySeeds_costs {env : Env} {vector : Option Nat} (hp : UsesVectors env vector) {keys : List DpfKey}
    (hne : keys ≠ []) (points : List U128) (treeShift : Int) (start stop : Nat) (ev : DpfExpansion) :
    Costs (applySeedsF env keys points treeShift start stop ev) (applySeeds env keys points treeShift start stop ev)
      (walkCalls vector keys.length (stop - start)) := by
  have hpos : keys.length ≠ 0 := fun e => hne (List.length_eq_zero_iff.mp e)
  unfold applySeedsF applySeeds walkCalls
  dsimp only
  by_cases hs : stop > start
  · rw [if_pos hs, if_pos hs, if_neg (by omega)]
    refine Costs.cast (.callThen (.liftThen fun _ _ => .bind (n' := 0)
      (evaluateSeedsInternal_costs hp _ _ hpos (by omega) _ _ _ _ _ _ _ _ _) fun _ _ => .lift _)) ?_
    cases vector <;> rfl
  · rw [if_neg hs, if_neg hs, if_pos (by omega)]
    exact .lift _

/-- Calls at one level of `EvaluateAndApply`. -/
def levelCalls (d : Dpf) (vector : Option Nat) (keys h : Nat) : Nat :=
  walkCalls vector keys (if h = 0 then d.treeAt 0 else d.treeAt h - d.treeAt (h - 1)) + (1 + batches (keys * d.blocksAt h))

theorem WF.applyLevel_costs (wf : d.WF) {env : Env} {vector : Option Nat} (hp : UsesVectors env vector) {α : Type}
    (H : Helper α) {keys : List DpfKey} {points : List U128} (hne : keys ≠ []) (hlen : points.length = keys.length)
    (hk : ∀ k ∈ keys, d.KeyOk k) (r : Nat) {l : Nat} (hl : l < d.n) {ns : List Node} (hnl : ns.length = keys.length)
    {stop : Nat} (hstop : stop = if l = 0 then d.treeAt 0 else d.treeAt (l - 1)) :
    Costs (d.applyLevelF env H keys points r ⟨.ofNodes ns, stop⟩ l)
      (d.applyLevel env H keys points r ⟨.ofNodes ns, stop⟩ l) (d.levelCalls vector keys.length l) := by
  have e0 : (if l > 0 then d.treeAt l else stop) = d.treeAt l := by
    split
    · rfl
    · have : l = 0 := by omega
      subst this
      rw [hstop, if_pos rfl]
  unfold applyLevelF applyLevel levelCalls
  dsimp only
  refine .liftThen fun st hst => ?_
  rw [wf.tree_ok hl] at hst
  cases hst
  refine .liftThen fun p hp1 => .liftThen fun last hlast => .liftThen fun sum hsum => ?_
  rw [e0]
  have ew : d.treeAt l - (if l > 0 then stop else 0) = if l = 0 then d.treeAt 0 else d.treeAt l - d.treeAt (l - 1) := by
    by_cases h0 : l = 0
    · subst h0; simp
    · rw [if_pos (by omega), hstop, if_neg h0, if_neg h0]
  refine .bind ((applySeeds_costs hp hne _ _ _ _ _).cast (by rw [ew])) fun ev hev => ?_
  have hev' : ev.seeds.length = keys.length := by
    rw [wf.lastLog_ok] at hlast
    cases hlast
    unfold intRange at hsum
    split at hsum
    · rename_i hr
      cases hsum
      rcases wf.applySeeds_cases env hlen hk hl r (by omega) (if l > 0 then stop else 0) hnl with ⟨ns', hl', e⟩ | e
      · rw [e] at hev
        cases hev
        simp [DpfExpansion.ofNodes, hl']
      · rw [e] at hev; exact nomatch hev
    · exact nomatch hsum
  exact (Costs.bind (n' := 0) ((hashExpandedSeeds_costs _ _ _).cast (by rw [hev']; rfl)) fun _ _ =>
    .liftThen fun _ _ => .liftThen fun _ _ => .lift _)

/-- The loop makes all calls, if the callback does not stop it in a state in which it ends. -/
theorem WF.applyLoop_costs (wf : d.WF) {env : Env} {vector : Option Nat} (hp : UsesVectors env vector) {α σ : Type}
    (H : Helper α) {keys : List DpfKey} {points : List U128} (hne : keys ≠ []) (hlen : points.length = keys.length)
    (hk : ∀ k ∈ keys, d.KeyOk k) (r : Nat) (op : σ → List α → Bool × σ) (good : σ → Prop)
    (hop : ∀ s values, (op s values).1 = false → ¬ good (op s values).2) (m : Nat) :
    ∀ (l : Nat) (ns : List Node) (stop : Nat) (s s' : σ), l + m = d.n → ns.length = keys.length →
      stop = (if l = 0 then d.treeAt 0 else d.treeAt (l - 1)) → good s' →
      d.applyLoop env H keys points r op (List.range' l m) ⟨.ofNodes ns, stop⟩ s = (ok (), s') →
      MakesCallsOn (d.applyLoopF env H keys points r op (List.range' l m) ⟨.ofNodes ns, stop⟩ s)
        (((List.range' l m).map (d.levelCalls vector keys.length)).sum) () s' := by
  induction m with
  | zero =>
    intro l ns stop s s' _ _ _ _ h
    exact CostsOn.done (ok ()) s () s' h
  | succ m ih =>
    intro l ns stop s s' hm hnl hstop hg h more
    rw [List.range'_succ] at h ⊢
    rw [List.map_cons, List.sum_cons]
    have hcost := wf.applyLevel_costs hp H hne hlen hk r (by omega) hnl hstop
    unfold applyLoop at h
    unfold applyLoopF keepF
    cases hx : d.applyLevel env H keys points r ⟨.ofNodes ns, stop⟩ l with
    | ok x =>
      obtain ⟨ns', e3, e4⟩ := (wf.applyLevel_aes (env := env) rfl H hlen hk r (by omega : l < d.n) hnl (by
        by_cases h0 : l = 0
        · subst h0; right; rw [hstop, if_pos rfl]
        · left; omega)).2 x hx
      rw [Nat.add_assoc, hcost x hx]
      rw [hx, keep_ok] at h
      obtain ⟨st, values⟩ := x
      dsimp only at e4 h ⊢
      subst e4
      by_cases hc : (op s values).1 = true
      · rw [if_pos hc] at h ⊢
        exact ih (l + 1) ns' _ _ s' (by omega) e3 (by rw [if_neg (by omega)]; rfl) hg h more
      · rw [if_neg hc] at h
        have hc : (op s values).1 = false := by simpa using hc
        have : s' = (op s values).2 := by have := congrArg Prod.snd h; exact this.symm
        exact absurd (this ▸ hg) (hop s values hc)
    | err c => rw [hx] at h; exact nomatch h
    | ub => rw [hx] at h; exact nomatch h
    | crash => rw [hx] at h; exact nomatch h

theorem evaluateAndApply_length {env : Env} {α σ : Type} {H : Helper α} {keys : List DpfKey} {points : List U128}
    {r : Int} {op : σ → List α → Bool × σ} {s s' : σ}
    (h : d.evaluateAndApply env H keys points op s r = (ok (), s')) : points.length = keys.length := by
  refine Classical.byContradiction fun hc => ?_
  unfold evaluateAndApply at h
  rw [failIf_true hc] at h
  exact nomatch h

theorem WF.evaluateAndApply_costs (wf : d.WF) {env : Env} {vector : Option Nat} (hp : UsesVectors env vector)
    {α σ : Type} (H : Helper α) {keys : List DpfKey} {points : List U128} (hne : keys ≠ []) (r : Nat)
    (op : σ → List α → Bool × σ) (good : σ → Prop)
    (hop : ∀ s values, (op s values).1 = false → ¬ good (op s values).2) (s s' : σ) (hg : good s')
    (h : d.evaluateAndApply env H keys points op s r = (ok (), s')) :
    MakesCallsOn (d.evaluateAndApplyF env H keys points op s r)
      (applyCalls vector keys.length d.n d.treeAt d.blocksAt) () s' := by
  have hlen := evaluateAndApply_length h
  intro more
  have hv : ∃ us, mapRes d.pv.validateDpfKey keys = ok us := by
    unfold evaluateAndApply at h
    rw [failIf_false (by omega), keep_ok] at h
    cases hm : mapRes d.pv.validateDpfKey keys with
    | ok us => exact ⟨us, rfl⟩
    | err c => rw [hm] at h; exact nomatch h
    | ub => rw [hm] at h; exact nomatch h
    | crash => rw [hm] at h; exact nomatch h
  obtain ⟨us, hv⟩ := hv
  have hk : ∀ k ∈ keys, d.KeyOk k := fun k hkk =>
    (wf.validateDpfKey_iff k).mp (mapRes_unit_eq_ok.mp ⟨us, hv⟩ k hkk)
  unfold evaluateAndApply at h
  rw [failIf_false (by omega), keep_ok, hv, keep_ok, wf.tree_ok wf.pos, keep_ok, List.range_eq_range'] at h
  have hroot : (⟨keys.map (·.seedBlock), keys.map fun k => decide (k.party ≠ 0)⟩ : DpfExpansion) =
      .ofNodes (keys.map fun k => ⟨k.seedBlock, decide (k.party ≠ 0)⟩) := by
    simp [DpfExpansion.ofNodes, Function.comp_def]
  rw [hroot] at h
  have hl := wf.applyLoop_costs hp H hne hlen hk r op good hop d.n 0 _ (d.treeAt 0) s s' (by omega) (by simp)
    (by rw [if_pos rfl]) hg h more
  unfold evaluateAndApplyF keepF
  rw [failIf_false (by omega), hv, wf.tree_ok wf.pos]
  dsimp only [lift]
  unfold applyCalls
  rw [Nat.add_assoc, Costs.call .resourceExhausted () rfl]
  dsimp only
  rw [hroot, List.range_eq_range', List.range_eq_range']
  exact hl

end Dpf

theorem eq_pair {α β : Type} {x : α × β} {a : α} (h : x.1 = a) : x = (a, x.2) := Prod.ext h rfl

namespace Dcf

theorem accumulate_stops {α : Type} (H : Helper α) (log : Int) (numKeys : Nat) (points : List U128) (s : Acc α)
    (values : List α) (h : (accumulate H log numKeys points s values).1 = false) :
    ¬ (accumulate H log numKeys points s values).2.status = ok () := by
  unfold accumulate at h ⊢
  split at h
  · rename_i hc
    rw [if_pos hc]
    exact fun e => nomatch e
  · rename_i hc
    rw [if_neg hc]
    split at h
    · exact nomatch h
    · exact fun e => nomatch e

theorem batchEvaluateInto_costs {c : Dcf} (wf : c.dpf.WF) {env : Env} {vector : Option Nat}
    (hp : UsesVectors env vector) {α : Type} (H : Helper α) {keys : List DcfKey} (hne : keys ≠ []) (points : List U128)
    (output : List α) :
    CostsOn (c.batchEvaluateIntoF env H keys points output) (c.batchEvaluateInto env H keys points output)
      (applyCalls vector keys.length c.dpf.n c.dpf.treeAt c.dpf.blocksAt) := by
  intro u out h
  cases u
  unfold batchEvaluateInto at h
  by_cases h1 : keys.length ≠ points.length
  · rw [if_pos h1] at h; exact nomatch h
  rw [if_neg h1] at h
  by_cases h2 : output.length ≠ keys.length
  · rw [if_pos h2] at h; exact nomatch h
  rw [if_neg h2] at h
  by_cases h3 : wrapInt32 keys.length < 0
  · rw [if_pos h3] at h; exact nomatch h
  rw [if_neg h3] at h
  unfold batchEvaluateIntoF
  rw [if_neg h1, if_neg h2, if_neg h3]
  unfold batchRun at h
  dsimp only at h
  have hs := congrArg Prod.fst h
  have ho := congrArg Prod.snd h
  dsimp only at hs ho
  obtain ⟨x, hr, hst⟩ := bind_eq_ok.mp hs
  cases x
  have he := eq_pair hr
  have hl := Dpf.evaluateAndApply_length he
  have ht : keys.take (wrapInt32 keys.length).toNat = keys := by
    rw [List.length_take] at hl
    exact List.take_of_length_le (by omega)
  have hcost := wf.evaluateAndApply_costs hp H (keys := keys.take (wrapInt32 keys.length).toNat) (by rw [ht]; exact hne) 1 _
    (fun s => s.status = ok ()) (accumulate_stops H _ _ _) _ _ hst he
  intro more
  have hm := hcost more
  rw [show (keys.take (wrapInt32 keys.length).toNat).length = keys.length by rw [ht]] at hm
  unfold batchRunF
  dsimp only
  rw [show ((1 : Nat) : Int) = 1 from rfl] at hm
  rw [hm]
  refine Prod.ext (Prod.ext ?_ ?_) rfl
  · exact hst
  · exact ho

theorem batchEvaluate_costs {c : Dcf} (wf : c.dpf.WF) {env : Env} {vector : Option Nat}
    (hp : UsesVectors env vector) {α : Type} (H : Helper α) {keys : List DcfKey} (hne : keys ≠ []) (points : List U128) :
    Costs (c.batchEvaluateF env H keys points) (c.batchEvaluate env H keys points)
      (applyCalls vector keys.length c.dpf.n c.dpf.treeAt c.dpf.blocksAt) := by
  intro values h more
  unfold batchEvaluate at h
  dsimp only at h
  obtain ⟨x, hr, hv⟩ := bind_eq_ok.mp h
  cases hv
  unfold batchEvaluateF
  dsimp only
  rw [batchEvaluateInto_costs wf hp H hne points _ x _ (eq_pair hr) more]
  rfl

theorem evaluate_costs {c : Dcf} (wf : c.dpf.WF) {env : Env} {vector : Option Nat}
    (hp : UsesVectors env vector) {α : Type} (H : Helper α) (key : DcfKey) (x : U128) :
    Costs (c.evaluateF env H key x) (c.evaluate env H key x)
      (applyCalls vector 1 c.dpf.n c.dpf.treeAt c.dpf.blocksAt) := by
  intro values h more
  unfold evaluate at h
  dsimp only at h
  obtain ⟨u, hr, hv⟩ := bind_eq_ok.mp h
  unfold evaluateF
  dsimp only
  have := batchEvaluateInto_costs wf hp H (keys := [key]) (by simp) [x] _ u _ (eq_pair hr) more
  rw [List.length_singleton] at this
  rw [this]
  dsimp only
  rw [bind_ok, hv]

end Dcf

theorem applyCalls_congr {vector : Option Nat} {keys levels : Nat} {depth depth' blocks blocks' : Nat → Nat}
    (hd : ∀ h < levels, depth h = depth' h) (hb : ∀ h < levels, blocks h = blocks' h) :
    applyCalls vector keys levels depth blocks = applyCalls vector keys levels depth' blocks' := by
  unfold applyCalls
  congr 2
  refine List.map_congr_left fun h hh => ?_
  have hh := List.mem_range.mp hh
  rw [hd 0 (by omega), hd h hh, hd (h - 1) (by omega), hb h hh]

namespace Mic

theorem batchEval_costs {g : Mic} (wf : g.dcf.dpf.WF) {env : Env} {vector : Option Nat} (hp : UsesVectors env vector)
    {keys : List MicKey} (hne : keys ≠ []) (hi : g.params.intervals ≠ []) (points : List U128) :
    Costs (g.batchEvalF env keys points) (g.batchEval env keys points)
      (2 + 2 * applyCalls vector (keys.length * g.params.intervals.length) g.dcf.dpf.n g.dcf.dpf.treeAt
        g.dcf.dpf.blocksAt) := by
  unfold batchEvalF batchEval
  refine .liftThen fun _ h0 => .liftThen fun N _ => .liftThen fun _ _ => ?_
  have hl : points.length = keys.length := by
    by_cases hc : keys.length ≠ points.length
    · rw [failIf_true hc] at h0
      exact nomatch h0
    · omega
  by_cases hc : 2 ^ 31 ≤ points.length ∨ 2 ^ 31 < keys.length * g.params.intervals.length
  · rw [if_pos hc, if_pos hc]
    exact fun _ h => nomatch h
  rw [if_neg hc, if_neg hc]
  have h2 : Costs (Faulty.callTwice .resourceExhausted) (ok ()) 2 := by
    rintro a h more
    cases h
    rw [Nat.add_comm, List.replicate_succ, List.replicate_succ]; rfl
  have hcl : ((cells keys points g.params.intervals.length).map (·.key.dcfKey)).length =
      keys.length * g.params.intervals.length := by
    simp [cells, List.length_flatMap, sum_map_const, hl]
  have hcn : (cells keys points g.params.intervals.length).map (·.key.dcfKey) ≠ [] := by
    intro e
    rw [e] at hcl
    have a1 := List.length_pos_iff.mpr hne
    have a2 := List.length_pos_iff.mpr hi
    have := Nat.mul_pos a1 a2
    simp at hcl
    omega
  refine Costs.cast (n := 2 + (applyCalls vector (keys.length * g.params.intervals.length) g.dcf.dpf.n
    g.dcf.dpf.treeAt g.dcf.dpf.blocksAt + (applyCalls vector (keys.length * g.params.intervals.length) g.dcf.dpf.n
    g.dcf.dpf.treeAt g.dcf.dpf.blocksAt + 0))) ?_ (by omega)
  refine Costs.bind (x := ok ()) (g := fun _ => _) h2 fun _ _ => ?_
  dsimp only
  refine .liftThen fun xp _ => .liftThen fun xq _ => ?_
  refine .bind ((Dcf.batchEvaluate_costs wf hp _ hcn _).cast (by rw [hcl])) fun sP _ => ?_
  refine .bind ((Dcf.batchEvaluate_costs wf hp _ hcn _).cast (by rw [hcl])) fun sQ _ => ?_
  exact .lift _

end Mic
end Verif
