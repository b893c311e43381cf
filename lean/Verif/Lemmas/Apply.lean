import Verif.Lemmas.AtCtx
import Verif.Lemmas.PointFunction
import Verif.Spec.Apply
/-! `EvaluateAndApply` in terms of shares. -/
namespace Verif
open Res Spec
namespace Dpf
variable {d : Dpf}

/-- Nodes of all keys at depth `t`. -/
def applyNodes (d : Dpf) (env : Env) (keys : List DpfKey) (points : List U128) (r t : Nat) :
    List Node :=
  (List.range keys.length).map fun j => nodeAt env (keys.getD j DpfKey.default) t
    ((points.getD j 0).toNat / 2 ^ (r + d.logAt (d.n - 1) - t))

/-- Depth of the seeds before level `h`. -/
def startOf (d : Dpf) (h : Nat) : Nat := if h > 0 then d.treeAt (h - 1) else 0

/-- `stop_level` before level `h`. -/
def stopOf (d : Dpf) (h : Nat) : Nat := if h > 0 then d.treeAt (h - 1) else d.treeAt 0

theorem WF.start_le (wf : d.WF) {h : Nat} (hh : h < d.n) : d.startOf h ≤ d.treeAt h := by
  unfold startOf
  split
  · exact Nat.le_of_lt (wf.tree_asc (h - 1) h (by omega) hh)
  · omega

theorem mapRes_rd_keys (keys : List DpfKey) (l : Nat)
    (h : ∀ k ∈ keys, l < k.correctionWords.length) :
    mapRes (fun (key : DpfKey) => rd key.correctionWords l) keys =
      ok ((List.range keys.length).map fun j =>
        (keys.getD j DpfKey.default).correctionWords.getD l ⟨0, false, false, []⟩) := by
  rw [range_map_getD keys DpfKey.default (fun k => k.correctionWords.getD l ⟨0, false, false, []⟩)]
  exact mapRes_eq_ok_map fun k hk => rd_getD (h k hk) _

theorem map_take_drop (cws : List CorrectionWord) {a b : Nat} (h : b ≤ cws.length) :
    ((List.range (b - a)).map fun l => cws.getD (a + l) ⟨0, false, false, []⟩) =
      (cws.drop a).take (b - a) := by
  apply List.ext_getElem
  · simp; omega
  · intro i h1 h2
    simp only [List.length_map, List.length_range] at h1
    simp [List.getElem_take, List.getElem_drop, List.getD, show a + i < cws.length by omega]

/-- Correction words of all keys for the tree levels from `a`, level by level. -/
def stepWords (keys : List DpfKey) (a n : Nat) : List CorrectionWord :=
  (List.range n).flatMap fun l => (List.range keys.length).map fun j =>
    (keys.getD j DpfKey.default).correctionWords.getD (a + l) ⟨0, false, false, []⟩

theorem stepWords_length (keys : List DpfKey) (a n : Nat) : (stepWords keys a n).length = n * keys.length := by
  simp [stepWords, List.length_flatMap, List.map_const', List.sum_replicate_nat]

theorem WF.words_le (wf : d.WF) {keys : List DpfKey} (hk : ∀ k ∈ keys, d.KeyOk k) {h : Nat} (hh : h < d.n) :
    ∀ k ∈ keys, d.treeAt h ≤ k.correctionWords.length := by
  intro k hkk
  have := (hk k hkk).len
  have := wf.tree_lt_needed hh
  omega

/-- `EvaluateAndApply` down to the level: the call of `EvaluateSeeds`. -/
theorem WF.applySeeds_call (wf : d.WF) (env : Env) {keys : List DpfKey} (points : List U128)
    (hk : ∀ k ∈ keys, d.KeyOk k) {h : Nat} (hh : h < d.n) (s : Int) {a : Nat} (ha : a < d.treeAt h)
    (ev : DpfExpansion) :
    applySeeds env keys points s a (d.treeAt h) ev =
    (evaluateSeedsInternal env kPrgKeyLeft kPrgKeyRight keys.length (d.treeAt h - a)
      (wrapInt32 (((d.treeAt h - a) * keys.length : Nat) : Int)) ev.seeds ev.controlBits points s
      ⟨(stepWords keys a (d.treeAt h - a)).map (·.seed), (stepWords keys a (d.treeAt h - a)).map (·.controlLeft),
        (stepWords keys a (d.treeAt h - a)).map (·.controlRight)⟩ true ev.seeds ev.controlBits >>= fun sc =>
      ok (DpfExpansion.mk sc.1 sc.2)) := by
  have hkl := wf.words_le hk hh
  unfold applySeeds
  dsimp only
  rw [if_pos ha, mapRes_eq_ok_map (g := fun i => (List.range keys.length).map fun j =>
      (keys.getD j DpfKey.default).correctionWords.getD (a + i) ⟨0, false, false, []⟩)
      (by
        intro i hi
        simp only [List.mem_range] at hi
        exact mapRes_rd_keys _ _ fun k hkk => by have := hkl k hkk; omega), bind_ok, ← List.flatMap_def]
  rfl

/-- Every key with its own correction words, if the number of correction words fits into an `int`. -/
theorem WF.applySeeds_own (wf : d.WF) (env : Env) {keys : List DpfKey} {points : List U128}
    (hlen : points.length = keys.length) (hk : ∀ k ∈ keys, d.KeyOk k) {h : Nat} (hh : h < d.n)
    (r : Nat) (hr : r + d.logAt (d.n - 1) < 2 ^ 31) {a : Nat} (ha : a < d.treeAt h)
    (hw : (d.treeAt h - a) * keys.length < 2 ^ 31) {ns : List Node} (hnl : ns.length = keys.length) :
    applySeeds env keys points ((r : Int) + (d.logAt (d.n - 1) : Int) - (d.treeAt h : Int)) a (d.treeAt h)
      (.ofNodes ns) =
    ok (.ofNodes ((List.range keys.length).map fun j =>
        walk (prgOf env kPrgKeyLeft kPrgKeyRight) ((List.range (d.treeAt h - a)).map fun l =>
          (keys.getD j DpfKey.default).correctionWords.getD (a + l) ⟨0, false, false, []⟩)
          ((points.getD j 0).toNat >>> (r + d.logAt (d.n - 1) - d.treeAt h)) (ns.getD j ⟨0, false⟩))) := by
  have hlast := wf.log_le_last hh
  have htl := wf.tree_le h
  have := evaluateSeedsInternal_perSeed env kPrgKeyLeft kPrgKeyRight
    ns points (r + d.logAt (d.n - 1) - d.treeAt h)
    (d.treeAt h - a) (fun l j => (keys.getD j DpfKey.default).correctionWords.getD
      (a + l) ⟨0, false, false, []⟩) (by rw [hnl, hlen]) true ns rfl (fun _ => rfl) (by omega)
    (by rw [hnl]; exact hw) (by omega)
  dsimp only at this
  rw [hnl, ← wrapInt32_nat hw, show ((r + d.logAt (d.n - 1) - d.treeAt h : Nat) : Int) =
    (r : Int) + (d.logAt (d.n - 1) : Int) - (d.treeAt h : Int) by omega] at this
  rw [wf.applySeeds_call env points hk hh _ ha]
  unfold DpfExpansion.ofNodes stepWords
  rw [this, bind_ok]

/-- All keys with the same correction words, if their number as an `int` is the number of levels. -/
theorem WF.applySeeds_wrapped (wf : d.WF) (env : Env) {keys : List DpfKey} {points : List U128}
    (hlen : points.length = keys.length) (hk : ∀ k ∈ keys, d.KeyOk k) {h : Nat} (hh : h < d.n)
    (r : Nat) (hr : r + d.logAt (d.n - 1) < 2 ^ 31) {a : Nat} (ha : a < d.treeAt h)
    (hw : wrapInt32 (((d.treeAt h - a) * keys.length : Nat) : Int) = ((d.treeAt h - a : Nat) : Int))
    {ns : List Node} (hnl : ns.length = keys.length) :
    applySeeds env keys points ((r : Int) + (d.logAt (d.n - 1) : Int) - (d.treeAt h : Int)) a (d.treeAt h)
      (.ofNodes ns) =
    ok (.ofNodes (List.zipWith (fun n (x : U128) => walk (prgOf env kPrgKeyLeft kPrgKeyRight)
      ((stepWords keys a (d.treeAt h - a)).take (d.treeAt h - a))
      (x.toNat >>> (r + d.logAt (d.n - 1) - d.treeAt h)) n) ns points)) := by
  have hlast := wf.log_le_last hh
  have htl := wf.tree_le h
  have hpos : 0 < keys.length := by
    rcases Nat.eq_zero_or_pos keys.length with e | e
    · rw [e, Nat.mul_zero] at hw
      exfalso
      have e2 : wrapInt32 ((0 : Nat) : Int) = 0 := by decide
      omega
    · exact e
  have hl : ((stepWords keys a (d.treeAt h - a)).take (d.treeAt h - a)).length = d.treeAt h - a := by
    rw [List.length_take, stepWords_length]
    exact Nat.min_eq_left (Nat.le_mul_of_pos_right _ hpos)
  have := evaluateSeedsInternal_shared env kPrgKeyLeft kPrgKeyRight ns points (r + d.logAt (d.n - 1) - d.treeAt h)
    ((stepWords keys a (d.treeAt h - a)).take (d.treeAt h - a))
    ((stepWords keys a (d.treeAt h - a)).drop (d.treeAt h - a)) (by omega) true ns rfl (fun _ => rfl)
    (by intro e; rw [e] at hl; simp only [List.length_nil] at hl; omega) (by omega) (by omega)
  rw [List.take_append_drop, hl, hnl, show ((r + d.logAt (d.n - 1) - d.treeAt h : Nat) : Int) =
    (r : Int) + (d.logAt (d.n - 1) : Int) - (d.treeAt h : Int) by omega] at this
  rw [wf.applySeeds_call env points hk hh _ ha, hw]
  unfold DpfExpansion.ofNodes
  rw [this, bind_ok]

/-- Otherwise the number of correction words is rejected. -/
theorem WF.applySeeds_tooMany (wf : d.WF) (env : Env) {keys : List DpfKey} (points : List U128)
    (hk : ∀ k ∈ keys, d.KeyOk k) {h : Nat} (hh : h < d.n) (s : Int) {a : Nat} (ha : a < d.treeAt h)
    (hw : 2 ^ 31 ≤ (d.treeAt h - a) * keys.length)
    (hne : wrapInt32 (((d.treeAt h - a) * keys.length : Nat) : Int) ≠ ((d.treeAt h - a : Nat) : Int))
    (ev : DpfExpansion) :
    applySeeds env keys points s a (d.treeAt h) ev = err .invalidArgument := by
  rw [wf.applySeeds_call env points hk hh _ ha]
  unfold evaluateSeedsInternal
  rw [failIf_true ⟨hne, by unfold wrapInt32; omega⟩]
  rfl

theorem WF.applySeeds_ok (wf : d.WF) (env : Env) {keys : List DpfKey} {points : List U128}
    (hlen : points.length = keys.length) (hk : ∀ k ∈ keys, d.KeyOk k) {h : Nat} (hh : h < d.n)
    (r : Nat) (hr : r + d.logAt (d.n - 1) < 2 ^ 31) {a : Nat} (ha : a ≤ d.treeAt h)
    (hw : (d.treeAt h - a) * keys.length < 2 ^ 31) :
    applySeeds env keys points ((r : Int) + (d.logAt (d.n - 1) : Int) - (d.treeAt h : Int)) a (d.treeAt h)
      (.ofNodes (d.applyNodes env keys points r a)) =
    ok (.ofNodes (d.applyNodes env keys points r (d.treeAt h))) := by
  have hlast := wf.log_le_last hh
  have htl := wf.tree_le h
  have hkl := wf.words_le hk hh
  rcases Nat.lt_or_ge a (d.treeAt h) with hgt | hge
  · rw [wf.applySeeds_own env hlen hk hh r hr hgt hw (by simp [applyNodes])]
    congr 2
    unfold applyNodes
    apply List.map_congr_left
    intro j hj
    simp only [List.mem_range] at hj
    have hkj : keys.getD j DpfKey.default ∈ keys := by
      simp [List.getD, hj]
    have hgd : ((List.range keys.length).map fun j => nodeAt env (keys.getD j DpfKey.default)
        a ((points.getD j 0).toNat / 2 ^ (r + d.logAt (d.n - 1) - a))).getD j
        ⟨0, false⟩ = nodeAt env (keys.getD j DpfKey.default)
        a ((points.getD j 0).toNat / 2 ^ (r + d.logAt (d.n - 1) - a)) := by
      simp [List.getD, hj]
    rw [hgd, map_take_drop _ (hkl _ hkj), Nat.shiftRight_eq_div_pow]
    have e4 : (points.getD j 0).toNat / 2 ^ (r + d.logAt (d.n - 1) - a) =
        (points.getD j 0).toNat / 2 ^ (r + d.logAt (d.n - 1) - d.treeAt h) /
          2 ^ (d.treeAt h - a) := by
      rw [Nat.div_div_eq_div_mul, ← Nat.pow_add,
        show r + d.logAt (d.n - 1) - d.treeAt h + (d.treeAt h - a) = r + d.logAt (d.n - 1) - a by omega]
    rw [e4]
    exact walk_split _ _ ha (hkl _ hkj) _ _
  · have : a = d.treeAt h := by omega
    unfold applySeeds
    dsimp only
    rw [if_neg (by omega), this]

/-- For any number of keys, the seeds are found or rejected. -/
theorem WF.applySeeds_cases (wf : d.WF) (env : Env) {keys : List DpfKey} {points : List U128}
    (hlen : points.length = keys.length) (hk : ∀ k ∈ keys, d.KeyOk k) {h : Nat} (hh : h < d.n)
    (r : Nat) (hr : r + d.logAt (d.n - 1) < 2 ^ 31) (a : Nat) {ns : List Node} (hnl : ns.length = keys.length) :
    (∃ ns' : List Node, ns'.length = keys.length ∧
      applySeeds env keys points ((r : Int) + (d.logAt (d.n - 1) : Int) - (d.treeAt h : Int)) a (d.treeAt h)
        (.ofNodes ns) = ok (.ofNodes ns')) ∨
    applySeeds env keys points ((r : Int) + (d.logAt (d.n - 1) : Int) - (d.treeAt h : Int)) a (d.treeAt h)
      (.ofNodes ns) = err .invalidArgument := by
  by_cases ha : a < d.treeAt h
  · by_cases hw : (d.treeAt h - a) * keys.length < 2 ^ 31
    · exact Or.inl ⟨_, by simp, wf.applySeeds_own env hlen hk hh r hr ha hw hnl⟩
    · by_cases he : wrapInt32 (((d.treeAt h - a) * keys.length : Nat) : Int) = ((d.treeAt h - a : Nat) : Int)
      · exact Or.inl ⟨_, by simp [hnl, hlen], wf.applySeeds_wrapped env hlen hk hh r hr ha he hnl⟩
      · exact Or.inr (wf.applySeeds_tooMany env points hk hh _ ha (by omega) he _)
  · refine Or.inl ⟨ns, hnl, ?_⟩
    unfold applySeeds
    dsimp only
    rw [if_neg ha]

theorem WF.applyBlockIndex_ok (wf : d.WF) {points : List U128} {h i : Nat} (hh : h < d.n) {T : Ty}
    (ht : d.TypedAt h T) (hi : i < points.length) (s : Nat) :
    d.applyBlockIndex T.helper points (s : Int) h i =
      ok ((points.getD i 0).toNat / 2 ^ s % 2 ^ d.gapAt h) := by
  unfold applyBlockIndex
  split
  · rename_i hc
    rw [rd_getD hi 0, bind_ok, shr128_ok (by omega), bind_ok, wf.domainToBlockIndex_ok hh, shr_toNat]
  · rename_i hc
    by_cases he : T.helper.elementsPerBlock > 1
    · have h128 : 128 ≤ s := by
        have : ¬ ((s : Int) < 128) := fun h => hc ⟨he, h⟩
        omega
      have hx0 : (points.getD i 0).toNat / 2 ^ s = 0 := by
        apply Nat.div_eq_of_lt
        exact Nat.lt_of_lt_of_le (points.getD i 0).isLt (Nat.pow_le_pow_right (by decide) h128)
      rw [hx0, Nat.zero_mod]
    · rw [ht.gap_zero he, Nat.pow_zero, Nat.mod_one]

/-- Value of one key from its node. -/
def nodeShare (d : Dpf) (env : Env) (T : Ty) (key : DpfKey) (h : Nat) (corr : List T.den) (nd : Node) (x : Nat) :
    T.den :=
  correct T.helper corr key.party nd.ctrl (x % 2 ^ d.gapAt h)
    ((blockElems env T (d.blocksAt h) nd.seed).getD (x % 2 ^ d.gapAt h) T.helper.zero)

theorem WF.applyValue_nodes (wf : d.WF) (env : Env) {keys : List DpfKey} {points : List U128}
    (hlen : points.length = keys.length) {h : Nat} (hh : h < d.n) {T : Ty}
    (ht : d.TypedAt h T) (s : Nat) {ns : List Node} (hnl : ns.length = keys.length) {i : Nat}
    (hi : i < keys.length) :
    d.applyValue T.helper keys points (s : Int)
      ((DpfExpansion.ofNodes ns).seeds.flatMap fun s => (iota s (d.blocksAt h)).map (hash env kPrgKeyValue))
      (d.blocksAt h) (DpfExpansion.ofNodes ns).controlBits h i =
    (d.getValueCorrectionAsArray T.helper (keys.getD i DpfKey.default) h >>=
      fun corr => ok (d.nodeShare env T (keys.getD i DpfKey.default) h corr (ns.getD i ⟨0, false⟩)
        ((points.getD i 0).toNat / 2 ^ s))) := by
  have hi' : i < (DpfExpansion.ofNodes ns).seeds.length := by
    simpa [DpfExpansion.ofNodes, hnl] using hi
  unfold applyValue
  rw [WF.slice_hashed env _ hi', bind_ok, wf.applyBlockIndex_ok hh ht (by omega)]
  have hseed : (DpfExpansion.ofNodes ns).seeds[i] = (ns.getD i ⟨0, false⟩).seed := by
    simp [DpfExpansion.ofNodes, List.getD, show i < ns.length by omega]
  have hctl : rd (DpfExpansion.ofNodes ns).controlBits i = ok (ns.getD i ⟨0, false⟩).ctrl := by
    rw [rd_lt (by simpa [DpfExpansion.ofNodes, hnl] using hi)]
    simp [DpfExpansion.ofNodes, List.getD, show i < ns.length by omega]
  rw [hseed, hctl]
  generalize hxx : (points.getD i 0).toNat / 2 ^ s = x
  generalize ns.getD i ⟨0, false⟩ = nd
  obtain ⟨e1, e2⟩ := blockElems_ok env ht.fits nd.seed
  rw [seedBytes] at e1
  rw [e1, bind_ok, rd_getD hi DpfKey.default, bind_ok]
  generalize keys.getD i DpfKey.default = key at *
  cases hc : d.getValueCorrectionAsArray T.helper key h with
  | ok corr =>
    have hcl := getValueCorrection_length hc
    have hm := ht.mod_lt x
    rw [bind_ok, bind_ok, bind_ok, rd_getD (by rw [e2]; exact hm) T.helper.zero, bind_ok, bind_ok,
      addCorrection, rd_getD (by rw [hcl]; exact hm) T.helper.zero]
    unfold nodeShare correct
    dsimp only
    cases nd.ctrl <;> simp
  | err c => rfl
  | ub => rfl
  | crash => rfl

theorem WF.applyValue_ok (wf : d.WF) (env : Env) {keys : List DpfKey} {points : List U128}
    (hlen : points.length = keys.length) {h : Nat} (hh : h < d.n) {T : Ty}
    (ht : d.TypedAt h T) (r : Nat) {i : Nat} (hi : i < keys.length) :
    d.applyValue T.helper keys points ((r + d.logAt (d.n - 1) - d.logAt h : Nat) : Int)
      ((DpfExpansion.ofNodes (d.applyNodes env keys points r (d.treeAt h))).seeds.flatMap fun s =>
        (iota s (d.blocksAt h)).map (hash env kPrgKeyValue)) (d.blocksAt h)
      (DpfExpansion.ofNodes (d.applyNodes env keys points r (d.treeAt h))).controlBits h i =
    (d.getValueCorrectionAsArray T.helper (keys.getD i DpfKey.default) h >>=
      fun corr => ok (d.share env T (keys.getD i DpfKey.default) h corr
        ((points.getD i 0).toNat / 2 ^ (r + d.logAt (d.n - 1) - d.logAt h)))) := by
  have hlast := wf.log_le_last hh
  have htl := wf.tree_le h
  rw [wf.applyValue_nodes env hlen hh ht _ (by simp [applyNodes]) hi]
  have hx : (points.getD i 0).toNat / 2 ^ (r + d.logAt (d.n - 1) - d.treeAt h) =
      ((points.getD i 0).toNat / 2 ^ (r + d.logAt (d.n - 1) - d.logAt h)) / 2 ^ d.gapAt h := by
    rw [Nat.div_div_eq_div_mul, ← Nat.pow_add]; congr 2; unfold gapAt; omega
  have hnode : (d.applyNodes env keys points r (d.treeAt h)).getD i ⟨0, false⟩ =
      nodeAt env (keys.getD i DpfKey.default)
        (d.treeAt h) (((points.getD i 0).toNat / 2 ^ (r + d.logAt (d.n - 1) - d.logAt h)) /
          2 ^ d.gapAt h) := by
    rw [← hx]; simp [applyNodes, List.getD, hi]
  rw [hnode]
  rfl

/-- Values of all keys at level `h`. -/
def applyShares (d : Dpf) (env : Env) (T : Ty) (keys : List DpfKey) (points : List U128) (r h : Nat) :
    Res (List T.den) :=
  mapRes (fun j => d.getValueCorrectionAsArray T.helper (keys.getD j DpfKey.default) h >>=
    fun corr => ok (d.share env T (keys.getD j DpfKey.default) h corr
      ((points.getD j 0).toNat / 2 ^ (r + d.logAt (d.n - 1) - d.logAt h)))) (List.range keys.length)

/-- One level of `EvaluateAndApply`. -/
theorem WF.applyLevel_ok (wf : d.WF) (env : Env) {keys : List DpfKey} {points : List U128}
    (hlen : points.length = keys.length) (hk : ∀ k ∈ keys, d.KeyOk k) {h : Nat} (hh : h < d.n) {T : Ty}
    (ht : d.TypedAt h T) (r : Nat) (hr : r + d.logAt (d.n - 1) < 2 ^ 31)
    (hw : (d.treeAt h - d.startOf h) * keys.length < 2 ^ 31) :
    d.applyLevel env T.helper keys points (r : Int)
      ⟨.ofNodes (d.applyNodes env keys points r (d.startOf h)), d.stopOf h⟩ h =
    (d.applyShares env T keys points r h >>= fun values =>
    ok (⟨.ofNodes (d.applyNodes env keys points r (d.startOf (h + 1))), d.stopOf (h + 1)⟩, values)) := by
  unfold applyLevel
  obtain ⟨p, hp1, hp2⟩ := wf.param_ok hh
  have hlast := wf.log_le_last hh
  have hst := wf.start_le hh
  have e0 : (if h > 0 then d.treeAt h else d.stopOf h) = d.treeAt h := by
    split
    · rfl
    · have : h = 0 := by omega
      subst this; simp [stopOf]
  have e1 : (if h > 0 then d.stopOf h else 0) = d.startOf h := by
    unfold stopOf startOf
    split <;> rfl
  have e2 : d.startOf (h + 1) = d.treeAt h := by simp [startOf]
  have e3 : d.stopOf (h + 1) = d.treeAt h := by simp [stopOf]
  dsimp only
  rw [wf.tree_ok hh, bind_ok, hp1, bind_ok, wf.lastLog_ok, bind_ok, e0, e1, e2, e3, wf.log_eq h p hp2,
    intRange_of (by omega) (by omega), bind_ok, wf.applySeeds_ok env hlen hk hh r hr hst hw, bind_ok, wf.hashExpandedSeeds_ok hh, bind_ok,
    wf.blocks_ok hh, bind_ok]
  rw [show (r : Int) + (d.logAt (d.n - 1) : Int) - (d.logAt h : Int) =
    ((r + d.logAt (d.n - 1) - d.logAt h : Nat) : Int) by omega]
  rw [mapRes_congr (fun i hi => wf.applyValue_ok env hlen hh ht r (by simpa using hi))]
  rfl

theorem runCallback_cons {α σ : Type} (op : σ → List α → Bool × σ) (v : Res (List α))
    (vs : List (Res (List α))) (s : σ) : runCallback op (v :: vs) s = keep v s fun values =>
      if (op s values).1 then runCallback op vs (op s values).2 else (ok (), (op s values).2) := by
  cases v with
  | ok values =>
    simp only [runCallback, keep]
    rcases op s values with ⟨_ | _, s'⟩ <;> rfl
  | err c => rfl
  | ub => rfl
  | crash => rfl

theorem keep_bind {α β γ σ : Type} (r : Res α) (f : α → β) (s : σ) (k : β → Res γ × σ) :
    keep (r >>= fun a => ok (f a)) s k = keep r s fun a => k (f a) := by
  cases r <;> rfl

/-- The loop of `EvaluateAndApply`. -/
theorem WF.applyLoop_ok (wf : d.WF) (env : Env) {keys : List DpfKey} {points : List U128}
    (hlen : points.length = keys.length) (hk : ∀ k ∈ keys, d.KeyOk k) {T : Ty}
    (ht : ∀ h, h < d.n → d.TypedAt h T) (r : Nat) (hr : r + d.logAt (d.n - 1) < 2 ^ 31)
    (hw : ∀ h, h < d.n → (d.treeAt h - d.startOf h) * keys.length < 2 ^ 31) {σ : Type} (op : σ → List T.den → Bool × σ)
    (m : Nat) : ∀ (h : Nat) (s : σ), h + m = d.n →
    d.applyLoop env T.helper keys points (r : Int) op (List.range' h m)
      ⟨.ofNodes (d.applyNodes env keys points r (d.startOf h)), d.stopOf h⟩ s =
    runCallback op ((List.range' h m).map (d.applyShares env T keys points r)) s := by
  induction m with
  | zero => intros; rfl
  | succ m ih =>
    intro h s hm
    rw [List.range'_succ, List.map_cons]
    unfold applyLoop
    rw [runCallback_cons, wf.applyLevel_ok env hlen hk (by omega) (ht h (by omega)) r hr (hw h (by omega)), keep_bind]
    congr 1
    funext values
    dsimp only
    split
    · exact ih (h + 1) _ (by omega)
    · rfl

/-- One level of `EvaluateAndApply`, from any nodes and for any number of keys. -/
theorem WF.applyLevel_cases (wf : d.WF) (env : Env) {keys : List DpfKey} {points : List U128}
    (hlen : points.length = keys.length) (hk : ∀ k ∈ keys, d.KeyOk k) {h : Nat} (hh : h < d.n) {T : Ty}
    (ht : d.TypedAt h T) (r : Nat) (hr : r + d.logAt (d.n - 1) < 2 ^ 31) {ns : List Node}
    (hnl : ns.length = keys.length) {stop : Nat} (hstop : 0 < h ∨ stop = d.treeAt h) :
    d.applyLevel env T.helper keys points (r : Int) ⟨.ofNodes ns, stop⟩ h = err .invalidArgument ∨
    ∃ ns' : List Node, ns'.length = keys.length ∧
      d.applyLevel env T.helper keys points (r : Int) ⟨.ofNodes ns, stop⟩ h =
        (mapRes (fun j => d.getValueCorrectionAsArray T.helper (keys.getD j DpfKey.default) h >>=
          fun corr => ok (d.nodeShare env T (keys.getD j DpfKey.default) h corr (ns'.getD j ⟨0, false⟩)
            ((points.getD j 0).toNat / 2 ^ (r + d.logAt (d.n - 1) - d.logAt h)))) (List.range keys.length) >>=
          fun values => ok (⟨.ofNodes ns', d.treeAt h⟩, values)) := by
  unfold applyLevel
  obtain ⟨p, hp1, hp2⟩ := wf.param_ok hh
  have hlast := wf.log_le_last hh
  have e0 : (if h > 0 then d.treeAt h else stop) = d.treeAt h := by
    split
    · rfl
    · rcases hstop with h | h
      · omega
      · exact h
  dsimp only
  rw [wf.tree_ok hh, bind_ok, hp1, bind_ok, wf.lastLog_ok, bind_ok, e0, wf.log_eq h p hp2,
    intRange_of (by omega) (by omega), bind_ok]
  rcases wf.applySeeds_cases env hlen hk hh r hr (if h > 0 then stop else 0) hnl with ⟨ns', hl', e⟩ | e
  · refine Or.inr ⟨ns', hl', ?_⟩
    rw [e, bind_ok, wf.hashExpandedSeeds_ok hh, bind_ok, wf.blocks_ok hh, bind_ok,
      show (r : Int) + (d.logAt (d.n - 1) : Int) - (d.logAt h : Int) =
        ((r + d.logAt (d.n - 1) - d.logAt h : Nat) : Int) by omega,
      mapRes_congr (fun i hi => wf.applyValue_nodes env hlen hh ht _ hl' (by simpa using hi))]
  · left
    rw [e]; rfl

/-- One level of `EvaluateAndApply` with too many keys. -/
theorem WF.applyLevel_tooMany (wf : d.WF) (env : Env) {keys : List DpfKey} {points : List U128}
    (hk : ∀ k ∈ keys, d.KeyOk k) {h : Nat} (hh : h < d.n) {α : Type} (H : Helper α) (r : Nat)
    (hr : r + d.logAt (d.n - 1) < 2 ^ 31)
    (hw : 2 ^ 31 ≤ (d.treeAt h - d.startOf h) * keys.length)
    (hne : wrapInt32 (((d.treeAt h - d.startOf h) * keys.length : Nat) : Int) ≠
      ((d.treeAt h - d.startOf h : Nat) : Int)) (ev : DpfExpansion) :
    d.applyLevel env H keys points (r : Int) ⟨ev, d.stopOf h⟩ h = err .invalidArgument := by
  unfold applyLevel
  obtain ⟨p, hp1, hp2⟩ := wf.param_ok hh
  have hlast := wf.log_le_last hh
  have ha : d.startOf h < d.treeAt h := by
    rcases Nat.lt_or_ge (d.startOf h) (d.treeAt h) with e | e
    · exact e
    · rw [Nat.sub_eq_zero_of_le e, Nat.zero_mul] at hw; omega
  have e0 : (if h > 0 then d.treeAt h else d.stopOf h) = d.treeAt h := by
    split
    · rfl
    · have : h = 0 := by omega
      subst this; simp [stopOf]
  have e1 : (if h > 0 then d.stopOf h else 0) = d.startOf h := by
    unfold stopOf startOf
    split <;> rfl
  dsimp only
  rw [wf.tree_ok hh, bind_ok, hp1, bind_ok, wf.lastLog_ok, bind_ok, e0, e1, wf.log_eq h p hp2,
    intRange_of (by omega) (by omega), bind_ok, wf.applySeeds_tooMany env points hk hh _ ha hw hne]
  rfl

/-- The loop of `EvaluateAndApply` up to a level with too many keys. -/
theorem WF.applyLoop_tooMany (wf : d.WF) (env : Env) {keys : List DpfKey} {points : List U128}
    (hlen : points.length = keys.length) (hk : ∀ k ∈ keys, d.KeyOk k) {T : Ty}
    (ht : ∀ h, h < d.n → d.TypedAt h T) (r : Nat) (hr : r + d.logAt (d.n - 1) < 2 ^ 31) {h0 : Nat} (hh0 : h0 < d.n)
    (hw : ∀ h, h < h0 → (d.treeAt h - d.startOf h) * keys.length < 2 ^ 31)
    (hw0 : 2 ^ 31 ≤ (d.treeAt h0 - d.startOf h0) * keys.length)
    (hne : wrapInt32 (((d.treeAt h0 - d.startOf h0) * keys.length : Nat) : Int) ≠
      ((d.treeAt h0 - d.startOf h0 : Nat) : Int)) {σ : Type} (op : σ → List T.den → Bool × σ)
    (m : Nat) : ∀ (h : Nat) (s : σ), h + m = h0 →
    d.applyLoop env T.helper keys points (r : Int) op (List.range' h (m + (d.n - h0)))
      ⟨.ofNodes (d.applyNodes env keys points r (d.startOf h)), d.stopOf h⟩ s =
    runCallback op ((List.range' h m).map (d.applyShares env T keys points r) ++ [err .invalidArgument]) s := by
  induction m with
  | zero =>
    intro h s hm
    rw [show 0 + (d.n - h0) = (d.n - h0 - 1) + 1 by omega, List.range'_succ]
    unfold applyLoop
    have : h = h0 := by omega
    subst this
    rw [wf.applyLevel_tooMany env hk hh0 T.helper r hr hw0 hne]
    rfl
  | succ m ih =>
    intro h s hm
    rw [show m + 1 + (d.n - h0) = (m + (d.n - h0)) + 1 by omega, List.range'_succ, List.range'_succ,
      List.map_cons, List.cons_append]
    unfold applyLoop
    rw [runCallback_cons, wf.applyLevel_ok env hlen hk (by omega) (ht h (by omega)) r hr (hw h (by omega)), keep_bind]
    congr 1
    funext values
    dsimp only
    split
    · exact ih (h + 1) _ (by omega)
    · rfl

/-- The state before the first level. -/
theorem WF.applyStart (d : Dpf) (env : Env) (keys : List DpfKey) (points : List U128) (r : Nat) :
    (⟨⟨keys.map (·.seedBlock), keys.map fun k => decide (k.party ≠ 0)⟩, d.treeAt 0⟩ : ApplyState) =
      ⟨.ofNodes (d.applyNodes env keys points r (d.startOf 0)), d.stopOf 0⟩ := by
  simp only [ApplyState.mk.injEq]
  refine ⟨?_, by simp [stopOf]⟩
  simp only [DpfExpansion.ofNodes, applyNodes, startOf, DpfExpansion.mk.injEq]
  constructor
  · rw [List.map_map, ← range_map_getD keys DpfKey.default]; rfl
  · rw [List.map_map, ← range_map_getD keys DpfKey.default]; rfl

/-- `EvaluateAndApply` up to its loop. -/
theorem WF.evaluateAndApply_loop (wf : d.WF) (env : Env) {keys : List DpfKey} {points : List U128}
    (hlen : points.length = keys.length) (hk : ∀ k ∈ keys, d.KeyOk k) {α : Type} (H : Helper α) (r r' : Nat)
    {σ : Type} (op : σ → List α → Bool × σ) (s : σ) :
    d.evaluateAndApply env H keys points op s (r : Int) =
      d.applyLoop env H keys points (r : Int) op (List.range' 0 d.n)
        ⟨.ofNodes (d.applyNodes env keys points r' (d.startOf 0)), d.stopOf 0⟩ s := by
  unfold evaluateAndApply
  obtain ⟨us, hus⟩ := mapRes_unit_eq_ok.mpr fun k hkk => (wf.validateDpfKey_iff k).mpr (hk k hkk)
  rw [failIf_false (by omega), keep_ok, hus, keep_ok, wf.tree_ok wf.pos, keep_ok, WF.applyStart d env keys points r',
    List.range_eq_range']
  rfl

/-- `EvaluateAndApply` on well-formed keys. -/
theorem WF.evaluateAndApply_ok (wf : d.WF) (env : Env) {keys : List DpfKey} {points : List U128}
    (hlen : points.length = keys.length) (hk : ∀ k ∈ keys, d.KeyOk k) {T : Ty}
    (ht : ∀ h, h < d.n → d.TypedAt h T) (r : Nat) (hr : r + d.logAt (d.n - 1) < 2 ^ 31)
    (hw : ∀ h, h < d.n → (d.treeAt h - d.startOf h) * keys.length < 2 ^ 31) {σ : Type} (op : σ → List T.den → Bool × σ) (s : σ) :
    d.evaluateAndApply env T.helper keys points op s (r : Int) =
      runCallback op ((List.range d.n).map (d.applyShares env T keys points r)) s := by
  rw [wf.evaluateAndApply_loop env hlen hk T.helper r r, List.range_eq_range']
  exact wf.applyLoop_ok env hlen hk ht r hr hw op d.n 0 s (by omega)

/-- `EvaluateAndApply` with too many keys at level `h0`. -/
theorem WF.evaluateAndApply_tooMany (wf : d.WF) (env : Env) {keys : List DpfKey} {points : List U128}
    (hlen : points.length = keys.length) (hk : ∀ k ∈ keys, d.KeyOk k) {T : Ty}
    (ht : ∀ h, h < d.n → d.TypedAt h T) (r : Nat) (hr : r + d.logAt (d.n - 1) < 2 ^ 31) {h0 : Nat} (hh0 : h0 < d.n)
    (hw : ∀ h, h < h0 → (d.treeAt h - d.startOf h) * keys.length < 2 ^ 31)
    (hw0 : 2 ^ 31 ≤ (d.treeAt h0 - d.startOf h0) * keys.length)
    (hne : wrapInt32 (((d.treeAt h0 - d.startOf h0) * keys.length : Nat) : Int) ≠
      ((d.treeAt h0 - d.startOf h0 : Nat) : Int)) {σ : Type} (op : σ → List T.den → Bool × σ) (s : σ) :
    d.evaluateAndApply env T.helper keys points op s (r : Int) =
      runCallback op ((List.range h0).map (d.applyShares env T keys points r) ++ [err .invalidArgument]) s := by
  rw [wf.evaluateAndApply_loop env hlen hk T.helper r r, List.range_eq_range']
  have := wf.applyLoop_tooMany env hlen hk ht r hr hh0 hw hw0 hne op h0 0 s (by omega)
  rwa [show h0 + (d.n - h0) = d.n by omega] at this

/-- For one hierarchy level and all keys with the same correction words. -/
theorem WF.evaluateAndApply_wrapped (wf : d.WF) (env : Env) {keys : List DpfKey} {points : List U128}
    (hlen : points.length = keys.length) (hk : ∀ k ∈ keys, d.KeyOk k) {T : Ty}
    (ht : d.TypedAt 0 T) (hn : d.n = 1) (r : Nat) (hr : r + d.logAt 0 < 2 ^ 31) (ha : 0 < d.treeAt 0)
    (hw : wrapInt32 ((d.treeAt 0 * keys.length : Nat) : Int) = (d.treeAt 0 : Int))
    {σ : Type} (op : σ → List T.den → Bool × σ) (s : σ) :
    d.evaluateAndApply env T.helper keys points op s (r : Int) =
      runCallback op [mapRes (fun j => d.getValueCorrectionAsArray T.helper (keys.getD j DpfKey.default) 0 >>=
          fun corr => ok (d.nodeShare env T (keys.getD j DpfKey.default) 0 corr
            (walk (dpfPrg env) ((stepWords keys 0 (d.treeAt 0)).take (d.treeAt 0))
              ((points.getD j 0).toNat / 2 ^ (r + d.logAt 0 - d.treeAt 0)) (root (keys.getD j DpfKey.default)))
            ((points.getD j 0).toNat / 2 ^ r))) (List.range keys.length)] s := by
  have e : d.n - 1 = 0 := by omega
  have hns : (d.applyNodes env keys points r (d.startOf 0)).length = keys.length := by simp [applyNodes]
  obtain ⟨p, hp1, hp2⟩ := wf.param_ok wf.pos
  have hlast := wf.log_le_last wf.pos
  have hap := wf.applySeeds_wrapped env hlen hk wf.pos r (by rw [e]; exact hr) (a := 0) ha
    (by rw [Nat.sub_zero]; exact hw) hns
  rw [Nat.sub_zero] at hap
  rw [wf.evaluateAndApply_loop env hlen hk T.helper r r, hn]
  show d.applyLoop env T.helper keys points (r : Int) op [0] _ s = _
  unfold applyLoop applyLevel
  dsimp only
  rw [wf.tree_ok wf.pos, bind_ok, hp1, bind_ok, wf.lastLog_ok, bind_ok, wf.log_eq 0 p hp2,
    intRange_of (by omega) (by rw [e]; omega), bind_ok, if_neg (by decide), if_neg (by decide),
    show d.stopOf 0 = d.treeAt 0 from rfl, hap, bind_ok, wf.hashExpandedSeeds_ok wf.pos, bind_ok,
    wf.blocks_ok wf.pos, bind_ok]
  have hz : ∀ (f : Node → U128 → Node), (List.zipWith f (d.applyNodes env keys points r (d.startOf 0)) points).length =
      keys.length := by intro f; simp [hns, hlen]
  rw [e, show (r : Int) + (d.logAt 0 : Int) - (d.logAt 0 : Int) = ((r : Nat) : Int) by omega,
    mapRes_congr (fun i hi => wf.applyValue_nodes env hlen wf.pos ht r (hz _) (by simpa using hi)),
    runCallback_cons, keep_bind]
  have hcong : ∀ {A B : Res (List T.den)} {f g : List T.den → Res Unit × σ}, A = B → f = g →
      keep A s f = keep B s g := by rintro _ _ _ _ rfl rfl; rfl
  apply hcong
  · apply mapRes_congr
    intro j hj
    simp only [List.mem_range] at hj
    have h1 : j < (d.applyNodes env keys points r (d.startOf 0)).length := by omega
    have h2 : j < points.length := by omega
    have hnd : (List.zipWith (fun n (x : U128) => walk (prgOf env kPrgKeyLeft kPrgKeyRight)
        ((stepWords keys 0 (d.treeAt 0)).take (d.treeAt 0)) (x.toNat >>> (r + d.logAt 0 - d.treeAt 0)) n)
        (d.applyNodes env keys points r (d.startOf 0)) points).getD j ⟨0, false⟩ =
        walk (dpfPrg env) ((stepWords keys 0 (d.treeAt 0)).take (d.treeAt 0))
          ((points.getD j 0).toNat / 2 ^ (r + d.logAt 0 - d.treeAt 0)) (root (keys.getD j DpfKey.default)) := by
      rw [List.getD, List.getElem?_zipWith, List.getElem?_eq_getElem h1, List.getElem?_eq_getElem h2]
      have e1 : points.getD j 0 = points[j] := by simp [List.getD, h2]
      have e2 : (d.applyNodes env keys points r (d.startOf 0))[j] = root (keys.getD j DpfKey.default) := by
        simp [applyNodes, startOf, nodeAt, walk]
      rw [e1, e2]
      show walk _ _ _ _ = _
      rw [Nat.shiftRight_eq_div_pow]
      rfl
    rw [hnd]
  · funext values
    dsimp only
    split <;> rfl

end Dpf
end Verif
