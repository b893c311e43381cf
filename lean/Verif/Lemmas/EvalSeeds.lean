import Verif.Lemmas.Simd
import Verif.Model.EvalSeeds
/-! Helper lemmas on seed evaluation. -/
namespace Verif
open Res Spec

theorem hash_aes {env env' : Env} (h : env.aes = env'.aes) :
    Aes128FixedKeyHash.evaluate env = Aes128FixedKeyHash.evaluate env' := by
  funext key alias input out
  unfold Aes128FixedKeyHash.evaluate Aes128FixedKeyHash.evaluateBatch
  rw [h]

theorem evaluateSeedsNoHwy_aes {env env' : Env} (h : env.aes = env'.aes) :
    evaluateSeedsNoHwy env = evaluateSeedsNoHwy env' := by
  funext keyL keyR numSeeds numLevels numCw seedsIn controlIn paths shift corr alias seedsOut controlOut
  unfold evaluateSeedsNoHwy noHwyLevel
  rw [hash_aes h]

theorem evaluateSeedsInternal_noHwy (env : Env) (keyL keyR : U128)
    (numSeeds numLevels numCw : Nat) (seedsIn : List U128) (controlIn : List Bool) (paths : List U128)
    (shift : Nat) (corr : CorrArrays) (alias : Bool) (seedsOut : List U128) (controlOut : List Bool)
    (hseeds : seedsIn.length = numSeeds) (hcontrol : controlIn.length = numSeeds)
    (hpaths : paths.length = numSeeds) (hso : seedsOut.length = numSeeds)
    (hco : controlOut.length = numSeeds) {q : Nat} (hcs : corr.seeds.length = q)
    (hcl : corr.left.length = q) (hcr : corr.right.length = q) (hq : numCw ≤ q)
    (hi32 : numCw < 2 ^ 31) (hfit : numLevels + shift ≤ 2 ^ 31)
    (halias : alias = true → seedsOut = seedsIn ∧ controlOut = controlIn) :
    evaluateSeedsInternal env keyL keyR numSeeds numLevels numCw seedsIn controlIn paths shift corr alias
      seedsOut controlOut =
    (failIf (numCw ≠ numLevels ∧ numCw ≠ numLevels * numSeeds) .invalidArgument >>= fun _ =>
      evaluateSeedsNoHwy env keyL keyR numSeeds numLevels numCw seedsIn controlIn paths shift corr alias
        seedsOut controlOut) := by
  unfold evaluateSeedsInternal
  by_cases hcw : numCw ≠ numLevels ∧ numCw ≠ numLevels * numSeeds
  · rw [failIf_true hcw, failIf_true (by omega)]
    rfl
  · rw [failIf_false hcw, failIf_false (by omega), bind_ok, bind_ok]
    dsimp only
    rw [Int.toNat_natCast]
    split
    · rfl
    · rename_i t _
      exact evaluateSeedsHwy_eq ⟨t.sameAes, t.size⟩ keyL keyR numSeeds numLevels numCw seedsIn controlIn paths
        shift corr alias seedsOut controlOut (by omega) hseeds hcontrol hpaths hso hco hcs hcl hcr hq hi32 hfit halias

theorem evaluateSeedsHwy_internal {env : Env} {h : HwyEnv} (hok : HwyOk env h) (keyL keyR : U128)
    (numSeeds numLevels numCw : Nat) (seedsIn : List U128) (controlIn : List Bool) (paths : List U128)
    (shift : Nat) (corr : CorrArrays) (alias : Bool) (seedsOut : List U128) (controlOut : List Bool)
    (hcw : numCw = numLevels ∨ numCw = numLevels * numSeeds)
    (hseeds : seedsIn.length = numSeeds) (hcontrol : controlIn.length = numSeeds)
    (hpaths : paths.length = numSeeds) (hso : seedsOut.length = numSeeds)
    (hco : controlOut.length = numSeeds) {q : Nat} (hcs : corr.seeds.length = q)
    (hcl : corr.left.length = q) (hcr : corr.right.length = q) (hq : numCw ≤ q)
    (hi32 : numCw < 2 ^ 31) (hfit : numLevels + shift ≤ 2 ^ 31)
    (halias : alias = true → seedsOut = seedsIn ∧ controlOut = controlIn) :
    evaluateSeedsHwy h env keyL keyR numSeeds numLevels numCw seedsIn controlIn paths shift corr alias
      seedsOut controlOut =
    evaluateSeedsInternal env keyL keyR numSeeds numLevels numCw seedsIn controlIn paths shift corr alias
      seedsOut controlOut := by
  rw [evaluateSeedsInternal_noHwy env keyL keyR _ _ _ _ _ _ _ _ _ _ _ hseeds hcontrol hpaths hso hco hcs hcl
      hcr hq hi32 hfit halias, failIf_false (by omega), bind_ok]
  exact evaluateSeedsHwy_eq hok keyL keyR numSeeds numLevels numCw seedsIn controlIn paths
    shift corr alias seedsOut controlOut hcw hseeds hcontrol hpaths hso hco hcs hcl hcr hq hi32 hfit halias

/-! ### Walks -/

theorem walk_congr (G : Bool → U128 → U128) (cws : List CorrectionWord) {x y : Nat} (n : Node)
    (h : ∀ i, i < cws.length → x.testBit i = y.testBit i) : walk G cws x n = walk G cws y n := by
  induction cws generalizing n with
  | nil => rfl
  | cons cw cws ih =>
    simp only [walk]
    rw [h cws.length (by simp)]
    exact ih _ fun i hi => h i (by simp; omega)

theorem walk_append (G : Bool → U128 → U128) (a b : List CorrectionWord) (x : Nat) (n : Node) :
    walk G (a ++ b) x n = walk G b x (walk G a (x >>> b.length) n) := by
  induction a generalizing n with
  | nil => rfl
  | cons cw a ih =>
    simp only [List.cons_append, walk, ih, List.length_append, Nat.testBit_shiftRight]
    rw [Nat.add_comm b.length]

theorem walk_snoc (G : Bool → U128 → U128) (a : List CorrectionWord) (cw : CorrectionWord)
    (x : Nat) (n : Node) :
    walk G (a ++ [cw]) x n = step G cw (x.testBit 0) (walk G a (x >>> 1) n) := by
  rw [walk_append]; rfl

/-- Only seeds and control corrections of correction words matter for a walk. -/
def CorrectionWord.noValue (cw : CorrectionWord) : CorrectionWord := { cw with valueCorrection := [] }

theorem walk_noValue (G : Bool → U128 → U128) (cws : List CorrectionWord) (x : Nat) (n : Node) :
    walk G (cws.map CorrectionWord.noValue) x n = walk G cws x n := by
  induction cws generalizing n with
  | nil => rfl
  | cons cw cws ih => simp only [List.map_cons, walk, ih, List.length_map]; rfl

theorem nodeAfter_eq_walk (G : Bool → U128 → U128) (numSeeds numLevels numCw : Nat)
    (sIn : Nat → U128) (cIn : Nat → Bool) (cs : Nat → U128) (cl cr : Nat → Bool) (p : Nat → U128)
    (r : Nat) (j : Nat) (k : Nat) (hk : k ≤ numLevels) :
    nodeAfter G numSeeds numLevels numCw sIn cIn cs cl cr p r k j =
      walk G ((List.range k).map fun l =>
        let idx := corrIndex numSeeds numLevels numCw l j
        ⟨cs idx, cl idx, cr idx, []⟩) ((p j).toNat >>> (numLevels - k + r)) ⟨sIn j, cIn j⟩ := by
  induction k with
  | zero => rfl
  | succ k ih =>
    rw [List.range_succ, List.map_append, List.map_singleton, walk_snoc, nodeAfter,
      ih (by omega), nextNode]
    simp only [step, Nat.testBit_shiftRight, Nat.add_zero, ← Nat.shiftRight_add]
    congr 1
    rw [show numLevels - (k + 1) + r + 1 = numLevels - k + r by omega]

/-! ### List-level statements -/

/-- Arrays of seeds and control bits of a list of nodes. -/
def DpfExpansion.ofNodes (ns : List Node) : DpfExpansion := ⟨ns.map (·.seed), ns.map (·.ctrl)⟩

theorem DpfExpansion.eq_ofNodes (ev : DpfExpansion) (h : ev.seeds.length = ev.controlBits.length) :
    ev = ofNodes (List.zipWith Node.mk ev.seeds ev.controlBits) := by
  cases ev with
  | mk s c =>
    simp only [ofNodes, List.map_zipWith, mk.injEq]
    simp only at h
    constructor
    · apply List.ext_getElem <;> simp [h]
    · apply List.ext_getElem <;> simp [h]

theorem range_map_getD {α β : Type} (l : List α) (d : α) (f : α → β) :
    ((List.range l.length).map fun i => f (l.getD i d)) = l.map f := by
  apply List.ext_getElem <;> simp +contextual

/-- Shared correction words; further ones in the arrays are not used. -/
theorem evaluateSeedsInternal_shared (env : Env) (keyL keyR : U128) (ns : List Node)
    (paths : List U128) (r : Nat) (cws rest : List CorrectionWord) (hlen : paths.length = ns.length)
    (alias : Bool) (out : List Node) (hout : out.length = ns.length)
    (hal : alias = true → out = ns) (hcws : cws ≠ []) (hi32 : cws.length < 2 ^ 31)
    (hfit : cws.length + r ≤ 2 ^ 31) :
    evaluateSeedsInternal env keyL keyR ns.length cws.length cws.length (ns.map (·.seed))
      (ns.map (·.ctrl)) paths (r : Int)
      ⟨(cws ++ rest).map (·.seed), (cws ++ rest).map (·.controlLeft), (cws ++ rest).map (·.controlRight)⟩ alias
      (out.map (·.seed)) (out.map (·.ctrl)) =
    ok ((List.zipWith (fun n (x : U128) => walk (prgOf env keyL keyR) cws (x.toNat >>> r) n) ns paths).map
          (·.seed),
        (List.zipWith (fun n (x : U128) => walk (prgOf env keyL keyR) cws (x.toNat >>> r) n) ns paths).map
          (·.ctrl)) := by
  rw [evaluateSeedsInternal_noHwy env keyL keyR _ _ _ _ _ _ _ _ _ _ _ (by simp) (by simp) hlen
    (by simpa using hout) (by simpa using hout) (q := (cws ++ rest).length) (by rw [List.length_map])
    (by rw [List.length_map]) (by rw [List.length_map]) (by simp) hi32 hfit
    (fun ha => by rw [hal ha]; exact ⟨rfl, rfl⟩)]
  rw [failIf_false (by omega), bind_ok]
  have d : Node := ⟨0, false⟩
  have dc : CorrectionWord := ⟨0, false, false, []⟩
  have e1 := (range_map_getD ns d (·.seed)).symm
  have e2 := (range_map_getD ns d (·.ctrl)).symm
  have e3 := (range_map_getD paths 0 id).symm
  have e4 := (range_map_getD (cws ++ rest) dc (·.seed)).symm
  have e5 := (range_map_getD (cws ++ rest) dc (·.controlLeft)).symm
  have e6 := (range_map_getD (cws ++ rest) dc (·.controlRight)).symm
  have e7 := (range_map_getD out d (·.seed)).symm
  have e8 := (range_map_getD out d (·.ctrl)).symm
  rw [List.map_id, hlen] at e3
  rw [hout] at e7 e8
  have hL : cws.length ≠ 0 := by simpa using hcws
  rw [e1, e2, e4, e5, e6, e7, e8]
  conv => lhs; rw [e3]
  rw [evaluateSeedsNoHwy_range env keyL keyR cws.length cws.length _ _ _ r _ _ _ (cws ++ rest).length
    alias _ _ ns.length
    (by
      intro level j h1 h2
      unfold CorrOk corrIndex
      rw [if_neg (by omega)]
      exact ⟨by rw [List.length_append]; omega, fun h => absurd h (by omega)⟩)
    hfit
    (by intro h j hj; rw [hal h]; exact ⟨rfl, rfl⟩)]
  simp only [hL, if_false]
  have key : ∀ j (h1 : j < ns.length) (h2 : j < paths.length),
      nodeAfter (prgOf env keyL keyR) ns.length cws.length cws.length (fun i => (ns.getD i d).seed)
        (fun i => (ns.getD i d).ctrl) (fun i => ((cws ++ rest).getD i dc).seed)
        (fun i => ((cws ++ rest).getD i dc).controlLeft) (fun i => ((cws ++ rest).getD i dc).controlRight)
        (fun i => id (paths.getD i 0)) r cws.length j =
      walk (prgOf env keyL keyR) cws (paths[j].toNat >>> r) ns[j] := by
    intro j h1 h2
    rw [nodeAfter_eq_walk _ _ _ _ _ _ _ _ _ _ _ _ _ (Nat.le_refl _)]
    rw [← walk_noValue _ cws]
    congr 1
    · rw [← range_map_getD cws dc CorrectionWord.noValue]
      apply List.map_congr_left
      intro l hl
      have hl : l < cws.length := by simpa using hl
      have e : (cws ++ rest).getD l dc = cws.getD l dc := by
        simp only [List.getD_eq_getElem?_getD, List.getElem?_append_left hl]
      simp only [corrIndex, gt_iff_lt, Nat.lt_irrefl, if_false, e]
      rfl
    · simp [h2]
    · simp [h1]
  congr 2
  · apply List.ext_getElem
    · simp [hlen]
    · intro j h1 h2
      simp only [List.length_map, List.length_range] at h1
      simp only [List.getElem_map, List.getElem_range, List.getElem_zipWith]
      rw [key j h1 (by omega)]
  · apply List.ext_getElem
    · simp [hlen]
    · intro j h1 h2
      simp only [List.length_map, List.length_range] at h1
      simp only [List.getElem_map, List.getElem_range, List.getElem_zipWith]
      rw [key j h1 (by omega)]

theorem evaluateSeeds_ofNodes (env : Env) (ns : List Node) (paths : List U128)
    (cws : List CorrectionWord) (hlen : paths.length = ns.length) (hi32 : cws.length < 2 ^ 31) :
    evaluateSeeds env (.ofNodes ns) paths cws =
      ok (.ofNodes (List.zipWith (fun n (x : U128) => walk (dpfPrg env) cws x.toNat n) ns paths)) := by
  unfold evaluateSeeds
  rw [failIf_false (by simp [DpfExpansion.ofNodes, hlen]), bind_ok]
  simp only [DpfExpansion.ofNodes, List.length_map]
  split
  · rename_i h
    rcases h with h | h
    · have : ns = [] := by simpa using h
      subst this; simp
    · have : cws = [] := by simpa using h
      subst this
      simp only [walk]
      congr 2
      · apply List.ext_getElem <;> simp [hlen]
      · apply List.ext_getElem <;> simp [hlen]
  · rename_i h
    have := evaluateSeedsInternal_shared env kPrgKeyLeft kPrgKeyRight ns paths 0 cws [] hlen true ns rfl
      (fun _ => rfl) (by intro h'; simp [h'] at h) hi32 (by omega)
    rw [List.append_nil] at this
    rw [show ((0 : Nat) : Int) = 0 from rfl] at this
    rw [this, bind_ok]
    simp [dpfPrg]

theorem flatMap_range_map {α : Type} (L n : Nat) (g : Nat → Nat → α) :
    ((List.range L).flatMap fun l => (List.range n).map fun j => g l j) =
      (List.range (L * n)).map fun q => g (q / n) (q % n) := by
  induction L with
  | zero => simp
  | succ L ih =>
    rw [List.range_succ, List.flatMap_append, ih, Nat.succ_mul, List.range_add, List.map_append]
    congr 1
    simp only [List.flatMap_singleton, List.map_map, Function.comp_def]
    apply List.map_congr_left
    intro j hj
    have hj : j < n := by simpa using hj
    rw [Nat.mul_comm L n, Nat.mul_add_div (by omega), Nat.div_eq_of_lt hj, Nat.mul_add_mod,
      Nat.mod_eq_of_lt hj, Nat.add_zero]

/-- Correction words of each seed, level by level (`numLevels * numSeeds` of them). -/
theorem evaluateSeedsInternal_perSeed (env : Env) (keyL keyR : U128) (ns : List Node)
    (paths : List U128) (r : Nat) (numLevels : Nat) (cw : Nat → Nat → CorrectionWord)
    (hlen : paths.length = ns.length)
    (alias : Bool) (out : List Node) (hout : out.length = ns.length)
    (hal : alias = true → out = ns) (hcws : 0 < numLevels) (hi32 : numLevels * ns.length < 2 ^ 31)
    (hfit : numLevels + r ≤ 2 ^ 31) :
    let cws := (List.range numLevels).flatMap fun l => (List.range ns.length).map fun j => cw l j
    evaluateSeedsInternal env keyL keyR ns.length numLevels ((numLevels * ns.length : Nat) : Int)
      (ns.map (·.seed)) (ns.map (·.ctrl)) paths (r : Int)
      ⟨cws.map (·.seed), cws.map (·.controlLeft), cws.map (·.controlRight)⟩ alias
      (out.map (·.seed)) (out.map (·.ctrl)) =
    let fin := (List.range ns.length).map fun j =>
      walk (prgOf env keyL keyR) ((List.range numLevels).map fun l => cw l j)
        ((paths.getD j 0).toNat >>> r) (ns.getD j ⟨0, false⟩)
    ok (fin.map (·.seed), fin.map (·.ctrl)) := by
  intro cws
  have hc : cws = (List.range (numLevels * ns.length)).map fun q =>
      cw (q / ns.length) (q % ns.length) := flatMap_range_map _ _ _
  extract_lets fin
  rw [hc]
  rw [evaluateSeedsInternal_noHwy env keyL keyR _ _ _ _ _ _ _ _ _ _ _ (by simp) (by simp) hlen
    (by simpa using hout) (by simpa using hout) (by simp) (by simp) (by simp) (Nat.le_refl _) hi32 hfit
    (fun ha => by rw [hal ha]; exact ⟨rfl, rfl⟩)]
  rw [failIf_false (by omega), bind_ok]
  have d : Node := ⟨0, false⟩
  have e1 := (range_map_getD ns ⟨0, false⟩ (·.seed)).symm
  have e2 := (range_map_getD ns ⟨0, false⟩ (·.ctrl)).symm
  have e3 := (range_map_getD paths 0 id).symm
  have e7 := (range_map_getD out ⟨0, false⟩ (·.seed)).symm
  have e8 := (range_map_getD out ⟨0, false⟩ (·.ctrl)).symm
  rw [List.map_id, hlen] at e3
  rw [hout] at e7 e8
  have hL : numLevels ≠ 0 := by omega
  rw [e1, e2, e7, e8]
  conv => lhs; rw [e3]
  simp only [List.map_map, Function.comp_def]
  rw [evaluateSeedsNoHwy_range env keyL keyR numLevels (numLevels * ns.length) _ _ _ r _ _ _
    (numLevels * ns.length) alias _ _ ns.length
    (by
      intro l j h1 h2
      unfold CorrOk
      rw [corrIndex_perSeed h1 h2]
      have := Nat.mul_le_mul_right ns.length (show l + 1 ≤ numLevels by omega)
      rw [Nat.succ_mul] at this
      omega)
    hfit
    (by intro h j hj; rw [hal h]; exact ⟨rfl, rfl⟩)]
  simp only [hL, if_false]
  have key : ∀ j (h1 : j < ns.length),
      nodeAfter (prgOf env keyL keyR) ns.length numLevels (numLevels * ns.length)
        (fun i => (ns.getD i ⟨0, false⟩).seed)
        (fun i => (ns.getD i ⟨0, false⟩).ctrl)
        (fun q => (cw (q / ns.length) (q % ns.length)).seed)
        (fun q => (cw (q / ns.length) (q % ns.length)).controlLeft)
        (fun q => (cw (q / ns.length) (q % ns.length)).controlRight)
        (fun i => id (paths.getD i 0)) r numLevels j =
      walk (prgOf env keyL keyR) ((List.range numLevels).map fun l => cw l j)
        ((paths.getD j 0).toNat >>> r) (ns.getD j ⟨0, false⟩) := by
    intro j h1
    rw [nodeAfter_eq_walk _ _ _ _ _ _ _ _ _ _ _ _ _ (Nat.le_refl _)]
    rw [← walk_noValue _ ((List.range numLevels).map fun l => cw l j)]
    congr 1
    · rw [List.map_map]
      apply List.map_congr_left
      intro l hl
      have hl : l < numLevels := by simpa using hl
      simp only [Function.comp_def]
      rw [corrIndex_perSeed hl h1]
      rw [Nat.mul_comm l, Nat.mul_add_div (by omega), Nat.div_eq_of_lt h1, Nat.mul_add_mod,
        Nat.mod_eq_of_lt h1, Nat.add_zero]
      rfl
    · simp
  simp only [fin, List.map_map, Function.comp_def]
  congr 2
  · apply List.map_congr_left
    intro j hj
    rw [key j (by simpa using hj)]
  · apply List.map_congr_left
    intro j hj
    rw [key j (by simpa using hj)]

/-! ### Breadth-first expansion -/

theorem mergeBatch_eq (cw : CorrectionWord) (env : Env) (ns : List Node) (start m : Nat)
    (h : start + m ≤ ns.length) :
    mergeBatch cw (((ns.drop start).take m).map fun n => hash env kPrgKeyLeft n.seed)
      (((ns.drop start).take m).map fun n => hash env kPrgKeyRight n.seed) (ns.map (·.ctrl)) start m =
    ok (((ns.drop start).take m).flatMap fun n =>
      [step (dpfPrg env) cw false n, step (dpfPrg env) cw true n].map fun n => (n.seed, n.ctrl)) := by
  unfold mergeBatch
  have hg : ∀ j, j < m → ∀ (hj : start + j < ns.length), ((ns.drop start).take m)[j]? =
      some ns[start + j] := by
    intro j h1 hj
    simp [h1, hj]
  rw [mapRes_eq_ok_map (g := fun j =>
    [step (dpfPrg env) cw false (ns.getD (start + j) ⟨0, false⟩),
     step (dpfPrg env) cw true (ns.getD (start + j) ⟨0, false⟩)].map fun n => (n.seed, n.ctrl))]
  · rw [bind_ok]
    congr 1
    rw [List.flatMap_def]
    congr 1
    apply List.ext_getElem
    · simp; omega
    · intro j h1 h2
      simp only [List.length_map, List.length_range] at h1
      simp [show start + j < ns.length by omega]
  · intro j hj
    have hj : j < m := by simpa using hj
    have hlt : start + j < ns.length := by omega
    have r1 : rd (ns.map (·.ctrl)) (start + j) = ok ns[start + j].ctrl := by
      simp [rd_eq_ok, hlt]
    have r2 : ∀ key, rd (((ns.drop start).take m).map fun n => hash env key n.seed) j =
        ok (hash env key ns[start + j].seed) := by
      intro key
      rw [rd_eq_ok, List.getElem?_map, hg j hj hlt]; rfl
    simp only [r1, r2, bind_ok]
    simp [hlt, step, child, dpfPrg, prgOf, lowestBit_eq, clearLowestBit]
    cases ns[start + j].ctrl <;> simp

theorem expandLevel_ofNodes (env : Env) (ns : List Node) (cw : CorrectionWord) :
    expandLevel env (.ofNodes ns) cw =
      ok (.ofNodes (ns.flatMap fun n =>
        [step (dpfPrg env) cw false n, step (dpfPrg env) cw true n])) := by
  unfold expandLevel blockStarts
  rw [foldRes_map]
  simp only [DpfExpansion.ofNodes, List.length_map]
  have hb : ns.length ≤ (ns.length + Aes128FixedKeyHash.kBatchSize - 1) /
        Aes128FixedKeyHash.kBatchSize * 64 ∧
      ∀ i, i < (ns.length + Aes128FixedKeyHash.kBatchSize - 1) / Aes128FixedKeyHash.kBatchSize →
        i * 64 < ns.length :=
    ceilDiv_bounds ns.length 64 (by decide)
  obtain ⟨s', e, hs'⟩ := foldRes_range_inv
    (f := fun (next : DpfExpansion) i => do
      let batch := min (ns.length - i * Aes128FixedKeyHash.kBatchSize) Aes128FixedKeyHash.kBatchSize
      let seeds ← slice (ns.map (·.seed)) (i * Aes128FixedKeyHash.kBatchSize) batch
      let left ← Aes128FixedKeyHash.evaluate env kPrgKeyLeft false seeds (List.replicate batch 0)
      let right ← Aes128FixedKeyHash.evaluate env kPrgKeyRight false seeds (List.replicate batch 0)
      let m ← mergeBatch cw left right (ns.map (·.ctrl)) (i * Aes128FixedKeyHash.kBatchSize) batch
      ok (DpfExpansion.mk (next.seeds ++ m.map (·.1)) (next.controlBits ++ m.map (·.2))))
    (fun i st => st = .ofNodes ((ns.take (i * 64)).flatMap fun n =>
        [step (dpfPrg env) cw false n, step (dpfPrg env) cw true n]))
    (n := (ns.length + Aes128FixedKeyHash.kBatchSize - 1) / Aes128FixedKeyHash.kBatchSize)
    (s := ⟨[], []⟩)
    (by simp [DpfExpansion.ofNodes])
    (by
      intro i st hi hst
      have hi' : i * 64 < ns.length := hb.2 i hi
      simp only [Aes128FixedKeyHash.kBatchSize]
      generalize hm : min (ns.length - i * 64) 64 = m
      have hm' : m ≤ 64 ∧ i * 64 + m ≤ ns.length ∧ (m < 64 → i * 64 + m = ns.length) := by omega
      rw [slice_eq_ok (by simpa using hm'.2.1), bind_ok]
      rw [Aes128FixedKeyHash.evaluate_eq _ _ _ _ _ (by simp; omega) (by simp), bind_ok,
        Aes128FixedKeyHash.evaluate_eq _ _ _ _ _ (by simp; omega) (by simp), bind_ok]
      simp only [← List.map_drop, ← List.map_take, List.map_map, Function.comp_def]
      rw [mergeBatch_eq cw env ns _ _ hm'.2.1, bind_ok]
      refine ⟨_, rfl, ?_⟩
      have htk : ns.take ((i + 1) * 64) = ns.take (i * 64) ++ (ns.drop (i * 64)).take m := by
        rw [← List.take_add]
        rcases Nat.lt_or_ge m 64 with hlt | hge
        · rw [hm'.2.2 hlt, List.take_length, List.take_of_length_le]
          omega
        · congr 1; omega
      rw [htk, List.flatMap_append, hst]
      simp [DpfExpansion.ofNodes, List.map_flatMap])
  rw [e, hs']
  rw [List.take_of_length_le hb.1]
  rfl

/-- The leaves below a node, in order: leaf `s` is the walk along the bits of `s`. -/
theorem expandLevels_ofNodes (env : Env) (cws : List CorrectionWord) (ns : List Node) :
    foldRes (expandLevel env) (.ofNodes ns) cws =
      ok (.ofNodes (ns.flatMap fun n => (List.range (2 ^ cws.length)).map fun s =>
        walk (dpfPrg env) cws s n)) := by
  induction cws generalizing ns with
  | nil => simp [walk]
  | cons cw cws ih =>
    rw [foldRes_cons, expandLevel_ofNodes, bind_ok, ih]
    congr 2
    rw [List.flatMap_assoc]
    congr 1
    funext n
    simp only [List.flatMap_cons, List.flatMap_nil, List.append_nil, List.length_cons]
    rw [Nat.pow_succ, Nat.mul_two, List.range_add, List.map_append, List.map_map]
    congr 1
    · apply List.map_congr_left
      intro s hs
      have hs : s < 2 ^ cws.length := by simpa using hs
      rw [walk, Nat.testBit_lt_two_pow hs]
    · apply List.map_congr_left
      intro s hs
      have hs : s < 2 ^ cws.length := by simpa using hs
      simp only [Function.comp_def]
      rw [walk, Nat.testBit_two_pow_add_eq, Nat.testBit_lt_two_pow hs]
      exact walk_congr _ _ _ fun i hi => (Nat.testBit_two_pow_add_gt hi s).symm

theorem expandSeeds_ofNodes (env : Env) (cws : List CorrectionWord) (ns : List Node)
    (h : ns.length * 2 ^ cws.length < 2 ^ 64) :
    expandSeeds env (.ofNodes ns) cws =
      ok (.ofNodes (ns.flatMap fun n => (List.range (2 ^ cws.length)).map fun s =>
        walk (dpfPrg env) cws s n)) := by
  unfold expandSeeds
  rw [if_pos (by simpa [DpfExpansion.ofNodes] using h), expandLevels_ofNodes]

theorem expandSeeds_ub (env : Env) (cws : List CorrectionWord) (ns : List Node)
    (h : ¬ ns.length * 2 ^ cws.length < 2 ^ 64) : expandSeeds env (.ofNodes ns) cws = ub := by
  unfold expandSeeds
  rw [if_neg (by simpa [DpfExpansion.ofNodes] using h)]

end Verif
