import Verif.Lemmas.EvalSeeds
/-!
# C12, C14, C15: seed evaluation, expansion and the fixed-key hash
-/
namespace Verif
open Res Spec

/-! ## C12 -/

/-- C12, one list of correction words for all seeds: the outputs are the walks of the individual
seeds, for any number of seeds (any number of batches), whether or not the output buffers are the
input buffers, with the paths read at any right shift. The numbers of levels and correction words are `int`s, and
so is the largest index of a bit, `num_levels - 1 + paths_rightshift`. -/
theorem C12_evaluateSeeds_shared (env : Env) (keyL keyR : U128) (ns : List Node)
    (paths : List U128) (shift : Nat) (cws : List CorrectionWord)
    (hpaths : paths.length = ns.length) (hcws : cws ≠ []) (alias : Bool) (out : List Node)
    (hout : out.length = ns.length) (halias : alias = true → out = ns) (hint : cws.length < 2 ^ 31)
    (hshift : cws.length + shift ≤ 2 ^ 31) :
    evaluateSeedsInternal env keyL keyR ns.length cws.length cws.length
      (ns.map (·.seed)) (ns.map (·.ctrl)) paths (shift : Int)
      ⟨cws.map (·.seed), cws.map (·.controlLeft), cws.map (·.controlRight)⟩ alias
      (out.map (·.seed)) (out.map (·.ctrl)) =
    let result := List.zipWith
      (fun n (x : U128) => walk (prgOf env keyL keyR) cws (x.toNat >>> shift) n) ns paths
    ok (result.map (·.seed), result.map (·.ctrl)) := by
  have := evaluateSeedsInternal_shared env keyL keyR ns paths shift cws [] hpaths alias out hout halias hcws hint
    hshift
  rwa [List.append_nil] at this

/-- C12, own correction words for each seed (`cw level j` for seed `j`, stored level by level). -/
theorem C12_evaluateSeeds_perSeed (env : Env) (keyL keyR : U128) (ns : List Node)
    (paths : List U128) (shift numLevels : Nat) (cw : Nat → Nat → CorrectionWord)
    (hpaths : paths.length = ns.length) (hlevels : 0 < numLevels) (alias : Bool) (out : List Node)
    (hout : out.length = ns.length) (halias : alias = true → out = ns)
    (hint : numLevels * ns.length < 2 ^ 31) (hshift : numLevels + shift ≤ 2 ^ 31) :
    let cws := (List.range numLevels).flatMap fun l => (List.range ns.length).map fun j => cw l j
    evaluateSeedsInternal env keyL keyR ns.length numLevels ((numLevels * ns.length : Nat) : Int)
      (ns.map (·.seed)) (ns.map (·.ctrl)) paths (shift : Int)
      ⟨cws.map (·.seed), cws.map (·.controlLeft), cws.map (·.controlRight)⟩ alias
      (out.map (·.seed)) (out.map (·.ctrl)) =
    let result := (List.range ns.length).map fun j =>
      walk (prgOf env keyL keyR) ((List.range numLevels).map fun l => cw l j)
        ((paths.getD j 0).toNat >>> shift) (ns.getD j ⟨0, false⟩)
    ok (result.map (·.seed), result.map (·.ctrl)) :=
  evaluateSeedsInternal_perSeed env keyL keyR ns paths shift numLevels cw hpaths alias out hout
    halias hlevels hint hshift

/-- C12: a wrong number of correction words is rejected and nothing is written. -/
theorem C12_evaluateSeeds_rejects (env : Env) (keyL keyR : U128) (numSeeds numLevels : Nat) (numCw : Int)
    (seedsIn : List U128) (controlIn : List Bool) (paths : List U128) (shift : Int)
    (corr : CorrArrays) (alias : Bool) (seedsOut : List U128) (controlOut : List Bool)
    (h1 : numCw ≠ numLevels) (h2 : numCw ≠ ((numLevels * numSeeds : Nat) : Int)) :
    evaluateSeedsInternal env keyL keyR numSeeds numLevels numCw seedsIn controlIn paths shift
      corr alias seedsOut controlOut = err .invalidArgument := by
  unfold evaluateSeedsInternal
  rw [failIf_true ⟨h1, h2⟩]
  rfl

/-- Three correction words for two seeds and two levels. -/
example (env : Env) (s : List U128) (c : List Bool) (corr : CorrArrays) :
    evaluateSeedsInternal env 7 8 2 2 3 s c s 0 corr false s c = err .invalidArgument :=
  C12_evaluateSeeds_rejects env 7 8 2 2 3 s c s 0 corr false s c (by decide) (by decide)

/-- C12 for the member function `EvaluateSeeds` (in place, as called by the DPF): the result at each
index is the walk of the seed at that index, also for an empty list of correction words. -/
theorem C12_dpf_evaluateSeeds (env : Env) (ev : DpfExpansion) (paths : List U128)
    (cws : List CorrectionWord) (hc : ev.controlBits.length = ev.seeds.length)
    (hp : paths.length = ev.seeds.length) (hint : cws.length < 2 ^ 31) :
    ∃ out, evaluateSeeds env ev paths cws = ok out ∧ out.seeds.length = ev.seeds.length ∧
      out.controlBits.length = ev.seeds.length ∧
      ∀ j (h : j < ev.seeds.length) (h1 : j < out.seeds.length) (h2 : j < out.controlBits.length),
        Node.mk out.seeds[j] out.controlBits[j] =
          walk (dpfPrg env) cws paths[j].toNat ⟨ev.seeds[j], ev.controlBits[j]⟩ := by
  have e := ev.eq_ofNodes hc.symm
  refine ⟨.ofNodes (List.zipWith (fun n (x : U128) => walk (dpfPrg env) cws x.toNat n)
    (List.zipWith Node.mk ev.seeds ev.controlBits) paths), ?_, ?_⟩
  · conv => lhs; rw [e]
    exact evaluateSeeds_ofNodes env _ paths cws (by simp [hp, hc]) hint
  · simp [DpfExpansion.ofNodes, hc, hp]

/-- C12 for the member function: sizes that do not match are rejected. -/
theorem C12_dpf_evaluateSeeds_rejects (env : Env) (ev : DpfExpansion) (paths : List U128)
    (cws : List CorrectionWord)
    (h : ev.seeds.length ≠ ev.controlBits.length ∨ ev.seeds.length ≠ paths.length) :
    evaluateSeeds env ev paths cws = err .invalidArgument := by
  simp [evaluateSeeds, failIf_true h]

/-- C12 with two levels shared by three seeds, in place; with three seeds and two levels of their own correction words,
into other buffers; and through `DistributedPointFunction::EvaluateSeeds`. -/
example (env : Env) (keyL keyR : U128) :
    let ns : List Node := [⟨1, true⟩, ⟨2, false⟩, ⟨3, true⟩]
    let cws : List CorrectionWord := [⟨5, true, false, []⟩, ⟨6, false, true, []⟩]
    evaluateSeedsInternal env keyL keyR 3 2 2 (ns.map (·.seed)) (ns.map (·.ctrl)) [0, 5, 2] ((1 : Nat) : Int)
      ⟨cws.map (·.seed), cws.map (·.controlLeft), cws.map (·.controlRight)⟩ true
      (ns.map (·.seed)) (ns.map (·.ctrl)) =
    let result := List.zipWith (fun n (x : U128) => walk (prgOf env keyL keyR) cws (x.toNat >>> 1) n) ns [0, 5, 2]
    ok (result.map (·.seed), result.map (·.ctrl)) :=
  C12_evaluateSeeds_shared env keyL keyR [⟨1, true⟩, ⟨2, false⟩, ⟨3, true⟩] [0, 5, 2] 1
    [⟨5, true, false, []⟩, ⟨6, false, true, []⟩] rfl (by simp) true _ rfl (fun _ => rfl) (by decide) (by decide)

example (env : Env) (keyL keyR : U128) :
    let ns : List Node := [⟨1, true⟩, ⟨2, false⟩, ⟨3, true⟩]
    let cw : Nat → Nat → CorrectionWord := fun l j => ⟨BitVec.ofNat 128 (10 * l + j), l % 2 == 0, j % 2 == 0, []⟩
    let cws := (List.range 2).flatMap fun l => (List.range 3).map fun j => cw l j
    let out : List Node := [⟨0, false⟩, ⟨0, false⟩, ⟨9, false⟩]
    evaluateSeedsInternal env keyL keyR 3 2 ((6 : Nat) : Int) (ns.map (·.seed)) (ns.map (·.ctrl)) [0, 5, 2] ((1 : Nat) : Int)
      ⟨cws.map (·.seed), cws.map (·.controlLeft), cws.map (·.controlRight)⟩ false
      (out.map (·.seed)) (out.map (·.ctrl)) =
    let result := (List.range 3).map fun j => walk (prgOf env keyL keyR) ((List.range 2).map fun l => cw l j)
      ((([0, 5, 2] : List U128).getD j 0).toNat >>> 1) (ns.getD j ⟨0, false⟩)
    ok (result.map (·.seed), result.map (·.ctrl)) :=
  C12_evaluateSeeds_perSeed env keyL keyR [⟨1, true⟩, ⟨2, false⟩, ⟨3, true⟩] [0, 5, 2] 1 2
    (fun l j => ⟨BitVec.ofNat 128 (10 * l + j), l % 2 == 0, j % 2 == 0, []⟩) rfl (by decide) false
    [⟨0, false⟩, ⟨0, false⟩, ⟨9, false⟩] rfl (fun h => by simp at h) (by decide) (by decide)

example (env : Env) : (∃ out, evaluateSeeds env ⟨[1, 2, 3], [true, false, true]⟩ [0, 1, 2]
      [⟨5, true, false, []⟩, ⟨6, false, true, []⟩] = ok out ∧ ∃ (h1 : 2 < out.seeds.length) (h2 : 2 < out.controlBits.length),
        Node.mk out.seeds[2] out.controlBits[2] =
          walk (dpfPrg env) [⟨5, true, false, []⟩, ⟨6, false, true, []⟩] 2 ⟨3, true⟩) ∧
    evaluateSeeds env ⟨[1, 2, 3], [true, false]⟩ [0, 1, 2] [⟨5, true, false, []⟩] = err .invalidArgument := by
  obtain ⟨out, h, hs, hc, hw⟩ := C12_dpf_evaluateSeeds env ⟨[1, 2, 3], [true, false, true]⟩ [0, 1, 2]
    [⟨5, true, false, []⟩, ⟨6, false, true, []⟩] rfl rfl (by decide)
  exact ⟨⟨out, h, by rw [hs]; decide, by rw [hc]; decide, hw 2 (by decide) _ _⟩,
    C12_dpf_evaluateSeeds_rejects env _ _ _ (Or.inl (by decide))⟩

/-- Hypotheses of the C12 theorems are met by three seeds, two levels, in place. -/
example : ∃ (ns : List Node) (paths : List U128) (cws : List CorrectionWord),
    paths.length = ns.length ∧ cws ≠ [] ∧ ns.length = 3 ∧ cws.length = 2 :=
  ⟨[⟨1, true⟩, ⟨2, false⟩, ⟨3, true⟩], [0, 1, 2], [⟨5, true, false, []⟩, ⟨6, false, true, []⟩],
    by simp⟩

/-! ## C14 -/

/-- C14, if the number of leaves fits 64 bits: `k` seeds and `n` correction words give `k * 2^n` leaves, and leaf
`i * 2^n + s` is the walk of seed `i` along the `n` bits of `s`, most significant first. Missing: more leaves, for which
the size of the buffers wraps (`C14_refuted`). -/
theorem C14_expandSeeds_partial (env : Env) (ev : DpfExpansion) (cws : List CorrectionWord)
    (hc : ev.controlBits.length = ev.seeds.length) (hsize : ev.seeds.length * 2 ^ cws.length < 2 ^ 64) :
    ∃ out, expandSeeds env ev cws = ok out ∧
      out.seeds.length = ev.seeds.length * 2 ^ cws.length ∧
      out.controlBits.length = ev.seeds.length * 2 ^ cws.length ∧
      ∀ i (hi : i < ev.seeds.length) s, s < 2 ^ cws.length →
        ∃ (h1 : i * 2 ^ cws.length + s < out.seeds.length)
          (h2 : i * 2 ^ cws.length + s < out.controlBits.length),
          Node.mk out.seeds[i * 2 ^ cws.length + s] out.controlBits[i * 2 ^ cws.length + s] =
            walk (dpfPrg env) cws s ⟨ev.seeds[i], ev.controlBits[i]⟩ := by
  have e := ev.eq_ofNodes hc.symm
  generalize hns : List.zipWith Node.mk ev.seeds ev.controlBits = ns at e
  have hlen : ns.length = ev.seeds.length := by rw [← hns]; simp [hc]
  refine ⟨.ofNodes (ns.flatMap fun n => (List.range (2 ^ cws.length)).map fun s =>
        walk (dpfPrg env) cws s n), ?_, ?_⟩
  · rw [e]; exact expandSeeds_ofNodes env cws ns (by rw [hlen]; exact hsize)
  · have hf := flatMap_range_map ns.length (2 ^ cws.length)
      (fun i s => walk (dpfPrg env) cws s (ns.getD i ⟨0, false⟩))
    have hf' : (ns.flatMap fun n => (List.range (2 ^ cws.length)).map fun s =>
        walk (dpfPrg env) cws s n) = _ := Eq.trans (by
          have := range_map_getD ns ⟨0, false⟩ id
          rw [List.map_id] at this
          conv => lhs; rw [← this]
          rw [List.flatMap_map]; rfl) hf
    rw [hf']
    refine ⟨by simp [DpfExpansion.ofNodes, hlen], by simp [DpfExpansion.ofNodes, hlen], ?_⟩
    intro i hi s hs
    have hlt : i * 2 ^ cws.length + s < ns.length * 2 ^ cws.length := by
      have := Nat.mul_le_mul_right (2 ^ cws.length) (show i + 1 ≤ ns.length by omega)
      rw [Nat.succ_mul] at this
      omega
    refine ⟨by simpa [DpfExpansion.ofNodes] using hlt, by simpa [DpfExpansion.ofNodes] using hlt, ?_⟩
    have hmod : (i * 2 ^ cws.length + s) % 2 ^ cws.length = s := by
      rw [Nat.mul_comm, Nat.mul_add_mod, Nat.mod_eq_of_lt hs]
    have hdiv : (i * 2 ^ cws.length + s) / 2 ^ cws.length = i := by
      rw [Nat.mul_comm, Nat.mul_add_div (Nat.two_pow_pos _), Nat.div_eq_of_lt hs, Nat.add_zero]
    simp only [DpfExpansion.ofNodes, List.getElem_map, List.getElem_range, hmod, hdiv]
    subst hns
    simp [hi, hc]

/-- Three seeds and two levels: leaf 9 is the walk of the third seed along the bits 01. -/
example : ∃ out, expandSeeds { aes := fun k x => k ^^^ (x * 5 + 3) } ⟨[1, 2, 3], [true, false, true]⟩
      [⟨5, true, false, []⟩, ⟨6, false, true, []⟩] = ok out ∧
    ∃ (h1 : 9 < out.seeds.length) (h2 : 9 < out.controlBits.length),
      Node.mk out.seeds[9] out.controlBits[9] = walk (dpfPrg { aes := fun k x => k ^^^ (x * 5 + 3) })
        [⟨5, true, false, []⟩, ⟨6, false, true, []⟩] 1 ⟨3, true⟩ := by
  obtain ⟨out, h, _, _, hw⟩ := C14_expandSeeds_partial { aes := fun k x => k ^^^ (x * 5 + 3) }
    ⟨[1, 2, 3], [true, false, true]⟩ [⟨5, true, false, []⟩, ⟨6, false, true, []⟩] rfl (by decide)
  exact ⟨out, h, hw 2 (by decide) 1 (by decide)⟩

/-- C14 with more leaves than 64 bits can count is false of the code: the size of the buffers is truncated and memory
behind them is written. `EvaluateUntil` can be called like that, see `C49_expansion_refuted`. -/
theorem C14_refuted (env : Env) (ev : DpfExpansion) (cws : List CorrectionWord)
    (hc : ev.controlBits.length = ev.seeds.length) (hsize : 2 ^ 64 ≤ ev.seeds.length * 2 ^ cws.length) :
    expandSeeds env ev cws = ub := by
  unfold expandSeeds
  rw [if_neg (by rw [hc]; omega)]

/-- One seed and 64 levels. -/
example : expandSeeds { aes := fun k x => k ^^^ x } ⟨[1], [true]⟩ (List.replicate 64 ⟨5, true, false, []⟩) = ub :=
  C14_refuted _ _ _ rfl (by decide)

/-! ## C15 -/

/-- C15: for arrays of any length, also in place, the hash is computed block by block. -/
theorem C15_hash_pointwise (env : Env) (key : U128) (alias : Bool) (input out : List U128)
    (hlen : out.length = input.length) (halias : alias = true → out = input) :
    Aes128FixedKeyHash.evaluate env key alias input out =
      ok (input.map fun x => env.aes key (sigma x) ^^^ sigma x) :=
  Aes128FixedKeyHash.evaluate_eq env key alias input out hlen halias

/-- C15: unequal lengths are rejected. -/
theorem C15_hash_rejects (env : Env) (key : U128) (alias : Bool) (input out : List U128)
    (h : input.length ≠ out.length) :
    Aes128FixedKeyHash.evaluate env key alias input out = err .invalidArgument := by
  simp [Aes128FixedKeyHash.evaluate, failIf_true h]

/-- C15 in place, and with an output array that is too short. -/
example (env : Env) : Aes128FixedKeyHash.evaluate env 9 true [1, 2, 3] [1, 2, 3] =
      ok (([1, 2, 3] : List U128).map fun x => env.aes 9 (sigma x) ^^^ sigma x) ∧
    Aes128FixedKeyHash.evaluate env 9 false [1, 2, 3] [1, 2] = err .invalidArgument :=
  ⟨C15_hash_pointwise env 9 true _ _ rfl fun _ => rfl, C15_hash_rejects env 9 false _ _ (by decide)⟩

/-- C15: `sigma` maps the halves `(hi, lo)` to `(hi ^ lo, hi)`. -/
theorem C15_sigma_halves (hi lo : BitVec 64) : sigma (hi ++ lo) = (hi ^^^ lo) ++ hi := by
  unfold sigma
  have e1 : (hi ++ lo : U128).extractLsb' 64 64 = hi := by
    apply BitVec.eq_of_getLsbD_eq
    intro i h
    simp only [BitVec.getLsbD_extractLsb', BitVec.getLsbD_append]
    simp [h]
  have e2 : (hi ++ lo : U128).extractLsb' 0 64 = lo := by
    apply BitVec.eq_of_getLsbD_eq
    intro i h
    simp only [BitVec.getLsbD_extractLsb', BitVec.getLsbD_append]
    simp [h]
  simp only [e1, e2]

/-- C15: `sigma` is a permutation of the 128-bit blocks. -/
theorem C15_sigma_permutation :
    ∃ inv : U128 → U128, (∀ x, inv (sigma x) = x) ∧ ∀ x, sigma (inv x) = x := by
  have split : ∀ x : U128, x = (x.extractLsb' 64 64 ++ x.extractLsb' 0 64 : BitVec 128) := by
    intro x
    apply BitVec.eq_of_getLsbD_eq
    intro i h
    simp only [BitVec.getLsbD_append, BitVec.getLsbD_extractLsb']
    by_cases h1 : i < 64
    · simp [h1]
    · simp [h1, show i - 64 < 64 by omega, show 64 + (i - 64) = i by omega]
  let inv : U128 → U128 := fun y =>
    (y.extractLsb' 0 64 ++ (y.extractLsb' 64 64 ^^^ y.extractLsb' 0 64) : BitVec 128)
  have ex1 : ∀ a b : BitVec 64, (a ++ b : BitVec 128).extractLsb' 64 64 = a := by
    intro a b
    apply BitVec.eq_of_getLsbD_eq
    intro i h
    simp only [BitVec.getLsbD_extractLsb', BitVec.getLsbD_append]
    simp [h]
  have ex2 : ∀ a b : BitVec 64, (a ++ b : BitVec 128).extractLsb' 0 64 = b := by
    intro a b
    apply BitVec.eq_of_getLsbD_eq
    intro i h
    simp only [BitVec.getLsbD_extractLsb', BitVec.getLsbD_append]
    simp [h]
  refine ⟨inv, ?_, ?_⟩
  · intro x
    conv => lhs; rw [split x]
    rw [C15_sigma_halves]
    simp only [inv, ex1, ex2]
    conv => rhs; rw [split x]
    congr 1
    rw [BitVec.xor_comm (x.extractLsb' 64 64), BitVec.xor_assoc, BitVec.xor_self, BitVec.xor_zero]
  · intro x
    simp only [inv]
    rw [C15_sigma_halves]
    conv => rhs; rw [split x]
    congr 1
    rw [BitVec.xor_comm (x.extractLsb' 64 64), ← BitVec.xor_assoc, BitVec.xor_self,
      BitVec.zero_xor]

example : ([1, 2, 3] : List U128).length = ([4, 5, 6] : List U128).length := rfl

end Verif
