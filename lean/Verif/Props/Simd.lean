import Verif.Lemmas.EvalSeeds
/-!
# C13: the vectorised seed evaluation
-/
namespace Verif
open Res Spec

/-- C13: `EvaluateSeedsHwy` gives the same result as `EvaluateSeedsNoHwy`, for every vector width (multiples of
16 bytes are evaluated in vectors, for others and for unaligned arrays the code falls back), every number of
seeds and levels, one correction word per level or one per level and seed, any right shift of the paths, in
place or not. The number of correction words and the indices of bits are `int`s. -/
theorem C13_evaluateSeedsHwy {env : Env} {h : HwyEnv} (hok : HwyOk env h) (keyL keyR : U128)
    (numSeeds numLevels numCw : Nat) (seedsIn : List U128) (controlIn : List Bool) (paths : List U128)
    (shift : Nat) (corr : CorrArrays) (alias : Bool) (seedsOut : List U128) (controlOut : List Bool)
    (hcw : numCw = numLevels ∨ numCw = numLevels * numSeeds)
    (hseeds : seedsIn.length = numSeeds) (hcontrol : controlIn.length = numSeeds)
    (hpaths : paths.length = numSeeds) (hso : seedsOut.length = numSeeds)
    (hco : controlOut.length = numSeeds) (hcs : corr.seeds.length = numCw)
    (hcl : corr.left.length = numCw) (hcr : corr.right.length = numCw) (hint : numCw < 2 ^ 31)
    (hshift : numLevels + shift ≤ 2 ^ 31)
    (halias : alias = true → seedsOut = seedsIn ∧ controlOut = controlIn) :
    evaluateSeedsHwy h env keyL keyR numSeeds numLevels numCw seedsIn controlIn paths shift corr alias
      seedsOut controlOut =
    evaluateSeedsNoHwy env keyL keyR numSeeds numLevels numCw seedsIn controlIn paths shift corr alias
      seedsOut controlOut :=
  evaluateSeedsHwy_eq hok keyL keyR numSeeds numLevels numCw seedsIn controlIn paths shift corr alias seedsOut
    controlOut hcw hseeds hcontrol hpaths hso hco hcs hcl hcr (Nat.le_refl _) hint hshift halias

/-- C13 for `dpf_internal::EvaluateSeeds`: it gives the same on all machines with the same AES, whatever their
vector units (or none), also when it rejects the number of correction words. -/
theorem C13_evaluateSeeds (env env' : Env) (haes : env.aes = env'.aes) (keyL keyR : U128)
    (numSeeds numLevels numCw : Nat) (seedsIn : List U128) (controlIn : List Bool) (paths : List U128)
    (shift : Nat) (corr : CorrArrays) (alias : Bool) (seedsOut : List U128) (controlOut : List Bool)
    (hseeds : seedsIn.length = numSeeds) (hcontrol : controlIn.length = numSeeds)
    (hpaths : paths.length = numSeeds) (hso : seedsOut.length = numSeeds)
    (hco : controlOut.length = numSeeds) (hcs : corr.seeds.length = numCw)
    (hcl : corr.left.length = numCw) (hcr : corr.right.length = numCw) (hint : numCw < 2 ^ 31)
    (hshift : numLevels + shift ≤ 2 ^ 31)
    (halias : alias = true → seedsOut = seedsIn ∧ controlOut = controlIn) :
    evaluateSeedsInternal env keyL keyR numSeeds numLevels numCw seedsIn controlIn paths shift corr alias
      seedsOut controlOut =
    evaluateSeedsInternal env' keyL keyR numSeeds numLevels numCw seedsIn controlIn paths shift corr alias
      seedsOut controlOut := by
  rw [evaluateSeedsInternal_noHwy env keyL keyR _ _ _ _ _ _ _ _ _ _ _ hseeds hcontrol hpaths hso hco hcs hcl
      hcr (Nat.le_refl _) hint hshift halias,
    evaluateSeedsInternal_noHwy env' keyL keyR _ _ _ _ _ _ _ _ _ _ _ hseeds hcontrol hpaths hso hco hcs hcl
      hcr (Nat.le_refl _) hint hshift halias, evaluateSeedsNoHwy_aes haes]

/-- C13 and C12 together: with vectors, the outputs are the walks of the individual seeds. -/
theorem C13_walk {env : Env} {h : HwyEnv} (hok : HwyOk env h) (keyL keyR : U128) (ns : List Node)
    (paths : List U128) (shift : Nat) (cws : List CorrectionWord)
    (hpaths : paths.length = ns.length) (hcws : cws ≠ []) (alias : Bool) (out : List Node)
    (hout : out.length = ns.length) (halias : alias = true → out = ns) (hint : cws.length < 2 ^ 31)
    (hshift : cws.length + shift ≤ 2 ^ 31) :
    evaluateSeedsHwy h env keyL keyR ns.length cws.length cws.length
      (ns.map (·.seed)) (ns.map (·.ctrl)) paths (shift : Int)
      ⟨cws.map (·.seed), cws.map (·.controlLeft), cws.map (·.controlRight)⟩ alias
      (out.map (·.seed)) (out.map (·.ctrl)) =
    let result := List.zipWith
      (fun n (x : U128) => walk (prgOf env keyL keyR) cws (x.toNat >>> shift) n) ns paths
    ok (result.map (·.seed), result.map (·.ctrl)) := by
  rw [evaluateSeedsHwy_internal hok keyL keyR _ _ _ _ _ _ _ _ _ _ _ (by simp) (by simp) (by simp) hpaths (by simpa using hout)
    (by simpa using hout) (by simp) (by simp) (by simp) (Nat.le_refl _) hint hshift
    (fun ha => by rw [halias ha]; exact ⟨rfl, rfl⟩)]
  have := evaluateSeedsInternal_shared env keyL keyR ns paths shift cws [] hpaths alias out hout halias hcws hint
    hshift
  rwa [List.append_nil] at this

/-- C13 and C12 together, own correction words for each seed (`cw level j` for seed `j`, stored level by
level). -/
theorem C13_walk_perSeed {env : Env} {h : HwyEnv} (hok : HwyOk env h) (keyL keyR : U128) (ns : List Node)
    (paths : List U128) (shift numLevels : Nat) (cw : Nat → Nat → CorrectionWord)
    (hpaths : paths.length = ns.length) (hlevels : 0 < numLevels) (alias : Bool) (out : List Node)
    (hout : out.length = ns.length) (halias : alias = true → out = ns)
    (hint : numLevels * ns.length < 2 ^ 31) (hshift : numLevels + shift ≤ 2 ^ 31) :
    let cws := (List.range numLevels).flatMap fun l => (List.range ns.length).map fun j => cw l j
    evaluateSeedsHwy h env keyL keyR ns.length numLevels (numLevels * ns.length)
      (ns.map (·.seed)) (ns.map (·.ctrl)) paths (shift : Int)
      ⟨cws.map (·.seed), cws.map (·.controlLeft), cws.map (·.controlRight)⟩ alias
      (out.map (·.seed)) (out.map (·.ctrl)) =
    let result := (List.range ns.length).map fun j =>
      walk (prgOf env keyL keyR) ((List.range numLevels).map fun l => cw l j)
        ((paths.getD j 0).toNat >>> shift) (ns.getD j ⟨0, false⟩)
    ok (result.map (·.seed), result.map (·.ctrl)) := by
  intro cws
  have hlen : cws.length = numLevels * ns.length := by
    simp only [cws, List.length_flatMap, List.length_map, List.length_range, List.map_const', List.sum_replicate_nat]
  rw [evaluateSeedsHwy_internal hok keyL keyR _ _ _ _ _ _ _ _ _ _ _ (by simp) (by simp) (by simp) hpaths (by simpa using hout)
    (by simpa using hout) (by simpa using hlen) (by simpa using hlen) (by simpa using hlen)
    (Nat.le_refl _) hint hshift
    (fun ha => by rw [halias ha]; exact ⟨rfl, rfl⟩)]
  exact evaluateSeedsInternal_perSeed env keyL keyR ns paths shift numLevels cw hpaths alias out hout
    halias hlevels hint hshift

/-! ## Example: vectors of two blocks, eleven seeds (one group of four vectors, one vector, one block) -/

/-- A CPU with vectors of 32 bytes; in place of AES rounds, two mixing functions. -/
def exHwy : HwyEnv where
  lanes := 32
  maskBytes := 64
  aligned := true
  roundKey key r := key.rotateLeft r + BitVec.ofNat 128 r
  aesRound x k := (x * 3).rotateLeft 7 ^^^ k
  aesLastRound x k := (x + 5) ^^^ k

/-- A machine whose library computes the same cipher, and which uses these vectors in every call. -/
def exHwyEnv : Env where
  aes := aesByRounds exHwy
  target _ _ _ _ _ := some { exHwy with sameAes := fun _ _ => rfl, size := by decide }

theorem exHwy_ok : HwyOk exHwyEnv exHwy := ⟨fun _ _ => rfl, by decide⟩

/-- Eleven seeds with control bits. -/
def exNodes : List Node := (List.range 11).map fun i => ⟨BitVec.ofNat 128 (i * 1000003 + 2), i % 3 == 0⟩

/-- The hypotheses of the theorems of C13 are met: two levels, a shift by one, in place. -/
example :
    let cws : List CorrectionWord := [⟨5, true, false, []⟩, ⟨6, false, true, []⟩]
    let paths : List U128 := (List.range 11).map (BitVec.ofNat 128)
    evaluateSeedsHwy exHwy exHwyEnv 7 8 11 2 2 (exNodes.map (·.seed)) (exNodes.map (·.ctrl)) paths ((1 : Nat) : Int)
      ⟨cws.map (·.seed), cws.map (·.controlLeft), cws.map (·.controlRight)⟩ true
      (exNodes.map (·.seed)) (exNodes.map (·.ctrl)) =
    let result := List.zipWith
      (fun n (x : U128) => walk (prgOf exHwyEnv 7 8) cws (x.toNat >>> 1) n) exNodes paths
    ok (result.map (·.seed), result.map (·.ctrl)) :=
  C13_walk exHwy_ok 7 8 exNodes ((List.range 11).map (BitVec.ofNat 128)) 1
    [⟨5, true, false, []⟩, ⟨6, false, true, []⟩] rfl (by decide) true exNodes rfl (fun _ => rfl) (by decide)
    (by decide)

/-- The machine uses its vectors in the calls of `EvaluateSeeds`. -/
example (ns : List U128) (cs : List Bool) (corr : CorrArrays) :
    evaluateSeedsInternal exHwyEnv 7 8 11 2 2 ns cs ns 1 corr true ns cs =
      evaluateSeedsHwy exHwy exHwyEnv 7 8 11 2 2 ns cs ns 1 corr true ns cs := rfl

/-- The nodes in this example after the two levels are not the ones before. -/
example : (List.zipWith (fun n (x : U128) => walk (prgOf exHwyEnv 7 8)
    [⟨5, true, false, []⟩, ⟨6, false, true, []⟩] (x.toNat >>> 1) n) exNodes
      ((List.range 11).map (BitVec.ofNat 128))).map (·.ctrl) ≠ exNodes.map (·.ctrl) := by
  decide +kernel

/-- C13 on the example: vectors and no vectors, two levels shared by the eleven seeds. -/
example (corr : CorrArrays) (h1 : corr.seeds.length = 2) (h2 : corr.left.length = 2) (h3 : corr.right.length = 2) :
    evaluateSeedsHwy exHwy exHwyEnv 7 8 11 2 2 (exNodes.map (·.seed)) (exNodes.map (·.ctrl))
      ((List.range 11).map (BitVec.ofNat 128)) ((1 : Nat) : Int) corr true (exNodes.map (·.seed)) (exNodes.map (·.ctrl)) =
    evaluateSeedsNoHwy exHwyEnv 7 8 11 2 2 (exNodes.map (·.seed)) (exNodes.map (·.ctrl))
      ((List.range 11).map (BitVec.ofNat 128)) ((1 : Nat) : Int) corr true (exNodes.map (·.seed)) (exNodes.map (·.ctrl)) :=
  C13_evaluateSeedsHwy exHwy_ok 7 8 11 2 2 _ _ _ 1 corr true _ _ (Or.inl rfl) rfl rfl rfl rfl rfl h1 h2 h3 (by decide)
    (by decide) fun _ => ⟨rfl, rfl⟩

/-- C13 on the example: a machine without vectors computes the same. -/
example (corr : CorrArrays) (h1 : corr.seeds.length = 2) (h2 : corr.left.length = 2) (h3 : corr.right.length = 2) :
    evaluateSeedsInternal exHwyEnv 7 8 11 2 2 (exNodes.map (·.seed)) (exNodes.map (·.ctrl))
      ((List.range 11).map (BitVec.ofNat 128)) ((1 : Nat) : Int) corr true (exNodes.map (·.seed)) (exNodes.map (·.ctrl)) =
    evaluateSeedsInternal { aes := exHwyEnv.aes } 7 8 11 2 2 (exNodes.map (·.seed)) (exNodes.map (·.ctrl))
      ((List.range 11).map (BitVec.ofNat 128)) ((1 : Nat) : Int) corr true (exNodes.map (·.seed)) (exNodes.map (·.ctrl)) :=
  C13_evaluateSeeds exHwyEnv { aes := exHwyEnv.aes } rfl 7 8 11 2 2 _ _ _ 1 corr true _ _ rfl rfl rfl rfl rfl h1 h2 h3
    (by decide) (by decide) fun _ => ⟨rfl, rfl⟩

/-- C13 on the example: one correction word per seed and level. -/
example (cw : Nat → Nat → CorrectionWord) :
    let cws := (List.range 2).flatMap fun l => (List.range 11).map fun j => cw l j
    evaluateSeedsHwy exHwy exHwyEnv 7 8 11 2 (2 * 11) (exNodes.map (·.seed)) (exNodes.map (·.ctrl))
      ((List.range 11).map (BitVec.ofNat 128)) ((1 : Nat) : Int)
      ⟨cws.map (·.seed), cws.map (·.controlLeft), cws.map (·.controlRight)⟩ true
      (exNodes.map (·.seed)) (exNodes.map (·.ctrl)) =
    let result := (List.range 11).map fun j => walk (prgOf exHwyEnv 7 8) ((List.range 2).map fun l => cw l j)
      ((((List.range 11).map (BitVec.ofNat 128)).getD j 0).toNat >>> 1) (exNodes.getD j ⟨0, false⟩)
    ok (result.map (·.seed), result.map (·.ctrl)) :=
  C13_walk_perSeed exHwy_ok 7 8 exNodes ((List.range 11).map (BitVec.ofNat 128)) 1 2 cw rfl (by decide) true exNodes rfl
    (fun _ => rfl) (by decide) (by decide)

end Verif
