import Verif.Model.SeedsNoHwy
/-!
# Vectorised seed evaluation: /repo/dpf/internal/evaluate_prg_hwy.cc:67-539 and
/repo/dpf/internal/aes_128_fixed_key_hash_hwy.h

Vectors are lists of 128-bit blocks, masks are lists of bools, one for each 64-bit lane. Memory is read and
written in blocks of 128 bits: all pointers into `absl::uint128` arrays are multiples of 16 bytes apart from
the start of the array. Not modelled: failing allocations, and the target `HWY_SCALAR`, for which the call in
lines 59-62 has too few arguments to compile.
-/
namespace Verif
open Res

/-- A vector of 128-bit blocks. -/
abbrev Vec := List U128
/-- A mask for the 64-bit lanes of a vector. -/
abbrev Mask := List Bool

/-! ## Highway operations -/

/-- `hn::BitCast` to 64-bit lanes (little-endian). -/
def lanes64 (v : Vec) : List (BitVec 64) := v.flatMap fun b => [b.extractLsb' 0 64, b.extractLsb' 64 64]

/-- `hn::BitCast` back from 64-bit lanes. -/
def blocks128 : List (BitVec 64) → Vec
  | low :: high :: rest => (high ++ low) :: blocks128 rest
  | _ => []

/-- `hn::LoadDup128`. -/
def loadDup128 (blocks : Nat) (b : U128) : Vec := List.replicate blocks b

/-- `hn::Shuffle01`: swaps the 64-bit lanes of each block. -/
def shuffle01 : List (BitVec 64) → List (BitVec 64)
  | low :: high :: rest => high :: low :: shuffle01 rest
  | _ => []

/-- `hn::Xor`, `hn::And` on vectors. -/
def vecXor (a b : Vec) : Vec := List.zipWith (· ^^^ ·) a b
@[inherit_doc vecXor] def vecAnd (a b : Vec) : Vec := List.zipWith (· &&& ·) a b

/-- `hn::IfThenElse` with a mask of 64-bit lanes. -/
def ifThenElse (m : Mask) (a b : Vec) : Vec :=
  blocks128 (List.zipWith (fun (c : Bool) (x : BitVec 64 × BitVec 64) => if c then x.1 else x.2) m
    ((lanes64 a).zip (lanes64 b)))

/-- `hn::IfThenElseZero` with a mask of 64-bit lanes. -/
def ifThenElseZero (m : Mask) (a : Vec) : Vec :=
  blocks128 (List.zipWith (fun (c : Bool) (x : BitVec 64) => if c then x else 0) m (lanes64 a))

/-- `hn::Or`, `hn::And`, `hn::Xor`, `hn::Not` on masks. -/
def maskOr (a b : Mask) : Mask := List.zipWith (· || ·) a b
@[inherit_doc maskOr] def maskAnd (a b : Mask) : Mask := List.zipWith (· && ·) a b
@[inherit_doc maskOr] def maskXor (a b : Mask) : Mask := List.zipWith (· ^^ ·) a b
@[inherit_doc maskOr] def maskNot (a : Mask) : Mask := a.map (!·)

/-- `hn::LoadMaskBits`: bit `i % 8` of byte `i / 8` is for lane `i`. -/
def loadMaskBits (blocks : Nat) (bits : List (BitVec 8)) : Res Mask :=
  mapRes (fun i => do
    let byte ← rd bits (i / 8)
    ok (byte.getLsbD (i % 8))) (List.range (2 * blocks))

/-- Byte `b` of the bits of a mask. -/
def packByte (m : Mask) (b : Nat) : BitVec 8 :=
  (List.range 8).foldl (fun acc t => if m.getD (8 * b + t) false then acc ||| (1#8 <<< t) else acc) 0

/-- `hn::StoreMaskBits` into a buffer of `size` zero bytes. -/
def storeMaskBits (size : Nat) (m : Mask) : Res (List (BitVec 8)) :=
  if m.length ≤ 8 * size then ok ((List.range size).map (packByte m)) else ub

/-- `hn::Load` from an array that is aligned for vectors: the position must be a multiple of the vector
size. -/
def loadAligned (blocks : Nat) (array : List U128) (pos : Nat) : Res Vec :=
  if pos % blocks = 0 then slice array pos blocks else ub

/-- `hn::Store` to an array that is aligned for vectors. -/
def storeAligned (array : List U128) (pos : Nat) (v : Vec) : Res (List U128) :=
  if pos % v.length = 0 then writeAt array pos v else ub

/-! ## Helpers in /repo/dpf/internal/evaluate_prg_hwy.cc -/

/-- One pass of the loop in `MaskFromBools` (/repo/dpf/internal/evaluate_prg_hwy.cc:76-84). `block_idx` does
not decrease, so after the `break` there would only be passes that do nothing. -/
def setMaskBit (input : List Bool) (start maxBlocks : Nat) (bits : List (BitVec 8)) (i : Nat) :
    Res (List (BitVec 8)) :=
  if maxBlocks > 0 ∧ i / 2 ≥ maxBlocks then ok bits
  else do
    let b ← rd input (start + i / 2)
    if b then do
      let byte ← rd bits (i / 8)
      writeAt bits (i / 8) [byte ||| (1#8 <<< (i % 8))]
    else ok bits

/-- `MaskFromBools` (/repo/dpf/internal/evaluate_prg_hwy.cc:70-86), `start` is the position `input` points
to. -/
def maskFromBools (h : HwyEnv) (blocks : Nat) (input : List Bool) (start maxBlocks : Nat) : Res Mask := do
  let bits ← foldRes (setMaskBit input start maxBlocks) (List.replicate h.maskBytes 0#8)
    (List.range (2 * blocks))
  loadMaskBits blocks bits

/-- `BoolsFromMask` (/repo/dpf/internal/evaluate_prg_hwy.cc:92-107), `start` is the position `output` points
to. -/
def boolsFromMask (h : HwyEnv) (blocks : Nat) (m : Mask) (output : List Bool) (start maxBlocks : Nat) :
    Res (List Bool) := do
  let numOutputs := if maxBlocks > 0 then maxBlocks else 2 * blocks / 2
  let bits ← storeMaskBits h.maskBytes m
  foldRes (fun out i => do
    let byte ← rd bits (i * 2 / 8)
    writeAt out (start + i) [byte &&& (1#8 <<< (i * 2 % 8)) != 0]) output (List.range numOutputs)

/-- `IfThenElseMask` (/repo/dpf/internal/evaluate_prg_hwy.cc:109-113). -/
def ifThenElseMask (condition trueValue falseValue : Mask) : Mask :=
  maskOr (maskAnd condition trueValue) (maskAnd (maskNot condition) falseValue)

/-- `IsBitSet` (/repo/dpf/internal/evaluate_prg_hwy.cc:117-142). -/
def isBitSet (blocks : Nat) (input : Vec) (index : Int) : Res Mask := do
  let mask ← if index < 128 then shl128 1#128 index else ok 0
  let input64 := List.zipWith (· &&& ·) (lanes64 input) (lanes64 (loadDup128 blocks mask))
  let input64 := List.zipWith (· ||| ·) input64 (shuffle01 input64)
  ok (input64.map (· != 0))

/-! ## /repo/dpf/internal/aes_128_fixed_key_hash_hwy.h -/

/-- `kSigmaMask` (/repo/dpf/internal/aes_128_fixed_key_hash_hwy.h:75-79). -/
def kSigmaMask : U128 := BitVec.allOnes 64 ++ 0#64

/-- `DPF_AES_COMPUTE_SIGMA` (/repo/dpf/internal/aes_128_fixed_key_hash_hwy.h:82-86). -/
def vecSigma (v : Vec) : Vec :=
  blocks128 (List.zipWith (· ^^^ ·) (shuffle01 (lanes64 v))
    (List.zipWith (· &&& ·) (lanes64 (loadDup128 v.length kSigmaMask)) (lanes64 v)))

/-- `DPF_AES_LOAD_ROUND_KEY` and `DPF_AES_SELECT_KEY`
(/repo/dpf/internal/aes_128_fixed_key_hash_hwy.h:61-72). -/
def selectedKey (blocks : Nat) (mask : Mask) (keys0 keys1 : Nat → U128) (round : Nat) : Vec :=
  ifThenElse mask (loadDup128 blocks (keys1 round)) (loadDup128 blocks (keys0 round))

/-- `HashOneWithKeyMask` (/repo/dpf/internal/aes_128_fixed_key_hash_hwy.h:88-155). -/
def hashWithKeyMask (h : HwyEnv) (v : Vec) (mask : Mask) (keys0 keys1 : Nat → U128) : Vec :=
  let sigma := vecSigma v
  let key := selectedKey v.length mask keys0 keys1
  let out := vecXor sigma (key 0)
  let out := (List.range 9).foldl (fun out r => List.zipWith h.aesRound out (key (r + 1))) out
  let out := List.zipWith h.aesLastRound out (key 10)
  vecXor out sigma

/-- Four vectors or masks, with the suffixes `_0` to `_3` (/repo/dpf/internal/evaluate_prg_hwy.cc:217-390). -/
structure Four (α : Type) where
  x0 : α
  x1 : α
  x2 : α
  x3 : α

/-- `HashFourWithKeyMask` (/repo/dpf/internal/aes_128_fixed_key_hash_hwy.h:157-228): each round is performed on all
four vectors before the next one. -/
def hashFourWithKeyMask (h : HwyEnv) (v : Four Vec) (mask : Four Mask) (keys0 keys1 : Nat → U128) : Four Vec :=
  let sigma : Four Vec := ⟨vecSigma v.x0, vecSigma v.x1, vecSigma v.x2, vecSigma v.x3⟩
  let key (round : Nat) : Four Vec := ⟨selectedKey v.x0.length mask.x0 keys0 keys1 round,
    selectedKey v.x1.length mask.x1 keys0 keys1 round, selectedKey v.x2.length mask.x2 keys0 keys1 round,
    selectedKey v.x3.length mask.x3 keys0 keys1 round⟩
  let out : Four Vec := ⟨vecXor sigma.x0 (key 0).x0, vecXor sigma.x1 (key 0).x1, vecXor sigma.x2 (key 0).x2,
    vecXor sigma.x3 (key 0).x3⟩
  let out := (List.range 9).foldl (fun (out : Four Vec) r => (⟨List.zipWith h.aesRound out.x0 (key (r + 1)).x0,
    List.zipWith h.aesRound out.x1 (key (r + 1)).x1, List.zipWith h.aesRound out.x2 (key (r + 1)).x2,
    List.zipWith h.aesRound out.x3 (key (r + 1)).x3⟩ : Four Vec)) out
  let out : Four Vec := ⟨List.zipWith h.aesLastRound out.x0 (key 10).x0, List.zipWith h.aesLastRound out.x1 (key 10).x1,
    List.zipWith h.aesLastRound out.x2 (key 10).x2, List.zipWith h.aesLastRound out.x3 (key 10).x3⟩
  ⟨vecXor out.x0 sigma.x0, vecXor out.x1 sigma.x1, vecXor out.x2 sigma.x2, vecXor out.x3 sigma.x3⟩

/-! ## `EvaluateSeedsHwy` -/

/-- The seeds of correction words, one for each block of the vector
(/repo/dpf/internal/evaluate_prg_hwy.cc:269-288, 417-422). -/
def loadCorrectionSeeds (blocks perLevel : Nat) (seeds : List U128) (j pos : Nat) : Res Vec :=
  if perLevel % blocks = 0 ∨ j = 0 then loadAligned blocks seeds pos else slice seeds pos blocks

/-- The correction words for a full vector at level `j` (/repo/dpf/internal/evaluate_prg_hwy.cc:408-423 and
433-451): the seeds and the two masks of control bits. -/
def loadCorrections (h : HwyEnv) (blocks perLevel : Nat) (corr : CorrArrays) (j start : Nat) :
    Res (Vec × Mask × Mask) :=
  if perLevel = 1 then do
    let seed ← rd corr.seeds j
    let left ← rd corr.left j
    let right ← rd corr.right j
    ok (loadDup128 blocks seed, List.replicate (2 * blocks) left, List.replicate (2 * blocks) right)
  else do
    let pos := j * perLevel + start
    let seeds ← loadCorrectionSeeds blocks perLevel corr.seeds j pos
    let right ← maskFromBools h blocks corr.right pos 0
    let left ← maskFromBools h blocks corr.left pos 0
    ok (seeds, left, right)

/-- The correction words for the last, incomplete vector
(/repo/dpf/internal/evaluate_prg_hwy.cc:490-500 and 508-527). Lanes beyond the remaining blocks are zero. -/
def loadCorrectionsRest (h : HwyEnv) (blocks perLevel : Nat) (corr : CorrArrays) (j start rest : Nat) :
    Res (Vec × Mask × Mask) :=
  if perLevel = 1 then do
    let seed ← rd corr.seeds j
    let left ← rd corr.left j
    let right ← rd corr.right j
    ok (loadDup128 blocks seed, List.replicate (2 * blocks) left, List.replicate (2 * blocks) right)
  else do
    let pos := j * perLevel + start
    let seeds ← slice corr.seeds pos rest
    let right ← maskFromBools h blocks corr.right pos rest
    let left ← maskFromBools h blocks corr.left pos rest
    ok (seeds ++ List.replicate (blocks - rest) 0, left, right)

/-- The body of the loops over levels for one vector (/repo/dpf/internal/evaluate_prg_hwy.cc:399-454,
481-530). `load j` gives the correction words for level `j`. -/
def hwyLevel (h : HwyEnv) (keyL keyR : U128) (blocks numLevels : Nat) (rightshift : Int)
    (load : Nat → Res (Vec × Mask × Mask)) (path : Vec) (st : Vec × Mask) (j : Nat) : Res (Vec × Mask) := do
  let bitIndex ← intRange ((numLevels : Int) - j - 1 + rightshift)
  let pathMask ← isBitSet blocks path bitIndex
  let vec := hashWithKeyMask h st.1 pathMask (h.roundKey keyL) (h.roundKey keyR)
  let c ← load j
  let vec := vecXor vec (ifThenElseZero st.2 c.1)
  let next ← isBitSet blocks vec 0
  let vec := vecAnd vec (loadDup128 blocks (~~~1#128))
  let correction := ifThenElseMask pathMask c.2.2 c.2.1
  ok (vec, maskXor next (maskAnd st.2 correction))

/-- The evaluation of one full vector, starting with block `start`
(/repo/dpf/internal/evaluate_prg_hwy.cc:396-454). -/
def hwyVector (h : HwyEnv) (keyL keyR : U128) (blocks numLevels perLevel : Nat)
    (seedsIn : List U128) (controlIn : List Bool) (paths : List U128) (rightshift : Int)
    (corr : CorrArrays) (start : Nat) : Res (Vec × Mask) := do
  let vec ← loadAligned blocks seedsIn start
  let path ← loadAligned blocks paths start
  let control ← maskFromBools h blocks controlIn start 0
  foldRes (hwyLevel h keyL keyR blocks numLevels rightshift
    (fun j => loadCorrections h blocks perLevel corr j start) path) (vec, control) (List.range numLevels)

/-- Writing the result of one full vector (/repo/dpf/internal/evaluate_prg_hwy.cc:455-456). -/
def hwyStore (h : HwyEnv) (blocks start : Nat) (st : List U128 × List Bool) (r : Vec × Mask) :
    Res (List U128 × List Bool) := do
  let seedsOut ← storeAligned st.1 start r.1
  let controlOut ← boolsFromMask h blocks r.2 st.2 start 0
  ok (seedsOut, controlOut)

/-- Correction of the seeds of four vectors (/repo/dpf/internal/evaluate_prg_hwy.cc:248-301). -/
def correctSeedsFour (blocks perLevel : Nat) (corr : CorrArrays) (j start : Nat) (vec : Four Vec)
    (control : Four Mask) : Res (Four Vec) :=
  if perLevel = 1 then do
    let seed ← rd corr.seeds j
    let seed := loadDup128 blocks seed
    ok ⟨vecXor vec.x0 (ifThenElseZero control.x0 seed), vecXor vec.x1 (ifThenElseZero control.x1 seed),
      vecXor vec.x2 (ifThenElseZero control.x2 seed), vecXor vec.x3 (ifThenElseZero control.x3 seed)⟩
  else do
    let pos := j * perLevel
    let seed0 ← loadCorrectionSeeds blocks perLevel corr.seeds j (pos + start)
    let seed1 ← loadCorrectionSeeds blocks perLevel corr.seeds j (pos + start + 1 * blocks)
    let seed2 ← loadCorrectionSeeds blocks perLevel corr.seeds j (pos + start + 2 * blocks)
    let seed3 ← loadCorrectionSeeds blocks perLevel corr.seeds j (pos + start + 3 * blocks)
    ok ⟨vecXor vec.x0 (ifThenElseZero control.x0 seed0), vecXor vec.x1 (ifThenElseZero control.x1 seed1),
      vecXor vec.x2 (ifThenElseZero control.x2 seed2), vecXor vec.x3 (ifThenElseZero control.x3 seed3)⟩

/-- The corrections of control bits for four vectors (/repo/dpf/internal/evaluate_prg_hwy.cc:313-363). -/
def controlCorrectionsFour (h : HwyEnv) (blocks perLevel : Nat) (corr : CorrArrays) (j start : Nat)
    (path : Four Mask) : Res (Four Mask) :=
  if perLevel = 1 then do
    let left ← rd corr.left j
    let right ← rd corr.right j
    let left := List.replicate (2 * blocks) left
    let right := List.replicate (2 * blocks) right
    ok ⟨ifThenElseMask path.x0 right left, ifThenElseMask path.x1 right left, ifThenElseMask path.x2 right left,
      ifThenElseMask path.x3 right left⟩
  else do
    let pos := j * perLevel + start
    let right0 ← maskFromBools h blocks corr.right pos 0
    let left0 ← maskFromBools h blocks corr.left pos 0
    let right1 ← maskFromBools h blocks corr.right (pos + 1 * blocks) 0
    let left1 ← maskFromBools h blocks corr.left (pos + 1 * blocks) 0
    let right2 ← maskFromBools h blocks corr.right (pos + 2 * blocks) 0
    let left2 ← maskFromBools h blocks corr.left (pos + 2 * blocks) 0
    let right3 ← maskFromBools h blocks corr.right (pos + 3 * blocks) 0
    let left3 ← maskFromBools h blocks corr.left (pos + 3 * blocks) 0
    ok ⟨ifThenElseMask path.x0 right0 left0, ifThenElseMask path.x1 right1 left1, ifThenElseMask path.x2 right2 left2,
      ifThenElseMask path.x3 right3 left3⟩

/-- The body of the loop over levels for four vectors (/repo/dpf/internal/evaluate_prg_hwy.cc:235-377). -/
def hwyLevelFour (h : HwyEnv) (keyL keyR : U128) (blocks numLevels perLevel : Nat) (rightshift : Int)
    (corr : CorrArrays) (start : Nat) (path : Four Vec) (st : Four Vec × Four Mask) (j : Nat) :
    Res (Four Vec × Four Mask) := do
  let bitIndex ← intRange ((numLevels : Int) - j - 1 + rightshift)
  let path0 ← isBitSet blocks path.x0 bitIndex
  let path1 ← isBitSet blocks path.x1 bitIndex
  let path2 ← isBitSet blocks path.x2 bitIndex
  let path3 ← isBitSet blocks path.x3 bitIndex
  let vec := hashFourWithKeyMask h st.1 ⟨path0, path1, path2, path3⟩ (h.roundKey keyL) (h.roundKey keyR)
  let vec ← correctSeedsFour blocks perLevel corr j start vec st.2
  let next0 ← isBitSet blocks vec.x0 0
  let next1 ← isBitSet blocks vec.x1 0
  let next2 ← isBitSet blocks vec.x2 0
  let next3 ← isBitSet blocks vec.x3 0
  let clear := loadDup128 blocks (~~~1#128)
  let c ← controlCorrectionsFour h blocks perLevel corr j start ⟨path0, path1, path2, path3⟩
  ok (⟨vecAnd vec.x0 clear, vecAnd vec.x1 clear, vecAnd vec.x2 clear, vecAnd vec.x3 clear⟩,
    ⟨maskXor next0 (maskAnd st.2.x0 c.x0), maskXor next1 (maskAnd st.2.x1 c.x1),
      maskXor next2 (maskAnd st.2.x2 c.x2), maskXor next3 (maskAnd st.2.x3 c.x3)⟩)

/-- One pass of the first loop (/repo/dpf/internal/evaluate_prg_hwy.cc:217-390): four vectors, starting with
block `start`. With `alias`, `seeds_in`/`control_bits_in` are the same memory as the outputs. -/
def hwyFour (h : HwyEnv) (keyL keyR : U128) (blocks numLevels perLevel : Nat)
    (seedsIn : List U128) (controlIn : List Bool) (paths : List U128) (rightshift : Int)
    (corr : CorrArrays) (alias : Bool) (start : Nat) (st : List U128 × List Bool) :
    Res (List U128 × List Bool) := do
  let seeds := if alias then st.1 else seedsIn
  let controls := if alias then st.2 else controlIn
  let vec0 ← loadAligned blocks seeds start
  let vec1 ← loadAligned blocks seeds (start + 1 * blocks)
  let vec2 ← loadAligned blocks seeds (start + 2 * blocks)
  let vec3 ← loadAligned blocks seeds (start + 3 * blocks)
  let path0 ← loadAligned blocks paths start
  let path1 ← loadAligned blocks paths (start + 1 * blocks)
  let path2 ← loadAligned blocks paths (start + 2 * blocks)
  let path3 ← loadAligned blocks paths (start + 3 * blocks)
  let control0 ← maskFromBools h blocks controls start 0
  let control1 ← maskFromBools h blocks controls (start + 1 * blocks) 0
  let control2 ← maskFromBools h blocks controls (start + 2 * blocks) 0
  let control3 ← maskFromBools h blocks controls (start + 3 * blocks) 0
  let r ← foldRes (hwyLevelFour h keyL keyR blocks numLevels perLevel rightshift corr start
    ⟨path0, path1, path2, path3⟩) (⟨vec0, vec1, vec2, vec3⟩, ⟨control0, control1, control2, control3⟩)
    (List.range numLevels)
  let out ← storeAligned st.1 start r.1.x0
  let out ← storeAligned out (start + 1 * blocks) r.1.x1
  let out ← storeAligned out (start + 2 * blocks) r.1.x2
  let out ← storeAligned out (start + 3 * blocks) r.1.x3
  let controlOut ← boolsFromMask h blocks r.2.x0 st.2 start 0
  let controlOut ← boolsFromMask h blocks r.2.x1 controlOut (start + 1 * blocks) 0
  let controlOut ← boolsFromMask h blocks r.2.x2 controlOut (start + 2 * blocks) 0
  let controlOut ← boolsFromMask h blocks r.2.x3 controlOut (start + 3 * blocks) 0
  ok (out, controlOut)

/-- One pass of the second loop (/repo/dpf/internal/evaluate_prg_hwy.cc:394-457): one vector. -/
def hwyOne (h : HwyEnv) (keyL keyR : U128) (blocks numLevels perLevel : Nat)
    (seedsIn : List U128) (controlIn : List Bool) (paths : List U128) (rightshift : Int)
    (corr : CorrArrays) (alias : Bool) (start : Nat) (st : List U128 × List Bool) :
    Res (List U128 × List Bool) := do
  let r ← hwyVector h keyL keyR blocks numLevels perLevel (if alias then st.1 else seedsIn)
    (if alias then st.2 else controlIn) paths rightshift corr start
  hwyStore h blocks start st r

/-- The last, incomplete vector (/repo/dpf/internal/evaluate_prg_hwy.cc:461-536): `rest` blocks, copied to and
from a buffer of one vector. -/
def hwyRest (h : HwyEnv) (keyL keyR : U128) (blocks numLevels perLevel : Nat)
    (seedsIn : List U128) (controlIn : List Bool) (paths : List U128) (rightshift : Int)
    (corr : CorrArrays) (alias : Bool) (start rest : Nat) (st : List U128 × List Bool) :
    Res (List U128 × List Bool) := do
  let seeds ← slice (if alias then st.1 else seedsIn) start rest
  let path ← slice paths start rest
  let control ← maskFromBools h blocks (if alias then st.2 else controlIn) start rest
  let r ← foldRes (hwyLevel h keyL keyR blocks numLevels rightshift
    (fun j => loadCorrectionsRest h blocks perLevel corr j start rest)
    (path ++ List.replicate (blocks - rest) 0)) (seeds ++ List.replicate (blocks - rest) 0, control)
    (List.range numLevels)
  let seedsOut ← writeAt st.1 start (r.1.take rest)
  let controlOut ← boolsFromMask h blocks r.2 st.2 start rest
  ok (seedsOut, controlOut)

/-- `EvaluateSeedsHwy` (/repo/dpf/internal/evaluate_prg_hwy.cc:150-539). -/
def evaluateSeedsHwy (h : HwyEnv) (env : Env) (keyL keyR : U128) (numSeeds numLevels numCw : Nat)
    (seedsIn : List U128) (controlIn : List Bool) (paths : List U128) (rightshift : Int)
    (corr : CorrArrays) (alias : Bool) (seedsOut : List U128) (controlOut : List Bool) :
    Res (List U128 × List Bool) :=
  if numSeeds = 0 ∨ numLevels = 0 then ok (seedsOut, controlOut)
  else if h.aligned = false ∨ h.lanes < 16 ∨ h.lanes % 16 ≠ 0 then
    evaluateSeedsNoHwy env keyL keyR numSeeds numLevels numCw seedsIn controlIn paths rightshift corr
      alias seedsOut controlOut
  else do
    let numBytes := numSeeds * 16
    let blocks := h.lanes / 16
    let perLevel := numCw / numLevels
    let fours := numBytes / (4 * h.lanes)
    let st ← foldRes (fun st k => hwyFour h keyL keyR blocks numLevels perLevel seedsIn controlIn paths
      rightshift corr alias (k * (4 * h.lanes) / 16) st) (seedsOut, controlOut) (List.range fours)
    let i := fours * (4 * h.lanes)
    let ones := (numBytes - i) / h.lanes
    let st ← foldRes (fun st k => hwyOne h keyL keyR blocks numLevels perLevel seedsIn controlIn paths
      rightshift corr alias ((i + k * h.lanes) / 16) st) st (List.range ones)
    let i := i + ones * h.lanes
    let rest := numSeeds - i / 16
    if rest > 0 then
      hwyRest h keyL keyR blocks numLevels perLevel seedsIn controlIn paths rightshift corr alias
        (i / 16) rest st
    else ok st

end Verif
