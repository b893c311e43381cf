import Verif.Spec.Setup
import Verif.Spec.Tree
import Verif.Spec.Sampling
/-!
# Specification: the algorithm of an incremental distributed point function

What another implementation has to compute to exchange keys with this one. It uses no function of the model of the
code besides the message types and the group operations of a type, which `C25_sum` describes.
-/
namespace Verif.Spec

/-! ## Hash -/

/-- AES keys of the left child, the right child and the values: the first half of the SHA-256 digests of
`DistributedPointFunction::kPrgKeyLeft` and so on (/repo/dpf/distributed_point_function.cc:53-62). -/
def leftKey : U128 := 0x5be037ccf6a03de5935f08d0a5b6a2fd#128
@[inherit_doc leftKey] def rightKey : U128 := 0xef94b6aedebb026ce2ea1fe0f66f4d0b#128
@[inherit_doc leftKey] def valueKey : U128 := 0x05a5d1588c5423e346a31101b21d1c98#128

/-- Circular-correlation robust hash of a block `x` with halves `high` and `low`: `AES(key, y) ^ y` for the block `y`
with halves `high ^ low` and `high`. -/
def hashBlock (aes : U128 → U128 → U128) (key x : U128) : U128 :=
  let high := x.extractLsb' 64 64
  let low := x.extractLsb' 0 64
  let y := (high ^^^ low) ++ high
  aes key y ^^^ y

/-- The PRGs for the children of a node. -/
def treePrg (aes : U128 → U128 → U128) (b : Bool) : U128 → U128 :=
  hashBlock aes (if b then rightKey else leftKey)

/-- The 16 bytes of a block, least significant first. -/
def blockToBytes (x : U128) : Bytes := (List.range 16).map fun i => x.extractLsb' (8 * i) 8

/-- Pseudorandom bytes for the values below a node: the hashes of `seed`, `seed + 1`, … -/
def valueBytes (aes : U128 → U128 → U128) (seed : U128) (blocks : Nat) : Bytes :=
  (List.range blocks).flatMap fun j => blockToBytes (hashBlock aes valueKey (seed + BitVec.ofNat 128 j))

/-- `e` is the element number `i` that the node with this seed stands for. -/
def IsElement (aes : U128 → U128 → U128) (t : Ty) (seed : U128) (i : Nat) (e : t.den) : Prop :=
  (elementsFrom t (valueBytes aes seed ((t.bytesRead + 15) / 16)))[i]? = some (numbersOf t e)

/-! ## Shape of the tree -/

/-- Number of elements in a block. -/
def perBlock (t : Ty) : Nat := if t.noMod ∧ t.leafBytes ≤ 16 then 16 / t.leafBytes else 1

/-- The depth of a level in the tree is the smallest one larger than those of the levels before, such that the values
below a node fit into a block. -/
def IsDepth (params : List DpfParameters) (T : Nat → Ty) (depth : Nat → Nat) : Prop :=
  ∀ h < params.length, (∀ j < h, depth j < depth h) ∧ 2 ^ (logSize params h - depth h) ≤ perBlock (T h) ∧
    ∀ t < depth h, (∀ j < h, depth j < t) → perBlock (T h) < 2 ^ (logSize params h - t)

/-- The value corrections of level `h`: in the correction word at the depth of the level, for the last level apart. -/
def corrections (params : List DpfParameters) (depth : Nat → Nat) (key : DpfKey) (h : Nat) : List Value :=
  if h + 1 = params.length then key.lastLevelValueCorrection
  else ((key.correctionWords[depth h]?).map (·.valueCorrection)).getD []

/-- A key with a seed, a correction word for every depth and value corrections for every level. -/
structure HasShape (params : List DpfParameters) (depth : Nat → Nat) (key : DpfKey) : Prop where
  seed : key.seed ≠ none
  words : key.correctionWords.length = depth (params.length - 1)
  values : ∀ h < params.length, corrections params depth key h ≠ []

/-! ## Evaluation -/

/-- The node of a key at depth `t` on the path given by the `t` bits of `y`. -/
def keyNode (aes : U128 → U128 → U128) (key : DpfKey) (t y : Nat) : Node :=
  walk (treePrg aes) (key.correctionWords.take t) y ⟨key.seed.getD 0, decide (key.party ≠ 0)⟩

/-- `y` is the value of the key at point `x` of a level with `2^log` points, depth `depth` and value corrections `corr`:
the element of the point, corrected if the control bit of the node is set, and negated for party 1. -/
def IsShare (aes : U128 → U128 → U128) (t : Ty) (log depth : Nat) (key : DpfKey) (corr : List t.den) (x : U128)
    (y : t.den) : Prop :=
  let node := keyNode aes key depth (x.toNat / 2 ^ (log - depth))
  let i := x.toNat % 2 ^ (log - depth)
  ∃ e c, IsElement aes t node.seed i e ∧ corr[i]? = some c ∧
    let s := if node.ctrl then t.helper.add e c else e
    y = if key.party = 1 then t.helper.neg s else s

/-- `corr` are the elements for which the library takes the value corrections `vs` of a level of type `t`. -/
def ReadsCorrections (t : Ty) (vs : List Value) (corr : List t.den) : Prop :=
  vs.length = perBlock t ∧ corr.length = perBlock t ∧
    ∀ (i : Nat) (v : Value) (c : t.den), vs[i]? = some v → corr[i]? = some c → Reads t v c

/-- A key that can be evaluated at the given points of a level: an existing level, a key of the right shape, points in
the domain, and, unless there is no point, value corrections of the level that can be read. -/
structure EvaluableAt (params : List DpfParameters) (T : Nat → Ty) (depth : Nat → Nat) (key : DpfKey) (h : Int)
    (points : List U128) : Prop where
  level : 0 ≤ h ∧ h < params.length
  shape : HasShape params depth key
  inside : ∀ x ∈ points, x.toNat < 2 ^ logSize params h.toNat
  values : points ≠ [] → ∃ corr, ReadsCorrections (T h.toNat) (corrections params depth key h.toNat) corr

/-! ## Key generation -/

/-- The keys for point `alpha` and values `b`. -/
structure AreKeys (aes : U128 → U128 → U128) (params : List DpfParameters) (T : Nat → Ty) (depth : Nat → Nat)
    (alpha : U128) (b : (h : Nat) → (T h).den) (seed0 seed1 : U128) (k0 k1 : DpfKey) : Prop where
  /-- The keys differ in seed and party only. -/
  key0 : k0.seed = some seed0 ∧ k0.party = 0
  key1 : k1.seed = some seed1 ∧ k1.party = 1
  shared : k0.correctionWords = k1.correctionWords ∧ k0.lastLevelValueCorrection = k1.lastLevelValueCorrection
  words : k0.correctionWords.length = depth (params.length - 1)
  /-- A correction word makes the children off the path of alpha equal, and the control bits of those on it different. -/
  word : ∀ (t : Nat) (cw : CorrectionWord), k0.correctionWords[t]? = some cw →
    let s0 := (keyNode aes k0 t (alpha.toNat / 2 ^ (lastLogSize params - t))).seed
    let s1 := (keyNode aes k1 t (alpha.toNat / 2 ^ (lastLogSize params - t))).seed
    let right := alpha.toNat.testBit (lastLogSize params - (t + 1))
    cw.seed = (treePrg aes (!right) s0 ^^^ treePrg aes (!right) s1) &&& ~~~1#128 ∧
    cw.controlLeft = ((treePrg aes false s0 ^^^ treePrg aes false s1).getLsbD 0 ^^ !right) ∧
    cw.controlRight = ((treePrg aes true s0 ^^^ treePrg aes true s1).getLsbD 0 ^^ right) ∧
    ((∀ h < params.length, depth h ≠ t) → cw.valueCorrection = [])
  /-- A value correction makes the values add up to `b` at the prefix of alpha, and to zero next to it. -/
  value : ∀ h < params.length, (corrections params depth k0 h).length = perBlock (T h) ∧
    ∀ (i : Nat) (v : Value), (corrections params depth k0 h)[i]? = some v →
      let H := (T h).helper
      let n0 := keyNode aes k0 (depth h) (alpha.toNat / 2 ^ (lastLogSize params - depth h))
      let n1 := keyNode aes k1 (depth h) (alpha.toNat / 2 ^ (lastLogSize params - depth h))
      ∃ e0 e1, IsElement aes (T h) n0.seed i e0 ∧ IsElement aes (T h) n1.seed i e1 ∧
        let target := if i = alphaPrefix params alpha h % 2 ^ (logSize params h - depth h) then H.add e1 (b h) else e1
        Represents (T h) v (if n1.ctrl then H.neg (H.sub target e0) else H.sub target e0)

/-! ## Addition -/

mutual
/-- How the numbers in elements of a type are added. -/
def addOf : Ty → List (Nat → Nat → Nat)
  | .uint w => [fun a b => (a + b) % 2 ^ w.bits]
  | .intModN _ N _ _ => [fun a b => (a + b) % N.toNat]
  | .xorWrapper _ => [fun a b => a ^^^ b]
  | .tuple ts => addOfAll ts
@[inherit_doc addOf] def addOfAll : Tys → List (Nat → Nat → Nat)
  | .one t => addOf t
  | .cons t ts => addOf t ++ addOfAll ts
end

/-- Number by number. -/
def addNumbers : List (Nat → Nat → Nat) → List Nat → List Nat → List Nat
  | f :: fs, a :: as, b :: bs => f a b :: addNumbers fs as bs
  | _, _, _ => []

end Verif.Spec
