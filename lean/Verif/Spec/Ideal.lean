import Verif.Spec.Setup
import Verif.Spec.Tree
import Verif.Spec.Prg
/-!
# Specification: key generation as seen by one party

The experiment in which the pseudorandom blocks that the *other* party computes on the path of alpha are
replaced by independent uniform ones. The party's own blocks are the real ones.
-/
namespace Verif.Spec

/-- Seeds of correction words: the lowest bit is zero. -/
abbrev Seed127 := { s : U128 // s.getLsbD 0 = false }

/-- A block with its lowest bit cleared. -/
def clear (x : U128) : Seed127 := ⟨x &&& ~~~1#128, by simp⟩

/-- XOR of seeds. -/
def Seed127.xor (a b : Seed127) : Seed127 := ⟨a.1 ^^^ b.1, by rw [BitVec.getLsbD_xor, a.2, b.2]; rfl⟩

/-- The random values: for each of `L` tree levels the blocks of the left and of the right child, and for each
of `n` hierarchy levels the elements of one block of values. -/
structure Rand (L n : Nat) (T : Nat → Ty) where
  tree : Fin L → U128 × U128
  value : (h : Fin n) → Fin (T h).helper.elementsPerBlock → (T h).den

/-- What a key contains besides the party's own seed: seeds and control bits of the correction words and the
value corrections. -/
structure KeyData (L n : Nat) (T : Nat → Ty) where
  seed : Fin L → Seed127
  control : Fin L → Bool × Bool
  value : (h : Fin n) → Fin (T h).helper.elementsPerBlock → (T h).den

/-- A party: number (`true` is party 1), seed, and its pseudorandom functions. -/
structure Party (T : Nat → Ty) where
  number : Bool
  seed : U128
  prg : Bool → U128 → U128
  elements : (h : Nat) → U128 → Nat → (T h).den

/-- The secret input: the bits of alpha from the top, the position of each prefix of alpha in its block, and
the values. -/
structure Input (T : Nat → Ty) where
  bit : Nat → Bool
  index : Nat → Nat
  beta : (h : Nat) → (T h).den

variable {T : Nat → Ty}

/-- The correction word of a level: the XOR of both parties' blocks of the child off the path, and control bits
that make the parties agree off the path and differ on it. `own` is the party's seed, `other` are the blocks of
the other party. -/
def corrWord (P : Party T) (b : Bool) (own : U128) (other : U128 × U128) : Seed127 × Bool × Bool :=
  ((clear (P.prg (!b) own)).xor (clear (if b then other.1 else other.2)),
    (P.prg false own).getLsbD 0 ^^ other.1.getLsbD 0 ^^ !b,
    (P.prg true own).getLsbD 0 ^^ other.2.getLsbD 0 ^^ b)

/-- The party's node on the path of alpha at tree level `t`. -/
def ownNode (P : Party T) (I : Input T) (tree : Nat → U128 × U128) : Nat → Node
  | 0 => ⟨P.seed, P.number⟩
  | t + 1 =>
    let c := corrWord P (I.bit t) (ownNode P I tree t).seed (tree t)
    child P.prg c.1.1 c.2.1 c.2.2 (I.bit t) (ownNode P I tree t)

/-- A finite sequence continued with `d`. -/
def extend {L : Nat} {α : Type} (f : Fin L → α) (d : α) (t : Nat) : α := if h : t < L then f ⟨t, h⟩ else d

/-- The correction of element `i` of hierarchy level `h`: the (possibly negated) difference of the elements of
party 1, to which beta is added at the position of alpha, and those of party 0. -/
def valueCorr (P : Party T) (I : Input T) (h i : Nat) (own : Node) (other : (T h).den) : (T h).den :=
  let H := (T h).helper
  let mine := P.elements h own.seed i
  let of0 := if P.number then other else mine
  let of1 := if P.number then mine else other
  let diff := H.sub (if i = I.index h then H.add of1 (I.beta h) else of1) of0
  if (own.ctrl == P.number) then H.neg diff else diff

/-- The contents of the party's key; `tree h` is the tree level of hierarchy level `h`. -/
def keyData {L n : Nat} (tree : Nat → Nat) (P : Party T) (I : Input T) (r : Rand L n T) : KeyData L n T :=
  let node := ownNode P I (extend r.tree (0, 0))
  { seed := fun t => (corrWord P (I.bit t) (node t).seed (r.tree t)).1
    control := fun t => (corrWord P (I.bit t) (node t).seed (r.tree t)).2
    value := fun h i => valueCorr P I h i (node (tree h)) (r.value h i) }

/-- The other party's blocks on the path, without control bit. They are in no key. -/
def keptSeeds {L n : Nat} (I : Input T) (r : Rand L n T) (t : Fin L) : Seed127 :=
  clear (if I.bit t then (r.tree t).2 else (r.tree t).1)

/-- The value corrections sent at tree level `t`: those of the hierarchy level with this tree level, if any. -/
def valuesAt {L n : Nat} (tree : Nat → Nat) (v : KeyData L n T) (t : Nat) : List Value :=
  match (List.finRange n).find? fun (h : Fin n) => tree h.1 == t with
  | some h => (List.ofFn (v.value h)).map (T h).helper.toValue
  | none => []

/-- The key with the given contents. -/
def keyOf {L n : Nat} (tree : Nat → Nat) (number : Bool) (seed : U128) (v : KeyData L n T) : DpfKey where
  seed := some seed
  correctionWords := (List.finRange L).map fun t =>
    ⟨(v.seed t).1, (v.control t).1, (v.control t).2, valuesAt tree v t⟩
  party := if number then 1 else 0
  lastLevelValueCorrection := valuesAt tree v L

/-! ## Application to a DPF -/

/-- The elements of level `h` that a seed stands for. -/
def elementsOf (d : Dpf) (env : Env) (T : Nat → Ty) (h : Nat) (seed : U128) : List (T h).den :=
  let blocks := (Dpf.iota seed (d.blocksNeeded.getD h 0)).map (hash env kPrgKeyValue)
  match (T h).helper.convertBytesToArrayOf (blocksBytes blocks) with
  | .ok xs => xs
  | _ => []

/-- A party using a DPF. -/
def dpfParty (d : Dpf) (env : Env) (T : Nat → Ty) (number : Bool) (seed : U128) : Party T where
  number := number
  seed := seed
  prg := dpfPrg env
  elements h s i := (elementsOf d env T h s).getD i (T h).helper.zero

/-- Tree level of a hierarchy level. -/
def treeOf (d : Dpf) (h : Nat) : Nat := d.pv.hierarchyToTree.getD h 0

/-- The input `alpha`, `b` of key generation. -/
def dpfInput (d : Dpf) (params : List DpfParameters) {T : Nat → Ty} (alpha : U128) (b : (h : Nat) → (T h).den) :
    Input T where
  bit t := alpha.toNat.testBit (lastLogSize params - (t + 1))
  index h := alphaPrefix params alpha h % 2 ^ (logSize params h - treeOf d h)
  beta := b

/-- The node of a key on the path of alpha at tree level `t`. -/
def pathNode (env : Env) (params : List DpfParameters) (alpha : U128) (k : DpfKey) (t : Nat) : Node :=
  walk (dpfPrg env) (k.correctionWords.take t) (alpha.toNat / 2 ^ (lastLogSize params - t))
    ⟨k.seed.getD 0, decide (k.party ≠ 0)⟩

/-- Number of correction words. -/
def treeLevels (d : Dpf) : Nat := d.pv.treeLevelsNeeded - 1

/-- The key of party `p` for `alpha` and `b` in the experiment, given the other party's (random) blocks. -/
def experimentKey (d : Dpf) (env : Env) (params : List DpfParameters) (T : Nat → Ty) (p : Bool) (seed : U128)
    (alpha : U128) (b : (h : Nat) → (T h).den) (r : Rand (treeLevels d) params.length T) : DpfKey :=
  keyOf (treeOf d) p seed (keyData (treeOf d) (dpfParty d env T p seed) (dpfInput d params alpha b) r)

/-! ## The same with uniform bits -/

/-- Random blocks: for each tree level those of the two children, and for each hierarchy level `h` those, `k h`
many, from which the elements of one block of values are made. -/
structure Bits (L n : Nat) (k : Nat → Nat) where
  tree : Fin L → U128 × U128
  blocks : (h : Fin n) → Fin (k h) → U128

/-- The elements that blocks stand for. -/
def elementsOfBlocks (t : Ty) (blocks : List U128) : List t.den :=
  match t.helper.convertBytesToArrayOf (blocksBytes blocks) with
  | .ok xs => xs
  | _ => []

/-- Random values from random blocks. -/
def Bits.rand {L n : Nat} {k : Nat → Nat} (r : Bits L n k) (T : Nat → Ty) : Rand L n T where
  tree := r.tree
  value h i := (elementsOfBlocks (T h) (List.ofFn (r.blocks h))).getD i (T h).helper.zero

/-- Number of blocks for the values of a hierarchy level. -/
def blocksOf (d : Dpf) (h : Nat) : Nat := d.blocksNeeded.getD h 0

/-- The blocks that the holder of key `k` computes on the path of alpha. -/
def pathBits (d : Dpf) (env : Env) (params : List DpfParameters) (alpha : U128) (k : DpfKey)
    (L n : Nat) : Bits L n (blocksOf d) where
  tree t := (dpfPrg env false (pathNode env params alpha k t).seed,
    dpfPrg env true (pathNode env params alpha k t).seed)
  blocks h i := hash env kPrgKeyValue ((pathNode env params alpha k (treeOf d h)).seed + BitVec.ofNat 128 i)

end Verif.Spec
