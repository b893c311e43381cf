import Verif.Lemmas.Hash
import Verif.Model.SeedsNoHwy
import Verif.Spec.Tree
/-! Helper lemmas on batched seed evaluation without vectors. -/
namespace Verif
open Res Spec

/-! ### Buffers as functions -/

theorem list_eq_range_map {α : Type} (l : List α) (d : α) :
    l = (List.range l.length).map fun i => l[i]?.getD d := by
  apply List.ext_getElem
  · simp
  · intro i h1 h2; simp [h1]

theorem slice_range {α : Type} (F : Nat → α) {n start m : Nat} (h : start + m ≤ n) :
    slice ((List.range n).map F) start m = ok ((List.range m).map fun i => F (start + i)) := by
  rw [slice_eq_ok (by simpa using h)]
  congr 1
  apply List.ext_getElem
  · simp; omega
  · intro i h1 h2; simp

theorem writeAt_range {α : Type} (F G : Nat → α) {n start m : Nat} (h : start + m ≤ n) :
    writeAt ((List.range n).map F) start ((List.range m).map fun i => G (start + i)) =
      ok ((List.range n).map fun j => if start ≤ j ∧ j < start + m then G j else F j) := by
  rw [writeAt_eq_ok (by simpa using h)]
  congr 1
  apply List.ext_getElem
  · simp; omega
  · intro i h1 h2
    simp only [List.getElem_map, List.getElem_range]
    simp only [List.length_map, List.length_range] at h2
    rcases Nat.lt_or_ge i start with hi | hi
    · rw [if_neg (by omega), List.getElem_append_left (by simp; omega),
        List.getElem_append_left (by simp; omega)]
      simp
    · rcases Nat.lt_or_ge i (start + m) with hj | hj
      · rw [if_pos ⟨hi, hj⟩, List.getElem_append_left (by simp; omega),
          List.getElem_append_right (by simp; omega)]
        simp
        congr 1; omega
      · rw [if_neg (by omega), List.getElem_append_right (by simp; omega)]
        simp
        congr 1; omega

theorem rd_range {α : Type} (F : Nat → α) {n i : Nat} (h : i < n) :
    rd ((List.range n).map F) i = ok (F i) := by
  rw [rd_lt (by simpa using h)]; simp

/-! ### Bits -/

theorem lowestBit_eq (x : U128) : lowestBit x = x.getLsbD 0 := by
  unfold lowestBit
  have : x &&& 1#128 = (BitVec.ofBool (x.getLsbD 0)).setWidth 128 := by
    apply BitVec.eq_of_getLsbD_eq
    intro i hi
    simp only [BitVec.getLsbD_and, BitVec.getLsbD_setWidth, BitVec.getLsbD_ofBool]
    cases i with
    | zero => simp
    | succ i => simp
  rw [this]
  cases x.getLsbD 0 <;> decide

theorem pathBit_eq (x : U128) (n : Nat) : pathBit x (n : Int) = ok (x.getLsbD n) := by
  unfold pathBit
  split
  · rename_i h
    have hn : n < 128 := by omega
    rw [shl128_ok hn, bind_ok]
    congr 1
    have : x &&& (1#128 <<< n) = ((BitVec.ofBool (x.getLsbD n)).setWidth 128) <<< n := by
      apply BitVec.eq_of_getLsbD_eq
      intro i hi
      simp only [BitVec.getLsbD_and, BitVec.getLsbD_shiftLeft, BitVec.getLsbD_setWidth,
        BitVec.getLsbD_ofBool, BitVec.getLsbD_one]
      by_cases h1 : i < n
      · simp [h1]
      · by_cases h2 : i = n
        · subst h2; simp [hi]
        · have : i - n ≠ 0 := by omega
          simp [this, h1]
    rw [this]
    cases hb : x.getLsbD n
    · simp
    · have : (BitVec.setWidth 128 (BitVec.ofBool true) <<< n) ≠ 0#128 := by
        intro h0
        have := congrArg (fun v => v.getLsbD n) h0
        simp [hn] at this
      simpa using this
  · rename_i h
    rw [BitVec.getLsbD_of_ge _ _ (by omega)]

/-! ### One level of `EvaluateSeedsNoHwy` -/

/-- Index of the correction word used for seed `j` at `level`. -/
def corrIndex (numSeeds numLevels numCw level j : Nat) : Nat :=
  if numCw > numLevels then level * numSeeds + j else level

/-- The index is inside the arrays of length `q`, and an `int` if it is computed. -/
def CorrOk (numSeeds numLevels numCw q level j : Nat) : Prop :=
  corrIndex numSeeds numLevels numCw level j < q ∧
    (numLevels < numCw → corrIndex numSeeds numLevels numCw level j < 2 ^ 31)

theorem wrapInt32_nat {n : Nat} (h : n < 2 ^ 31) : wrapInt32 (n : Int) = n := by
  unfold wrapInt32; omega

theorem selectBatch_range (p : Nat → U128) (l r : Nat → U128) (k : Nat) {n start m : Nat}
    (h : start + m ≤ n) :
    selectBatch ((List.range n).map p) (k : Int) ((List.range m).map fun i => l (start + i))
      ((List.range m).map fun i => r (start + i)) start m =
    ok ((List.range m).map fun i => ((p (start + i)).getLsbD k,
      if (p (start + i)).getLsbD k then r (start + i) else l (start + i))) := by
  unfold selectBatch
  apply mapRes_eq_ok_map
  intro i hi
  have hi : i < m := by simpa using hi
  rw [rd_range p (by omega), bind_ok, pathBit_eq, bind_ok]
  cases (p (start + i)).getLsbD k
  · simp [rd_range (fun i => l (start + i)) hi]
  · simp [rd_range (fun i => r (start + i)) hi]

theorem correctBatch_range (numSeeds numLevels numCw level : Nat) (cs : Nat → U128)
    (cl cr : Nat → Bool) (q : Nat) (bit : Nat → Bool) (v : Nat → U128) (c : Nat → Bool)
    {start m : Nat}
    (hq : ∀ j, start ≤ j → j < start + m → CorrOk numSeeds numLevels numCw q level j) :
    correctBatch numSeeds numLevels numCw level
      ⟨(List.range q).map cs, (List.range q).map cl, (List.range q).map cr⟩
      ((List.range m).map fun i => (bit (start + i), v (start + i)))
      ((List.range m).map fun i => c (start + i)) start m =
    ok ((List.range m).map fun i =>
      let j := start + i
      let idx := corrIndex numSeeds numLevels numCw level j
      let w := if c j then v j ^^^ cs idx else v j
      (w &&& ~~~1#128, w.getLsbD 0 ^^ (c j && (if bit j then cr idx else cl idx)))) := by
  unfold correctBatch
  apply mapRes_eq_ok_map
  intro i hi
  have hi : i < m := by simpa using hi
  obtain ⟨hlt, hi32⟩ := hq (start + i) (by omega) (by omega)
  have hidx : (if numCw > numLevels then wrapInt32 ((level * numSeeds + start + i : Nat) : Int)
      else (level : Int)) = (corrIndex numSeeds numLevels numCw level (start + i) : Nat) := by
    unfold corrIndex at hlt ⊢
    split
    · rename_i hgt
      rw [if_pos hgt] at hlt
      have := hi32 hgt
      unfold corrIndex at this
      rw [if_pos hgt] at this
      rw [wrapInt32_nat (by omega)]
      omega
    · rfl
  have hrd : ∀ {α : Type} (f : Nat → α), rdInt ((List.range q).map f)
      ((corrIndex numSeeds numLevels numCw level (start + i) : Nat) : Int) =
      ok (f (corrIndex numSeeds numLevels numCw level (start + i))) := by
    intro α f
    unfold rdInt
    rw [if_neg (by omega), Int.toNat_natCast, rd_range f hlt]
  simp only [hidx]
  rw [rd_range (fun i => (bit (start + i), v (start + i))) hi, bind_ok]
  simp only []
  rw [rd_range (fun i => c (start + i)) hi, bind_ok]
  simp only [hrd, bind_ok]
  cases c (start + i)
  · simp [lowestBit_eq, clearLowestBit]
  · cases bit (start + i) <;> simp [lowestBit_eq, clearLowestBit]

/-- Node of seed `j` after one level, as a function of the previous nodes. -/
def nextNode (G : Bool → U128 → U128) (numSeeds numLevels numCw : Nat) (cs : Nat → U128)
    (cl cr : Nat → Bool) (p : Nat → U128) (r level j : Nat) (nd : Node) : Node :=
  let idx := corrIndex numSeeds numLevels numCw level j
  child G (cs idx) (cl idx) (cr idx) ((p j).getLsbD (numLevels - level - 1 + r)) nd

theorem noHwyLevel_range (env : Env) (keyL keyR : U128) (numLevels numCw : Nat)
    (sIn : Nat → U128) (cIn : Nat → Bool) (p : Nat → U128) (r : Nat)
    (cs : Nat → U128) (cl cr : Nat → Bool) (q : Nat) (alias : Bool) (S : Nat → U128)
    (C : Nat → Bool) {n start m level : Nat} (h : start + m ≤ n) (hl : level < numLevels)
    (hq : ∀ j, j < n → CorrOk n numLevels numCw q level j)
    (hfit : numLevels + r ≤ 2 ^ 31) :
    noHwyLevel env keyL keyR n numLevels numCw ((List.range n).map sIn) ((List.range n).map cIn)
      ((List.range n).map p) (r : Int)
      ⟨(List.range q).map cs, (List.range q).map cl, (List.range q).map cr⟩ alias start m
      ((List.range n).map S, (List.range n).map C) level =
    let src : Nat → Node := fun j =>
      if level == 0 && !alias then ⟨sIn j, cIn j⟩ else ⟨S j, C j⟩
    let nx := fun j => nextNode (prgOf env keyL keyR) n numLevels numCw cs cl cr p r level j (src j)
    ok ((List.range n).map fun j => if start ≤ j ∧ j < start + m then (nx j).seed else S j,
      (List.range n).map fun j => if start ≤ j ∧ j < start + m then (nx j).ctrl else C j) := by
  extract_lets src nx
  unfold noHwyLevel
  simp only []
  have hsrcS : (if (level == 0 && !alias) = true then (List.range n).map sIn
      else (List.range n).map S) = (List.range n).map fun j => (src j).seed := by
    simp only [src]; split <;> simp
  have hsrcC : (if (level == 0 && !alias) = true then (List.range n).map cIn
      else (List.range n).map C) = (List.range n).map fun j => (src j).ctrl := by
    simp only [src]; split <;> simp
  rw [hsrcS, hsrcC, slice_range _ h, bind_ok]
  rw [Aes128FixedKeyHash.evaluate_eq _ _ _ _ _ (by simp) (by simp), bind_ok,
    Aes128FixedKeyHash.evaluate_eq _ _ _ _ _ (by simp) (by simp), bind_ok]
  simp only [List.map_map, Function.comp_def]
  have hk : ((numLevels : Int) - level - 1 + r) = ((numLevels - level - 1 + r : Nat) : Int) := by
    omega
  rw [hk, intRange_of (by omega) (by omega), bind_ok]
  rw [selectBatch_range p (fun j => hash env keyL (src j).seed) (fun j => hash env keyR (src j).seed)
    _ h, bind_ok]
  simp only [List.map_map, Function.comp_def]
  rw [writeAt_range S (fun j => if (p j).getLsbD (numLevels - level - 1 + r) then
    hash env keyR (src j).seed else hash env keyL (src j).seed) h, bind_ok, slice_range _ h, bind_ok]
  rw [correctBatch_range n numLevels numCw level cs cl cr q
    (fun j => (p j).getLsbD (numLevels - level - 1 + r))
    (fun j => if (p j).getLsbD (numLevels - level - 1 + r) then
      hash env keyR (src j).seed else hash env keyL (src j).seed) (fun j => (src j).ctrl)
    (fun j h1 h2 => hq j (by omega)), bind_ok]
  simp only [List.map_map, Function.comp_def]
  have hnx : ∀ j, nx j =
      let idx := corrIndex n numLevels numCw level j
      let v := if (p j).getLsbD (numLevels - level - 1 + r) then
        hash env keyR (src j).seed else hash env keyL (src j).seed
      let w := if (src j).ctrl then v ^^^ cs idx else v
      ⟨w &&& ~~~1#128, w.getLsbD 0 ^^ ((src j).ctrl &&
        (if (p j).getLsbD (numLevels - level - 1 + r) then cr idx else cl idx))⟩ := by
    intro j
    simp only [nx, nextNode, child, prgOf]
    cases (p j).getLsbD (numLevels - level - 1 + r) <;> simp
  have e1 : (List.range m).map (fun i =>
      (if (src (start + i)).ctrl = true then
        (if (p (start + i)).getLsbD (numLevels - level - 1 + r) then
          hash env keyR (src (start + i)).seed else hash env keyL (src (start + i)).seed) ^^^
        cs (corrIndex n numLevels numCw level (start + i))
      else (if (p (start + i)).getLsbD (numLevels - level - 1 + r) then
          hash env keyR (src (start + i)).seed else hash env keyL (src (start + i)).seed)) &&&
      ~~~1#128) = (List.range m).map fun i => (nx (start + i)).seed := by
    apply List.map_congr_left
    intro i _
    rw [hnx]
  rw [e1, writeAt_range _ (fun j => (nx j).seed) h, bind_ok]
  have e2 : ∀ (f : Nat → Bool), (∀ j, f j = (nx j).ctrl) →
      (List.range m).map (fun i => f (start + i)) =
        (List.range m).map fun i => (nx (start + i)).ctrl := by
    intro f hf
    apply List.map_congr_left
    intro i _
    rw [hf]
  rw [e2 (fun j => (if (src j).ctrl = true then
        (if (p j).getLsbD (numLevels - level - 1 + r) then
          hash env keyR (src j).seed else hash env keyL (src j).seed) ^^^
        cs (corrIndex n numLevels numCw level j)
      else (if (p j).getLsbD (numLevels - level - 1 + r) then
          hash env keyR (src j).seed else hash env keyL (src j).seed)).getLsbD 0 ^^
      ((src j).ctrl && (if (p j).getLsbD (numLevels - level - 1 + r) then
        cr (corrIndex n numLevels numCw level j) else cl (corrIndex n numLevels numCw level j))))
      (fun j => by rw [hnx])]
  rw [writeAt_range _ (fun j => (nx j).ctrl) h, bind_ok]
  congr 2
  apply List.map_congr_left
  intro j _
  split <;> rfl

/-! ### All levels and batches -/

/-- Node of seed `j` after `level` levels. -/
def nodeAfter (G : Bool → U128 → U128) (numSeeds numLevels numCw : Nat) (sIn : Nat → U128)
    (cIn : Nat → Bool) (cs : Nat → U128) (cl cr : Nat → Bool) (p : Nat → U128) (r : Nat) :
    Nat → Nat → Node
  | 0, j => ⟨sIn j, cIn j⟩
  | level + 1, j => nextNode G numSeeds numLevels numCw cs cl cr p r level j
      (nodeAfter G numSeeds numLevels numCw sIn cIn cs cl cr p r level j)

theorem noHwyLevels_range (env : Env) (keyL keyR : U128) (numLevels numCw : Nat)
    (sIn : Nat → U128) (cIn : Nat → Bool) (p : Nat → U128) (r : Nat)
    (cs : Nat → U128) (cl cr : Nat → Bool) (q : Nat) (alias : Bool) (S : Nat → U128)
    (C : Nat → Bool) {n start m : Nat} (h : start + m ≤ n)
    (hq : ∀ level j, level < numLevels → j < n → CorrOk n numLevels numCw q level j)
    (hfit : numLevels + r ≤ 2 ^ 31)
    (hal : alias = true → ∀ j, start ≤ j → j < start + m → S j = sIn j ∧ C j = cIn j) :
    foldRes (noHwyLevel env keyL keyR n numLevels numCw ((List.range n).map sIn)
      ((List.range n).map cIn) ((List.range n).map p) (r : Int)
      ⟨(List.range q).map cs, (List.range q).map cl, (List.range q).map cr⟩ alias start m)
      ((List.range n).map S, (List.range n).map C) (List.range numLevels) =
    let fin := fun j => if numLevels = 0 then Node.mk (S j) (C j) else
      nodeAfter (prgOf env keyL keyR) n numLevels numCw sIn cIn cs cl cr p r numLevels j
    ok ((List.range n).map fun j => if start ≤ j ∧ j < start + m then (fin j).seed else S j,
      (List.range n).map fun j => if start ≤ j ∧ j < start + m then (fin j).ctrl else C j) := by
  extract_lets fin
  obtain ⟨s', e, hs'⟩ := foldRes_range_inv
    (f := noHwyLevel env keyL keyR n numLevels numCw ((List.range n).map sIn)
      ((List.range n).map cIn) ((List.range n).map p) (r : Int)
      ⟨(List.range q).map cs, (List.range q).map cl, (List.range q).map cr⟩ alias start m)
    (fun k st =>
      let nd := fun j => if k = 0 then Node.mk (S j) (C j) else
        nodeAfter (prgOf env keyL keyR) n numLevels numCw sIn cIn cs cl cr p r k j
      st = ((List.range n).map fun j => if start ≤ j ∧ j < start + m then (nd j).seed else S j,
        (List.range n).map fun j => if start ≤ j ∧ j < start + m then (nd j).ctrl else C j))
    (n := numLevels) (s := ((List.range n).map S, (List.range n).map C))
    (by
      simp only [if_true]
      congr 1 <;> (apply List.map_congr_left; intro j _; split <;> rfl))
    (by
      intro level st hl hst
      simp only [] at hst
      rw [hst, noHwyLevel_range env keyL keyR numLevels numCw sIn cIn p r cs cl cr q alias _ _ h hl
        (fun j hj => hq level j hl hj) hfit]
      refine ⟨_, rfl, ?_⟩
      have key : ∀ j, start ≤ j ∧ j < start + m →
          (if level == 0 && !alias then Node.mk (sIn j) (cIn j) else
            Node.mk
              (if start ≤ j ∧ j < start + m then
                (if level = 0 then Node.mk (S j) (C j) else
                  nodeAfter (prgOf env keyL keyR) n numLevels numCw sIn cIn cs cl cr p r level j).seed
                else S j)
              (if start ≤ j ∧ j < start + m then
                (if level = 0 then Node.mk (S j) (C j) else
                  nodeAfter (prgOf env keyL keyR) n numLevels numCw sIn cIn cs cl cr p r level j).ctrl
                else C j)) =
          nodeAfter (prgOf env keyL keyR) n numLevels numCw sIn cIn cs cl cr p r level j := by
        intro j hj
        rw [if_pos hj, if_pos hj]
        cases level with
        | zero =>
          cases alias with
          | false => simp [nodeAfter]
          | true =>
            have := hal rfl j hj.1 hj.2
            simp [nodeAfter, this]
        | succ l => simp
      simp only [Nat.add_eq_zero_iff, Nat.one_ne_zero, and_false, if_false]
      congr 1
      · apply List.map_congr_left
        intro j _
        by_cases hj : start ≤ j ∧ j < start + m
        · rw [key j hj, if_pos hj, if_pos hj]; rfl
        · rw [if_neg hj, if_neg hj, if_neg hj]
      · apply List.map_congr_left
        intro j _
        by_cases hj : start ≤ j ∧ j < start + m
        · rw [key j hj, if_pos hj, if_pos hj]; rfl
        · rw [if_neg hj, if_neg hj, if_neg hj])
  rw [e, hs']

theorem evaluateSeedsNoHwy_range (env : Env) (keyL keyR : U128) (numLevels numCw : Nat)
    (sIn : Nat → U128) (cIn : Nat → Bool) (p : Nat → U128) (r : Nat)
    (cs : Nat → U128) (cl cr : Nat → Bool) (q : Nat) (alias : Bool) (S : Nat → U128)
    (C : Nat → Bool) (n : Nat)
    (hq : ∀ level j, level < numLevels → j < n → CorrOk n numLevels numCw q level j)
    (hfit : numLevels + r ≤ 2 ^ 31)
    (hal : alias = true → ∀ j, j < n → S j = sIn j ∧ C j = cIn j) :
    evaluateSeedsNoHwy env keyL keyR n numLevels numCw ((List.range n).map sIn)
      ((List.range n).map cIn) ((List.range n).map p) (r : Int)
      ⟨(List.range q).map cs, (List.range q).map cl, (List.range q).map cr⟩ alias
      ((List.range n).map S) ((List.range n).map C) =
    let fin := fun j => if numLevels = 0 then Node.mk (S j) (C j) else
      nodeAfter (prgOf env keyL keyR) n numLevels numCw sIn cIn cs cl cr p r numLevels j
    ok ((List.range n).map fun j => (fin j).seed, (List.range n).map fun j => (fin j).ctrl) := by
  extract_lets fin
  unfold evaluateSeedsNoHwy blockStarts
  rw [foldRes_map]
  have hb : n ≤ (n + Aes128FixedKeyHash.kBatchSize - 1) / Aes128FixedKeyHash.kBatchSize * 64 ∧
      ∀ i, i < (n + Aes128FixedKeyHash.kBatchSize - 1) / Aes128FixedKeyHash.kBatchSize → i * 64 < n :=
    ceilDiv_bounds n 64 (by decide)
  obtain ⟨s', e, hs'⟩ := foldRes_range_inv
    (f := fun st i =>
      let batch := min (n - i * Aes128FixedKeyHash.kBatchSize) Aes128FixedKeyHash.kBatchSize
      foldRes (noHwyLevel env keyL keyR n numLevels numCw ((List.range n).map sIn)
        ((List.range n).map cIn) ((List.range n).map p) (r : Int)
        ⟨(List.range q).map cs, (List.range q).map cl, (List.range q).map cr⟩ alias
        (i * Aes128FixedKeyHash.kBatchSize) batch) st (List.range numLevels))
    (fun i st => st = ((List.range n).map fun j => if j < i * 64 then (fin j).seed else S j,
        (List.range n).map fun j => if j < i * 64 then (fin j).ctrl else C j))
    (n := (n + Aes128FixedKeyHash.kBatchSize - 1) / Aes128FixedKeyHash.kBatchSize)
    (s := ((List.range n).map S, (List.range n).map C))
    (by simp)
    (by
      intro i st hi hst
      have hi' : i * 64 < n := hb.2 i hi
      simp only [Aes128FixedKeyHash.kBatchSize]
      generalize hm : min (n - i * 64) 64 = m
      have hm' : m ≤ 64 ∧ i * 64 + m ≤ n ∧ (m < 64 → i * 64 + m = n) := by omega
      rw [hst, noHwyLevels_range env keyL keyR numLevels numCw sIn cIn p r cs cl cr q alias _ _
        hm'.2.1 hq hfit (by
          intro ha j h1 h2
          rw [if_neg (by omega), if_neg (by omega)]
          exact hal ha j (by omega))]
      refine ⟨_, rfl, ?_⟩
      congr 1
      · apply List.map_congr_left
        intro j hj
        have hj : j < n := by simpa using hj
        by_cases h1 : i * 64 ≤ j ∧ j < i * 64 + m
        · rw [if_pos h1, if_pos (by omega)]
          simp only [fin]
          split
          · rw [if_neg (by omega)]
          · rfl
        · rw [if_neg h1]
          by_cases h2 : j < i * 64
          · rw [if_pos h2, if_pos (by omega)]
          · rw [if_neg h2, if_neg (by omega)]
      · apply List.map_congr_left
        intro j hj
        have hj : j < n := by simpa using hj
        by_cases h1 : i * 64 ≤ j ∧ j < i * 64 + m
        · rw [if_pos h1, if_pos (by omega)]
          simp only [fin]
          split
          · simp only []; rw [if_neg (by omega)]
          · rfl
        · rw [if_neg h1]
          by_cases h2 : j < i * 64
          · rw [if_pos h2, if_pos (by omega)]
          · rw [if_neg h2, if_neg (by omega)])
  rw [e, hs']
  congr 2
  · apply List.map_congr_left
    intro j hj
    have hj : j < n := by simpa using hj
    rw [if_pos (Nat.lt_of_lt_of_le hj hb.1)]
  · apply List.map_congr_left
    intro j hj
    have hj : j < n := by simpa using hj
    rw [if_pos (Nat.lt_of_lt_of_le hj hb.1)]

theorem corrIndex_perSeed {n L l j : Nat} (hl : l < L) (hj : j < n) :
    corrIndex n L (L * n) l j = l * n + j := by
  unfold corrIndex
  split
  · rfl
  · rename_i h
    have : n = 1 := by
      rcases Nat.lt_or_ge n 2 with h1 | h1
      · omega
      · have := Nat.mul_le_mul_left L h1
        omega
    subst this; omega

end Verif
