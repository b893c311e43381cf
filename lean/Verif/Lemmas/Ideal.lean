import Verif.Spec.Ideal
import Verif.Lemmas.PointFunction
/-! One party's view of key generation: the map from the random blocks to the key is a bijection. -/
namespace Verif
open Res Spec

/-! ### One level -/

/-- A block from its upper bits and its lowest bit. -/
def setLsb (u : Seed127) (c : Bool) : U128 := u.1 ^^^ (if c then 1#128 else 0#128)

theorem one_getLsbD (i : Nat) : (1#128).getLsbD i = decide (i = 0) := by
  rw [BitVec.getLsbD_one]
  simp

theorem lsb_setLsb (u : Seed127) (c : Bool) : (setLsb u c).getLsbD 0 = c := by
  unfold setLsb
  rw [BitVec.getLsbD_xor, u.2]
  cases c <;> simp

theorem clear_setLsb (u : Seed127) (c : Bool) : clear (setLsb u c) = u := by
  apply Subtype.ext
  show (u.1 ^^^ _) &&& ~~~1#128 = u.1
  apply BitVec.eq_of_getLsbD_eq
  intro i hi
  have h0 := u.2
  rw [BitVec.getLsbD_and, BitVec.getLsbD_xor, BitVec.getLsbD_not, one_getLsbD]
  by_cases h : i = 0
  · subst h
    rw [h0]; simp
  · cases c <;> simp [hi, h]

theorem setLsb_clear (x : U128) : setLsb (clear x) (x.getLsbD 0) = x := by
  show (x &&& ~~~1#128) ^^^ _ = x
  apply BitVec.eq_of_getLsbD_eq
  intro i hi
  rw [BitVec.getLsbD_xor, BitVec.getLsbD_and, BitVec.getLsbD_not, one_getLsbD]
  by_cases h : i = 0
  · subst h
    cases x.getLsbD 0 <;> simp
  · cases x.getLsbD 0 <;> simp [hi, h]

theorem Seed127.xor_cancel (a b : Seed127) : (a.xor (a.xor b)) = b := by
  apply Subtype.ext
  show a.1 ^^^ (a.1 ^^^ b.1) = b.1
  rw [← BitVec.xor_assoc, BitVec.xor_self, BitVec.zero_xor]

variable {T : Nat → Ty}

/-- The other party's blocks, from the correction word and the kept block. -/
def otherBlocks (P : Party T) (b : Bool) (own : U128) (c : Seed127 × Bool × Bool) (kept : Seed127) :
    U128 × U128 :=
  let lose := (clear (P.prg (!b) own)).xor c.1
  (setLsb (if b then lose else kept) ((P.prg false own).getLsbD 0 ^^ c.2.1 ^^ !b),
    setLsb (if b then kept else lose) ((P.prg true own).getLsbD 0 ^^ c.2.2 ^^ b))

theorem bool_cancel (x y z : Bool) : (x ^^ (x ^^ y ^^ z) ^^ z) = y := by
  cases x <;> cases y <;> cases z <;> rfl

theorem otherBlocks_corrWord (P : Party T) (b : Bool) (own : U128) (o : U128 × U128) :
    otherBlocks P b own (corrWord P b own o) (clear (if b then o.2 else o.1)) = o := by
  unfold otherBlocks corrWord
  dsimp only
  rw [Seed127.xor_cancel, bool_cancel, bool_cancel]
  have e : (setLsb (clear o.1) (o.1.getLsbD 0), setLsb (clear o.2) (o.2.getLsbD 0)) = o := by
    rw [setLsb_clear, setLsb_clear]
  cases b
  · exact e
  · exact e

theorem corrWord_otherBlocks (P : Party T) (b : Bool) (own : U128) (c : Seed127 × Bool × Bool) (k : Seed127) :
    corrWord P b own (otherBlocks P b own c k) = c ∧
      clear (if b then (otherBlocks P b own c k).2 else (otherBlocks P b own c k).1) = k := by
  obtain ⟨c1, c2, c3⟩ := c
  unfold otherBlocks corrWord
  dsimp only
  rw [lsb_setLsb, lsb_setLsb, bool_cancel, bool_cancel]
  cases b <;> simp [clear_setLsb, Seed127.xor_cancel]

/-! ### One element -/

/-- The other party's element, from the correction. -/
def otherElement (P : Party T) (I : Input T) (h i : Nat) (own : Node) (c : (T h).den) : (T h).den :=
  let H := (T h).helper
  let mine := P.elements h own.seed i
  let x := if (own.ctrl == P.number) then H.neg c else c
  if P.number then H.add (if i = I.index h then H.add mine (I.beta h) else mine) (H.neg x)
  else if i = I.index h then H.add (H.add x mine) (H.neg (I.beta h)) else H.add x mine

theorem otherElement_valueCorr (P : Party T) (I : Input T) (h i : Nat) (own : Node) (o : (T h).den) :
    otherElement P I h i own (valueCorr P I h i own o) = o := by
  have g := (T h).helper_isGroup
  unfold otherElement valueCorr
  dsimp only
  have e : ∀ (s : Bool) (y : (T h).den), (if s then (T h).helper.neg (if s then (T h).helper.neg y else y)
      else (if s then (T h).helper.neg y else y)) = y := by
    intro s y
    cases s
    · rfl
    · exact g.neg_neg y
  rw [e]
  cases P.number with
  | true =>
    simp only [if_true]
    split
    all_goals
      rw [g.sub_eq, g.neg_add, g.neg_neg, g.add_neg_cancel]
  | false =>
    simp only [Bool.false_eq_true, if_false]
    have e2 : ∀ x a : (T h).den, (T h).helper.add ((T h).helper.sub x a) a = x := by
      intro x a
      rw [g.sub_eq, g.add_assoc, g.neg_add_self, g.add_zero]
    rw [e2]
    split
    · rw [g.add_assoc, g.add_neg, g.add_zero]
    · rfl

theorem valueCorr_otherElement (P : Party T) (I : Input T) (h i : Nat) (own : Node) (c : (T h).den) :
    valueCorr P I h i own (otherElement P I h i own c) = c := by
  have g := (T h).helper_isGroup
  unfold otherElement valueCorr
  dsimp only
  have e : ∀ (s : Bool) (y : (T h).den), (if s then (T h).helper.neg (if s then (T h).helper.neg y else y)
      else (if s then (T h).helper.neg y else y)) = y := by
    intro s y
    cases s
    · rfl
    · exact g.neg_neg y
  cases P.number with
  | true =>
    simp only [if_true]
    have e2 : ∀ m x : (T h).den, (T h).helper.sub m ((T h).helper.add m ((T h).helper.neg x)) = x := by
      intro m x
      rw [g.sub_eq, g.neg_add, g.neg_neg, g.add_neg_cancel]
    rw [e2, e]
  | false =>
    simp only [Bool.false_eq_true, if_false]
    have e2 : (if i = I.index h then (T h).helper.add (if i = I.index h then
        (T h).helper.add ((T h).helper.add (if (own.ctrl == false) = true then (T h).helper.neg c else c)
          (P.elements h own.seed i)) ((T h).helper.neg (I.beta h))
        else (T h).helper.add (if (own.ctrl == false) = true then (T h).helper.neg c else c)
          (P.elements h own.seed i)) (I.beta h)
        else (if i = I.index h then
        (T h).helper.add ((T h).helper.add (if (own.ctrl == false) = true then (T h).helper.neg c else c)
          (P.elements h own.seed i)) ((T h).helper.neg (I.beta h))
        else (T h).helper.add (if (own.ctrl == false) = true then (T h).helper.neg c else c)
          (P.elements h own.seed i))) =
        (T h).helper.add (if (own.ctrl == false) = true then (T h).helper.neg c else c)
          (P.elements h own.seed i) := by
      split
      · rw [g.add_assoc, g.neg_add_self, g.add_zero]
      · rfl
    rw [e2, g.sub_eq, g.add_assoc, g.add_neg, g.add_zero, e]

/-! ### All levels -/

/-- The party's nodes on the path, from correction words. -/
def dataNode (P : Party T) (I : Input T) (c : Nat → Seed127 × Bool × Bool) : Nat → Node
  | 0 => ⟨P.seed, P.number⟩
  | t + 1 => child P.prg (c t).1.1 (c t).2.1 (c t).2.2 (I.bit t) (dataNode P I c t)

theorem ownNode_eq (P : Party T) (I : Input T) (tree : Nat → U128 × U128) (c : Nat → Seed127 × Bool × Bool)
    (n : Nat) (h : ∀ t, t < n → corrWord P (I.bit t) (dataNode P I c t).seed (tree t) = c t) :
    ∀ t, t ≤ n → ownNode P I tree t = dataNode P I c t := by
  intro t
  induction t with
  | zero => intro _; rfl
  | succ t ih =>
    intro ht
    rw [ownNode, dataNode, ih (by omega), h t (by omega)]

theorem ownNode_eq' (P : Party T) (I : Input T) (tree : Nat → U128 × U128) (c : Nat → Seed127 × Bool × Bool)
    (n : Nat) (h : ∀ t, t < n → corrWord P (I.bit t) (ownNode P I tree t).seed (tree t) = c t) :
    ∀ t, t ≤ n → ownNode P I tree t = dataNode P I c t := by
  intro t
  induction t with
  | zero => intro _; rfl
  | succ t ih =>
    intro ht
    rw [ownNode, dataNode, ← ih (by omega), h t (by omega)]

theorem extend_lt {L : Nat} {α : Type} (f : Fin L → α) (d : α) {t : Nat} (h : t < L) :
    extend f d t = f ⟨t, h⟩ := dif_pos h

/-- The random values, from the key and the kept blocks. -/
def unkey {L n : Nat} (tree : Nat → Nat) (P : Party T) (I : Input T)
    (v : KeyData L n T × (Fin L → Seed127)) : Rand L n T :=
  let node := dataNode P I (extend (fun t => (v.1.seed t, v.1.control t)) (clear 0, false, false))
  { tree := fun t => otherBlocks P (I.bit t) (node t).seed (v.1.seed t, v.1.control t) (v.2 t)
    value := fun h i => otherElement P I h i (node (tree h)) (v.1.value h i) }

theorem unkey_keyData {L n : Nat} {tree : Nat → Nat} (htree : ∀ h, h < n → tree h ≤ L) (P : Party T)
    (I : Input T) (r : Rand L n T) : unkey tree P I (keyData tree P I r, keptSeeds I r) = r := by
  have hn : ∀ t, t ≤ L → ownNode P I (extend r.tree (0, 0)) t =
      dataNode P I (extend (fun t => ((keyData tree P I r).seed t, (keyData tree P I r).control t))
        (clear 0, false, false)) t := by
    apply ownNode_eq'
    intro t ht
    rw [extend_lt _ _ ht, extend_lt _ _ ht]
    rfl
  obtain ⟨rt, rv⟩ := r
  unfold unkey
  dsimp only
  congr 1
  · funext t
    rw [← hn t (Nat.le_of_lt t.2)]
    exact otherBlocks_corrWord _ _ _ _
  · funext h i
    rw [← hn _ (htree h h.2)]
    exact otherElement_valueCorr _ _ _ _ _ _

theorem keyData_unkey {L n : Nat} {tree : Nat → Nat} (htree : ∀ h, h < n → tree h ≤ L) (P : Party T)
    (I : Input T) (v : KeyData L n T × (Fin L → Seed127)) :
    (keyData tree P I (unkey tree P I v), keptSeeds I (unkey tree P I v)) = v := by
  have hn : ∀ t, t ≤ L → ownNode P I (extend (unkey tree P I v).tree (0, 0)) t =
      dataNode P I (extend (fun t => (v.1.seed t, v.1.control t)) (clear 0, false, false)) t := by
    apply ownNode_eq
    intro t ht
    rw [extend_lt _ _ ht, extend_lt _ _ ht]
    exact (corrWord_otherBlocks _ _ _ _ _).1
  have hw : ∀ t : Fin L, corrWord P (I.bit t) (ownNode P I (extend (unkey tree P I v).tree (0, 0)) t).seed
      ((unkey tree P I v).tree t) = (v.1.seed t, v.1.control t) := by
    intro t
    rw [hn t (Nat.le_of_lt t.2)]
    exact (corrWord_otherBlocks _ _ _ _ _).1
  have hk : keptSeeds I (unkey tree P I v) = v.2 := by
    funext t
    exact (corrWord_otherBlocks _ _ _ _ _).2
  rw [hk]
  obtain ⟨⟨vs, vc, vv⟩, k⟩ := v
  unfold keyData
  dsimp only at hn hw ⊢
  congr 2
  · funext t
    rw [hw]
  · funext t
    rw [hw]
  · funext h i
    rw [hn _ (htree h h.2)]
    exact valueCorr_otherElement _ _ _ _ _ _

/-! ### Keys of a DPF -/
open Dpf

theorem elementsOf_eq (d : Dpf) (env : Env) (T : Nat → Ty) (h : Nat) (seed : U128) :
    elementsOf d env T h seed = blockElems env (T h) (d.blocksAt h) seed := by
  unfold elementsOf blockElems seedBytes Dpf.blocksAt
  dsimp only
  cases (T h).helper.convertBytesToArrayOf
    (blocksBytes ((Dpf.iota seed (d.blocksNeeded.getD h 0)).map (hash env kPrgKeyValue))) <;> rfl

theorem genCw_comm (G : Bool → U128 → U128) (b : Bool) (n0 n1 : Node) (vc : List Value) :
    genCw G b n0 n1 vc = genCw G b n1 n0 vc := by
  unfold genCw
  rw [BitVec.xor_comm, Bool.xor_comm ((G false n0.seed).getLsbD 0), Bool.xor_comm ((G true n0.seed).getLsbD 0)]

theorem genCw_eq (P : Party T) (b : Bool) (n m : Node) (vc : List Value) :
    genCw P.prg b n m vc =
      let c := corrWord P b n.seed (P.prg false m.seed, P.prg true m.seed)
      ⟨c.1.1, c.2.1, c.2.2, vc⟩ := by
  unfold genCw corrWord
  dsimp only
  have e : (if b then P.prg false m.seed else P.prg true m.seed) = P.prg (!b) m.seed := by cases b <;> rfl
  rw [e]
  have e2 : ∀ x y : Bool, (x ^^ y ^^ b ^^ true) = (x ^^ y ^^ !b) := by
    intro x y; cases x <;> cases y <;> cases b <;> rfl
  rw [e2]
  rfl

/-- The experiment's nodes are those of the key. -/
theorem ownNode_path (P : Party T) (I : Input T) (N M : Nat → Node) (L : Nat) (cw : Nat → CorrectionWord)
    (h0 : N 0 = ⟨P.seed, P.number⟩)
    (hstep : ∀ t, t < L → N (t + 1) = step P.prg (cw t) (I.bit t) (N t))
    (hcw : ∀ t, t < L → cw t = genCw P.prg (I.bit t) (N t) (M t) (cw t).valueCorrection) :
    ∀ t, t ≤ L → ownNode P I (extend (L := L) (fun t => (P.prg false (M t).seed, P.prg true (M t).seed)) (0, 0)) t
      = N t := by
  intro t
  induction t with
  | zero => intro _; exact h0.symm
  | succ t ih =>
    intro ht
    rw [ownNode, ih (by omega), hstep t (by omega), hcw t (by omega), genCw_eq]
    dsimp only
    rw [extend_lt _ _ (by omega : t < L)]
    rfl

theorem find?_finRange_unique {n : Nat} (tree : Nat → Nat) (hinj : ∀ a b, a < n → b < n → tree a = tree b → a = b)
    (h : Fin n) : (List.finRange n).find? (fun (k : Fin n) => tree k.1 == tree h.1) = some h := by
  have hex : ((List.finRange n).find? (fun (k : Fin n) => tree k.1 == tree h.1)).isSome := by
    rw [List.find?_isSome]
    exact ⟨h, by simp, by simp⟩
  obtain ⟨k, hk⟩ := Option.isSome_iff_exists.mp hex
  rw [hk]
  have := List.find?_some hk
  simp only [beq_iff_eq] at this
  congr 1
  exact Fin.ext (hinj _ _ k.2 h.2 this)

theorem valuesAt_tree {L n : Nat} {tree : Nat → Nat}
    (hinj : ∀ a b, a < n → b < n → tree a = tree b → a = b) (v : KeyData L n T) (h : Fin n) :
    valuesAt tree v (tree h.1) = (List.ofFn (v.value h)).map (T h).helper.toValue := by
  unfold valuesAt
  rw [find?_finRange_unique tree hinj h]

theorem valuesAt_at {L n : Nat} {tree : Nat → Nat}
    (hinj : ∀ a b, a < n → b < n → tree a = tree b → a = b) (v : KeyData L n T) (h : Fin n) {t : Nat}
    (ht : tree h.1 = t) : valuesAt tree v t = (List.ofFn (v.value h)).map (T h).helper.toValue := by
  subst ht
  exact valuesAt_tree hinj v h

/-- The values of the last level can be read off a key. -/
theorem keyOf_last_inj {L n : Nat} {tree : Nat → Nat}
    (hinj : ∀ a b, a < n → b < n → tree a = tree b → a = b) (v v' : KeyData L n T) (h : Fin n)
    (ht : tree h.1 = L) {p : Bool} {seed : U128} (e : keyOf tree p seed v = keyOf tree p seed v')
    (i : Fin (T h).helper.elementsPerBlock) : v.value h i = v'.value h i := by
  have h1 := congrArg DpfKey.lastLevelValueCorrection e
  unfold keyOf at h1
  dsimp only at h1
  rw [valuesAt_at hinj v h ht, valuesAt_at hinj v' h ht] at h1
  have h2 : (List.map (T h).helper.toValue (List.ofFn (v.value h)))[i.1]? =
    (List.map (T h).helper.toValue (List.ofFn (v'.value h)))[i.1]? := by rw [h1]
  rw [List.getElem?_map, List.getElem?_map, List.getElem?_eq_getElem (by simp), List.getElem?_eq_getElem (by simp),
    List.getElem_ofFn, List.getElem_ofFn] at h2
  have h3 := Option.some.inj h2
  have h4 := (T h).fromValue_toValue (v.value h i)
  have h5 := (T h).fromValue_toValue (v'.value h i)
  have h6 : (T h).helper.toValue (v.value h i) = (T h).helper.toValue (v'.value h i) := h3
  rw [h6, h5] at h4
  exact (Res.ok.inj h4).symm

theorem valueCorr_sum (P : Party T) (I I' : Input T) (h i : Nat) (own : Node) (x x' : (T h).den)
    (hp : P.number = false) (hi : i = I.index h) (hi' : i = I'.index h)
    (e : valueCorr P I h i own x = valueCorr P I' h i own x') :
    (T h).helper.add x (I.beta h) = (T h).helper.add x' (I'.beta h) := by
  have g := (T h).helper_isGroup
  unfold valueCorr at e
  dsimp only at e
  rw [hp, if_pos hi, if_pos hi'] at e
  simp only [Bool.false_eq_true, if_false] at e
  have cancel : ∀ a b m : (T h).den, (T h).helper.sub a m = (T h).helper.sub b m → a = b := by
    intro a b m h
    have h : (T _).helper.add ((T _).helper.sub a m) m = (T _).helper.add ((T _).helper.sub b m) m := by rw [h]
    rw [g.sub_eq, g.sub_eq] at h
    rw [g.add_assoc, g.neg_add_self, g.add_zero, g.add_assoc, g.neg_add_self, g.add_zero] at h
    exact h
  split at e
  · have := congrArg (T h).helper.neg e
    rw [g.neg_neg, g.neg_neg] at this
    exact cancel _ _ _ this
  · exact cancel _ _ _ e

theorem valuesAt_none {L n : Nat} {tree : Nat → Nat} (v : KeyData L n T) {t : Nat}
    (hn : ∀ h, h < n → tree h ≠ t) : valuesAt tree v t = [] := by
  unfold valuesAt
  have : (List.finRange n).find? (fun (k : Fin n) => tree k.1 == t) = none := by
    rw [List.find?_eq_none]
    intro k _
    simpa using hn k.1 k.2
  rw [this]

namespace Dpf
variable {d : Dpf} {env : Env} {alpha : U128} {b : (h : Nat) → (T h).den} {seed0 seed1 : U128} {k0 k1 : DpfKey}

theorem WF.tree_inj (wf : d.WF) : ∀ x y, x < d.n → y < d.n → d.treeAt x = d.treeAt y → x = y := by
  intro x y hx hy h
  rcases Nat.lt_trichotomy x y with h1 | h1 | h1
  · have := wf.tree_asc x y h1 hy; omega
  · exact h1
  · have := wf.tree_asc y x h1 hx; omega

/-- The corrections of a level are those of the experiment, for either party. -/
theorem valueCorr_list {h : Nat} (ht : d.TypedAt h (T h)) (n0 n1 : Node) (hne : n0.ctrl ≠ n1.ctrl)
    (I : Input T) (p : Bool) (s : U128) :
    corrList env (T h) (d.blocksAt h) n0 n1 (I.index h) (I.beta h) =
      List.ofFn fun i : Fin (T h).helper.elementsPerBlock =>
        valueCorr (dpfParty d env T p s) I h i (if p then n1 else n0)
          ((elementsOf d env T h (if p then n0 else n1).seed).getD i (T h).helper.zero) := by
  have hl := corrList_length env ht.fits n0 n1 (I.index h) (I.beta h)
  apply List.ext_getElem
  · rw [hl, List.length_ofFn]
  · intro i h1 h2
    rw [List.getElem_ofFn]
    have hi : i < (T h).helper.elementsPerBlock := by omega
    have e := corrList_getD env ht.fits n0 n1 (I.index h) (I.beta h) hi
    rw [getD_eq_getElem _ _ _ h1] at e
    rw [e]
    unfold valueCorr dpfParty
    simp only [elementsOf_eq]
    cases p with
    | true =>
      simp only [if_true]
      cases n1.ctrl <;> rfl
    | false =>
      simp only [Bool.false_eq_true, if_false]
      have : n1.ctrl = (n0.ctrl == false) := by
        revert hne
        cases n0.ctrl <;> cases n1.ctrl <;> simp
      rw [this]

theorem nodeAt_succ (k : DpfKey) {t : Nat} (ht : t < k.correctionWords.length)
    (hm : t < d.logAt (d.n - 1)) :
    nodeAt env k (t + 1) (alpha.toNat / 2 ^ (d.logAt (d.n - 1) - (t + 1))) =
      step (dpfPrg env) k.correctionWords[t] (alpha.toNat.testBit (d.logAt (d.n - 1) - (t + 1)))
        (nodeAt env k t (alpha.toNat / 2 ^ (d.logAt (d.n - 1) - t))) := by
  unfold nodeAt
  rw [List.take_add_one, List.getElem?_eq_getElem ht]
  show walk _ (_ ++ [_]) _ _ = _
  rw [walk_snoc]
  obtain ⟨e1, e2⟩ := div_pow_succ (a := alpha.toNat) hm
  rw [Nat.shiftRight_eq_div_pow, Nat.pow_one, e1, Nat.testBit_zero, e2]
  cases alpha.toNat.testBit (d.logAt (d.n - 1) - (t + 1)) <;> rfl

/-- Either key is the result of the experiment at the other party's blocks. -/
theorem GenOk.key_eq (wf : d.WF) (g : GenOk d env alpha T b seed0 seed1 k0 k1)
    (ht : ∀ h, h < d.n → d.TypedAt h (T h)) (p : Bool) {L n : Nat} (hL : L + 1 = d.pv.treeLevelsNeeded)
    (hn : n = d.n) (I : Input T)
    (hbit : ∀ t, I.bit t = alpha.toNat.testBit (d.logAt (d.n - 1) - (t + 1)))
    (hidx : ∀ h, h < d.n → I.index h = d.alphaIndex alpha h) (hbeta : I.beta = b)
    (R : Rand L n T)
    (hRt : ∀ t, R.tree t =
      (dpfPrg env false (nodeAt env (if p then k0 else k1) t (alpha.toNat / 2 ^ (d.logAt (d.n - 1) - t))).seed,
       dpfPrg env true (nodeAt env (if p then k0 else k1) t (alpha.toNat / 2 ^ (d.logAt (d.n - 1) - t))).seed))
    (hRv : ∀ h i, R.value h i = (elementsOf d env T h (nodeAt env (if p then k0 else k1) (d.treeAt h)
      (alpha.toNat / 2 ^ (d.logAt (d.n - 1) - d.treeAt h))).seed).getD i (T h).helper.zero) :
    (if p then k1 else k0) = keyOf (treeOf d) p (if p then seed1 else seed0)
      (keyData (treeOf d) (dpfParty d env T p (if p then seed1 else seed0)) I R) := by
  subst hn
  have hneed := wf.needed
  have htl := wf.tree_le (d.n - 1)
  have hpos := wf.pos
  let P := dpfParty d env T p (if p then seed1 else seed0)
  let N : Nat → Node := fun t => nodeAt env (if p then k1 else k0) t (alpha.toNat / 2 ^ (d.logAt (d.n - 1) - t))
  let M : Nat → Node := fun t => nodeAt env (if p then k0 else k1) t (alpha.toNat / 2 ^ (d.logAt (d.n - 1) - t))
  have hcws : (if p then k1 else k0).correctionWords = k0.correctionWords := by
    cases p
    · rfl
    · exact g.cws
  have hlast : (if p then k1 else k0).lastLevelValueCorrection = k0.lastLevelValueCorrection := by
    cases p
    · rfl
    · exact g.last
  have hlen : k0.correctionWords.length = L := by have := g.len; omega
  let cw : Nat → CorrectionWord := fun t => k0.correctionWords.getD t ⟨0, false, false, []⟩
  have hcwt : ∀ t (h : t < L), k0.correctionWords[t]? = some (cw t) := by
    intro t h
    show _ = some (k0.correctionWords.getD t ⟨0, false, false, []⟩)
    rw [List.getElem?_eq_getElem (by omega), getD_eq_getElem _ _ _ (by omega)]
  have hcw : ∀ t, t < L → cw t = genCw P.prg (I.bit t) (N t) (M t) (cw t).valueCorrection := by
    intro t h
    have := g.gen t (cw t) (hcwt t h)
    rw [hbit]
    show cw t = genCw (dpfPrg env) _ (nodeAt env (if p then k1 else k0) _ _) (nodeAt env (if p then k0 else k1) _ _) _
    cases p
    · exact this
    · rw [genCw_comm]; exact this
  have hstep : ∀ t, t < L → N (t + 1) = step P.prg (cw t) (I.bit t) (N t) := by
    intro t h
    rw [hbit]
    show nodeAt env _ _ _ = _
    rw [nodeAt_succ (if p then k1 else k0) (by rw [hcws]; omega) (by omega)]
    have := hcwt t h
    rw [← hcws, List.getElem?_eq_getElem (by rw [hcws]; omega)] at this
    rw [Option.some.inj this]
    rfl
  have h0 : N 0 = ⟨P.seed, P.number⟩ := by
    show nodeAt env _ 0 _ = ⟨if p then seed1 else seed0, p⟩
    unfold nodeAt
    rw [List.take_zero]
    show root _ = _
    unfold root DpfKey.seedBlock
    cases p
    · simp [g.seed0, g.party0]
    · simp [g.seed1, g.party1]
  have hown : ∀ t, t ≤ L → ownNode P I (extend R.tree (0, 0)) t = N t := by
    have e : R.tree = fun (t : Fin L) => (P.prg false (M t).seed, P.prg true (M t).seed) := by
      funext t; exact hRt t
    rw [e]
    exact ownNode_path P I N M L cw h0 hstep hcw
  have hcorr : ∀ t : Fin L, ((⟨((keyData (treeOf d) P I R).seed t).1, ((keyData (treeOf d) P I R).control t).1,
      ((keyData (treeOf d) P I R).control t).2, (cw t).valueCorrection⟩ : CorrectionWord)) = cw t := by
    intro t
    rw [hcw t t.2]
    have e := genCw_eq P (I.bit t) (N t) (M t) (cw t).valueCorrection
    rw [e]
    show (⟨(corrWord P (I.bit t) (ownNode P I (extend R.tree (0, 0)) t).seed (R.tree t)).1.1, 
      (corrWord P (I.bit t) (ownNode P I (extend R.tree (0, 0)) t).seed (R.tree t)).2.1,
      (corrWord P (I.bit t) (ownNode P I (extend R.tree (0, 0)) t).seed (R.tree t)).2.2, _⟩ : CorrectionWord) = _
    rw [hown t (Nat.le_of_lt t.2), hRt t]
    rfl
  have htreeL : ∀ h, h < d.n → d.treeAt h ≤ L := by
    intro h hh
    have := wf.tree_lt_needed hh
    omega
  have hvals : ∀ (h : Nat) (hh : h < d.n), d.valueCorrectionOf k0 h =
      ok (valuesAt (treeOf d) (keyData (treeOf d) P I R) (d.treeAt h)) := by
    intro h hh
    have e1 := valuesAt_tree (tree := treeOf d) wf.tree_inj (keyData (treeOf d) P I R) ⟨h, hh⟩
    have e2 := g.vc h hh
    rw [e2]
    apply congrArg
    refine Eq.trans ?_ e1.symm
    apply congrArg
    rw [← hidx h hh, ← hbeta]
    have hne := g.on (d.treeAt h) (wf.tree_lt_needed hh)
    rw [valueCorr_list (ht h hh) _ _ hne I p (if p then seed1 else seed0)]
    apply congrArg
    funext i
    show _ = valueCorr P I h i (ownNode P I (extend R.tree (0, 0)) (d.treeAt h)) (R.value ⟨h, hh⟩ i)
    rw [hown _ (htreeL h hh), hRv]
    cases p <;> rfl
  have hcv : ∀ t, t < L → (cw t).valueCorrection = valuesAt (treeOf d) (keyData (treeOf d) P I R) t := by
    intro t hlt
    by_cases hex : ∃ h, h < d.n ∧ d.treeAt h = t
    · obtain ⟨h, hh, rfl⟩ := hex
      have e := hvals h hh
      have hn1 : h < d.n - 1 := by
        rcases Nat.lt_or_ge h (d.n - 1) with h1 | h1
        · exact h1
        · have : h = d.n - 1 := by omega
          subst this; omega
      unfold valueCorrectionOf at e
      rw [if_pos (by show (h : Int) < (d.n : Int) - 1; omega), wf.tree_ok hh, bind_ok, rd_lt (by omega), bind_ok] at e
      have h3 := hcwt _ hlt
      rw [List.getElem?_eq_getElem (by omega)] at h3
      rw [← Option.some.inj h3]
      exact Res.ok.inj e
    · have hno : ∀ h, h < d.n → d.treeAt h ≠ t := fun h hh e => hex ⟨h, hh, e⟩
      rw [g.novc t (cw t) (hcwt t hlt) hno]
      exact (valuesAt_none _ hno).symm
  have hseed : (if p then k1 else k0).seed = some (if p then seed1 else seed0) := by
    cases p
    · exact g.seed0
    · exact g.seed1
  have hparty : (if p then k1 else k0).party = (if p then 1 else 0 : Int) := by
    cases p
    · exact g.party0
    · exact g.party1
  have hlastv : k0.lastLevelValueCorrection = valuesAt (treeOf d) (keyData (treeOf d) P I R) L := by
    have e := hvals (d.n - 1) (by omega)
    unfold valueCorrectionOf at e
    rw [if_neg (by show ¬ ((d.n - 1 : Nat) : Int) < (d.n : Int) - 1; omega)] at e
    rw [Res.ok.inj e]
    congr 1
    omega
  have hlist : k0.correctionWords = (List.finRange L).map fun t =>
      (⟨((keyData (treeOf d) P I R).seed t).1, ((keyData (treeOf d) P I R).control t).1,
      ((keyData (treeOf d) P I R).control t).2, valuesAt (treeOf d) (keyData (treeOf d) P I R) t⟩ : CorrectionWord) := by
    apply List.ext_getElem
    · simp [hlen]
    · intro t h1 h2
      have hlt : t < L := by omega
      simp only [List.getElem_map, List.getElem_finRange]
      have h3 := hcwt _ hlt
      rw [List.getElem?_eq_getElem h1] at h3
      rw [Option.some.inj h3, ← hcorr ⟨t, hlt⟩]
      show (⟨_, _, _, _⟩ : CorrectionWord) = ⟨_, _, _, _⟩
      rw [hcv t hlt]
      rfl
  have key_ext : ∀ (k k' : DpfKey), k.seed = k'.seed → k.correctionWords = k'.correctionWords → k.party = k'.party →
      k.lastLevelValueCorrection = k'.lastLevelValueCorrection → k = k' := by
    intro k k' h1 h2 h3 h4
    cases k; cases k'
    dsimp only at h1 h2 h3 h4
    subst h1 h2 h3 h4
    rfl
  apply key_ext
  · exact hseed
  · rw [hcws]; exact hlist
  · exact hparty
  · rw [hlast]; exact hlastv

end Dpf

end Verif
