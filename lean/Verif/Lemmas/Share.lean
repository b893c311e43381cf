import Verif.Lemmas.DpfLevels
import Verif.Lemmas.EvalSeeds
/-! The value a key gives at a point, and `EvaluateAt` in terms of it. -/
namespace Verif
open Res Spec

theorem slice_flatMap {α β : Type} (l : List α) (f : α → List β) {k : Nat}
    (hf : ∀ a, (f a).length = k) {i : Nat} (hi : i < l.length) :
    slice (l.flatMap f) (i * k) k = ok (f l[i]) := by
  have hlen : ∀ l : List α, (l.flatMap f).length = l.length * k := by
    intro l
    induction l with
    | nil => simp
    | cons a l ih => simp [List.flatMap_cons, ih, hf, Nat.add_mul, Nat.add_comm]
  have hb : i * k + k ≤ l.length * k := by
    have := Nat.mul_le_mul_right k (show i + 1 ≤ l.length from hi)
    rw [Nat.add_mul, Nat.one_mul] at this
    exact this
  rw [slice_eq_ok (by rw [hlen]; exact hb)]
  congr 1
  have : l = l.take i ++ l[i] :: l.drop (i + 1) := by simp
  conv => lhs; rw [this]
  rw [List.flatMap_append, List.flatMap_cons]
  have h1 : ((l.take i).flatMap f).length = i * k := by
    rw [hlen]; congr 1; simp; omega
  rw [List.drop_append_of_le_length (by omega), List.drop_of_length_le (by omega), List.nil_append,
    List.take_append_of_le_length (by simp [hf]), List.take_of_length_le (by simp [hf])]

theorem Dpf.iota_length (x : U128) (k : Nat) : (Dpf.iota x k).length = k := by simp [Dpf.iota]

/-- Pseudorandom bytes derived from a seed. -/
def seedBytes (env : Env) (k : Nat) (seed : U128) : Bytes :=
  blocksBytes ((Dpf.iota seed k).map (hash env kPrgKeyValue))

theorem seedBytes_length (env : Env) (k : Nat) (seed : U128) :
    (seedBytes env k seed).length = 16 * k := by
  rw [seedBytes, blocksBytes_length]; simp [Dpf.iota_length]

/-- Elements derived from a seed. -/
def blockElems (env : Env) (T : Ty) (k : Nat) (seed : U128) : List T.den :=
  match T.helper.convertBytesToArrayOf (seedBytes env k seed) with
  | ok xs => xs
  | _ => []

theorem blockElems_ok (env : Env) {T : Ty} {k : Nat} (h : T.bytesRead ≤ 16 * k) (seed : U128) :
    T.helper.convertBytesToArrayOf (seedBytes env k seed) = ok (blockElems env T k seed) ∧
    (blockElems env T k seed).length = T.helper.elementsPerBlock := by
  obtain ⟨xs, h1, h2⟩ := T.convert_ok (seedBytes env k seed) (by rw [seedBytes_length]; exact h)
  unfold blockElems
  rw [h1]
  exact ⟨rfl, h2⟩

namespace Dpf

/-- Root of the tree of a key. -/
def root (key : DpfKey) : Node := ⟨key.seedBlock, decide (key.party ≠ 0)⟩

/-- The node at depth `t` along `y`. -/
def nodeAt (env : Env) (key : DpfKey) (t y : Nat) : Node :=
  walk (dpfPrg env) (key.correctionWords.take t) y (root key)

/-- Value correction and negation of one element. -/
def correct {α : Type} (H : Helper α) (corr : List α) (party : Int) (ctrl : Bool) (b : Nat)
    (e : α) : α :=
  let e := if ctrl then H.add e (corr.getD b H.zero) else e
  if party = 1 then H.neg e else e

variable (d : Dpf)

/-- Bits of a domain element below the tree level. -/
def gapAt (h : Nat) : Nat := d.logAt h - d.treeAt h

/-- The value of a key at a point of level `h`. -/
def share (env : Env) (T : Ty) (key : DpfKey) (h : Nat) (corr : List T.den) (x : Nat) : T.den :=
  let nd := nodeAt env key (d.treeAt h) (x / 2 ^ d.gapAt h)
  let b := x % 2 ^ d.gapAt h
  correct T.helper corr key.party nd.ctrl b
    ((blockElems env T (d.blocksAt h) nd.seed).getD b T.helper.zero)

variable {d}

theorem WF.gap_le (wf : d.WF) (h : Nat) : d.gapAt h ≤ 7 := by
  have := wf.log_le_tree h
  unfold gapAt; omega

theorem WF.param_ok (_wf : d.WF) {h : Nat} (hh : h < d.n) :
    ∃ p, d.param h = ok p ∧ d.pv.parameters[h]? = some p := by
  refine ⟨d.pv.parameters[h]'hh, ?_, List.getElem?_eq_getElem hh⟩
  rw [Dpf.param, rd_lt (show h < d.pv.parameters.length from hh)]; rfl

theorem WF.tree_ok (wf : d.WF) {h : Nat} (hh : h < d.n) :
    rd d.pv.hierarchyToTree h = ok (d.treeAt h) := by
  rw [rd_getD (by rw [wf.len_tree]; exact hh) 0]; rfl

theorem WF.blocks_ok (wf : d.WF) {h : Nat} (hh : h < d.n) :
    rd d.blocksNeeded h = ok (d.blocksAt h) := by
  rw [rd_getD (by rw [wf.len_blocks]; exact hh) 0]; rfl

theorem WF.lastLog_ok (wf : d.WF) : d.lastLog = ok (d.logAt (d.n - 1) : Int) := by
  unfold lastLog
  have hpos := wf.pos
  have : d.pv.parameters.getLast? = d.pv.parameters[d.n - 1]? := by
    rw [List.getLast?_eq_getElem?]; rfl
  obtain ⟨p, _, hp⟩ := wf.param_ok (h := d.n - 1) (by omega)
  rw [this, hp]
  simp only []
  rw [wf.log_eq _ _ hp]

theorem WF.blockIndexBits_ok (wf : d.WF) {h : Nat} (hh : h < d.n) :
    d.blockIndexBits h = ok (d.gapAt h : Int) := by
  obtain ⟨p, hp, hp'⟩ := wf.param_ok hh
  unfold blockIndexBits
  rw [hp, bind_ok, wf.tree_ok hh, bind_ok, wf.log_eq h p hp']
  have := wf.tree_le h
  congr 1
  unfold gapAt; omega

theorem WF.domainToTreeIndex_ok (wf : d.WF) {h : Nat} (hh : h < d.n) (x : U128) :
    d.domainToTreeIndex x h = ok (x >>> d.gapAt h) := by
  unfold domainToTreeIndex
  rw [wf.blockIndexBits_ok hh, bind_ok, shr128_ok (by have := wf.gap_le h; omega)]

theorem WF.domainToBlockIndex_ok (wf : d.WF) {h : Nat} (hh : h < d.n) (x : U128) :
    d.domainToBlockIndex x h = ok (x.toNat % 2 ^ d.gapAt h) := by
  unfold domainToBlockIndex
  have hg := wf.gap_le h
  rw [wf.blockIndexBits_ok hh, bind_ok, shl128_ok (by omega), bind_ok]
  congr 1
  have h1 : 2 ^ d.gapAt h ≤ 2 ^ 7 := Nat.pow_le_pow_right (by decide) hg
  have h2 : 0 < 2 ^ d.gapAt h := Nat.two_pow_pos _
  have h3 : ((1#128 <<< d.gapAt h) - 1#128).toNat = 2 ^ d.gapAt h - 1 := by
    rw [BitVec.toNat_sub, BitVec.toNat_shiftLeft, Nat.shiftLeft_eq]
    simp only [BitVec.toNat_ofNat]
    omega
  rw [BitVec.toNat_and]
  show x.toNat &&& ((1#128 <<< d.gapAt h) - 1#128).toNat = _
  rw [h3, Nat.and_two_pow_sub_one_eq_mod]

theorem shr_toNat (x : U128) (g : Nat) : (x >>> g).toNat = x.toNat / 2 ^ g := by
  rw [BitVec.toNat_ushiftRight, Nat.shiftRight_eq_div_pow]

/-- Key shape checked by `ValidateDpfKey`. -/
structure KeyOk (d : Dpf) (key : DpfKey) : Prop where
  seed : key.seed ≠ none
  last : key.lastLevelValueCorrection ≠ []
  len : key.correctionWords.length + 1 = d.pv.treeLevelsNeeded
  vc : ∀ h, h + 1 < d.n → ∀ cw, key.correctionWords[d.treeAt h]? = some cw → cw.valueCorrection ≠ []

/-- The number of levels of a part of the tree is an `int`. -/
theorem WF.take_int (wf : d.WF) {α : Type} (h s : Nat) (l : List α) :
    (l.take (d.treeAt h - s)).length < 2 ^ 31 := by
  have := wf.tree_le h
  have := wf.log_le h
  rw [List.length_take]
  omega

theorem WF.tree_lt_needed (wf : d.WF) {h : Nat} (hh : h < d.n) :
    d.treeAt h < d.pv.treeLevelsNeeded := by
  rw [wf.needed]
  rcases Nat.lt_or_ge h (d.n - 1) with h1 | h1
  · have := wf.tree_asc h (d.n - 1) h1 (by have := wf.pos; omega); omega
  · have : h = d.n - 1 := by omega
    rw [this]; omega

theorem WF.tree_lt_needed' (wf : d.WF) {h : Nat} (hh : h + 1 < d.n) :
    d.treeAt h + 1 < d.pv.treeLevelsNeeded := by
  rw [wf.needed]
  have := wf.tree_asc h (d.n - 1) (by omega) (by have := wf.pos; omega); omega

theorem WF.validateDpfKey_iff (wf : d.WF) (key : DpfKey) :
    d.pv.validateDpfKey key = ok () ↔ d.KeyOk key := by
  unfold ProtoValidator.validateDpfKey
  have hl : ∀ t ∈ d.pv.hierarchyToTree, ∃ h, h < d.n ∧ d.treeAt h = t := by
    intro t ht
    obtain ⟨i, hi, rfl⟩ := List.getElem_of_mem ht
    exact ⟨i, by rw [← wf.len_tree]; exact hi, getD_eq_getElem _ _ _ hi⟩
  have hpos := wf.pos
  have hnd := wf.needed
  constructor
  · intro h
    obtain ⟨_, h1, h⟩ := bind_eq_ok.mp h
    obtain ⟨_, h2, h⟩ := bind_eq_ok.mp h
    obtain ⟨_, h3, h⟩ := bind_eq_ok.mp h
    obtain ⟨us, h4, _⟩ := bind_eq_ok.mp h
    rw [failIf_eq_ok] at h1 h2 h3
    have hlen : key.correctionWords.length + 1 = d.pv.treeLevelsNeeded := by omega
    refine ⟨h1, h2, hlen, ?_⟩
    intro h hh cw hcw
    have := mapRes_unit_eq_ok.mp ⟨us, h4⟩ (d.treeAt h) (by
      rw [Dpf.treeAt, getD_eq_getElem _ _ _ (by rw [wf.len_tree]; omega)]; simp)
    unfold ProtoValidator.validateKeyLevel at this
    rw [if_neg (by have := wf.tree_lt_needed' hh; omega), rd_eq_ok.mpr hcw, bind_ok,
      failIf_eq_ok] at this
    exact this
  · intro hk
    rw [failIf_false hk.seed, bind_ok, failIf_false hk.last, bind_ok,
      failIf_false (by have := hk.len; omega), bind_ok]
    obtain ⟨us, hus⟩ := (mapRes_unit_eq_ok (f := d.pv.validateKeyLevel key)
      (l := d.pv.hierarchyToTree)).mpr (by
      intro t ht
      obtain ⟨h, hh, rfl⟩ := hl t ht
      unfold ProtoValidator.validateKeyLevel
      split
      · rfl
      · rename_i hne
        have h1 := wf.tree_lt_needed hh
        have hlt : d.treeAt h < key.correctionWords.length := by have := hk.len; omega
        have hh' : h + 1 < d.n := by
          rcases Nat.lt_or_ge (h + 1) d.n with h2 | h2
          · exact h2
          · have : h = d.n - 1 := by omega
            subst this; omega
        rw [rd_lt hlt, bind_ok, failIf_false]
        exact hk.vc h hh' _ (List.getElem?_eq_getElem hlt))
    rw [hus]; rfl

/-- A key is either accepted or rejected with INVALID_ARGUMENT. -/
theorem WF.validateDpfKey_cases (wf : d.WF) (key : DpfKey) :
    d.pv.validateDpfKey key = ok () ∨ d.pv.validateDpfKey key = err .invalidArgument := by
  have : OkOrInvalid (d.pv.validateDpfKey key) := by
    unfold ProtoValidator.validateDpfKey
    refine (OkOrInvalid.failIf _).bind fun _ _ => (OkOrInvalid.failIf _).bind fun _ _ =>
      (OkOrInvalid.failIf _).bind fun _ h3 => ?_
    rw [failIf_eq_ok] at h3
    have hl : ∀ t ∈ d.pv.hierarchyToTree, OkOrInvalid (d.pv.validateKeyLevel key t) := by
      intro t ht
      obtain ⟨i, hi, rfl⟩ := List.getElem_of_mem ht
      unfold ProtoValidator.validateKeyLevel
      split
      · exact .ok _
      · rename_i hne
        have h1 := wf.tree_lt_needed (h := i) (by rw [← wf.len_tree]; exact hi)
        rw [Dpf.treeAt, getD_eq_getElem _ _ _ hi] at h1
        rw [rd_lt (by omega), bind_ok]
        exact .failIf _
    refine OkOrInvalid.bind ?_ fun _ _ => .ok _
    generalize d.pv.hierarchyToTree = l at hl
    induction l with
    | nil => exact .ok _
    | cons t l ih =>
      rw [mapRes_cons]
      exact (hl t (by simp)).bind fun _ _ => (ih fun t ht => hl t (by simp [ht])).bind fun _ _ => .ok _
  rcases this with ⟨_, h⟩ | h
  · exact Or.inl h
  · exact Or.inr h

theorem WF.hashExpandedSeeds_ok (wf : d.WF) {h : Nat} (hh : h < d.n) (env : Env)
    (seeds : List U128) :
    d.hashExpandedSeeds env h seeds = ok (seeds.flatMap fun s =>
      (iota s (d.blocksAt h)).map (hash env kPrgKeyValue)) := by
  unfold hashExpandedSeeds
  rw [wf.blocks_ok hh, bind_ok, Aes128FixedKeyHash.evaluate_eq _ _ _ _ _ rfl (fun _ => rfl),
    List.map_flatMap]

theorem WF.slice_hashed {h : Nat} (env : Env) (seeds : List U128) {i : Nat}
    (hi : i < seeds.length) :
    slice (seeds.flatMap fun s => (iota s (d.blocksAt h)).map (hash env kPrgKeyValue))
      (i * d.blocksAt h) (d.blocksAt h) =
      ok ((iota seeds[i] (d.blocksAt h)).map (hash env kPrgKeyValue)) := by
  rw [slice_flatMap seeds _ (by simp [iota_length]) hi]

/-- The value correction message of a level. -/
def valueCorrectionOf (d : Dpf) (key : DpfKey) (h : Nat) : Res (List Value) :=
  if (h : Int) < (d.pv.parameters.length : Int) - 1 then
    rd d.pv.hierarchyToTree h >>= fun t => rd key.correctionWords t >>= fun cw =>
      ok cw.valueCorrection
  else ok key.lastLevelValueCorrection

theorem getValueCorrection_unfold {α : Type} (H : Helper α) (key : DpfKey) (h : Nat) :
    d.getValueCorrectionAsArray H key h = (d.valueCorrectionOf key h >>= H.valuesToArray) := by
  unfold getValueCorrectionAsArray valueCorrectionOf
  split <;> simp [bind_assoc]

/-- Value correction arrays have the length of a block. -/
theorem getValueCorrection_length {α : Type} {H : Helper α} {key : DpfKey} {h : Nat} {corr : List α}
    (hc : d.getValueCorrectionAsArray H key h = ok corr) : corr.length = H.elementsPerBlock := by
  rw [getValueCorrection_unfold] at hc
  obtain ⟨vc, _, hc⟩ := bind_eq_ok.mp hc
  unfold Helper.valuesToArray at hc
  split at hc
  · simp at hc
  · rename_i hl
    rw [mapRes_length hc]; omega

theorem SizedAt.mod_lt {h : Nat} {T : Ty} (ht : d.SizedAt h T) (x : Nat) :
    x % 2 ^ d.gapAt h < T.helper.elementsPerBlock :=
  Nat.lt_of_lt_of_le (Nat.mod_lt _ (Nat.two_pow_pos _)) ht.elems

theorem SizedAt.gap_zero {h : Nat} {T : Ty} (ht : d.SizedAt h T)
    (he : ¬ T.helper.elementsPerBlock > 1) : d.gapAt h = 0 := by
  have h1 := ht.elems
  rcases Nat.eq_zero_or_pos (d.gapAt h) with h0 | h0
  · exact h0
  · have : 2 ^ 1 ≤ 2 ^ d.gapAt h := Nat.pow_le_pow_right (by decide) h0
    unfold gapAt at this; omega

theorem WF.treeIndicesFor_sized (wf : d.WF) {h : Nat} (hh : h < d.n) {T : Ty} (ht : d.SizedAt h T)
    (points : List U128) :
    d.treeIndicesFor T.helper h points = ok (points.map fun x : U128 => x >>> d.gapAt h) := by
  unfold treeIndicesFor
  split
  · exact mapRes_eq_ok_map fun x _ => wf.domainToTreeIndex_ok hh x
  · rename_i he
    rw [ht.gap_zero he]; simp

theorem TypedAt.sized {h : Nat} {T : Ty} (ht : d.TypedAt h T) : d.SizedAt h T := ⟨ht.fits, ht.elems⟩

theorem TypedAt.mod_lt {h : Nat} {T : Ty} (ht : d.TypedAt h T) (x : Nat) :
    x % 2 ^ d.gapAt h < T.helper.elementsPerBlock := ht.sized.mod_lt x

theorem TypedAt.gap_zero {h : Nat} {T : Ty} (ht : d.TypedAt h T)
    (he : ¬ T.helper.elementsPerBlock > 1) : d.gapAt h = 0 := ht.sized.gap_zero he

theorem WF.treeIndicesFor_ok (wf : d.WF) {h : Nat} (hh : h < d.n) {T : Ty} (ht : d.TypedAt h T)
    (points : List U128) :
    d.treeIndicesFor T.helper h points = ok (points.map fun x : U128 => x >>> d.gapAt h) :=
  wf.treeIndicesFor_sized hh ht.sized points

theorem subspan_ok {α : Type} (l : List α) {a b : Nat} (h1 : a ≤ l.length) (h2 : a ≤ b) :
    subspan l a ((b : Int) - a) = ok ((l.drop a).take (b - a)) := by
  unfold subspan
  rw [if_neg (by omega), if_neg (by omega)]
  congr 2; omega

theorem walk_split (G : Bool → U128 → U128) (cws : List CorrectionWord) {a b : Nat} (h : a ≤ b)
    (hb : b ≤ cws.length) (x : Nat) (nd : Node) :
    walk G ((cws.drop a).take (b - a)) x (walk G (cws.take a) (x / 2 ^ (b - a)) nd) =
      walk G (cws.take b) x nd := by
  have e : cws.take b = cws.take a ++ (cws.drop a).take (b - a) := by
    rw [← List.take_add]; congr 1; omega
  rw [e, walk_append, Nat.shiftRight_eq_div_pow]
  rw [show ((cws.drop a).take (b - a)).length = b - a by simp; omega]

/-- Evaluation part of `EvaluateAt`, from any stored nodes on the paths. -/
theorem WF.finishAt_sized (wf : d.WF) (env : Env) {key : DpfKey} (hk : d.KeyOk key) {h : Nat}
    (hh : h < d.n) {T : Ty} (ht : d.SizedAt h T) (points : List U128) (start : Nat)
    (hs : start ≤ d.treeAt h) :
    d.finishAt env T.helper key h points (points.map fun x : U128 => x >>> d.gapAt h)
      (.ofNodes (points.map fun x => nodeAt env key start
        (x.toNat / 2 ^ d.gapAt h / 2 ^ (d.treeAt h - start)))) start =
    (d.getValueCorrectionAsArray T.helper key h >>= fun corr =>
      ok (points.map fun x => d.share env T key h corr x.toNat)) := by
  have hlen := hk.len
  have htn := wf.tree_lt_needed hh
  unfold finishAt
  rw [wf.tree_ok hh, bind_ok, subspan_ok _ (by omega) hs, bind_ok,
    evaluateSeeds_ofNodes _ _ _ _ (by simp) (wf.take_int _ _ _), bind_ok, List.zipWith_map, List.zipWith_self]
  have hnodes : (points.map fun x : U128 => walk (dpfPrg env)
      ((key.correctionWords.drop start).take (d.treeAt h - start)) (x >>> d.gapAt h).toNat
      (nodeAt env key start (x.toNat / 2 ^ d.gapAt h / 2 ^ (d.treeAt h - start)))) =
      points.map fun x => nodeAt env key (d.treeAt h) (x.toNat / 2 ^ d.gapAt h) := by
    apply List.map_congr_left
    intro x _
    rw [shr_toNat, nodeAt, walk_split _ _ hs (by omega)]; rfl
  rw [hnodes, wf.hashExpandedSeeds_ok hh, bind_ok]
  cases hc : d.getValueCorrectionAsArray T.helper key h with
  | ok corr =>
    rw [bind_ok, bind_ok, wf.blocks_ok hh, bind_ok]
    have hcl := getValueCorrection_length hc
    rw [← range_map_getD points 0 (fun x : U128 => d.share env T key h corr x.toNat)]
    apply mapRes_eq_ok_map
    intro i hi
    simp only [List.mem_range] at hi
    have hi' : i < (DpfExpansion.ofNodes (points.map fun x =>
        nodeAt env key (d.treeAt h) (x.toNat / 2 ^ d.gapAt h))).seeds.length := by
      simpa [DpfExpansion.ofNodes] using hi
    rw [WF.slice_hashed env _ hi', bind_ok]
    have hseed : (DpfExpansion.ofNodes (points.map fun x =>
        nodeAt env key (d.treeAt h) (x.toNat / 2 ^ d.gapAt h))).seeds[i] =
        (nodeAt env key (d.treeAt h) (points[i].toNat / 2 ^ d.gapAt h)).seed := by
      simp [DpfExpansion.ofNodes]
    rw [hseed]
    obtain ⟨e1, e2⟩ := blockElems_ok env ht.fits
      (nodeAt env key (d.treeAt h) (points[i].toNat / 2 ^ d.gapAt h)).seed
    rw [seedBytes] at e1
    rw [e1, bind_ok]
    have hm := ht.mod_lt points[i].toNat
    have hctl : rd (DpfExpansion.ofNodes (points.map fun x =>
        nodeAt env key (d.treeAt h) (x.toNat / 2 ^ d.gapAt h))).controlBits i =
        ok (nodeAt env key (d.treeAt h) (points[i].toNat / 2 ^ d.gapAt h)).ctrl := by
      rw [rd_lt (by simpa [DpfExpansion.ofNodes] using hi)]
      simp [DpfExpansion.ofNodes]
    have hg : points.getD i 0 = points[i] := by simp [List.getD, hi]
    have tail : ∀ b, b = points[i].toNat % 2 ^ d.gapAt h →
        (rd (blockElems env T (d.blocksAt h)
          (nodeAt env key (d.treeAt h) (points[i].toNat / 2 ^ d.gapAt h)).seed) b >>= fun e =>
        rd (DpfExpansion.ofNodes (points.map fun x =>
          nodeAt env key (d.treeAt h) (x.toNat / 2 ^ d.gapAt h))).controlBits i >>= fun c =>
        if c = true then (rd corr b >>= fun y => ok (T.helper.add e y) >>= fun e =>
            ok (if key.party = 1 then T.helper.neg e else e))
          else (ok e >>= fun e => ok (if key.party = 1 then T.helper.neg e else e))) =
        ok (d.share env T key h corr points[i].toNat) := by
      rintro b rfl
      rw [rd_getD (by rw [e2]; exact hm) T.helper.zero, bind_ok, hctl, bind_ok,
        rd_getD (by rw [hcl]; exact hm) T.helper.zero]
      unfold share correct
      dsimp only
      cases (nodeAt env key (d.treeAt h) (points[i].toNat / 2 ^ d.gapAt h)).ctrl <;> simp
    rw [hg]
    dsimp only
    split
    · rw [rd_lt hi, bind_ok, wf.domainToBlockIndex_ok hh, bind_ok]
      exact tail _ rfl
    · rename_i he
      rw [bind_ok]
      exact tail _ (by rw [ht.gap_zero he]; simp [Nat.mod_one])
  | err c => rfl
  | ub => rfl
  | crash => rfl

/-- The same for the type of the level. -/
theorem WF.finishAt_ok (wf : d.WF) (env : Env) {key : DpfKey} (hk : d.KeyOk key) {h : Nat}
    (hh : h < d.n) {T : Ty} (ht : d.TypedAt h T) (points : List U128) (start : Nat)
    (hs : start ≤ d.treeAt h) :
    d.finishAt env T.helper key h points (points.map fun x : U128 => x >>> d.gapAt h)
      (.ofNodes (points.map fun x => nodeAt env key start
        (x.toNat / 2 ^ d.gapAt h / 2 ^ (d.treeAt h - start)))) start =
    (d.getValueCorrectionAsArray T.helper key h >>= fun corr =>
      ok (points.map fun x => d.share env T key h corr x.toNat)) :=
  wf.finishAt_sized env hk hh ht.sized points start hs

/-- Points inside the domain of a level. -/
theorem WF.checkEvaluateAt_ok (wf : d.WF) {key : DpfKey} (hk : d.KeyOk key) {h : Nat}
    (hh : h < d.n) {points : List U128} (hp : ∀ x ∈ points, x.toNat < 2 ^ d.logAt h) :
    d.checkEvaluateAt key h points = ok h := by
  unfold checkEvaluateAt
  obtain ⟨p, hp1, hp2⟩ := wf.param_ok hh
  have hn : (h : Int) < (d.pv.parameters.length : Int) := by
    have : h < d.pv.parameters.length := hh
    omega
  rw [failIf_false (by omega), bind_ok, failIf_false (by omega), bind_ok]
  simp only [Int.toNat_natCast]
  rw [hp1, bind_ok, wf.log_eq h p hp2]
  have hle := wf.log_le h
  have key_ok := (wf.validateDpfKey_iff key).mpr hk
  split
  · rename_i hlt
    rw [shl128_ok (by omega), bind_ok, bind_ok]
    have e : ((1#128 <<< d.logAt h) - 1#128).toNat = 2 ^ d.logAt h - 1 := by
      have h1 : 2 ^ d.logAt h ≤ 2 ^ 127 := Nat.pow_le_pow_right (by decide) (by omega)
      have h2 : 0 < 2 ^ d.logAt h := Nat.two_pow_pos _
      rw [BitVec.toNat_sub, BitVec.toNat_shiftLeft, Nat.shiftLeft_eq]
      simp only [BitVec.toNat_ofNat]
      omega
    obtain ⟨us, hus⟩ := (mapRes_unit_eq_ok (f := fun x =>
      failIf (x > ((1 : U128) <<< d.logAt h) - 1) .invalidArgument) (l := points)).mpr (by
        intro x hx
        rw [failIf_false]
        have := hp x hx
        show ¬ (_ < x)
        rw [BitVec.lt_def]
        show ¬ ((1#128 <<< d.logAt h) - 1#128).toNat < x.toNat
        omega)
    rw [hus, bind_ok, key_ok, bind_ok]
  · rename_i hlt
    rw [bind_ok]
    obtain ⟨us, hus⟩ := (mapRes_unit_eq_ok (f := fun x =>
      failIf (x > BitVec.allOnes 128) .invalidArgument) (l := points)).mpr (by
        intro x hx
        rw [failIf_false]
        show ¬ (_ < x)
        rw [BitVec.lt_def, BitVec.toNat_allOnes]
        have := x.isLt
        omega)
    rw [hus, bind_ok, key_ok, bind_ok]

/-- `EvaluateAt` on valid arguments. -/
theorem WF.evaluateAt_sized (wf : d.WF) (env : Env) {key : DpfKey} (hk : d.KeyOk key) {h : Nat}
    (hh : h < d.n) {T : Ty} (ht : d.SizedAt h T) {points : List U128}
    (hp : ∀ x ∈ points, x.toNat < 2 ^ d.logAt h) :
    d.evaluateAt env T.helper key h points =
      if points = [] then ok [] else
      d.getValueCorrectionAsArray T.helper key h >>= fun corr =>
        ok (points.map fun x => d.share env T key h corr x.toNat) := by
  unfold evaluateAt
  rw [wf.checkEvaluateAt_ok hk hh hp, bind_ok]
  split
  · rfl
  · rw [wf.treeIndicesFor_sized hh ht, bind_ok]
    have := wf.finishAt_sized env hk hh ht points 0 (by omega)
    rw [← this]
    have e : (⟨List.replicate points.length key.seedBlock,
        List.replicate points.length (decide (key.party ≠ 0))⟩ : DpfExpansion) =
        .ofNodes (points.map fun x => nodeAt env key 0
          (x.toNat / 2 ^ d.gapAt h / 2 ^ (d.treeAt h - 0))) := by
      simp only [DpfExpansion.ofNodes, List.map_map, DpfExpansion.mk.injEq]
      constructor
      · apply List.ext_getElem <;> simp [nodeAt, walk, root]
      · apply List.ext_getElem <;> simp [nodeAt, walk, root]
    rw [e]

/-- The same for the type of the level. -/
theorem WF.evaluateAt_ok (wf : d.WF) (env : Env) {key : DpfKey} (hk : d.KeyOk key) {h : Nat}
    (hh : h < d.n) {T : Ty} (ht : d.TypedAt h T) {points : List U128}
    (hp : ∀ x ∈ points, x.toNat < 2 ^ d.logAt h) :
    d.evaluateAt env T.helper key h points =
      if points = [] then ok [] else
      d.getValueCorrectionAsArray T.helper key h >>= fun corr =>
        ok (points.map fun x => d.share env T key h corr x.toNat) :=
  wf.evaluateAt_sized env hk hh ht.sized hp

end Dpf
end Verif
