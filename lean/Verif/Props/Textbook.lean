import Verif.Lemmas.Textbook
import Verif.Props.Evaluation
/-!
# C69: keys and evaluation follow the documented algorithm
-/
namespace Verif
open Res Spec

/-- C69: for given parameters there is exactly one sequence of depths as described in the documentation of
`hierarchy_to_tree_`. -/
theorem C69_depth (fp : FpEnv) (params : List DpfParameters) (T : Nat → Ty) (d : Dpf) (hs : Setup fp params T d) :
    IsDepth params T (treeDepth d) ∧
      ∀ depth, IsDepth params T depth → ∀ h < params.length, depth h = treeDepth d h :=
  ⟨hs.isDepth, fun _ hd h hh => hd.unique hs.isDepth h hh⟩

/-- C69: a key is accepted if and only if it has the right shape. -/
theorem C69_accepted (fp : FpEnv) (params : List DpfParameters) (T : Nat → Ty) (d : Dpf) (hs : Setup fp params T d)
    (depth : Nat → Nat) (hd : IsDepth params T depth) (key : DpfKey) :
    d.pv.validateDpfKey key = ok () ↔ HasShape params depth key := by
  rw [hs.wf.validateDpfKey_iff]
  exact ⟨Dpf.hasShape_of_keyOk hs hd, Dpf.keyOk_of_hasShape hs hd⟩

/-- C69: `EvaluateAt` computes the values of the textbook algorithm. -/
theorem C69_evaluateAt (fp : FpEnv) (params : List DpfParameters) (T : Nat → Ty) (d : Dpf) (hs : Setup fp params T d)
    (env : Env) (depth : Nat → Nat) (hd : IsDepth params T depth) (key : DpfKey) (hk : HasShape params depth key)
    (h : Nat) (hh : h < params.length) (points : List U128) (hp : ∀ x ∈ points, x.toNat < 2 ^ logSize params h)
    (corr : List (T h).den) (hl : corr.length = perBlock (T h))
    (hl' : (corrections params depth key h).length = perBlock (T h))
    (hr : ∀ (i : Nat) (v : Value) (c : (T h).den), (corrections params depth key h)[i]? = some v →
      corr[i]? = some c → Represents (T h) v c) :
    ∃ vals, d.evaluateAt env (T h).helper key h points = ok vals ∧ vals.length = points.length ∧
      ∀ (i : Nat) (x : U128) (y : (T h).den), points[i]? = some x → vals[i]? = some y →
        IsShare env.aes (T h) (logSize params h) (depth h) key corr x y := by
  have hc := hs.toCreated
  have hh' : h < d.n := by rw [hc.n_eq]; exact hh
  rw [hs.wf.evaluateAt_ok env (Dpf.keyOk_of_hasShape hs hd hk) hh' (hs.typedAt hh')
    (by intro x hx; rw [hc.logAt_eq]; exact hp x hx),
    Dpf.getValueCorrection_unfold, Dpf.valueCorrectionOf_eq hs hd hk.words hh, bind_ok,
    Dpf.valuesToArray_of_represents hl' (by omega) hr, bind_ok]
  by_cases he : points = []
  · subst he
    exact ⟨[], rfl, rfl, by simp⟩
  · rw [if_neg he]
    refine ⟨_, rfl, by simp, ?_⟩
    intro i x y hx hy
    rw [List.getElem?_map, hx] at hy
    have hy := Option.some.inj hy
    subst hy
    exact Dpf.share_isShare hs hd env key hh hl x

/-- C09, C69: what `EvaluateAt` does with an arbitrary key message, level and list of points. If the key can be evaluated
there, the result is the list of values of the textbook algorithm; if not, INVALID_ARGUMENT. -/
theorem C69_evaluateAt_exact (fp : FpEnv) (params : List DpfParameters) (T : Nat → Ty) (d : Dpf)
    (hs : Setup fp params T d) (env : Env) (depth : Nat → Nat) (hd : IsDepth params T depth) (key : DpfKey) (h : Int)
    (points : List U128) :
    (EvaluableAt params T depth key h points → ∃ (vals corr : List (T h.toNat).den),
      d.evaluateAt env (T h.toNat).helper key h points = ok vals ∧ vals.length = points.length ∧
      (points ≠ [] → ReadsCorrections (T h.toNat) (corrections params depth key h.toNat) corr) ∧
      ∀ (i : Nat) (x : U128) (y : (T h.toNat).den), points[i]? = some x → vals[i]? = some y →
        IsShare env.aes (T h.toNat) (logSize params h.toNat) (depth h.toNat) key corr x y) ∧
    (¬ EvaluableAt params T depth key h points →
      d.evaluateAt env (T h.toNat).helper key h points = err .invalidArgument) := by
  have hc := hs.toCreated
  have wf := hs.wf
  have hn := hc.n_eq
  rcases wf.checkEvaluateAt_cases key h points with ⟨hN, rfl, hh, hk, hp⟩ | he
  rotate_left
  · have e : d.evaluateAt env (T h.toNat).helper key h points = err .invalidArgument := by
      unfold Dpf.evaluateAt
      rw [he]; rfl
    refine ⟨fun hv => ?_, fun _ => e⟩
    exfalso
    obtain ⟨hN, rfl⟩ : ∃ hN : Nat, h = hN := ⟨h.toNat, by have := hv.level; omega⟩
    rw [wf.checkEvaluateAt_ok (Dpf.keyOk_of_hasShape hs hd hv.shape) (by have := hv.level; omega)
      (by intro x hx; rw [hc.logAt_eq]; exact hv.inside x hx)] at he
    exact nomatch he
  have hh' : hN < params.length := by omega
  have sh := Dpf.hasShape_of_keyOk hs hd hk
  rw [Int.toNat_natCast, wf.evaluateAt_ok env hk hh (hs.typedAt hh) hp]
  by_cases hne : points = []
  · subst hne
    rw [if_pos rfl]
    refine ⟨fun _ => ⟨[], [], rfl, rfl, by simp, by simp⟩, fun hv => absurd ?_ hv⟩
    exact ⟨by omega, sh, by simp, fun h => absurd rfl h⟩
  rw [if_neg hne, Dpf.getValueCorrection_unfold, Dpf.valueCorrectionOf_eq hs hd sh.words hh', bind_ok]
  have hcases := wf.getValueCorrection_cases hk hh (T hN)
  rw [Dpf.getValueCorrection_unfold, Dpf.valueCorrectionOf_eq hs hd sh.words hh', bind_ok] at hcases
  rcases hcases with ⟨corr, hcorr⟩ | hcorr
  · rw [hcorr, bind_ok]
    have hr := Dpf.valuesToArray_iff.mp hcorr
    refine ⟨fun _ => ⟨_, corr, rfl, by simp, fun _ => hr, ?_⟩, fun hv => absurd ?_ hv⟩
    · intro i x y hx hy
      rw [List.getElem?_map, hx] at hy
      have hy := Option.some.inj hy
      subst hy
      exact Dpf.share_isShare hs hd env key hh' hr.2.1 x
    · exact ⟨by omega, sh, by intro x hx; rw [Int.toNat_natCast, ← hc.logAt_eq]; exact hp x hx, fun _ => ⟨corr, hr⟩⟩
  · rw [hcorr]
    refine ⟨fun hv => ?_, fun _ => rfl⟩
    exfalso
    obtain ⟨corr, hr⟩ := hv.values hne
    rw [Dpf.valuesToArray_iff.mpr (show ReadsCorrections (T hN) (corrections params depth key hN) corr from hr)] at hcorr
    exact nomatch hcorr

/-- C69: `GenerateKeys` computes the keys of the textbook algorithm. -/
theorem C69_generateKeys (fp : FpEnv) (params : List DpfParameters) (T : Nat → Ty) (d : Dpf)
    (hs : Setup fp params T d) (env : Env) (depth : Nat → Nat) (hd : IsDepth params T depth) (alpha : U128)
    (halpha : alpha.toNat < 2 ^ lastLogSize params) (beta : List Value)
    (b : (h : Nat) → (T h).den) (hb : BetasRepresent params T beta b) (seed0 seed1 : U128) :
    ∃ k0 k1, d.generateKeysIncremental env alpha beta seed0 seed1 = ok (k0, k1) ∧
      AreKeys env.aes params T depth alpha b seed0 seed1 k0 k1 := by
  have hc := hs.toCreated
  have wf := hs.wf
  have hn := hc.n_eq
  have hpos := wf.pos
  obtain ⟨k0, k1, hk, g⟩ := wf.generateKeys_ok env (hs.betasOk hb) (alpha := alpha)
    (by rw [hc.last_eq]; exact halpha) seed0 seed1
  obtain ⟨ok0, _⟩ := g.keyOk wf (fun h hh => hs.typedAt hh)
  have sh := Dpf.hasShape_of_keyOk hs hd ok0
  refine ⟨k0, k1, hk, ⟨g.seed0, g.party0⟩, ⟨g.seed1, g.party1⟩, ⟨g.cws.symm, g.last.symm⟩, sh.words, ?_, ?_⟩
  · intro t cw hcw
    have hg := g.gen t cw hcw
    have hv := g.novc t cw hcw
    rw [hc.last_eq] at hg
    rw [keyNode_eq, treePrg_eq]
    generalize Dpf.nodeAt env k0 t (alpha.toNat / 2 ^ (lastLogSize params - t)) = n0 at *
    generalize Dpf.nodeAt env k1 t (alpha.toNat / 2 ^ (lastLogSize params - t)) = n1 at *
    generalize alpha.toNat.testBit (lastLogSize params - (t + 1)) = r at *
    dsimp only
    refine ⟨?_, ?_, ?_, ?_⟩
    · rw [hg]
      show (_ &&& _) ^^^ (_ &&& _) = (_ ^^^ _) &&& _
      apply BitVec.eq_of_getLsbD_eq
      intro i _
      simp only [BitVec.getLsbD_xor, BitVec.getLsbD_and]
      cases (~~~1#128).getLsbD i <;> simp
    · rw [hg]
      show (_ ^^ _ ^^ r ^^ true) = _
      rw [BitVec.getLsbD_xor]
      cases r <;> simp
    · rw [hg]
      show (_ ^^ _ ^^ r) = _
      rw [BitVec.getLsbD_xor]
    · intro hne
      exact hv fun h hh => by rw [← Dpf.depth_eq hs hd (by omega)]; exact hne h (by omega)
  · intro h hh
    have hh' : h < d.n := by omega
    have ht := hs.typedAt hh'
    have hvc := g.vc h hh'
    rw [Dpf.valueCorrectionOf_eq hs hd sh.words hh] at hvc
    have hvc := Res.ok.inj hvc
    have hlen := Dpf.corrList_length env ht.fits
      (Dpf.nodeAt env k0 (d.treeAt h) (alpha.toNat / 2 ^ (d.logAt (d.n - 1) - d.treeAt h)))
      (Dpf.nodeAt env k1 (d.treeAt h) (alpha.toNat / 2 ^ (d.logAt (d.n - 1) - d.treeAt h)))
      (d.alphaIndex alpha h) (b h)
    refine ⟨by rw [hvc, List.length_map, hlen, perBlock_eq], ?_⟩
    intro i v hv
    rw [hvc, List.getElem?_map] at hv
    obtain ⟨c, hc1, hc2⟩ := Option.map_eq_some_iff.mp hv
    obtain ⟨hi, hc1⟩ := List.getElem?_eq_some_iff.mp hc1
    rw [hlen] at hi
    have hcr := Dpf.corrList_getD env ht.fits
      (Dpf.nodeAt env k0 (d.treeAt h) (alpha.toNat / 2 ^ (d.logAt (d.n - 1) - d.treeAt h)))
      (Dpf.nodeAt env k1 (d.treeAt h) (alpha.toNat / 2 ^ (d.logAt (d.n - 1) - d.treeAt h)))
      (d.alphaIndex alpha h) (b h) hi
    rw [getD_eq_getElem _ _ _ (by omega), hc1] at hcr
    subst hc2
    rw [keyNode_eq, Dpf.depth_eq hs hd hh, ← hc.last_eq]
    refine ⟨_, _, blockElems_isElement env ht.fits _ hi, blockElems_isElement env ht.fits _ hi, ?_⟩
    have hidx : d.alphaIndex alpha h = alphaPrefix params alpha h % 2 ^ (logSize params h - d.treeAt h) := by
      unfold Dpf.alphaIndex alphaPrefix Dpf.gapAt
      rw [hc.last_eq, hc.logAt_eq]
    rw [← hidx]
    dsimp only
    dsimp only at hcr
    rw [← hcr]
    exact (T h).represents_of_fromValue _ _ ((T h).fromValue_toValue c) (noWide_toValue (T h) c)

/-- C69: the party of a key is not checked. A key with any other party than 0 and 1 is evaluated like that of party 1
up to the last step, and the values are not negated. -/
theorem C69_party (fp : FpEnv) (params : List DpfParameters) (T : Nat → Ty) (d : Dpf) (hs : Setup fp params T d)
    (env : Env) (depth : Nat → Nat) (hd : IsDepth params T depth) (key : DpfKey) (hk : HasShape params depth key)
    (h1 : key.party = 1) (p : Int) (hp0 : p ≠ 0) (hp1 : p ≠ 1) (h : Nat) (hh : h < params.length) (points : List U128)
    (hp : ∀ x ∈ points, x.toNat < 2 ^ logSize params h) (vals : List (T h).den)
    (hv : d.evaluateAt env (T h).helper key h points = ok vals) :
    ∃ vals', d.evaluateAt env (T h).helper { key with party := p } h points = ok vals' ∧
      vals = vals'.map (T h).helper.neg := by
  have hc := hs.toCreated
  have hh' : h < d.n := by rw [hc.n_eq]; exact hh
  have hk' : HasShape params depth { key with party := p } := ⟨hk.seed, hk.words, hk.values⟩
  have hpt : ∀ x ∈ points, x.toNat < 2 ^ d.logAt h := by intro x hx; rw [hc.logAt_eq]; exact hp x hx
  rw [hs.wf.evaluateAt_ok env (Dpf.keyOk_of_hasShape hs hd hk) hh' (hs.typedAt hh') hpt] at hv
  rw [hs.wf.evaluateAt_ok env (Dpf.keyOk_of_hasShape hs hd hk') hh' (hs.typedAt hh') hpt]
  by_cases he : points = []
  · rw [if_pos he] at hv ⊢
    have hv := Res.ok.inj hv
    subst hv
    exact ⟨[], rfl, rfl⟩
  · rw [if_neg he] at hv ⊢
    obtain ⟨corr, hcorr, hv⟩ := bind_eq_ok.mp hv
    have e : d.getValueCorrectionAsArray (T h).helper { key with party := p } h =
        d.getValueCorrectionAsArray (T h).helper key h := rfl
    rw [e, hcorr, bind_ok]
    refine ⟨_, rfl, ?_⟩
    have hv := Res.ok.inj hv
    subst hv
    rw [List.map_map]
    apply List.map_congr_left
    intro x _
    have e2 : Dpf.nodeAt env { key with party := p } = Dpf.nodeAt env key := by
      funext t y
      unfold Dpf.nodeAt Dpf.root
      simp [h1, hp0, DpfKey.seedBlock]
    simp only [Function.comp, Dpf.share, Dpf.correct, e2, if_pos h1, if_neg hp1]

/-! ## C25 -/

/-- C25: which groups these are. Elements are added number by number: integers modulo a power of two, residues modulo
their modulus, `XorWrapper`s bitwise. All numbers in the zero element are zero, and an element is determined by its
numbers. -/
theorem C25_sum (t : Ty) :
    (∀ a b, numbersOf t (t.helper.add a b) = addNumbers (addOf t) (numbersOf t a) (numbersOf t b)) ∧
      (∀ a, (numbersOf t a).length = (addOf t).length) ∧
      (∀ n ∈ numbersOf t t.helper.zero, n = 0) ∧ ∀ a b, numbersOf t a = numbersOf t b → a = b :=
  ⟨add_numbers t, numbersOf_length t, zero_numbers t, numbersOf_inj t⟩

/-- C25 for a sum in which every number is reduced. -/
example :
    let t : Ty := .tuple (.cons (.uint .w8) (.cons (.intModN .w32 11#128 (by decide) (by decide))
      (.one (.xorWrapper .w16))))
    numbersOf t (t.helper.add (200#8, ⟨7#32, by decide⟩, 5#16) (100#8, ⟨9#32, by decide⟩, 6#16)) = [44, 5, 3] := by
  intro t
  exact (C25_sum t).1 _ _

/-! ## Examples -/

theorem exDpf_shape : HasShape exParams8 (treeDepth exDpf) exKey :=
  (C69_accepted exFp exParams8 _ exDpf exDpf_setup _ (C69_depth _ _ _ _ exDpf_setup).1 exKey).mp
    ((exDpf_setup.wf.validateDpfKey_iff exKey).mpr (exDpf_setup.wf.history exEnv exHist0).keyOk)

theorem Spec.HasShape.withParty {params : List DpfParameters} {depth : Nat → Nat} {key : DpfKey} {p : Int}
    (h : HasShape params depth key) : HasShape params depth { key with party := p } := ⟨h.seed, h.words, h.values⟩

/-- C69: the depths for four levels of 8-bit integers with 3, 5, 7 and 9 bits. -/
example : ∀ depth, IsDepth exParams8 (fun _ => .uint .w8) depth → ∀ h < 4, depth h = [0, 1, 3, 5].getD h 0 := by
  intro depth hd h hh
  rw [(C69_depth exFp exParams8 _ exDpf exDpf_setup).2 depth hd h hh]
  match h with
  | 0 => decide +kernel
  | 1 => decide +kernel
  | 2 => decide +kernel
  | 3 => decide +kernel

/-- The corrections of the second level of the example. -/
def exCorr : List (Ty.uint .w8).den :=
  ((Ty.uint .w8).helper.valuesToArray (corrections exParams8 (treeDepth exDpf) exKey 1)).getD []

theorem represents_of_valuesToArray {t : Ty} {vs : List Value} {corr : List t.den}
    (h : t.helper.valuesToArray vs = ok corr) (hv : ∀ v ∈ vs, validateValue t.helper.toValueType v = ok ()) :
    corr.length = perBlock t ∧ vs.length = perBlock t ∧
    ∀ (i : Nat) (v : Value) (c : t.den), vs[i]? = some v → corr[i]? = some c → Represents t v c := by
  unfold Helper.valuesToArray at h
  split at h
  · simp at h
  · rename_i hl
    rw [mapRes_eq_ok] at h
    refine ⟨by rw [h.1, ← perBlock_eq]; omega, by rw [← perBlock_eq]; omega, ?_⟩
    intro i v c h1 h2
    obtain ⟨a, h1⟩ := List.getElem?_eq_some_iff.mp h1
    obtain ⟨b, h2⟩ := List.getElem?_eq_some_iff.mp h2
    have hvv := hv v (h1 ▸ List.getElem_mem a)
    have := h.2 i a b
    rw [h1, h2] at this
    exact (t.represents_iff v c).mpr ⟨hvv, this⟩

theorem exCorr_eq : (Ty.uint .w8).helper.valuesToArray (corrections exParams8 (treeDepth exDpf) exKey 1) = ok exCorr :=
  Res.eq_ok_getD (by decide +kernel) []

theorem exCorr_valid : ∀ v ∈ corrections exParams8 (treeDepth exDpf) exKey 1,
    validateValue (Ty.uint .w8).helper.toValueType v = ok () := by decide +kernel

theorem exPoints : ∀ x ∈ ([9, 30] : List U128), x.toNat < 2 ^ logSize exParams8 1 := by
  intro x hx
  simp only [List.mem_cons, List.not_mem_nil, or_false] at hx
  rcases hx with rfl | rfl <;> decide +kernel

/-- C69 on the second level of the example. -/
example : ∃ y0 y1, exDpf.evaluateAt exEnv (Ty.uint .w8).helper exKey (1 : Nat) [9, 30] = ok [y0, y1] ∧
    IsShare exEnv.aes (.uint .w8) 5 1 exKey exCorr 9 y0 ∧ IsShare exEnv.aes (.uint .w8) 5 1 exKey exCorr 30 y1 := by
  obtain ⟨h1, h2, h3⟩ := represents_of_valuesToArray exCorr_eq exCorr_valid
  obtain ⟨vals, h, hl, hv⟩ := C69_evaluateAt exFp exParams8 _ exDpf exDpf_setup exEnv (treeDepth exDpf)
    (C69_depth _ _ _ _ exDpf_setup).1 exKey exDpf_shape 1 (by decide) [9, 30] exPoints exCorr h1 h2 h3
  match vals, hl with
  | [y0, y1], _ =>
    have e : treeDepth exDpf 1 = 1 := by decide +kernel
    rw [e] at hv
    exact ⟨y0, y1, h, hv 0 9 y0 rfl rfl, hv 1 30 y1 rfl rfl⟩

/-- The key with a value correction of 256. -/
def exBadKey : DpfKey :=
  { exKey with lastLevelValueCorrection := exKey.lastLevelValueCorrection.set 3 (.integer (.u64 256)) }

/-- `C69_evaluateAt_exact` on the example: the key can be evaluated at two points of its second level, and not with one of
its value corrections changed to 256. -/
example : EvaluableAt exParams8 (fun _ => .uint .w8) (treeDepth exDpf) exKey 1 [9, 30] ∧
    exDpf.evaluateAt exEnv (Ty.uint .w8).helper exBadKey 3 [9] = err .invalidArgument := by
  obtain ⟨h1, h2⟩ := C69_evaluateAt_exact exFp exParams8 _ exDpf exDpf_setup exEnv (treeDepth exDpf)
    (C69_depth _ _ _ _ exDpf_setup).1 exKey 1 [9, 30]
  refine ⟨Classical.byContradiction fun hn => ?_, ?_⟩
  · have := h2 hn
    have e := Res.eq_ok_getD (r := exDpf.evaluateAt exEnv (Ty.uint .w8).helper exKey 1 [9, 30]) (by decide +kernel) []
    rw [e] at this
    exact nomatch this
  · refine (C69_evaluateAt_exact exFp exParams8 _ exDpf exDpf_setup exEnv (treeDepth exDpf)
      (C69_depth _ _ _ _ exDpf_setup).1 _ 3 [9]).2 fun hv => ?_
    obtain ⟨corr, _, hl, hr⟩ := hv.values (by simp)
    have hl' : corr.length = 16 := hl
    obtain ⟨i, n, h1, h2, h3⟩ := hr 3 (.integer (.u64 256)) (corr[3]'(by omega)) (by decide +kernel)
      (List.getElem?_eq_getElem _)
    cases h1
    cases h2
    have h4 : BitVec.toNat (w := 8) (corr[3]'(by omega)) < 256 := BitVec.isLt _
    have h5 : 256 = BitVec.toNat (w := 8) (corr[3]'(by omega)) := h3
    omega

/-- C69 for three levels with three kinds of values. -/
example : ∃ d k0 k1, Setup exFp exParams exT d ∧
    d.generateKeysIncremental { aes := fun k x => k ^^^ x } 12345 exBeta 1 2 = ok (k0, k1) ∧
    AreKeys (fun k x => k ^^^ x) exParams exT (treeDepth d) 12345 exB 1 2 k0 k1 := by
  obtain ⟨d, hd⟩ := exSetup
  obtain ⟨k0, k1, h1, h2⟩ := C69_generateKeys _ _ _ d hd { aes := fun k x => k ^^^ x } _ (C69_depth _ _ _ _ hd).1 12345
    (by decide +kernel) exBeta exB exBetas 1 2
  exact ⟨d, k0, k1, hd, h1, h2⟩

/-- C69 for a key with party 7. -/
example : ∃ vals vals', exDpf.evaluateAt exEnv (Ty.uint .w8).helper { exKey with party := 1 } (1 : Nat) [9, 30] = ok vals ∧
    exDpf.evaluateAt exEnv (Ty.uint .w8).helper { exKey with party := 7 } (1 : Nat) [9, 30] = ok vals' ∧ vals ≠ vals' := by
  have h := Res.eq_ok_getD (r := exDpf.evaluateAt exEnv (Ty.uint .w8).helper { exKey with party := 1 } (1 : Nat) [9, 30])
    (by decide +kernel) []
  obtain ⟨vals', h1, h2⟩ := C69_party exFp exParams8 _ exDpf exDpf_setup exEnv (treeDepth exDpf)
    (C69_depth _ _ _ _ exDpf_setup).1 { exKey with party := 1 } exDpf_shape.withParty rfl 7 (by decide) (by decide) 1
    (by decide) [9, 30] exPoints _ h
  refine ⟨_, vals', h, h1, ?_⟩
  intro e
  rw [← e] at h2
  revert h2
  decide +kernel

end Verif
