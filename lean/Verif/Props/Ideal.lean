import Verif.Lemmas.Ideal
import Verif.Lemmas.IdealBits
import Verif.Props.PointFunction
/-!
# C48: one key hides alpha and beta if the other party's blocks are uniform

`experimentKey` (Spec/Ideal.lean) is key generation with the blocks and elements of the other party on the path
of alpha as an argument `r`. `C48_real`: at the blocks the other party really computes, it is the generated key.
`C48_uniform` and `C48_hides`: over uniform `r` the key does not depend on alpha and beta. `C48_hides_bits_partial`: for
types without `IntModN` the same holds if the pseudorandom blocks are uniform; otherwise not (`C48_refuted`).
-/
namespace Verif
open Res Spec

/-- The generated keys are those of the experiment at the other party's blocks. -/
theorem C48_real (fp : FpEnv) (params : List DpfParameters) (T : Nat → Ty)
    (d : Dpf) (hs : Setup fp params T d) (env : Env) (alpha : U128)
    (halpha : alpha.toNat < 2 ^ lastLogSize params) (beta : List Value)
    (b : (h : Nat) → (T h).den) (hb : BetasRepresent params T beta b) (seed0 seed1 : U128) :
    ∃ k0 k1, d.generateKeysIncremental env alpha beta seed0 seed1 = ok (k0, k1) ∧
      k0 = experimentKey d env params T false seed0 alpha b
        ((pathBits d env params alpha k1 (treeLevels d) params.length).rand T) ∧
      k1 = experimentKey d env params T true seed1 alpha b
        ((pathBits d env params alpha k0 (treeLevels d) params.length).rand T) := by
  have hc := hs.toCreated
  have wf := hs.wf
  obtain ⟨k0, k1, hk, g⟩ := wf.generateKeys_ok env (hs.betasOk hb) (alpha := alpha)
    (by rw [hc.last_eq]; exact halpha) seed0 seed1
  have hneed := wf.needed
  have hL : treeLevels d + 1 = d.pv.treeLevelsNeeded := by unfold treeLevels; omega
  have hnode : ∀ k t, pathNode env params alpha k t =
      Dpf.nodeAt env k t (alpha.toNat / 2 ^ (d.logAt (d.n - 1) - t)) := by
    intro k t; rw [hc.last_eq]; rfl
  have hidx : ∀ h, h < d.n → (dpfInput d params alpha b).index h = d.alphaIndex alpha h := by
    intro h _
    unfold Dpf.alphaIndex Dpf.gapAt
    rw [hc.last_eq, hc.logAt_eq]
    rfl
  have hside : ∀ p : Bool, (if p then k1 else k0) =
      keyOf (treeOf d) p (if p then seed1 else seed0)
        (keyData (treeOf d) (dpfParty d env T p (if p then seed1 else seed0)) (dpfInput d params alpha b)
          ((pathBits d env params alpha (if p then k0 else k1) (treeLevels d) params.length).rand T)) := by
    intro p
    refine g.key_eq wf (fun h hh => hs.typedAt hh) p hL hc.n_eq.symm _ ?_ hidx rfl _ ?_ ?_
    · intro t; rw [hc.last_eq]; rfl
    · intro t; rw [← hnode]; rfl
    · intro h i
      rw [← hnode]
      show (elementsOfBlocks (T h) (List.ofFn fun (i : Fin (blocksOf d h)) => hash env kPrgKeyValue (_ + _))).getD _ _ = _
      rw [elementsOf_blocks]
      rfl
  exact ⟨k0, k1, hk, hside false, hside true⟩

/-- For fixed own seed and input, the other party's blocks correspond one to one to the pairs of key contents
and the rest of the other party's blocks. So, over uniform blocks, the contents of the key are uniform: every
possible content occurs for the same number of blocks. -/
theorem C48_uniform (fp : FpEnv) (params : List DpfParameters) (T : Nat → Ty)
    (d : Dpf) (hs : Setup fp params T d) (env : Env) (p : Bool) (seed alpha : U128) (b : (h : Nat) → (T h).den) :
    ∃ g : KeyData (treeLevels d) params.length T × (Fin (treeLevels d) → Seed127) →
        Rand (treeLevels d) params.length T,
      (∀ r, g (keyData (treeOf d) (dpfParty d env T p seed) (dpfInput d params alpha b) r,
        keptSeeds (dpfInput d params alpha b) r) = r) ∧
      ∀ v, (keyData (treeOf d) (dpfParty d env T p seed) (dpfInput d params alpha b) (g v),
        keptSeeds (dpfInput d params alpha b) (g v)) = v := by
  have wf := hs.wf
  have hneed := wf.needed
  have ht : ∀ h, h < params.length → treeOf d h ≤ treeLevels d := by
    intro h hh
    have := wf.tree_lt_needed (h := h) (by rw [hs.toCreated.n_eq]; exact hh)
    show d.treeAt h ≤ _
    unfold treeLevels
    omega
  exact ⟨unkey (treeOf d) _ _, unkey_keyData ht _ _, keyData_unkey ht _ _⟩

/-- C48 on the example: random strings and key material with the kept seeds determine each other. -/
example (env : Env) : ∃ d, Setup exFp exParams exT d ∧ ∃ g : KeyData (treeLevels d) 3 exT × (Fin (treeLevels d) → Seed127) →
    Rand (treeLevels d) 3 exT, ∀ r, g (keyData (treeOf d) (dpfParty d env exT true 7) (dpfInput d exParams 12345 exB) r,
      keptSeeds (dpfInput d exParams 12345 exB) r) = r := by
  obtain ⟨d, hd⟩ := exSetup
  obtain ⟨g, hg, _⟩ := C48_uniform exFp exParams exT d hd env true 7 12345 exB
  exact ⟨d, hd, g, hg⟩

/-- C48: for any two inputs there is a bijection of the other party's blocks under which the keys are the same. -/
theorem C48_hides (fp : FpEnv) (params : List DpfParameters) (T : Nat → Ty)
    (d : Dpf) (hs : Setup fp params T d) (env : Env) (p : Bool) (seed alpha alpha' : U128)
    (b b' : (h : Nat) → (T h).den) :
    ∃ φ ψ : Rand (treeLevels d) params.length T → Rand (treeLevels d) params.length T,
      (∀ r, ψ (φ r) = r) ∧ (∀ r, φ (ψ r) = r) ∧
      ∀ r, experimentKey d env params T p seed alpha' b' (φ r) = experimentKey d env params T p seed alpha b r := by
  obtain ⟨g, hg1, hg2⟩ := C48_uniform fp params T d hs env p seed alpha b
  obtain ⟨g', hg1', hg2'⟩ := C48_uniform fp params T d hs env p seed alpha' b'
  let F := fun (r : Rand (treeLevels d) params.length T) => (keyData (treeOf d) (dpfParty d env T p seed) (dpfInput d params alpha b) r,
    keptSeeds (dpfInput d params alpha b) r)
  let F' := fun (r : Rand (treeLevels d) params.length T) => (keyData (treeOf d) (dpfParty d env T p seed) (dpfInput d params alpha' b') r,
    keptSeeds (dpfInput d params alpha' b') r)
  have e1 : ∀ v, F (g v) = v := hg2
  have e2 : ∀ v, F' (g' v) = v := hg2'
  have e3 : ∀ r, g (F r) = r := hg1
  have e4 : ∀ r, g' (F' r) = r := hg1'
  refine ⟨fun r => g' (F r), fun r => g (F' r), ?_, ?_, ?_⟩
  · intro r; show g (F' (g' (F r))) = r; rw [e2, e3]
  · intro r; show g' (F (g (F' r))) = r; rw [e1, e4]
  · intro r
    have := congrArg Prod.fst (e2 (F r))
    show keyOf _ _ _ _ = keyOf _ _ _ _
    apply congrArg
    exact this

/-- C48 for types without `IntModN`: for any two inputs there is a bijection of the other party's pseudorandom
blocks under which the keys are the same. Missing: types with `IntModN`, where the claim is false
(`C48_refuted`); for these see `C48_hides`. -/
theorem C48_hides_bits_partial (fp : FpEnv) (params : List DpfParameters) (T : Nat → Ty)
    (d : Dpf) (hs : Setup fp params T d) (hT : ∀ h, h < params.length → (T h).noMod = true) (env : Env) (p : Bool)
    (seed alpha alpha' : U128) (b b' : (h : Nat) → (T h).den) :
    ∃ φ ψ : Bits (treeLevels d) params.length (blocksOf d) → Bits (treeLevels d) params.length (blocksOf d),
      (∀ r, ψ (φ r) = r) ∧ (∀ r, φ (ψ r) = r) ∧
      ∀ r, experimentKey d env params T p seed alpha' b' ((φ r).rand T) =
        experimentKey d env params T p seed alpha b (r.rand T) := by
  obtain ⟨φ, ψ, h1, h2, h3⟩ := C48_hides fp params T d hs env p seed alpha alpha' b b'
  have lens := fun (h : Fin params.length) => blocks_lens (T h) (hT h h.2) (blocksOf d h)
    (hs.typedAt (h := h) (by rw [hs.toCreated.n_eq]; exact h.2)).fits
  let put := fun (h : Fin params.length) => (lens h).choose
  have hget : ∀ (h : Fin params.length) xs f, (fun (i : Fin (T h).helper.elementsPerBlock) =>
      (elementsOfBlocks (T h) (List.ofFn (put h xs f))).getD i (T h).helper.zero) = xs :=
    fun h => (lens h).choose_spec.1
  have hput : ∀ (h : Fin params.length) f, put h (fun (i : Fin (T h).helper.elementsPerBlock) =>
      (elementsOfBlocks (T h) (List.ofFn f)).getD i (T h).helper.zero) f = f :=
    fun h => (lens h).choose_spec.2.1
  have hpp : ∀ h xs ys f, put h ys (put h xs f) = put h ys f := fun h => (lens h).choose_spec.2.2
  let lift := fun (φ : Rand (treeLevels d) params.length T → Rand (treeLevels d) params.length T)
      (r : Bits (treeLevels d) params.length (blocksOf d)) =>
    (⟨(φ (r.rand T)).tree, fun h => put h ((φ (r.rand T)).value h) (r.blocks h)⟩ :
      Bits (treeLevels d) params.length (blocksOf d))
  have hrand : ∀ φ r, (lift φ r).rand T = φ (r.rand T) := by
    intro φ r
    have hv : ((lift φ r).rand T).value = (φ (r.rand T)).value := by
      funext h
      exact hget h _ _
    have ext : ∀ x y : Rand (treeLevels d) params.length T, x.tree = y.tree → x.value = y.value → x = y := by
      intro x y h1 h2
      cases x; cases y
      dsimp only at h1 h2
      subst h1 h2
      rfl
    exact ext _ _ rfl hv
  have hinv : ∀ φ ψ : Rand (treeLevels d) params.length T → Rand (treeLevels d) params.length T,
      (∀ r, ψ (φ r) = r) → ∀ r, lift ψ (lift φ r) = r := by
    intro φ ψ hc r
    have e : (lift ψ (lift φ r)) = ⟨(ψ ((lift φ r).rand T)).tree,
      fun h => put h ((ψ ((lift φ r).rand T)).value h) ((lift φ r).blocks h)⟩ := rfl
    rw [e, hrand, hc]
    obtain ⟨rt, rb⟩ := r
    congr 1
    funext h
    show put h _ (put h _ (rb h)) = rb h
    rw [hpp]
    exact hput h (rb h)
  refine ⟨lift φ, lift ψ, hinv φ ψ h1, hinv ψ φ h2, ?_⟩
  intro r
  rw [hrand, h3]

/-- 64-bit integers, and pairs of a 32-bit integer and an XOR-shared 128-bit one. -/
def exTBits : Nat → Ty
  | 0 => .uint .w64
  | _ => .tuple (.cons (.uint .w32) (.one (.xorWrapper .w128)))
/-- Domains of 2^5 and 2^20 elements. -/
def exParamsBits : List DpfParameters :=
  [⟨5, some (exTBits 0).helper.toValueType, .val 0⟩, ⟨20, some (exTBits 1).helper.toValueType, .val 40⟩]

/-- Numbers mod 3. -/
def exMod3 : Ty := .intModN .w32 3#128 (by decide) (by decide)
/-- One level with one element. -/
def exParamsMod3 : List DpfParameters := [⟨0, some exMod3.helper.toValueType, .val 0⟩]

theorem exMod3_setup : ∃ d, Setup exFp exParamsMod3 (fun _ => exMod3) d ∧ treeLevels d = 0 ∧ treeOf d 0 = 0 ∧
    blocksOf d 0 = 1 := by
  have h : (match Dpf.createIncremental exFp exParamsMod3 with
    | .ok d => some (d.pv.treeLevelsNeeded, d.pv.hierarchyToTree, d.blocksNeeded)
    | _ => none) = some (1, [0], [1]) := by decide +kernel
  split at h
  · rename_i d0 hd
    simp only [Option.some.injEq, Prod.mk.injEq] at h
    refine ⟨d0.registerAll [exMod3], Setup.of_flat hd ?_ ?_ ?_, ?_, ?_, ?_⟩
    · intro h p hp
      match h, hp with
      | 0, hp => simp [exParamsMod3] at hp; rw [← hp]
      | h + 1, hp => simp [exParamsMod3] at hp
    · intro h _; exact Or.inl (by simp)
    · intro h _; exact Or.inl rfl
    · unfold treeLevels; rw [(d0.registerAll_pv [exMod3]).1, h.1]
    · unfold treeOf; rw [(d0.registerAll_pv [exMod3]).1, h.2.1]; rfl
    · unfold blocksOf; rw [(d0.registerAll_pv [exMod3]).2, h.2.2]; rfl
  · cases h

theorem exMod3_element (x : U128) :
    ((elementsOfBlocks exMod3 [x]).getD 0 exMod3.helper.zero).1.toNat = x.toNat % 3 := by
  have hl : (blocksBytes [x]).length = 16 := by rw [blocksBytes_length]; rfl
  obtain ⟨xs, h1, h2⟩ := exMod3.convert_ok (blocksBytes [x]) (by rw [hl]; decide)
  have hb : exMod3.helper.convertBytesToArrayOf (blocksBytes [x]) = (exMod3.helper.fromBytes (blocksBytes [x]) >>= fun a => ok [a]) := rfl
  rw [hb] at h1
  obtain ⟨a, ha, h1⟩ := bind_eq_ok.mp h1
  have e : elementsOfBlocks exMod3 [x] = [a] := by
    unfold elementsOfBlocks
    rw [hb, ha]
    rfl
  rw [e]
  unfold Helper.fromBytes at ha
  rw [exMod3.canDirect_eq, if_neg (by decide)] at ha
  obtain ⟨s, g1, ha⟩ := bind_eq_ok.mp ha
  obtain ⟨block, g2, ha⟩ := bind_eq_ok.mp ha
  obtain ⟨rest, g3, ha⟩ := bind_eq_ok.mp ha
  obtain ⟨⟨a', block', rest'⟩, h4, ha⟩ := bind_eq_ok.mp ha
  simp only [ok.injEq] at ha
  subst ha
  have e1 := (fresh_spec (w := .w128) g1 g2 g3).1
  have := (exMod3.sample_spec false block rest _ _ _ h4).1
  have this : [a'.1.toNat] = [block.toNat % 3] := this
  have e1 : block.toNat = leAt (blocksBytes [x]) 0 16 := e1
  have e2 : leAt (blocksBytes [x]) 0 16 = x.toNat := by
    unfold leAt
    have := blocksBytes_drop [x] (i := 0) (by simp)
    rw [Nat.mul_zero] at this
    rw [this, blockBytes_eq, leNat_leBytes _ _ x.isLt]
    rfl
  rw [e1, e2] at this
  simpa using this

/-- On a domain with a single element, no bijection of bits takes keys for 1 to keys for 0. -/
theorem exMod3_differs {d : Dpf} (hL : treeLevels d = 0) (ht : treeOf d 0 = 0) (hk : blocksOf d 0 = 1) (env : Env)
    (seed : U128) :
    ¬ ∃ φ ψ : Bits (treeLevels d) exParamsMod3.length (blocksOf d) → Bits (treeLevels d) exParamsMod3.length (blocksOf d),
      (∀ r, ψ (φ r) = r) ∧ (∀ r, φ (ψ r) = r) ∧
      ∀ r, experimentKey d env exParamsMod3 (fun _ => exMod3) false seed 0 (fun _ => ⟨0#32, by decide⟩)
          ((φ r).rand _) =
        experimentKey d env exParamsMod3 (fun _ => exMod3) false seed 0 (fun _ => ⟨1#32, by decide⟩) (r.rand _) := by
  intro ⟨φ, ψ, h1, _, h3⟩
  have g := exMod3.helper_isGroup
  let mk : U128 → Bits (treeLevels d) exParamsMod3.length (blocksOf d) := fun x => ⟨fun _ => (0, 0), fun _ _ => x⟩
  let out : Bits (treeLevels d) exParamsMod3.length (blocksOf d) → U128 := fun r =>
    r.blocks ⟨0, Nat.one_pos⟩ ⟨0, by show 0 < blocksOf d 0; omega⟩
  have hout : ∀ r, r = mk (out r) := by
    intro r
    obtain ⟨rt, rb⟩ := r
    show (⟨rt, rb⟩ : Bits _ _ _) = ⟨_, _⟩
    congr 1
    · funext t
      have := t.2
      omega
    · funext h i
      have hh : h = ⟨0, Nat.one_pos⟩ := by
        apply Fin.ext
        have : h.1 < 1 := h.2
        show h.1 = 0
        omega
      subst hh
      have hi : i = ⟨0, by show 0 < blocksOf d 0; omega⟩ := by
        apply Fin.ext
        have : i.1 < blocksOf d 0 := i.2
        show i.1 = 0
        omega
      subst hi
      rfl
  have hval : ∀ r, ((r.rand (fun _ => exMod3)).value ⟨0, Nat.one_pos⟩ (⟨0, Nat.one_pos⟩ :
      Fin exMod3.helper.elementsPerBlock)).1.toNat = (out r).toNat % 3 := by
    intro r
    rw [hout r]
    have e : List.ofFn ((mk (out r)).blocks ⟨0, Nat.one_pos⟩) = [out r] := by
      apply List.ext_getElem
      · simp [hk]
      · intro i h1 h2
        simp only [List.length_singleton] at h2
        have : i = 0 := by omega
        subst this
        rw [List.getElem_ofFn]
        rfl
    show ((elementsOfBlocks exMod3 (List.ofFn ((mk (out r)).blocks ⟨0, _⟩))).getD 0 _).1.toNat = _
    rw [e, exMod3_element]
  have hstep : ∀ r, (out (φ r)).toNat % 3 = ((out r).toNat % 3 + 1) % 3 := by
    intro r
    have hidx : ∀ x : (h : Nat) → exMod3.den,
        0 = (dpfInput d exParamsMod3 (T := fun _ => exMod3) 0 x).index 0 := by
      intro x
      show 0 = _ % _
      have : alphaPrefix exParamsMod3 0 0 = 0 := by decide
      rw [this, Nat.zero_mod]
    have hkey := keyOf_last_inj (tree := treeOf d) (by
      intro a c ha hc _
      have ha : a < 1 := ha
      have hc : c < 1 := hc
      omega) _ _ ⟨0, Nat.one_pos⟩ (ht.trans hL.symm) (h3 r) (⟨0, Nat.one_pos⟩ : Fin exMod3.helper.elementsPerBlock)
    have hnode : ∀ (I : Input fun _ => exMod3) tree,
        ownNode (dpfParty d env (fun _ => exMod3) false seed) I tree (treeOf d 0) = ⟨seed, false⟩ := by
      intro I tree; rw [ht]; rfl
    unfold keyData at hkey
    dsimp only at hkey
    rw [hnode, hnode] at hkey
    have h6 := valueCorr_sum _ _ _ _ _ _ _ _ rfl (hidx _) (hidx _) hkey
    have h7 := congrArg (fun z : exMod3.den => z.1.toNat) h6
    have hadd : ∀ x y : exMod3.den, (exMod3.helper.add x y).1.toNat = (x.1.toNat + y.1.toNat) % 3 :=
      fun x y => IntModN.addBase_toNat 3#128 (w := 32) (by decide) (by decide) _ _ x.2 y.2
    rw [hadd, hadd] at h7
    have h8 : ((out (φ r)).toNat % 3 + 0) % 3 = ((out r).toNat % 3 + 1) % 3 := by
      rw [← hval (φ r), ← hval r]
      exact h7
    omega
  have hinj : ∀ x y, out (φ (mk x)) = out (φ (mk y)) → x = y := by
    intro x y h
    have h5 : φ (mk x) = φ (mk y) := by rw [hout (φ (mk x)), hout (φ (mk y)), h]
    have h6 : mk x = mk y := by rw [← h1 (mk x), h5, h1]
    exact congrArg out h6
  let m := (2 ^ 128 - 1) / 3
  have hm : 3 * m + 1 = 2 ^ 128 := by decide
  generalize m = m at hm
  have hmod : ∀ i, i ≤ m → (out (φ (mk (BitVec.ofNat 128 (3 * i))))).toNat % 3 = 1 ∧
      (BitVec.ofNat 128 (3 * i)).toNat = 3 * i := by
    intro i hi
    have h5 := hstep (mk (BitVec.ofNat 128 (3 * i)))
    have h6 : (BitVec.ofNat 128 (3 * i)).toNat = 3 * i := by
      rw [BitVec.toNat_ofNat]; exact Nat.mod_eq_of_lt (by omega)
    have h7 : out (mk (BitVec.ofNat 128 (3 * i))) = BitVec.ofNat 128 (3 * i) := rfl
    rw [h7, h6] at h5
    exact ⟨by omega, h6⟩
  apply pigeonhole m fun i => (out (φ (mk (BitVec.ofNat 128 (3 * i))))).toNat / 3
  · intro i hi
    have := (hmod i hi).1
    have := (out (φ (mk (BitVec.ofNat 128 (3 * i))))).isLt
    omega
  · intro i j hi hj h
    have h5 := hmod i hi
    have h6 := hmod j hj
    have h7 : out (φ (mk (BitVec.ofNat 128 (3 * i)))) = out (φ (mk (BitVec.ofNat 128 (3 * j)))) := by
      apply BitVec.eq_of_toNat_eq
      omega
    have h8 := congrArg BitVec.toNat (hinj _ _ h7)
    omega

/-- C48 is false for uniform bits and `IntModN`: 128-bit blocks are not uniform modulo 3. A key for 1 and a key for
0 on a domain with a single element have different distributions. -/
theorem C48_refuted : ∃ (fp : FpEnv) (params : List DpfParameters) (T : Nat → Ty) (d : Dpf)
    (b b' : (h : Nat) → (T h).den), Setup fp params T d ∧ ∀ (env : Env) (seed : U128),
    ¬ ∃ φ ψ : Bits (treeLevels d) params.length (blocksOf d) → Bits (treeLevels d) params.length (blocksOf d),
      (∀ r, ψ (φ r) = r) ∧ (∀ r, φ (ψ r) = r) ∧
      ∀ r, experimentKey d env params T false seed 0 b' ((φ r).rand T) =
        experimentKey d env params T false seed 0 b (r.rand T) := by
  obtain ⟨d, hs, hL, ht, hk⟩ := exMod3_setup
  refine ⟨exFp, exParamsMod3, fun _ => exMod3, d, fun _ => ⟨1#32, by decide⟩, fun _ => ⟨0#32, by decide⟩, hs, ?_⟩
  exact fun env seed => exMod3_differs hL ht hk env seed

/-- C48 on the example: three levels with different types, alpha 2^127 + 5 against alpha 0. -/
example : ∃ d, Setup exFp exParams exT d ∧ ∀ env seed, ∃ φ ψ : Rand (treeLevels d) exParams.length exT →
      Rand (treeLevels d) exParams.length exT,
    (∀ r, ψ (φ r) = r) ∧ (∀ r, φ (ψ r) = r) ∧
    ∀ r, experimentKey d env exParams exT true seed 0 (fun h => (exT h).helper.zero) (φ r) =
      experimentKey d env exParams exT true seed (BitVec.ofNat 128 (2 ^ 127 + 5)) exB r := by
  obtain ⟨d, hd⟩ := exSetup
  exact ⟨d, hd, fun env seed => C48_hides exFp exParams exT d hd env true seed _ _ _ _⟩

/-- C48 for bits on a DPF with two levels. -/
example : ∃ d, Setup exFp exParamsBits exTBits d ∧ ∀ env seed alpha alpha' b b',
    ∃ φ ψ : Bits (treeLevels d) exParamsBits.length (blocksOf d) → Bits (treeLevels d) exParamsBits.length (blocksOf d),
    (∀ r, ψ (φ r) = r) ∧ (∀ r, φ (ψ r) = r) ∧
    ∀ r, experimentKey d env exParamsBits exTBits false seed alpha' b' ((φ r).rand exTBits) =
      experimentKey d env exParamsBits exTBits false seed alpha b (r.rand exTBits) := by
  have h : (match Dpf.createIncremental exFp exParamsBits with
    | .ok _ => true
    | _ => false) = true := by decide +kernel
  split at h
  · rename_i d hd
    have hs : Setup exFp exParamsBits exTBits (d.registerAll [exTBits 1]) := Setup.of_flat hd
      (by
        intro h p hp
        match h, hp with
        | 0, hp => simp [exParamsBits] at hp; rw [← hp]
        | 1, hp => simp [exParamsBits] at hp; rw [← hp]
        | h + 2, hp => simp [exParamsBits] at hp)
      (by
        intro h hh
        match h, hh with
        | 0, _ => exact Or.inr ⟨.w64, rfl⟩
        | 1, _ => exact Or.inl (by simp)
        | h + 2, hh => simp [exParamsBits] at hh; omega)
      (by
        intro h hh
        match h, hh with
        | 0, _ => exact Or.inl rfl
        | 1, _ => exact Or.inl rfl
        | h + 2, hh => simp [exParamsBits] at hh; omega)
    exact ⟨_, hs, fun env seed alpha alpha' b b' => C48_hides_bits_partial exFp exParamsBits exTBits _ hs (by
      intro h hh
      match h, hh with
      | 0, _ => rfl
      | 1, _ => rfl
      | h + 2, hh => simp [exParamsBits] at hh; omega) env false seed alpha alpha' b b'⟩
  · simp at h

/-- The generated keys of the example are keys of the experiment. -/
example (env : Env) : ∃ d k0 k1, Setup exFp exParams exT d ∧
    d.generateKeysIncremental env (BitVec.ofNat 128 (2 ^ 127 + 5)) exBeta 1 2 = ok (k0, k1) ∧
    k1 = experimentKey d env exParams exT true 2 (BitVec.ofNat 128 (2 ^ 127 + 5)) exB
      ((pathBits d env exParams (BitVec.ofNat 128 (2 ^ 127 + 5)) k0 (treeLevels d) exParams.length).rand exT) := by
  obtain ⟨d, hd⟩ := exSetup
  obtain ⟨k0, k1, h1, _, h3⟩ := C48_real exFp exParams exT d hd env (BitVec.ofNat 128 (2 ^ 127 + 5)) (by decide)
    exBeta exB exBetas 1 2
  exact ⟨d, k0, k1, hd, h1, h3⟩

end Verif
