import Verif.Lemmas.KeyGen
import Verif.Lemmas.Setup
/-!
# Too few bytes reserved: key generation aborts
-/
namespace Verif
open Res Spec

theorem convertBytesTo_short {w : Nat} {b : Bytes} (h : b.length ≠ w / 8) : IntModN.convertBytesTo w b = crash := by
  unfold IntModN.convertBytesTo; rw [if_neg h]

theorem uint_sample_short (w : Width) (u : Bool) (block : U128) (rest : Bytes)
    (h : rest.length < (Ty.uint w).leafBytes - (if u then 0 else (Ty.uint w).lastLeafBytes)) :
    (Ty.uint w).helper.sampleAndUpdateBytes u block rest = crash := by
  cases u
  · simp [Ty.leafBytes, Ty.lastLeafBytes] at h
  · have h' : rest.length < w.bits / 8 := by simpa [Ty.leafBytes] using h
    have e1 := substr_ok (b := rest) (n := w.bits / 8) (Nat.zero_le rest.length)
    have e3 := convertBytesTo_short (w := w.bits) (b := (rest.drop 0).take (w.bits / 8)) (by simp; omega)
    simp only [Ty.helper, uintHelper, if_true, e1, e3, bind_ok]
    rfl

mutual
/-- Sampling from too few bytes aborts. -/
theorem Ty.sample_short : (t : Ty) → (u : Bool) → (block : U128) → (rest : Bytes) →
    rest.length < t.leafBytes - (if u then 0 else t.lastLeafBytes) →
    t.helper.sampleAndUpdateBytes u block rest = crash
  | .uint w, u, block, rest, h => uint_sample_short w u block rest h
  | .intModN w N hp hl, u, block, rest, h => by
    cases u
    · simp [Ty.leafBytes, Ty.lastLeafBytes] at h
    · have h' : rest.length < w.bits / 8 := by simpa [Ty.leafBytes] using h
      have e1 := substr_ok (b := rest) (n := w.bits / 8) (Nat.zero_le rest.length)
      have e3 := convertBytesTo_short (w := w.bits) (b := (rest.drop 0).take (w.bits / 8)) (by simp; omega)
      simp only [Ty.helper, intModNHelper, if_true, e1, e3, bind_ok]
      rfl
  | .xorWrapper w, u, block, rest, h => uint_sample_short w u block rest h
  | .tuple ts, u, block, rest, h => Tys.sample_short ts u block rest h
@[inherit_doc Ty.sample_short]
theorem Tys.sample_short : (ts : Tys) → (u : Bool) → (block : U128) → (rest : Bytes) →
    rest.length < ts.leafBytes - (if u then 0 else ts.lastLeafBytes) →
    ts.helper.sample u block rest = crash
  | .one t, u, block, rest, h => Ty.sample_short t u block rest h
  | .cons t ts, u, block, rest, h => by
    have hl : (Tys.cons t ts).leafBytes = t.leafBytes + ts.leafBytes := rfl
    have hll : (Tys.cons t ts).lastLeafBytes = ts.lastLeafBytes := rfl
    rw [hl, hll] at h
    show (t.helper.sampleAndUpdateBytes true block rest >>= fun (a, block, remaining) =>
      ts.helper.sample u block remaining >>= fun (c, block, remaining) =>
      ok ((a, c), block, remaining)) = _
    by_cases h1 : rest.length < t.leafBytes
    · rw [Ty.sample_short t true block rest (by simpa using h1)]
      rfl
    · obtain ⟨x, b1, e1⟩ := Ty.sample_ok t true block rest (by simp; omega)
      simp only [if_true, Nat.sub_zero] at e1
      rw [e1, bind_ok]
      simp only []
      rw [Tys.sample_short ts u b1 (rest.drop t.leafBytes) (by simp; omega)]
      rfl
end

/-- Too few bytes: conversion to an array aborts. -/
theorem Ty.convert_short (t : Ty) (b : Bytes) (hb : b.length < t.bytesRead) :
    t.helper.convertBytesToArrayOf b = crash := by
  unfold Helper.convertBytesToArrayOf
  unfold Ty.bytesRead at hb
  rw [Ty.canDirect_eq]
  by_cases h : t.noMod = true
  · rw [if_pos h] at hb ⊢
    have hsz : (t.helper.totalBitSize + 7) / 8 = t.leafBytes := by
      rw [Ty.totalBitSize_eq t h]; omega
    have hmul : ¬ (t.helper.elementsPerBlock * t.leafBytes ≤ b.length) := by
      rw [Ty.elementsPerBlock_eq, if_pos h]
      split at hb
      · rename_i h1; rw [if_pos h1]; omega
      · rename_i h1; rw [if_neg h1]; omega
    dsimp only
    rw [hsz]
    unfold check
    rw [if_neg hmul]
    rfl
  · rw [if_neg h] at hb ⊢
    unfold Helper.fromBytes
    rw [Ty.canDirect_eq, if_neg h, substr_ok (Nat.zero_le _), bind_ok]
    by_cases h16 : b.length < 16
    · rw [convertBytesTo_short (by simp; omega)]
      rfl
    · rw [convertBytesTo_ok (by simp; omega), bind_ok, substrFrom_ok (by omega), bind_ok,
        Ty.sample_short t false _ (b.drop 16) (by simp; omega)]
      rfl

namespace Dpf
variable {d : Dpf}

theorem WF.computeValueCorrection_short (wf : d.WF) (env : Env) {h : Nat} (hh : h < d.n) {T : Ty}
    (hvt : ∀ p, d.pv.parameters[h]? = some p → p.vt = T.helper.toValueType) (hr : d.Registered T)
    (hs : 16 * d.blocksAt h < T.bytesRead) (seeds : U128 × U128) (a : U128) (c : Bool) {beta : Value} {b : T.den}
    (hb : T.helper.fromValue beta = ok b) :
    d.computeValueCorrection env h seeds a beta c = crash := by
  unfold computeValueCorrection
  rw [wf.blocks_ok hh, bind_ok]
  obtain ⟨p, hp, hp'⟩ := wf.param_ok hh
  dsimp only
  rw [Aes128FixedKeyHash.evaluate_eq _ _ _ _ _ rfl (fun _ => rfl), bind_ok,
    wf.domainToBlockIndex_ok hh, bind_ok, hp, bind_ok]
  unfold getValueCorrectionFunction
  rw [hvt p hp', hr, bind_ok, List.map_append]
  have l0 : ((iota seeds.1 (d.blocksAt h)).map (hash env kPrgKeyValue)).length = d.blocksAt h := by
    simp [iota_length]
  rw [List.take_append_of_le_length (by omega), List.take_of_length_le (by omega)]
  unfold Helper.computeValueCorrectionFor
  rw [hb, bind_ok, Ty.convert_short _ _ (by rw [blocksBytes_length, l0]; exact hs)]
  rfl

/-- Everything key generation needs about the betas except that bytes suffice. -/
structure BetasTyped (d : Dpf) (T : Nat → Ty) (beta : List Value) (b : (h : Nat) → (T h).den) : Prop where
  vt : ∀ h, h < d.n → ∀ p, d.pv.parameters[h]? = some p → p.vt = (T h).helper.toValueType
  elems : ∀ h, h < d.n → 2 ^ (d.logAt h - d.treeAt h) ≤ (T h).helper.elementsPerBlock
  reg : ∀ h, h < d.n → d.Registered (T h)
  len : beta.length = d.n
  dec : ∀ h v, beta[h]? = some v → (T h).helper.fromValue v = ok (b h)
  val : ∀ h v, beta[h]? = some v → validateValue (T h).helper.toValueType v = ok ()

/-- The value correction at a depth is computed, or key generation aborts if the bytes of its level do not
suffice. -/
theorem WF.valueCorrectionAt_total (wf : d.WF) (env : Env) {T : Nat → Ty} {beta : List Value}
    {b : (h : Nat) → (T h).den} (hb : BetasTyped d T beta b) (alpha : U128) (t : Nat) (n0 n1 : Node) :
    (d.valueCorrectionAt env (t + 1) alpha beta (stOf n0 n1 []) = crash ∨
      ∃ vc, d.valueCorrectionAt env (t + 1) alpha beta (stOf n0 n1 []) = ok vc) ∧
    ∀ h, h < d.n → d.treeAt h = t → 16 * d.blocksAt h < (T h).bytesRead →
      d.valueCorrectionAt env (t + 1) alpha beta (stOf n0 n1 []) = crash := by
  unfold valueCorrectionAt
  rw [Nat.add_sub_cancel]
  cases hl : d.pv.treeToHierarchy.lookup t with
  | some h =>
    obtain ⟨hh, htree⟩ := (wf.lookup t h).mp hl
    obtain ⟨p, hp, hp'⟩ := wf.param_ok hh
    dsimp only
    rw [hp, bind_ok, wf.lastLog_ok, bind_ok, wf.log_eq h p hp']
    obtain ⟨x, hx, _⟩ := wf.alphaPrefix_ok hh alpha
    have hlt : h < beta.length := by rw [hb.len]; exact hh
    have hdec := hb.dec h _ (List.getElem?_eq_getElem hlt)
    have hred : ((if (d.logAt (d.n - 1) : Int) - (d.logAt h : Int) < 128 then do
          let a ← shr128 alpha ((d.logAt (d.n - 1) : Int) - (d.logAt h : Int))
          d.computeValueCorrection env h (stOf n0 n1 []).seeds a (← rd beta h) (stOf n0 n1 []).control.2
        else do
          d.computeValueCorrection env h (stOf n0 n1 []).seeds 0 (← rd beta h) (stOf n0 n1 []).control.2)) =
        d.computeValueCorrection env h (n0.seed, n1.seed) x beta[h] n1.ctrl := by
      split at hx
      · rename_i hc'
        rw [if_pos hc', hx, bind_ok, rd_lt hlt, bind_ok]; rfl
      · rename_i hc'
        simp only [ok.injEq] at hx
        subst hx
        rw [if_neg hc', rd_lt hlt, bind_ok]; rfl
    constructor
    · by_cases hs : 16 * d.blocksAt h < (T h).bytesRead
      · left
        refine Eq.trans ?_ (wf.computeValueCorrection_short env hh (hb.vt h hh) (hb.reg h hh) hs (n0.seed, n1.seed) x
          n1.ctrl hdec)
        exact hred
      · right
        have hc := wf.computeValueCorrection_ok env hh ⟨hb.vt h hh, by omega, hb.elems h hh⟩ (hb.reg h hh) n0 n1 x hdec
        refine ⟨_, Eq.trans ?_ hc⟩
        exact hred
    · intro h' hh' ht' hs
      have : h' = h := by
        have := (wf.lookup t h').mpr ⟨hh', ht'⟩
        rw [hl] at this; simpa using this.symm
      subst this
      refine Eq.trans ?_ (wf.computeValueCorrection_short env hh (hb.vt _ hh) (hb.reg _ hh) hs (n0.seed, n1.seed) x
        n1.ctrl hdec)
      exact hred
  | none =>
    refine ⟨Or.inr ⟨[], rfl⟩, ?_⟩
    intro h hh ht
    have := (wf.lookup t h).mpr ⟨hh, ht⟩
    rw [hl] at this; simp at this

theorem foldRes_snoc {σ α : Type} (f : σ → α → Res σ) (s : σ) (l : List α) (x : α) :
    foldRes f s (l ++ [x]) = foldRes f s l >>= fun s => f s x := by
  rw [foldRes_append]
  cases foldRes f s l with
  | ok s => rw [bind_ok, bind_ok, foldRes_cons]; cases f s x <;> rfl
  | err c => rfl
  | ub => rfl
  | crash => rfl

theorem WF.generateLoop_total (wf : d.WF) (env : Env) {T : Nat → Ty} {beta : List Value}
    {b : (h : Nat) → (T h).den} (hb : BetasTyped d T beta b) (alpha : U128) (r0 r1 : Node) (i : Nat)
    (hi : i ≤ d.logAt (d.n - 1)) :
    (foldRes (d.generateNext env alpha beta) (stOf r0 r1 []) ((List.range i).map (· + 1)) = crash ∨
      ∃ n0 n1 cws, foldRes (d.generateNext env alpha beta) (stOf r0 r1 []) ((List.range i).map (· + 1)) =
        ok (stOf n0 n1 cws)) ∧
    ∀ h, h < d.n → d.treeAt h < i → 16 * d.blocksAt h < (T h).bytesRead →
      foldRes (d.generateNext env alpha beta) (stOf r0 r1 []) ((List.range i).map (· + 1)) = crash := by
  induction i with
  | zero => exact ⟨Or.inr ⟨r0, r1, [], rfl⟩, fun h _ ht => absurd ht (Nat.not_lt_zero _)⟩
  | succ i ih =>
    obtain ⟨ih1, ih2⟩ := ih (by omega)
    rw [List.range_succ, List.map_append, List.map_cons, List.map_nil, foldRes_snoc]
    rcases ih1 with hc | ⟨n0, n1, cws, ho⟩
    · rw [hc]
      exact ⟨Or.inl rfl, fun _ _ _ _ => rfl⟩
    · rw [ho, bind_ok, wf.generateNext_eq env alpha beta n0 n1 cws (by omega)]
      obtain ⟨t1, t2⟩ := wf.valueCorrectionAt_total env hb alpha i n0 n1
      constructor
      · rcases t1 with hv | ⟨vc, hv⟩
        · rw [hv]; exact Or.inl rfl
        · rw [hv, bind_ok]; exact Or.inr ⟨_, _, _, rfl⟩
      · intro h hh ht hs
        rcases Nat.lt_or_ge (d.treeAt h) i with h1 | h1
        · rw [ih2 h hh h1 hs] at ho
          cases ho
        · rw [t2 h hh (by omega) hs]; rfl

/-- If the bytes reserved for some level do not suffice, key generation aborts. -/
theorem WF.generateKeys_short (wf : d.WF) (env : Env) {T : Nat → Ty} {beta : List Value}
    {b : (h : Nat) → (T h).den} (hb : BetasTyped d T beta b) {alpha : U128}
    (ha : alpha.toNat < 2 ^ d.logAt (d.n - 1)) (seed0 seed1 : U128) {h : Nat} (hh : h < d.n)
    (hs : 16 * d.blocksAt h < (T h).bytesRead) :
    d.generateKeysIncremental env alpha beta seed0 seed1 = crash := by
  have hpos := wf.pos
  have hneed := wf.needed
  have htl := wf.tree_le (d.n - 1)
  unfold generateKeysIncremental
  rw [wf.checkKeyGenArgs_ok ha hb.len (by
    intro h p v hp hv
    have hlt : h < d.n := (List.getElem?_eq_some_iff.mp hp).1
    rw [hb.vt h hlt p hp]
    exact hb.val h v hv), bind_ok]
  obtain ⟨t1, t2⟩ := wf.generateLoop_total env hb alpha ⟨seed0, false⟩ ⟨seed1, true⟩ (d.pv.treeLevelsNeeded - 1)
    (by omega)
  show (foldRes _ (stOf ⟨seed0, false⟩ ⟨seed1, true⟩ []) _ >>= _) = _
  rcases t1 with hc | ⟨n0, n1, cws, ho⟩
  · rw [hc]; rfl
  · have hlast : h = d.n - 1 := by
      rcases Nat.lt_or_ge h (d.n - 1) with h1 | h1
      · have := wf.tree_asc h (d.n - 1) h1 (by omega)
        rw [t2 h hh (by omega) hs] at ho
        cases ho
      · omega
    rw [ho, bind_ok]
    have hlt : beta.length - 1 < beta.length := by rw [hb.len]; omega
    dsimp only
    rw [rd_lt hlt, bind_ok]
    have hn : d.pv.parameters.length - 1 = h := by rw [hlast]; rfl
    have hdec := hb.dec h (beta[beta.length - 1]) (by
      rw [hlast, ← hb.len, List.getElem?_eq_getElem])
    rw [hn, wf.computeValueCorrection_short env hh (hb.vt h hh) (hb.reg h hh) hs _ _ _ hdec]
    rfl

end Dpf

theorem Spec.SetupTypes.betasTyped {fp : FpEnv} {params : List DpfParameters} {T : Nat → Ty} {d : Dpf}
    (s : SetupTypes fp params T d) {beta : List Value} {b : (h : Nat) → (T h).den}
    (hb : BetasRepresent params T beta b) : Dpf.BetasTyped d T beta b where
  vt h hh q hq := by
    have hc := s.toCreated
    rw [hc.n_eq] at hh
    have hp := List.getElem?_eq_getElem hh
    rw [hc.params, List.getElem?_map, hp] at hq
    simp only [Option.map_some, Option.some.injEq] at hq
    rw [← hq, DpfParameters.vt, withDefaultSecurity_vt, s.types h _ hp]; rfl
  elems h hh := by
    have hc := s.toCreated
    rw [hc.n_eq] at hh
    have hp := List.getElem?_eq_getElem hh
    exact Dpf.elems_of_created hc hp (s.types h _ hp)
  reg _ hh := s.registered hh
  len := by rw [hb.1, s.toCreated.n_eq]
  dec h v hv := (T h).fromValue_of_represents v (b h) (hb.2 h v hv)
  val h v hv := (T h).validateValue_of_represents v (b h) (hb.2 h v hv)

end Verif
