import Verif.Spec.OtherType
import Verif.Lemmas.AnyContext
import Verif.Lemmas.Apply
import Verif.Lemmas.Short
import Verif.Lemmas.Textbook
import Verif.Lemmas.Dcf
/-! Evaluation as a type other than that of the level. -/
namespace Verif
open Res Spec

mutual
/-- A message that decodes as a type has its form. -/
def HasForm : Form → Value → Prop
  | .integer, .integer _ => True
  | .intModN, .intModN _ => True
  | .xorWrapper, .xorWrapper _ => True
  | .tuple fs, .tuple vs => HaveForms fs vs
  | _, _ => False
/-- The same for the elements of a tuple. -/
def HaveForms : List Form → List Value → Prop
  | [], [] => True
  | f :: fs, v :: vs => HasForm f v ∧ HaveForms fs vs
  | _, _ => False
end

mutual
theorem HasForm.unique : (f g : Form) → (v : Value) → HasForm f v → HasForm g v → f = g
  | f, g, .integer _, hf, hg => by cases f <;> cases g <;> simp [HasForm] at hf hg ⊢
  | f, g, .intModN _, hf, hg => by cases f <;> cases g <;> simp [HasForm] at hf hg ⊢
  | f, g, .xorWrapper _, hf, hg => by cases f <;> cases g <;> simp [HasForm] at hf hg ⊢
  | f, g, .notSet, hf, hg => by cases f <;> simp [HasForm] at hf
  | .tuple fs, .tuple gs, .tuple vs, hf, hg => by
    rw [HasForm] at hf hg
    rw [HaveForms.unique fs gs vs hf hg]
  | .integer, g, .tuple vs, hf, hg => by simp [HasForm] at hf
  | .intModN, g, .tuple vs, hf, hg => by simp [HasForm] at hf
  | .xorWrapper, g, .tuple vs, hf, hg => by simp [HasForm] at hf
  | .tuple fs, .integer, .tuple vs, hf, hg => by simp [HasForm] at hg
  | .tuple fs, .intModN, .tuple vs, hf, hg => by simp [HasForm] at hg
  | .tuple fs, .xorWrapper, .tuple vs, hf, hg => by simp [HasForm] at hg
theorem HaveForms.unique : (fs gs : List Form) → (vs : List Value) → HaveForms fs vs → HaveForms gs vs → fs = gs
  | [], [], _, _, _ => rfl
  | f :: fs, g :: gs, v :: vs, hf, hg => by
    rw [HaveForms] at hf hg
    rw [HasForm.unique f g v hf.1 hg.1, HaveForms.unique fs gs vs hf.2 hg.2]
  | f :: fs, _, [], hf, _ => by simp [HaveForms] at hf
  | _, g :: gs, [], _, hg => by simp [HaveForms] at hg
  | [], _, v :: vs, hf, _ => by simp [HaveForms] at hf
  | _, [], v :: vs, _, hg => by simp [HaveForms] at hg
end

mutual
theorem Ty.hasForm : (t : Ty) → (v : Value) → (x : t.den) → t.helper.fromValue v = ok x → HasForm (formOf t) v
  | .uint w, v, x, h => by
    cases v with
    | integer i => simp [formOf, HasForm]
    | _ => exact absurd (show (err _ : Res _) = ok x from h) (by simp)
  | .xorWrapper w, v, x, h => by
    cases v with
    | xorWrapper i => simp [formOf, HasForm]
    | _ => exact absurd (show (err _ : Res _) = ok x from h) (by simp)
  | .intModN w N hp hl, v, x, h => by
    cases v with
    | intModN i => simp [formOf, HasForm]
    | _ => exact absurd (show (err _ : Res _) = ok x from h) (by simp)
  | .tuple ts, v, x, h => by
    cases v with
    | tuple vs =>
      have h : (failIf (vs.length ≠ ts.helper.size) .invalidArgument >>= fun _ =>
        ts.helper.fromValues vs) = ok x := h
      obtain ⟨_, h1, h2⟩ := bind_eq_ok.mp h
      rw [failIf_eq_ok] at h1
      rw [formOf, HasForm]
      exact Tys.haveForms ts vs x (by omega) h2
    | _ => exact absurd (show (err _ : Res _) = ok x from h) (by simp)
theorem Tys.haveForms : (ts : Tys) → (vs : List Value) → (x : ts.den) → vs.length = ts.helper.size →
    ts.helper.fromValues vs = ok x → HaveForms (formsOf ts) vs
  | .one t, vs, x, hl, h => by
    match vs, hl, h with
    | [v], _, h => rw [formsOf, HaveForms]; exact ⟨Ty.hasForm t v x h, by simp [HaveForms]⟩
  | .cons t ts, vs, x, hl, h => by
    have hl' : vs.length = ts.helper.size + 1 := hl
    match vs, hl', h with
    | v :: vs, hl', h =>
      have h : (t.helper.fromValue v >>= fun a => ts.helper.fromValues vs >>= fun b =>
        ok (a, b)) = ok x := h
      simp only [bind_eq_ok] at h
      obtain ⟨a, h1, b, h2, _⟩ := h
      rw [formsOf, HaveForms]
      exact ⟨Ty.hasForm t v a h1, Tys.haveForms ts vs b (by simpa using hl') h2⟩
end

/-- Types of different form have no message in common. -/
theorem formOf_eq {T S : Ty} {v : Value} {x : T.den} {y : S.den} (hT : T.helper.fromValue v = ok x)
    (hS : S.helper.fromValue v = ok y) : formOf S = formOf T :=
  HasForm.unique _ _ v (S.hasForm v y hS) (T.hasForm v x hT)

theorem perBlock_pos (t : Ty) : 0 < perBlock t := by
  rw [← perBlock_eq, t.elementsPerBlock_eq]
  split
  · split
    · rename_i h
      have := t.leafBytes_pos
      exact Nat.div_pos h this
    · decide
  · decide

/-- Value corrections that decode as both types. -/
theorem valuesToArray_both {T S : Ty} {vs : List Value} {xs : List T.den} {ys : List S.den}
    (hT : T.helper.valuesToArray vs = ok xs) (hS : S.helper.valuesToArray vs = ok ys) :
    formOf S = formOf T ∧ perBlock S = perBlock T := by
  unfold Helper.valuesToArray at hT hS
  split at hT
  · simp at hT
  split at hS
  · simp at hS
  rename_i h1 h2
  rw [perBlock_eq] at h1 h2
  have hpos := perBlock_pos T
  refine ⟨?_, by omega⟩
  match vs, hT, hS with
  | [], _, _ => simp at h1; omega
  | v :: vs, hT, hS =>
    rw [mapRes_cons] at hT hS
    obtain ⟨x, hx, _⟩ := bind_eq_ok.mp hT
    obtain ⟨y, hy, _⟩ := bind_eq_ok.mp hS
    exact formOf_eq hx hy

namespace Dpf
variable {d : Dpf}

/-- A key that evaluates as one type does not decode as a type of another form. -/
theorem WF.getValueCorrection_other (wf : d.WF) {key : DpfKey} (hk : d.KeyOk key) {h : Nat} (hh : h < d.n) {T S : Ty}
    {corr : List T.den} (hc : d.getValueCorrectionAsArray T.helper key h = ok corr)
    (hS : formOf S ≠ formOf T ∨ perBlock S ≠ perBlock T) :
    d.getValueCorrectionAsArray S.helper key h = err .invalidArgument := by
  rcases wf.getValueCorrection_cases hk hh S with ⟨c, e⟩ | e
  · exfalso
    rw [getValueCorrection_unfold] at hc e
    obtain ⟨vs, h1, h2⟩ := bind_eq_ok.mp hc
    rw [h1, bind_ok] at e
    have := valuesToArray_both h2 e
    rcases hS with h | h
    · exact h this.1
    · exact h this.2
  · exact e

theorem finishAt_corr {α : Type} {env : Env} {H : Helper α} {key : DpfKey} {h : Nat} {points ti : List U128}
    {sel : DpfExpansion} {start : Nat} {vals : List α} (hv : d.finishAt env H key h points ti sel start = ok vals) :
    ∃ corr, d.getValueCorrectionAsArray H key h = ok corr := by
  unfold finishAt at hv
  obtain ⟨_, _, hv⟩ := bind_eq_ok.mp hv
  obtain ⟨_, _, hv⟩ := bind_eq_ok.mp hv
  obtain ⟨_, _, hv⟩ := bind_eq_ok.mp hv
  obtain ⟨_, _, hv⟩ := bind_eq_ok.mp hv
  obtain ⟨corr, hc, _⟩ := bind_eq_ok.mp hv
  exact ⟨corr, hc⟩

/-- A key that evaluates as `H` decodes as `H`. -/
theorem WF.evaluateAt_corr (wf : d.WF) {α : Type} {env : Env} {H : Helper α} {key : DpfKey} {h : Int}
    {points : List U128} {vals : List α} (hne : points ≠ []) (hv : d.evaluateAt env H key h points = ok vals) :
    ∃ hN : Nat, h = hN ∧ hN < d.n ∧ d.KeyOk key ∧ ∃ corr, d.getValueCorrectionAsArray H key hN = ok corr := by
  rcases wf.checkEvaluateAt_cases key h points with ⟨hN, rfl, hh, hk, hp⟩ | he
  · refine ⟨hN, rfl, hh, hk, ?_⟩
    unfold evaluateAt at hv
    rw [wf.checkEvaluateAt_ok hk hh hp, bind_ok, if_neg hne] at hv
    obtain ⟨ti, _, hv⟩ := bind_eq_ok.mp hv
    exact finishAt_corr hv
  · unfold evaluateAt at hv
    rw [he] at hv
    simp at hv

/-- The final part, up to the value correction. -/
theorem WF.finishAt_start (wf : d.WF) (env : Env) {key : DpfKey} (hk : d.KeyOk key) {h : Nat} (hh : h < d.n)
    {α : Type} (H : Helper α) (points ti : List U128) (ns : List Node) (hn : ns.length = ti.length) {start : Nat}
    (hst : start ≤ d.treeAt h) :
    ∃ (ev : List Node) (rest : List α → Nat → List α → Res α), ev.length = ti.length ∧
    d.finishAt env H key h points ti (.ofNodes ns) start =
      (d.getValueCorrectionAsArray H key h >>= fun corr =>
      mapRes (fun i => slice ((DpfExpansion.ofNodes ev).seeds.flatMap fun s =>
          (iota s (d.blocksAt h)).map (hash env kPrgKeyValue)) (i * d.blocksAt h) (d.blocksAt h) >>= fun bs =>
        H.convertBytesToArrayOf (blocksBytes bs) >>= fun elems => rest corr i elems) (List.range points.length)) := by
  have hle := wf.tree_le_cws hk hh
  refine ⟨List.zipWith (fun n (x : U128) => walk (dpfPrg env)
      ((key.correctionWords.drop start).take (d.treeAt h - start)) x.toNat n) ns ti, ?_⟩
  unfold finishAt
  rw [wf.tree_ok hh, bind_ok, subspan_ok _ (by omega) hst, bind_ok,
    evaluateSeeds_ofNodes _ _ _ _ hn.symm (wf.take_int _ _ _), bind_ok, wf.hashExpandedSeeds_ok hh, bind_ok,
    wf.blocks_ok hh]
  simp only [bind_ok]
  exact ⟨_, by simp [hn], rfl⟩

theorem WF.evaluateAt_start (wf : d.WF) (env : Env) {key : DpfKey} (hk : d.KeyOk key) {h : Nat} (hh : h < d.n)
    {α : Type} (H : Helper α) {points : List U128} (hne : points ≠ []) (hp : ∀ x ∈ points, x.toNat < 2 ^ d.logAt h) :
    ∃ ti : List U128, ti.length = points.length ∧ d.evaluateAt env H key h points =
      d.finishAt env H key h points ti (.ofNodes (ti.map fun _ => root key)) 0 := by
  obtain ⟨ti, h1, h2⟩ := treeIndicesFor_cases wf H hh points
  refine ⟨ti, h2, ?_⟩
  unfold evaluateAt
  rw [wf.checkEvaluateAt_ok hk hh hp, bind_ok, if_neg hne, h1, bind_ok]
  have e : (⟨List.replicate points.length key.seedBlock,
      List.replicate points.length (decide (key.party ≠ 0))⟩ : DpfExpansion) = .ofNodes (ti.map fun _ => root key) := by
    simp only [DpfExpansion.ofNodes, List.map_map, DpfExpansion.mk.injEq]
    constructor <;> apply List.ext_getElem <;> simp [root, h2]
  rw [e]

/-- The correction does not decode. -/
theorem WF.evaluateAt_undecodable (wf : d.WF) (env : Env) {key : DpfKey} (hk : d.KeyOk key) {h : Nat} (hh : h < d.n)
    {S : Ty} (hc : d.getValueCorrectionAsArray S.helper key h = err .invalidArgument) {points : List U128}
    (hne : points ≠ []) (hp : ∀ x ∈ points, x.toNat < 2 ^ d.logAt h) :
    d.evaluateAt env S.helper key h points = err .invalidArgument := by
  obtain ⟨ti, h1, e⟩ := wf.evaluateAt_start env hk hh S.helper hne hp
  obtain ⟨ev, _, _, e2⟩ := wf.finishAt_start env hk hh S.helper points ti (ti.map fun _ => root key) (by simp)
    (Nat.zero_le _)
  rw [e, e2, hc]
  rfl

/-- The same with a context. -/
theorem WF.evaluateAtCtx_undecodable (wf : d.WF) (env : Env) {ctx : EvaluationContext}
    (hpl : 0 ≤ ctx.partialEvaluationsLevel ∧ ctx.partialEvaluationsLevel < d.n) {h : Nat} {S : Ty}
    (hc : d.getValueCorrectionAsArray S.helper ctx.keyD h = err .invalidArgument) {points : List U128}
    (hne : points ≠ []) : (d.evaluateAtCtx env S.helper h points ctx).1 = err .invalidArgument := by
  unfold evaluateAtCtx
  rcases wf.checkEvaluateAt_cases ctx.keyD h points with ⟨hN, hN', hh, hk, hp⟩ | he
  rotate_left
  · rw [he]; rfl
  obtain rfl : h = hN := by omega
  rw [wf.checkEvaluateAt_ok hk hh hp, keep_ok, if_neg hne]
  obtain ⟨ti, h1, h2⟩ := treeIndicesFor_cases wf S.helper hh points
  rw [h1, keep_ok]
  rcases wf.computePartialEvaluations_any env hk hpl hh ti true with ⟨ns, ctx', e, hl, hkey, _⟩ | e
  · rw [e, keep_ok]
    dsimp only
    rw [wf.tree_ok hh, keep_ok]
    have hkd : ctx'.keyD = ctx.keyD := by simp [EvaluationContext.keyD, hkey]
    obtain ⟨ev, _, _, e2⟩ := wf.finishAt_start env hk hh S.helper points ti ns (by omega) (Nat.le_refl _)
    rw [hkd, e2, hc]
    rfl
  · rw [e]; rfl

/-- The reserved bytes do not suffice. -/
theorem WF.evaluateAt_short (wf : d.WF) (env : Env) {key : DpfKey} (hk : d.KeyOk key) {h : Nat} (hh : h < d.n)
    {S : Ty} {corr : List S.den} (hc : d.getValueCorrectionAsArray S.helper key h = ok corr)
    (hs : 16 * d.blocksAt h < S.bytesRead) {points : List U128}
    (hne : points ≠ []) (hp : ∀ x ∈ points, x.toNat < 2 ^ d.logAt h) :
    d.evaluateAt env S.helper key h points = crash := by
  obtain ⟨ti, h1, e⟩ := wf.evaluateAt_start env hk hh S.helper hne hp
  obtain ⟨ev, _, hl, e2⟩ := wf.finishAt_start env hk hh S.helper points ti (ti.map fun _ => root key) (by simp)
    (Nat.zero_le _)
  rw [e, e2, hc, bind_ok]
  obtain ⟨n, hn⟩ : ∃ n, points.length = n + 1 := ⟨points.length - 1, by
    have : points.length ≠ 0 := by simpa using hne
    omega⟩
  rw [hn, List.range_succ_eq_map, mapRes_cons, WF.slice_hashed env _ (by simp [DpfExpansion.ofNodes]; omega), bind_ok,
    S.convert_short _ (by rw [blocksBytes_length]; simp [iota_length]; omega)]
  rfl

/-- One value of `EvaluateAndApply` whose correction does not decode. -/
theorem WF.applyValue_undecodable (_wf : d.WF) (env : Env) {keys : List DpfKey} (points : List U128) {h : Nat}
    {S : Ty} (s : Int) {ns : List Node} (hnl : ns.length = keys.length) {i : Nat}
    (hi : i < keys.length)
    (hc : d.getValueCorrectionAsArray S.helper (keys.getD i DpfKey.default) h = err .invalidArgument) :
    d.applyValue S.helper keys points s
      ((DpfExpansion.ofNodes ns).seeds.flatMap fun s => (iota s (d.blocksAt h)).map (hash env kPrgKeyValue))
      (d.blocksAt h) (DpfExpansion.ofNodes ns).controlBits h i =
    if 16 * d.blocksAt h < S.bytesRead then crash else err .invalidArgument := by
  have hi' : i < (DpfExpansion.ofNodes ns).seeds.length := by
    simpa [DpfExpansion.ofNodes, hnl] using hi
  unfold applyValue
  rw [WF.slice_hashed env _ hi', bind_ok]
  by_cases hb : 16 * d.blocksAt h < S.bytesRead
  · rw [if_pos hb, S.convert_short _ (by rw [blocksBytes_length]; simp [iota_length]; omega)]
    rfl
  · rw [if_neg hb]
    obtain ⟨xs, e, _⟩ := S.convert_ok (blocksBytes ((iota (DpfExpansion.ofNodes ns).seeds[i] (d.blocksAt h)).map
      (hash env kPrgKeyValue))) (by rw [blocksBytes_length]; simp [iota_length]; omega)
    rw [e, bind_ok, rd_getD hi DpfKey.default, bind_ok, hc]
    rfl

/-- `EvaluateAndApply` as a type that the first key does not decode as. -/
theorem WF.evaluateAndApply_undecodable (wf : d.WF) (env : Env) {key : DpfKey} {keys : List DpfKey}
    {points : List U128} {S : Ty} (hc : d.getValueCorrectionAsArray S.helper key 0 = err .invalidArgument)
    (r : Nat) (hr : r + d.logAt (d.n - 1) < 2 ^ 31) {σ : Type} (op : σ → List S.den → Bool × σ) (s : σ) :
    d.evaluateAndApply env S.helper (key :: keys) points op s (r : Int) = (err .invalidArgument, s) ∨
    (16 * d.blocksAt 0 < S.bytesRead ∧
      d.evaluateAndApply env S.helper (key :: keys) points op s (r : Int) = (crash, s)) := by
  by_cases hlen : points.length = (key :: keys).length
  rotate_left
  · left
    unfold evaluateAndApply
    rw [failIf_true hlen]; rfl
  by_cases hk : ∀ k ∈ key :: keys, d.KeyOk k
  · rw [wf.evaluateAndApply_loop env hlen hk S.helper r r]
    have hpos := wf.pos
    obtain ⟨n, hn⟩ : ∃ n, d.n = n + 1 := ⟨d.n - 1, by omega⟩
    rw [hn, List.range'_succ]
    unfold applyLoop
    suffices hL : d.applyLevel env S.helper (key :: keys) points (r : Int)
        ⟨.ofNodes (d.applyNodes env (key :: keys) points r (d.startOf 0)), d.stopOf 0⟩ 0 = err .invalidArgument ∨
        (16 * d.blocksAt 0 < S.bytesRead ∧ d.applyLevel env S.helper (key :: keys) points (r : Int)
        ⟨.ofNodes (d.applyNodes env (key :: keys) points r (d.startOf 0)), d.stopOf 0⟩ 0 = crash) by
      rcases hL with h | ⟨hb, h⟩
      · left; rw [h]; rfl
      · right; rw [h]; exact ⟨hb, rfl⟩
    unfold applyLevel
    obtain ⟨p, hp1, hp2⟩ := wf.param_ok hpos
    dsimp only
    rw [wf.tree_ok hpos, bind_ok, hp1, bind_ok, wf.lastLog_ok, bind_ok, wf.log_eq 0 p hp2,
      intRange_of (by omega) (by omega), bind_ok]
    simp only [Nat.lt_irrefl, if_false, gt_iff_lt]
    have e0 : d.stopOf 0 = d.treeAt 0 := by simp [stopOf]
    rw [e0]
    rcases wf.applySeeds_cases env hlen hk hpos r hr 0 (ns := d.applyNodes env (key :: keys) points r (d.startOf 0))
      (by simp [applyNodes]) with ⟨ns', hl', e⟩ | e
    · rw [e, bind_ok, wf.hashExpandedSeeds_ok hpos, bind_ok, wf.blocks_ok hpos, bind_ok]
      rw [List.length_cons, List.range_succ_eq_map, mapRes_cons,
        wf.applyValue_undecodable env points _ hl' (by simp) (by simpa using hc)]
      by_cases hb : 16 * d.blocksAt 0 < S.bytesRead
      · rw [if_pos hb]; exact Or.inr ⟨hb, rfl⟩
      · rw [if_neg hb]; exact Or.inl rfl
    · left; rw [e]; rfl
  · left
    unfold evaluateAndApply
    rw [failIf_false (by simpa using hlen), keep_ok]
    have hv : ∀ k, OkOrInvalid (d.pv.validateDpfKey k) := fun k =>
      (wf.validateDpfKey_cases k).imp (fun h => ⟨_, h⟩) id
    rcases OkOrInvalid.mapRes_unit (l := key :: keys) fun k _ => hv k with ⟨us, e⟩ | e
    · exfalso
      apply hk
      intro k hkk
      exact (wf.validateDpfKey_iff k).mp (mapRes_unit_eq_ok.mp ⟨us, e⟩ k hkk)
    · rw [e]; rfl

end Dpf

/-- A DCF key that evaluates as `T` decodes as `T` at the first level. -/
theorem Spec.DcfSetup.evaluate_corr {fp : FpEnv} {p : DpfParameters} {T : Ty} {c : Dcf} (hs : DcfSetup fp p T c)
    {env : Env} {key : DpfKey} {x : U128} {v : T.den} (hv : c.evaluate env T.helper key x = ok v) :
    c.dpf.KeyOk key ∧ ∃ corr, c.dpf.getValueCorrectionAsArray T.helper key 0 = ok corr := by
  have hk : c.dpf.KeyOk key := by
    by_cases hk : c.dpf.KeyOk key
    · exact hk
    · rw [hs.evaluate_bad env hk] at hv
      simp at hv
  refine ⟨hk, ?_⟩
  rw [hs.evaluate_ok env hk] at hv
  unfold Dcf.evalFold at hv
  have := hs.log_pos
  obtain ⟨n, hn⟩ : ∃ n, p.logDomainSize.toNat = n + 1 := ⟨p.logDomainSize.toNat - 1, by omega⟩
  rw [hn, List.range_succ_eq_map, foldRes_cons] at hv
  obtain ⟨_, h1, _⟩ := bind_eq_ok.mp hv
  unfold Dcf.stepAt at h1
  obtain ⟨_, h2, _⟩ := bind_eq_ok.mp h1
  obtain ⟨corr, h3, _⟩ := bind_eq_ok.mp h2
  exact ⟨corr, h3⟩

/-- A type of the same form and number of elements as an unsigned integer is this integer. -/
theorem eq_uint {S : Ty} {w : Width} (hf : formOf S = formOf (.uint w)) (hp : perBlock S = perBlock (.uint w)) :
    S = .uint w := by
  cases S with
  | uint w' => cases w <;> cases w' <;> first | rfl | (exact absurd hp (by decide))
  | intModN => simp [formOf] at hf
  | xorWrapper => simp [formOf] at hf
  | tuple => simp [formOf] at hf

theorem eq_xorWrapper {S : Ty} {w : Width} (hf : formOf S = formOf (.xorWrapper w))
    (hp : perBlock S = perBlock (.xorWrapper w)) : S = .xorWrapper w := by
  cases S with
  | xorWrapper w' => cases w <;> cases w' <;> first | rfl | (exact absurd hp (by decide))
  | intModN => simp [formOf] at hf
  | uint => simp [formOf] at hf
  | tuple => simp [formOf] at hf

end Verif
