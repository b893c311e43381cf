import Verif.Lemmas.Accept
import Verif.Lemmas.Mic
import Verif.Props.Dcf
import Verif.Props.Safety
import Verif.Props.PointFunction
/-!
# DCFs and interval containment gates on arbitrary input
-/
namespace Verif
open Res Spec

theorem rd_ge {α : Type} {l : List α} {i : Nat} (h : l.length ≤ i) : rd l i = ub := by
  unfold rd; rw [List.getElem?_eq_none h]

theorem dcfCreate_safe (fp : FpEnv) (p : DpfParameters)
    (hne : ∀ t, p.valueType = some t → NoEmptyTuple t ∧ leaves t < 2 ^ 23) : Safe (Dcf.create fp p) := by
  unfold Dcf.create
  refine Safe.bind (OkOrInvalid.failIf _).safe fun _ _ => ?_
  refine Safe.bind (validateParameters_cases _).safe fun _ _ => ?_
  refine Safe.bind (createIncremental_safe fp _ ?_ ?_) fun _ _ => .ok _
  · intro q hq
    obtain ⟨i, _, rfl⟩ := List.mem_map.mp hq
    unfold DpfParameters.vt
    cases h : p.valueType with
    | none => simp [NoEmptyTuple]
    | some t => exact (hne t h).1
  · intro q hq
    obtain ⟨i, _, rfl⟩ := List.mem_map.mp hq
    unfold DpfParameters.vt
    cases h : p.valueType with
    | none => simp [leaves]
    | some t => exact (hne t h).2

namespace Spec.DcfSetup
variable {fp : FpEnv} {p : DpfParameters} {T : Ty} {c : Dcf} (hs : DcfSetup fp p T c)
include hs

theorem register (S : Ty) : DcfSetup fp p T (c.register S.helper) := by
  obtain ⟨c0, Ts, h0, rfl, hT⟩ := hs.created
  have e : (c0.registerAll Ts).register S.helper = c0.registerAll (Ts ++ [S]) := by
    simp [Dcf.registerAll, Dcf.register, Dpf.registerAll]
  rw [e]
  refine ⟨⟨c0, _, h0, rfl, hT.imp (fun h => List.mem_append_left _ h) id⟩, hs.type, hs.log_le, ?_⟩
  have hb := hs.bytes
  show ∀ k ∈ (c0.dpf.registerAll (Ts ++ [S])).blocksNeeded, _
  rw [(c0.dpf.registerAll_pv _).2]
  rw [show (c0.registerAll Ts).dpf.blocksNeeded = c0.dpf.blocksNeeded from (c0.dpf.registerAll_pv _).2] at hb
  exact hb

theorem generateKeys_cases (env : Env) (alpha : U128) (beta : Value) (seed0 seed1 : U128) :
    OkOrInvalid (c.generateKeys env alpha beta seed0 seed1) := by
  have hle := hs.log_le
  unfold Dcf.generateKeys
  refine OkOrInvalid.bind (OkOrInvalid.mapRes_unit ?_) fun values _ => ?_
  · intro i hi
    rw [List.mem_range, hs.log_eq, Int.toNat_natCast] at hi
    unfold Dcf.levelValue
    rw [hs.log_eq, show ((p.logDomainSize.toNat : Int) - i - 1) = ((p.logDomainSize.toNat - i - 1 : Nat) : Int)
      by omega, shl128_ok (by omega), bind_ok]
    exact OkOrInvalid.ok _
  · have h := C19_registered fp _ _ _ hs.setup env (alpha >>> 1) values seed0 seed1
    by_cases hc : (alpha >>> 1).toNat < 2 ^ lastLogSize (Dcf.dpfParameters p) ∧
        ∃ b, BetasRepresent (Dcf.dpfParameters p) (fun _ => T) values b
    · obtain ⟨k0, k1, e⟩ := h.1.mpr hc
      exact Or.inl ⟨_, e⟩
    · exact Or.inr (h.2.mpr hc)

theorem evaluate_cases (env : Env) (key : DcfKey) (x : U128) :
    OkOrInvalid (c.evaluate env T.helper key x) := by
  by_cases hk : c.dpf.KeyOk key
  · rw [hs.evaluate_ok env hk x]; exact hs.evalFold_cases env hk x
  · exact Or.inr (hs.evaluate_bad env hk x)

theorem batchEvaluate_cases (env : Env) (keys : List DcfKey) (points : List U128)
    (hint : keys.length < 2 ^ 31) :
    (∃ ys, c.batchEvaluate env T.helper keys points = ok ys ∧ ys.length = keys.length) ∨
    c.batchEvaluate env T.helper keys points = err .invalidArgument := by
  by_cases hlen : points.length = keys.length
  · rw [C28_batch_partial fp p T c hs env keys points hlen hint]
    rcases OkOrInvalid.mapRes_unit (f := fun kx : DcfKey × U128 => c.evaluate env T.helper kx.1 kx.2)
      (l := keys.zip points) (fun kx _ => hs.evaluate_cases env kx.1 kx.2) with ⟨ys, e⟩ | e
    · refine Or.inl ⟨ys, e, ?_⟩
      have := mapRes_length e
      simp only [List.length_zip] at this
      omega
    · exact Or.inr e
  · right
    unfold Dcf.batchEvaluate
    rw [C28_sizes c env T keys points _ (Or.inl hlen)]
    rfl

end Spec.DcfSetup

theorem micCreate_cases (fp : FpEnv) (params : MicParameters) : Safe (Mic.create fp params) := by
  unfold Mic.create
  by_cases h1 : params.logGroupSize < 0 ∨ params.logGroupSize > 127
  · rw [failIf_true h1]; exact .err _
  · rw [failIf_false h1, bind_ok, show params.logGroupSize = (params.logGroupSize.toNat : Int) by omega,
      shl128_ok (by omega), bind_ok]
    refine Safe.bind (OkOrInvalid.mapRes_unit ?_).safe fun _ _ => ?_
    · intro iv _
      unfold Mic.checkInterval
      exact (OkOrInvalid.failIf _).bind fun _ _ => (OkOrInvalid.failIf _).bind fun _ _ =>
        (OkOrInvalid.failIf _).bind fun _ _ => OkOrInvalid.failIf _
    · refine Safe.bind (dcfCreate_safe fp _ ?_) fun _ _ => .ok _
      intro t ht
      cases ht
      exact ⟨trivial, (by decide : 1 < 2 ^ 23)⟩

namespace Spec.MicSetup
variable {fp : FpEnv} {params : MicParameters} {g : Mic} (hs : MicSetup fp params g)
include hs

theorem gen_cases (env : Env) (rIn : U128) (rOut : List U128) (seed0 seed1 : U128) (rand : Nat → U128) :
    OkOrInvalid (g.gen env rIn rOut seed0 seed1 rand).1 := by
  unfold Mic.gen
  split
  · rename_i N e
    dsimp only
    have hrl : rOut.length = g.params.intervals.length := by
      obtain ⟨_, _, e⟩ := bind_eq_ok.mp e
      obtain ⟨_, e, _⟩ := bind_eq_ok.mp e
      unfold Mic.checkGen at e
      obtain ⟨_, e, _⟩ := bind_eq_ok.mp e
      exact Classical.not_not.mp (failIf_eq_ok.mp e)
    have hd := hs.dcfSetup.register (.uint .w128)
    refine OkOrInvalid.bind (hd.generateKeys_cases env _ _ seed0 seed1) fun ks _ => ?_
    refine OkOrInvalid.bind (OkOrInvalid.mapRes_unit ?_) fun _ _ => OkOrInvalid.ok _
    intro i hi
    rw [List.mem_range] at hi
    rw [rd_lt hi, bind_ok, rd_lt (by omega), bind_ok]
    exact OkOrInvalid.ok _
  · rename_i code e
    dsimp only
    rw [hs.shl_eq, bind_ok] at e
    right
    have hc : OkOrInvalid (g.checkGen ((1 : U128) <<< params.logGroupSize.toNat) rIn rOut) := by
      unfold Mic.checkGen
      exact (OkOrInvalid.failIf _).bind fun _ _ => (OkOrInvalid.failIf _).bind fun _ _ =>
        (OkOrInvalid.mapRes_unit fun _ _ => OkOrInvalid.failIf _).bind fun _ _ => OkOrInvalid.ok _
    rcases hc with ⟨u, hc⟩ | hc <;> rw [hc] at e
    · cases e
    · cases e; rfl
  all_goals
    rename_i e
    exfalso
    rw [hs.shl_eq, bind_ok] at e
    have hc : OkOrInvalid (g.checkGen ((1 : U128) <<< params.logGroupSize.toNat) rIn rOut) := by
      unfold Mic.checkGen
      exact (OkOrInvalid.failIf _).bind fun _ _ => (OkOrInvalid.failIf _).bind fun _ _ =>
        (OkOrInvalid.mapRes_unit fun _ _ => OkOrInvalid.failIf _).bind fun _ _ => OkOrInvalid.ok _
    rcases hc with ⟨u, hc⟩ | hc <;> rw [hc] at e <;> cases e

theorem gen_after (env : Env) (rIn : U128) (rOut : List U128) (seed0 seed1 : U128) (rand : Nat → U128) :
    MicSetup fp params (g.gen env rIn rOut seed0 seed1 rand).2 := by
  unfold Mic.gen
  split
  · obtain ⟨g0, Ts, h0, rfl⟩ := hs.created
    refine ⟨g0, Ts ++ [.uint .w128], h0, ?_⟩
    have e : (g0.dcf.registerAll Ts).register (Ty.uint .w128).helper = g0.dcf.registerAll (Ts ++ [.uint .w128]) := by
      simp [Dcf.registerAll, Dcf.register, Dpf.registerAll]
    exact congrArg (Mic.mk g0.params) e
  · exact hs
  · exact hs
  · exact hs

theorem batchEval_cases (env : Env) (keys : List MicKey) (points : List U128)
    (hm : ∀ k ∈ keys, params.intervals.length ≤ k.outputMaskShare.length)
    (hint : keys.length < 2 ^ 31) (hcells : keys.length * params.intervals.length < 2 ^ 31) :
    (∃ ys, g.batchEval env keys points = ok ys ∧ ys.length = keys.length * params.intervals.length) ∨
    g.batchEval env keys points = err .invalidArgument := by
  by_cases hlen : points.length = keys.length
  rotate_left
  · right
    unfold Mic.batchEval
    rw [failIf_true (by omega)]; rfl
  by_cases hp : ∀ x ∈ points, x.toNat < 2 ^ params.logGroupSize.toNat
  · rw [hs.batchEval_eq env keys points hlen hp hm hint hcells]
    rcases OkOrInvalid.mapRes_unit (f := g.cellRes env ((1 : U128) <<< params.logGroupSize.toNat))
      (l := Mic.cells keys points params.intervals.length) (fun c hc => by
        obtain ⟨hk, _, hj⟩ := Mic.mem_cells hc
        exact (hs.evaluate_cases env _ _).bind fun _ _ => (hs.evaluate_cases env _ _).bind fun _ _ =>
          hs.output_cases _ hj (hm _ hk) _ _) with ⟨ys, e⟩ | e
    · refine Or.inl ⟨ys, e, ?_⟩
      rw [mapRes_length e, Mic.cells_length _ _ _ hlen]
    · exact Or.inr e
  · right
    unfold Mic.batchEval
    rw [failIf_false (by omega), bind_ok, hs.shl_eq, bind_ok, List.take_of_length_le (by omega),
      Dpf.mapRes_err (c := .invalidArgument)]
    · rfl
    · intro a _; exact OkOrInvalid.failIf _
    · apply Classical.byContradiction
      intro h
      apply hp
      intro x hx
      apply Nat.lt_of_not_le
      intro hb
      exact h ⟨x, hx, failIf_true (by rw [ge_iff_le, BitVec.le_def, hs.N_toNat]; exact hb) _⟩

theorem few_masks (env : Env) (key : MicKey) (x : U128) (ys : List U128) (masks : List IntegerP)
    (h : g.eval env key x = ok ys) (hm : masks.length < params.intervals.length) :
    g.eval env ⟨key.dcfKey, masks⟩ x = ub := by
  unfold Mic.eval Mic.batchEval at h ⊢
  obtain ⟨_, h1, h⟩ := bind_eq_ok.mp h
  obtain ⟨N, h2, h⟩ := bind_eq_ok.mp h
  obtain ⟨us, h3, h⟩ := bind_eq_ok.mp h
  rw [hs.params_eq] at h
  have hif : ¬ (2 ^ 31 ≤ [x].length ∨ 2 ^ 31 < [key].length * params.intervals.length) := by
    intro hc
    rw [if_pos hc] at h
    cases h
  rw [if_neg hif] at h
  obtain ⟨xp, h4, h⟩ := bind_eq_ok.mp h
  obtain ⟨xq, h5, h⟩ := bind_eq_ok.mp h
  obtain ⟨sP, h6, h⟩ := bind_eq_ok.mp h
  obtain ⟨sQ, h7, h⟩ := bind_eq_ok.mp h
  let f : Mic.Cell → Mic.Cell := fun c => ⟨⟨c.key.dcfKey, masks⟩, c.x, c.j⟩
  have hcs : Mic.cells [⟨key.dcfKey, masks⟩] [x] g.params.intervals.length =
      (Mic.cells [key] [x] g.params.intervals.length).map f := by
    simp [Mic.cells, f]
  have hl : (Mic.cells [key] [x] g.params.intervals.length).length = params.intervals.length := by
    simp [Mic.cells, hs.params_eq]
  have hget : ∀ j (hj : j < (Mic.cells [key] [x] g.params.intervals.length).length),
      (Mic.cells [key] [x] g.params.intervals.length)[j] = ⟨key, x, j⟩ := by
    intro j hj; simp [Mic.cells]
  rw [hs.params_eq] at hcs hl hget
  rw [failIf_false (by simp), bind_ok, h2, bind_ok, h3, bind_ok, hs.params_eq,
    if_neg (show ¬ (2 ^ 31 ≤ [x].length ∨
      2 ^ 31 < [(⟨key.dcfKey, masks⟩ : MicKey)].length * params.intervals.length) from hif)]
  dsimp only
  rw [hcs, mapRes_map, mapRes_map]
  generalize Mic.cells [key] [x] params.intervals.length = cs at *
  rw [show mapRes (fun c => g.xP N (f c)) cs = ok xp from h4, bind_ok,
    show mapRes (fun c => g.xQ N (f c)) cs = ok xq from h5, bind_ok]
  rw [show (cs.map f).map (·.key.dcfKey) = cs.map (·.key.dcfKey) by simp [f]]
  rw [h6, bind_ok, h7, bind_ok]
  have hint : params.intervals.length < 2 ^ 31 := by
    apply Classical.byContradiction
    intro hb
    have e := C28_many (.uint .w128) g.dcf env (cs.map (·.key.dcfKey)) xp
      (by rw [List.length_map, mapRes_length h4]) (by rw [List.length_map]; omega)
    have e := h6.symm.trans e
    split at e <;> cases e
  have len : ∀ {pts ss}, g.dcf.batchEvaluate env (uintHelper 128) (cs.map (·.key.dcfKey)) pts = ok ss →
      ss.length = params.intervals.length := by
    intro pts ss e
    rcases hs.dcfSetup.batchEvaluate_cases env (cs.map (·.key.dcfKey)) pts
      (by rw [List.length_map]; omega) with ⟨zs, e', hz⟩ | e'
    · have := ok.inj (e.symm.trans e')
      rw [this]
      exact hz.trans (by simp [hl])
    · cases e.symm.trans e'
  have hP := len h6
  have hQ := len h7
  apply mapRes_ub
  · rintro ⟨c, s, t⟩ hc
    obtain ⟨hc, _⟩ := List.of_mem_zip hc
    obtain ⟨c', hc', rfl⟩ := List.mem_map.mp hc
    obtain ⟨j, hj, rfl⟩ := List.getElem_of_mem hc'
    rw [hget j hj]
    dsimp only [f]
    unfold Mic.output
    rw [rd_lt (by rw [hs.params_eq]; exact hl ▸ hj), bind_ok]
    by_cases hjm : j < masks.length
    · rw [rd_lt hjm, bind_ok]; exact Or.inl ⟨_, rfl⟩
    · right
      dsimp only
      rw [rd_ge (by omega)]; rfl
  · refine ⟨(⟨⟨key.dcfKey, masks⟩, x, masks.length⟩, sP[masks.length]'(by omega), sQ[masks.length]'(by omega)), ?_, ?_⟩
    · rw [List.mem_iff_getElem]
      refine ⟨masks.length, by simp; omega, ?_⟩
      simp [hget masks.length (by omega), f]
    · unfold Mic.output
      dsimp only
      rw [rd_lt (by rw [hs.params_eq]; exact hm), bind_ok, rd_ge (by simp)]
      rfl

end Spec.MicSetup
end Verif
