import Verif.Spec.Hiding
import Verif.Lemmas.GateSafety
import Verif.Lemmas.ServerSafety
import Verif.Props.Ideal
/-!
# What one party sees
-/
namespace Verif
open Res Spec

namespace Spec.SameView
variable {R R' V V' : Type}

theorem map {v v' : R → V} (h : SameView v v') (f : V → V') : SameView (fun r => f (v r)) (fun r => f (v' r)) := by
  obtain ⟨φ, ψ, h1, h2, h3⟩ := h
  exact ⟨φ, ψ, h1, h2, fun r => congrArg f (h3 r)⟩

theorem prod {v v' : R → V} {w w' : R' → V'} (h : SameView v v') (g : SameView w w') :
    SameView (fun r : R × R' => (v r.1, w r.2)) (fun r => (v' r.1, w' r.2)) := by
  obtain ⟨φ, ψ, h1, h2, h3⟩ := h
  obtain ⟨φ', ψ', g1, g2, g3⟩ := g
  exact ⟨fun r => (φ r.1, φ' r.2), fun r => (ψ r.1, ψ' r.2), fun r => by simp only [h1, g1],
    fun r => by simp only [h2, g2], fun r => by simp only [h3, g3]⟩

theorem pi {n : Nat} {v v' : Fin n → R → V} (h : ∀ i, SameView (v i) (v' i)) :
    SameView (fun (r : Fin n → R) i => v i (r i)) (fun (r : Fin n → R) i => v' i (r i)) := by
  let φ := fun i => (h i).choose
  have hφ : ∀ i, ∃ ψ : R → R, (∀ r, ψ (φ i r) = r) ∧ (∀ r, φ i (ψ r) = r) ∧ ∀ r, v' i (φ i r) = v i r :=
    fun i => (h i).choose_spec
  let ψ := fun i => (hφ i).choose
  have hψ : ∀ i, (∀ r, ψ i (φ i r) = r) ∧ (∀ r, φ i (ψ i r) = r) ∧ ∀ r, v' i (φ i r) = v i r :=
    fun i => (hφ i).choose_spec
  exact ⟨fun r i => φ i (r i), fun r i => ψ i (r i), fun r => funext fun i => (hψ i).1 _,
    fun r => funext fun i => (hψ i).2.1 _, fun r => funext fun i => (hψ i).2.2 _⟩

end Spec.SameView

theorem map_range_ofFn {α : Type} (f : Nat → α) (n : Nat) :
    (List.range n).map f = List.ofFn fun i : Fin n => f i := by
  apply List.ext_getElem (by simp)
  intro i h1 h2
  simp

/-! ## Comparison functions -/

mutual
theorem Ty.zeroed_represents : (t : Ty) → (v : Value) → (x : t.den) →
    Represents t v x → Represents t (setToZero v) (zeroed t x)
  | .uint w, v, x, h => by
    obtain ⟨i, rfl, hi⟩ := h
    refine ⟨.u64 0, rfl, ?_⟩
    simp [intMsg, zeroed, Ty.helper, uintHelper]
  | .intModN w N _ _, v, x, h => by
    obtain ⟨i, rfl, hi⟩ := h
    refine ⟨.u64 0, rfl, ?_⟩
    simp [intMsg, zeroed, Ty.helper, intModNHelper, IntModN.mk]
  | .xorWrapper w, v, x, h => by
    obtain ⟨i, rfl, hi⟩ := h
    exact ⟨i, rfl, hi⟩
  | .tuple ts, v, x, h => by
    obtain ⟨vs, rfl, hv⟩ := h
    exact ⟨_, rfl, Tys.zeroed_represents ts vs x hv⟩
theorem Tys.zeroed_represents : (ts : Tys) → (vs : List Value) → (x : ts.den) →
    RepresentsAll ts vs x → RepresentsAll ts (setAllToZero vs) (zeroedAll ts x)
  | .one t, vs, x, h => by
    obtain ⟨v, rfl, hv⟩ := h
    exact ⟨_, rfl, Ty.zeroed_represents t v x hv⟩
  | .cons t ts, vs, x, h => by
    obtain ⟨v, vs', rfl, hv, hvs⟩ := h
    exact ⟨_, _, rfl, Ty.zeroed_represents t v x.1 hv, Tys.zeroed_represents ts vs' x.2 hvs⟩
end

namespace Spec.DcfSetup
variable {fp : FpEnv} {p : DpfParameters} {T : Ty} {c : Dcf} (hs : DcfSetup fp p T c)
include hs

theorem real (env : Env) {alpha : U128} (halpha : alpha.toNat < 2 ^ p.logDomainSize.toNat) {beta : Value}
    {b : T.den} (hb : Represents T beta b) (seed0 seed1 : U128) :
    ∃ k0 k1, c.generateKeys env alpha beta seed0 seed1 = ok (k0, k1) ∧
      k0 = dcfExperimentKey c env p T false seed0 alpha b ((dcfPathBits c env p alpha k1).rand _) ∧
      k1 = dcfExperimentKey c env p T true seed1 alpha b ((dcfPathBits c env p alpha k0).rand _) := by
  have hpos := hs.log_pos
  rw [hs.generateKeys_unfold env alpha beta seed0 seed1]
  have hbit : ∀ k, alpha.toNat.testBit k = decide (alpha.toNat / 2 ^ k % 2 = 1) := by
    intro k; rw [Nat.testBit_eq_decide_div_mod_eq]
  have hbetas : BetasRepresent (Dcf.dpfParameters p) (fun _ => T)
      ((List.range p.logDomainSize.toNat).map fun i =>
        if alpha.toNat / 2 ^ (p.logDomainSize.toNat - i - 1) % 2 = 1 then beta else setToZero beta)
      (fun h => if alpha.toNat.testBit (p.logDomainSize.toNat - h - 1) then b else zeroed T b) := by
    refine ⟨by simp [Dcf.dpfParameters_length], ?_⟩
    intro h v hv
    simp only [List.getElem?_map, Option.map_eq_some_iff] at hv
    obtain ⟨i, hi, rfl⟩ := hv
    rw [List.getElem?_eq_some_iff] at hi
    obtain ⟨hlt, e⟩ := hi
    simp only [List.getElem_range] at e
    subst e
    dsimp only
    rw [hbit]
    split
    · rename_i h1; rw [if_pos (by simpa using h1)]; exact hb
    · rename_i h1; rw [if_neg (by simpa using h1)]; exact T.zeroed_represents beta b hb
  have hlast : lastLogSize (Dcf.dpfParameters p) = p.logDomainSize.toNat - 1 := by
    unfold lastLogSize
    rw [Dcf.dpfParameters_length, Dcf.logSize_eq (by omega)]
  have ha : (alpha >>> 1).toNat < 2 ^ lastLogSize (Dcf.dpfParameters p) := by
    rw [hlast, Dpf.shr_toNat]
    have : 2 ^ p.logDomainSize.toNat = 2 ^ (p.logDomainSize.toNat - 1) * 2 := by
      rw [← Nat.pow_succ]; congr 1; omega
    omega
  exact C48_real fp _ _ _ hs.setup env _ ha _ _ hbetas seed0 seed1

theorem hides (env : Env) (party : Bool) (seed alpha alpha' : U128) (b b' : T.den) :
    SameView (dcfExperimentKey c env p T party seed alpha b) (dcfExperimentKey c env p T party seed alpha' b') :=
  C48_hides fp _ _ _ hs.setup env party seed _ _ _ _

theorem hides_bits (hT : T.noMod = true) (env : Env) (party : Bool) (seed alpha alpha' : U128) (b b' : T.den) :
    SameView (fun r : Bits (treeLevels c.dpf) (Dcf.dpfParameters p).length (blocksOf c.dpf) =>
        dcfExperimentKey c env p T party seed alpha b (r.rand _))
      (fun r => dcfExperimentKey c env p T party seed alpha' b' (r.rand _)) :=
  C48_hides_bits_partial fp _ _ _ hs.setup (fun _ _ => hT) env party seed _ _ _ _

end Spec.DcfSetup

/-! ## Gates -/

theorem share_sameView (l : Nat) (hl : l < 128) (z z' : U128) :
    SameView (fun s : U128 => (z - s % (1 : U128) <<< l) % (1 : U128) <<< l)
      (fun s : U128 => (z' - s % (1 : U128) <<< l) % (1 : U128) <<< l) := by
  refine ⟨fun s => s + (z' - z), fun s => s - (z' - z), fun s => BitVec.add_sub_cancel _ _,
    fun s => BitVec.sub_add_cancel _ _, fun s => ?_⟩
  have hmod : ∀ a b : U128, (a - b % (1 : U128) <<< l) % (1 : U128) <<< l = (a - b) % (1 : U128) <<< l := by
    intro a b
    apply BitVec.eq_of_toNat_eq
    simp only [BitVec.toNat_umod, BitVec.toNat_sub, one_shl_toNat hl]
    have hd : 2 ^ l ∣ 2 ^ 128 := Nat.pow_dvd_pow 2 (by omega)
    rw [Nat.mod_mod_of_dvd _ hd, Nat.mod_mod_of_dvd _ hd]
    have hb := Nat.div_add_mod b.toNat (2 ^ l)
    have hlt := b.isLt
    have e : 2 ^ 128 - b.toNat % 2 ^ l + a.toNat = (2 ^ 128 - b.toNat + a.toNat) + 2 ^ l * (b.toNat / 2 ^ l) := by
      have : b.toNat % 2 ^ l ≤ b.toNat := Nat.mod_le _ _
      omega
    rw [e, Nat.add_mul_mod_self_left]
  show (z' - (s + (z' - z)) % _) % _ = (z - s % _) % _
  rw [hmod, hmod]
  apply congrArg (· % (1 : U128) <<< l)
  simp only [BitVec.sub_eq_add_neg, BitVec.neg_add]
  rw [BitVec.neg_neg]
  rw [show z' + (-s + (-z' + z)) = (z' + -z') + (z + -s) by ac_rfl,
    show z' + -z' = 0#128 by rw [← BitVec.sub_eq_add_neg, BitVec.sub_self], BitVec.zero_add]

namespace Spec.MicSetup
variable {fp : FpEnv} {params : MicParameters} {g : Mic} (hs : MicSetup fp params g)
include hs

theorem real (env : Env) {rIn : U128} (hr : rIn.toNat < 2 ^ params.logGroupSize.toNat) {rOut : List U128}
    (hlen : rOut.length = params.intervals.length)
    (hro : ∀ r ∈ rOut, r.toNat < 2 ^ params.logGroupSize.toNat) (seed0 seed1 : U128) (rand : Nat → U128) :
    ∃ k0 k1, (g.gen env rIn rOut seed0 seed1 rand).1 = ok (k0, k1) ∧
      (let c := g.dcf.register (uintHelper 128)
       let N := (1 : U128) <<< params.logGroupSize.toNat
       let other := fun k : MicKey => (dcfPathBits c env (gateDcfParams params) ((N - 1 + rIn) % N) k.dcfKey).rand _
       k0 = gateExperimentKey c env params false seed0 rIn rOut (other k1) (fun i => rand i) ∧
       k1 = gateExperimentKey c env params true seed1 rIn rOut (other k0) (fun i => rand i)) := by
  have hrange := hs.log_range
  have hd : DcfSetup fp (gateDcfParams params) (.uint .w128) (g.dcf.register (uintHelper 128)) :=
    hs.dcfSetup.register (.uint .w128)
  have hN := hs.N_toNat
  have halpha : (((1 : U128) <<< params.logGroupSize.toNat - 1 + rIn) %
      (1 : U128) <<< params.logGroupSize.toNat).toNat < 2 ^ (gateDcfParams params).logDomainSize.toNat := by
    rw [BitVec.toNat_umod, hN]
    exact Nat.mod_lt _ (Nat.two_pow_pos _)
  obtain ⟨k0, k1, hk, e0, e1⟩ := hd.real env halpha (C20_encoded_represents (.uint .w128) (1 : U128)) seed0 seed1
  rw [hs.gen_eq env hr hlen hro]
  rw [show (g.dcf.generateKeysFor env (uintHelper 128)
        (((1 : U128) <<< params.logGroupSize.toNat - 1 + rIn) % (1 : U128) <<< params.logGroupSize.toNat) 1
          seed0 seed1).1 = ok (k0, k1) from hk, bind_ok]
  refine ⟨_, _, rfl, ?_⟩
  · dsimp only
    unfold gateExperimentKey
    dsimp only
    rw [map_range_ofFn, map_range_ofFn]
    refine ⟨?_, ?_⟩
    · exact congrArg (MicKey.mk · _) e0
    · exact congrArg (MicKey.mk · _) e1

theorem hides (env : Env) (party : Bool) (seed rIn rIn' : U128) (rOut rOut' : List U128) :
    (let c := g.dcf.register (uintHelper 128)
     SameView (fun r : GateRand c params => gateExperimentKey c env params party seed rIn rOut (r.1.rand _) r.2)
      (fun r : GateRand c params => gateExperimentKey c env params party seed rIn' rOut' (r.1.rand _) r.2)) := by
  have hrange := hs.log_range
  have hd : DcfSetup fp (gateDcfParams params) (.uint .w128) (g.dcf.register (uintHelper 128)) :=
    hs.dcfSetup.register (.uint .w128)
  dsimp only
  generalize hc : g.dcf.register (uintHelper 128) = c at *
  have h1 := hd.hides_bits rfl env party seed
    (((1 : U128) <<< params.logGroupSize.toNat - 1 + rIn) % (1 : U128) <<< params.logGroupSize.toNat)
    (((1 : U128) <<< params.logGroupSize.toNat - 1 + rIn') % (1 : U128) <<< params.logGroupSize.toNat) 1#128 1#128
  have h2 : SameView
      (fun (s : Fin params.intervals.length → U128) (i : Fin params.intervals.length) =>
        if party then (Mic.correctionTerm ((1 : U128) <<< params.logGroupSize.toNat) rIn (rOut.getD i 0)
          (params.intervals.getD i ⟨none, none⟩) - s i % (1 : U128) <<< params.logGroupSize.toNat) %
            (1 : U128) <<< params.logGroupSize.toNat
        else s i % (1 : U128) <<< params.logGroupSize.toNat)
      (fun (s : Fin params.intervals.length → U128) (i : Fin params.intervals.length) =>
        if party then (Mic.correctionTerm ((1 : U128) <<< params.logGroupSize.toNat) rIn' (rOut'.getD i 0)
          (params.intervals.getD i ⟨none, none⟩) - s i % (1 : U128) <<< params.logGroupSize.toNat) %
            (1 : U128) <<< params.logGroupSize.toNat
        else s i % (1 : U128) <<< params.logGroupSize.toNat) := by
    cases party with
    | false => exact ⟨id, id, fun _ => rfl, fun _ => rfl, fun _ => rfl⟩
    | true => exact SameView.pi fun i => share_sameView _ (by omega) _ _
  exact (h1.prod h2).map fun v => (⟨v.1, List.ofFn fun i => Mic.blockMessage (v.2 i)⟩ : MicKey)

end Spec.MicSetup

/-! ## PIR -/

section Pir
variable {fp : FpEnv} {cl : CeilLog2} {n : Int} {d : Dpf} (hd : Dpf.create fp (pirParameters cl n) = ok d)
include hd

theorem pirSetup : Setup fp [pirParameters cl n] (fun _ => pirTy) (d.registerValueType pirTy.helper) :=
  Setup.of_flat (Ts := [pirTy]) hd
    (by
      intro h p hp
      match h, hp with
      | 0, hp => simp at hp; rw [← hp]; rfl)
    (fun _ _ => Or.inl (by simp)) (fun _ _ => Or.inl rfl)

theorem keysFor_real (env : Env) {q : Int} (hq : 0 ≤ q) {seeds : U128 × U128} {k0 k1 : DpfKey}
    (h : DenseClient.keysFor d env q seeds = ok (k0, k1)) :
    (let d := d.registerValueType pirTy.helper
     k0 = pirExperimentKey d env (pirParameters cl n) false seeds.1 q
      (pathBits d env [pirParameters cl n] (pirAlpha q) k1 _ _) ∧
     k1 = pirExperimentKey d env (pirParameters cl n) true seeds.2 q
      (pathBits d env [pirParameters cl n] (pirAlpha q) k0 _ _)) := by
  have hs := pirSetup hd
  unfold DenseClient.keysFor at h
  obtain ⟨beta, hb, h⟩ := bind_eq_ok.mp h
  have h1 := Int.tmod_nonneg 128 hq
  have h2 := Int.tmod_lt_of_pos q (b := 128) (by decide)
  rw [show q.tmod 128 = ((q.tmod 128).toNat : Int) by omega, shl128_ok (by omega)] at hb
  have hb := ok.inj hb
  subst hb
  have hr := C19_registered fp _ _ _ hs env (pirAlpha q)
    [pirTy.helper.toValue ((1 : U128) <<< (q.tmod 128).toNat : U128)] seeds.1 seeds.2
  obtain ⟨ha, _⟩ := hr.1.mp ⟨k0, k1, h⟩
  have hbeta : BetasRepresent [pirParameters cl n] (fun _ => pirTy)
      [pirTy.helper.toValue ((1 : U128) <<< (q.tmod 128).toNat : U128)]
      (fun _ => ((1 : U128) <<< (q.tmod 128).toNat : U128)) := by
    refine ⟨rfl, ?_⟩
    intro h v hv
    match h, hv with
    | 0, hv =>
      simp at hv
      rw [← hv]
      exact C20_encoded_represents pirTy _
  obtain ⟨k0', k1', e, e0, e1⟩ := C48_real fp _ _ _ hs env (pirAlpha q) ha _ _ hbeta seeds.1 seeds.2
  have := ok.inj (h.symm.trans e)
  simp only [Prod.mk.injEq] at this
  obtain ⟨rfl, rfl⟩ := this
  exact ⟨e0, e1⟩

theorem request_hides (env : Env) (p : Bool) (seeds : Nat → U128) (fingerprint : BitVec 32) {m : Nat}
    (queries queries' : List Int) :
    (let d := d.registerValueType pirTy.helper
     SameView (experimentRequest (n := m) d env (pirParameters cl n) p seeds fingerprint queries)
      (experimentRequest (n := m) d env (pirParameters cl n) p seeds fingerprint queries')) := by
  have hs := pirSetup hd
  have h : ∀ i : Fin m, SameView
      (pirExperimentKey (d.registerValueType pirTy.helper) env (pirParameters cl n) p (seeds i) (queries.getD i 0))
      (pirExperimentKey (d.registerValueType pirTy.helper) env (pirParameters cl n) p (seeds i) (queries'.getD i 0)) :=
    fun i => C48_hides_bits_partial fp _ _ _ hs (fun _ _ => rfl) env p (seeds i) _ _ _ _
  exact (SameView.pi h).map fun ks => (⟨List.ofFn ks, fingerprint⟩ : PlainRequest)

end Pir

theorem denseRequests_real {fp : FpEnv} {cl : CeilLog2} {n : Int} {client : DenseClient}
    (hd : Dpf.create fp (pirParameters cl n) = ok client.dpf) (env : Env) {queries : List Int}
    {seeds : Nat → U128 × U128} {random : Nat → BitVec 8} {leader : PlainRequest} {helper : HelperRequest}
    {state : ClientState} (h : client.createPlainRequests env queries seeds random = ok (leader, helper, state)) :
    helper.oneTimePadSeed = Prng.generateSeed random ∧ state = .dense (Prng.generateSeed random) ∧
    leader.seedFingerprint = 0 ∧
    ExperimentRequests (client.dpf.registerValueType pirTy.helper) env (pirParameters cl n) seeds 0 queries leader
      (helper.plainRequest.getD PlainRequest.default) := by
  unfold DenseClient.createPlainRequests at h
  obtain ⟨us, hu, h⟩ := bind_eq_ok.mp h
  obtain ⟨keys, hk, h⟩ := bind_eq_ok.mp h
  have hpos : ∀ q ∈ queries, 0 ≤ q := by
    intro q hq
    obtain ⟨_, e⟩ := mapRes_exists_of_ok hu hq
    obtain ⟨_, e, _⟩ := bind_eq_ok.mp e
    have := failIf_eq_ok.mp e
    omega
  have hl : keys.length = queries.length := by
    have := mapRes_length hk
    simpa using this
  have h := ok.inj h
  simp only [Prod.mk.injEq] at h
  obtain ⟨rfl, rfl, rfl⟩ := h
  refine ⟨rfl, rfl, rfl, ?_⟩
  have hg : (if keys = [] then none else some (⟨keys.map (·.2), 0⟩ : PlainRequest)).getD PlainRequest.default =
      ⟨keys.map (·.2), 0⟩ := by
    split
    · rename_i e; rw [e]; rfl
    · rfl
  dsimp only
  rw [hg]
  have hi : ∀ i (hi : i < queries.length), DenseClient.keysFor client.dpf env queries[i] (seeds i) =
      ok (keys[i]'(by omega)) := by
    intro i hi
    have := (mapRes_eq_ok.mp hk).2 i (by simpa using hi) (by omega)
    simpa using this
  unfold ExperimentRequests experimentRequest pirPathBits
  refine ⟨congrArg (PlainRequest.mk · _) ?_, congrArg (PlainRequest.mk · _) ?_⟩
  all_goals
    apply List.ext_getElem (by simp [hl])
    intro i h1 h2
    simp only [List.length_map] at h1
    have hr := keysFor_real hd env (hpos _ (List.getElem_mem (by omega : i < queries.length)))
      (k0 := keys[i].1) (k1 := keys[i].2) (hi i (by omega))
    simp only [List.getElem_map, List.getElem_ofFn, List.getD_eq_getElem?_getD, List.getElem?_map,
      List.getElem?_eq_getElem h1, List.getElem?_eq_getElem (show i < queries.length by omega),
      Option.map_some, Option.getD_some]
    first
    | exact hr.1
    | exact hr.2

theorem denseClient_dpf {fp : FpEnv} {c : CeilLog2} {n : Int} {enc : CryptFn} {info : Bytes} {client : DenseClient}
    (h : DenseClient.create fp c (.dense n) (some enc) info = ok client) :
    Dpf.create fp (pirParameters c n) = ok client.dpf := by
  unfold DenseClient.create at h
  obtain ⟨_, _, h⟩ := bind_eq_ok.mp h
  obtain ⟨d, e, h⟩ := bind_eq_ok.mp h
  have h := ok.inj h
  subst h
  exact e

theorem Spec.ExperimentRequests.setFingerprints {d : Dpf} {env : Env} {params : DpfParameters}
    {seeds : Nat → U128 × U128} {f : BitVec 32} {queries : List Int} {leader helper : PlainRequest}
    (h : ExperimentRequests d env params seeds f queries leader helper) (f' : BitVec 32) :
    ExperimentRequests d env params seeds f' queries ⟨leader.dpfKeys, f'⟩ ⟨helper.dpfKeys, f'⟩ := by
  refine ⟨?_, ?_⟩
  · have := congrArg (fun r : PlainRequest => (⟨r.dpfKeys, f'⟩ : PlainRequest)) h.1
    exact this
  · have := congrArg (fun r : PlainRequest => (⟨r.dpfKeys, f'⟩ : PlainRequest)) h.2
    exact this

theorem flatten_length_of {α : Type} {l : List (List α)} {n : Nat} (h : ∀ x ∈ l, x.length = n) :
    l.flatten.length = l.length * n := by
  induction l with
  | nil => simp
  | cons a l ih =>
    rw [List.flatten_cons, List.length_append, h a (by simp), ih fun x hx => h x (by simp [hx]), List.length_cons,
      Nat.succ_mul, Nat.add_comm]

/-! ## Masks -/

theorem xorPad_congr (pad pad' : Nat → BitVec 8) : (rs rs' : List Bytes) → (k : Nat) →
    rs'.map List.length = rs.map List.length →
    (∀ i, i < rs.flatten.length → rs'.flatten.getD i 0 ^^^ pad' (k + i) = rs.flatten.getD i 0 ^^^ pad (k + i)) →
    xorPad pad' k rs' = xorPad pad k rs
  | [], [], _, _, _ => rfl
  | [], _ :: _, _, h, _ => by simp at h
  | _ :: _, [], _, h, _ => by simp at h
  | r :: rs, r' :: rs', k, h, hx => by
    simp only [List.map_cons, List.cons.injEq] at h
    obtain ⟨h1, h2⟩ := h
    unfold xorPad
    rw [h1]
    have e1 : (r'.mapIdx fun i b => b ^^^ pad' (k + i)) = r.mapIdx fun i b => b ^^^ pad (k + i) := by
      apply List.ext_getElem (by simp [h1])
      intro i g1 g2
      simp only [List.length_mapIdx] at g1 g2
      have := hx i (by simp; omega)
      simp only [List.flatten_cons, List.getD_eq_getElem?_getD, List.getElem?_append_left g1,
        List.getElem?_append_left g2, List.getElem?_eq_getElem g1, List.getElem?_eq_getElem g2,
        Option.getD_some] at this
      simpa using this
    rw [e1, xorPad_congr pad pad' rs rs' (k + r.length) h2 ?_]
    intro i hi
    have := hx (r.length + i) (by rw [List.flatten_cons, List.length_append]; omega)
    simp only [List.flatten_cons, List.getD_eq_getElem?_getD] at this
    rw [List.getElem?_append_right (by omega), List.getElem?_append_right (by omega), h1,
      Nat.add_sub_cancel_left, ← Nat.add_assoc] at this
    simpa using this

theorem xorPad_sameView (rs rs' : List Bytes) (h : rs'.map List.length = rs.map List.length) {n : Nat}
    (hn : n = rs.flatten.length) :
    SameView (fun pad : Fin n → BitVec 8 => xorPad (extend pad 0) 0 rs)
      (fun pad => xorPad (extend pad 0) 0 rs') := by
  refine ⟨fun pad i => pad i ^^^ (rs.flatten.getD i 0 ^^^ rs'.flatten.getD i 0),
    fun pad i => pad i ^^^ (rs.flatten.getD i 0 ^^^ rs'.flatten.getD i 0), ?_, ?_, ?_⟩
  · intro r; funext i; dsimp only; rw [BitVec.xor_assoc, BitVec.xor_self, BitVec.xor_zero]
  · intro r; funext i; dsimp only; rw [BitVec.xor_assoc, BitVec.xor_self, BitVec.xor_zero]
  · intro r
    apply xorPad_congr _ _ _ _ _ h
    intro i hi
    unfold extend
    rw [Nat.zero_add, dif_pos (by omega), dif_pos (by omega)]
    dsimp only
    generalize rs.flatten.getD i 0 = a
    generalize rs'.flatten.getD i 0 = b
    generalize r _ = c
    rw [show b ^^^ (c ^^^ (a ^^^ b)) = a ^^^ c ^^^ (b ^^^ b) by ac_rfl, BitVec.xor_self, BitVec.xor_zero]

theorem maskWith_eq_xorPad (pad : Nat → BitVec 8) : (k : Nat) → (rs : List Bytes) →
    maskWith pad k rs = xorPad pad k rs
  | _, [] => rfl
  | k, r :: rs => by
    unfold maskWith xorPad
    rw [maskWith_eq_xorPad pad _ rs]
    apply congrArg (· :: _)
    apply List.ext_getElem (by simp [streamBytes])
    intro i h1 h2
    simp [streamBytes]

end Verif
