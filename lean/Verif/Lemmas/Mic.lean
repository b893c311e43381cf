import Verif.Spec.Mic
import Verif.Lemmas.Dcf
import Verif.Props.Dcf
/-!
# Interval containment gates
-/
namespace Verif
open Res Spec

/-! ## Arithmetic -/

theorem mod_cases (a N : Nat) (h : a < 2 * N) :
    (a < N ∧ a % N = a) ∨ (N ≤ a ∧ a % N = a - N) := by
  by_cases ha : a < N
  · exact Or.inl ⟨ha, Nat.mod_eq_of_lt ha⟩
  · right
    refine ⟨by omega, ?_⟩
    rw [Nat.mod_eq_sub_mod (by omega), Nat.mod_eq_of_lt (by omega)]

/-- 1 if the condition holds. -/
def ind (c : Prop) [Decidable c] : Int := if c then 1 else 0

theorem ind_cases (c : Prop) [Decidable c] : (c ∧ ind c = 1) ∨ (¬ c ∧ ind c = 0) := by
  unfold ind
  by_cases h : c <;> simp [h]

theorem ind_iff {c d : Prop} [Decidable c] [Decidable d] (h : c ↔ d) : ind c = ind d := by
  unfold ind; simp only [h]

/-- What the comparison function contributes for one bound. -/
theorem mic_bound (N X r b γ ab xb : Nat) (hX : X < N) (hr : r < N) (hb : b < N)
    (hγ : γ = (N - 1 + r) % N) (hab : ab = (b + r) % N) (hxb : xb = (X + N - 1 - b) % N) :
    ind (b < X) - ind (xb < γ) - ind (b < ab) = - ind (X < ab) := by
  have hγ' := mod_cases (N - 1 + r) N (by omega)
  have hab' := mod_cases (b + r) N (by omega)
  have hxb' := mod_cases (X + N - 1 - b) N (by omega)
  rw [← hγ] at hγ'
  rw [← hab] at hab'
  rw [← hxb] at hxb'
  clear hγ hab hxb
  have i1 := ind_cases (b < X)
  have i2 := ind_cases (xb < γ)
  have i3 := ind_cases (b < ab)
  have i4 := ind_cases (X < ab)
  omega

/-- Containment in a cyclically shifted interval. -/
theorem mic_shift (N x r p q X ap aq aqp : Nat) (hx : x < N) (hr : r < N) (hpq : p ≤ q) (hq : q < N)
    (hX : X = (x + r) % N) (hap : ap = (p + r) % N) (haq : aq = (q + r) % N)
    (haqp : aqp = (q + 1 + r) % N) :
    - ind (X < ap) + ind (X < aqp) + ind (aq < ap) + ind (aq = N - 1) = ind (p ≤ x ∧ x ≤ q) := by
  have hX' := mod_cases (x + r) N (by omega)
  have hap' := mod_cases (p + r) N (by omega)
  have haq' := mod_cases (q + r) N (by omega)
  have haqp' := mod_cases (q + 1 + r) N (by omega)
  rw [← hX] at hX'
  rw [← hap] at hap'
  rw [← haq] at haq'
  rw [← haqp] at haqp'
  clear hX hap haq haqp
  have i1 := ind_cases (X < ap)
  have i2 := ind_cases (X < aqp)
  have i3 := ind_cases (aq < ap)
  have i4 := ind_cases (aq = N - 1)
  have i5 := ind_cases (p ≤ x ∧ x ≤ q)
  omega

theorem mic_identity (N x r p q : Nat) (hx : x < N) (hr : r < N) (hpq : p ≤ q) (hq : q < N)
    (X γ qp ap aq aqp xp xq : Nat) (hX : X = (x + r) % N) (hγ : γ = (N - 1 + r) % N)
    (hqp : qp = (q + 1) % N) (hap : ap = (p + r) % N) (haq : aq = (q + r) % N)
    (haqp : aqp = (q + 1 + r) % N) (hxp : xp = (X + N - 1 - p) % N) (hxq : xq = (X + N - 1 - qp) % N) :
    (ind (p < X) - ind (qp < X)) - ind (xp < γ) + ind (xq < γ) +
      (ind (aq < ap) - ind (p < ap) + ind (qp < aqp) + ind (aq = N - 1)) = ind (p ≤ x ∧ x ≤ q) := by
  have hN : 0 < N := by omega
  have hXN : X < N := hX ▸ Nat.mod_lt _ hN
  have hqN : qp < N := hqp ▸ Nat.mod_lt _ hN
  have haqp2 : aqp = (qp + r) % N := by rw [haqp, hqp, Nat.mod_add_mod]
  have h1 := mic_bound N X r p γ ap xp hXN hr (by omega) hγ hap hxp
  have h2 := mic_bound N X r qp γ aqp xq hXN hr hqN hγ haqp2 hxq
  have h3 := mic_shift N x r p q X ap aq aqp hx hr hpq hq hX hap haq haqp
  omega

/-! ## Lists of computations -/

theorem mapRes_flatMap {α β γ : Type} (f : β → Res γ) (g : α → List β) (l : List α) :
    mapRes f (l.flatMap g) = (mapRes (fun x => mapRes f (g x)) l >>= fun r => ok r.flatten) := by
  induction l with
  | nil => rfl
  | cons a l ih =>
    rw [List.flatMap_cons, mapRes_append, ih, mapRes_cons]
    cases mapRes f (g a) <;> try rfl
    cases mapRes (fun x => mapRes f (g x)) l <;> rfl

/-- Two passes followed by a third one that combines the results. -/
theorem mapRes_fuse {α β γ δ : Type} (a : α → Res β) (b : α → Res γ) (o : α → β → γ → Res δ) (l : List α)
    (ha : ∀ c ∈ l, OkOrInvalid (a c)) (hb : ∀ c ∈ l, OkOrInvalid (b c))
    (ho : ∀ c ∈ l, ∀ s t, OkOrInvalid (o c s t)) :
    (mapRes a l >>= fun A => mapRes b l >>= fun B =>
      mapRes (fun c : α × β × γ => o c.1 c.2.1 c.2.2) (l.zip (A.zip B))) =
    mapRes (fun c => a c >>= fun s => b c >>= fun t => o c s t) l := by
  induction l with
  | nil => rfl
  | cons c l ih =>
    have ih := ih (fun c hc => ha c (by simp [hc])) (fun c hc => hb c (by simp [hc]))
      (fun c hc => ho c (by simp [hc]))
    rw [mapRes_cons, mapRes_cons, mapRes_cons, ← ih]
    rcases ha c (by simp) with ⟨s, hs⟩ | hs <;> rw [hs]
    · rcases hb c (by simp) with ⟨t, ht⟩ | ht <;> rw [ht]
      · simp only [bind_ok]
        rcases OkOrInvalid.mapRes_unit (f := a) (l := l) (fun c hc => ha c (by simp [hc])) with ⟨A, hA⟩ | hA <;>
          rw [hA]
        · rcases OkOrInvalid.mapRes_unit (f := b) (l := l) (fun c hc => hb c (by simp [hc])) with ⟨B, hB⟩ | hB <;>
            rw [hB]
          · simp only [bind_ok, List.zip_cons_cons, mapRes_cons]
          · rcases ho c (by simp) s t with ⟨v, hv⟩ | hv <;> rw [hv] <;> rfl
        · rcases ho c (by simp) s t with ⟨v, hv⟩ | hv <;> rw [hv] <;> rfl
      · simp only [bind_ok, bind_err]
        rcases OkOrInvalid.mapRes_unit (f := a) (l := l) (fun c hc => ha c (by simp [hc])) with ⟨A, hA⟩ | hA <;>
          rw [hA] <;> rfl
    · rfl

/-! ## Setup -/

theorem one_shl_toNat {n : Nat} (h : n < 128) : ((1 : U128) <<< n).toNat = 2 ^ n := by
  have : 2 ^ n < 2 ^ 128 := Nat.pow_lt_pow_right (by omega) h
  rw [BitVec.toNat_shiftLeft, Nat.shiftLeft_eq, show (1 : U128).toNat = 1 from rfl, Nat.one_mul,
    Nat.mod_eq_of_lt this]

theorem Dpf.generateKeys_party {d : Dpf} {env : Env} {alpha : U128} {beta : List Value} {s0 s1 : U128}
    {k0 k1 : DpfKey} (h : d.generateKeysIncremental env alpha beta s0 s1 = ok (k0, k1)) :
    k0.party = 0 ∧ k1.party = 1 := by
  unfold Dpf.generateKeysIncremental at h
  obtain ⟨_, _, h⟩ := bind_eq_ok.mp h
  obtain ⟨_, _, h⟩ := bind_eq_ok.mp h
  obtain ⟨_, _, h⟩ := bind_eq_ok.mp h
  obtain ⟨_, _, h⟩ := bind_eq_ok.mp h
  simp only [ok.injEq, Prod.mk.injEq] at h
  obtain ⟨rfl, rfl⟩ := h
  exact ⟨rfl, rfl⟩

/-- The parameters of the comparison function used by a gate. -/
def Mic.dcfParams (params : MicParameters) : DpfParameters :=
  ⟨params.logGroupSize, some (.integer 128), .val 0⟩

theorem Mic.create_spec {fp : FpEnv} {params : MicParameters} {g : Mic} (h : Mic.create fp params = ok g) :
    0 ≤ params.logGroupSize ∧ params.logGroupSize ≤ 127 ∧ g.params = params ∧
    Dcf.create fp (Mic.dcfParams params) = ok g.dcf ∧
    ∀ iv ∈ params.intervals, iv.lower ≠ none ∧ iv.upper ≠ none ∧
      iv.q.toNat < 2 ^ params.logGroupSize.toNat ∧ iv.p.toNat ≤ iv.q.toNat := by
  unfold Mic.create at h
  obtain ⟨_, h1, h⟩ := bind_eq_ok.mp h
  have h1 := failIf_eq_ok.mp h1
  obtain ⟨N, hN, h⟩ := bind_eq_ok.mp h
  obtain ⟨us, h2, h⟩ := bind_eq_ok.mp h
  obtain ⟨c, h3, h⟩ := bind_eq_ok.mp h
  simp only [ok.injEq] at h
  subst h
  refine ⟨by omega, by omega, rfl, h3, ?_⟩
  intro iv hiv
  have hc := mapRes_unit_eq_ok.mp ⟨us, h2⟩ iv hiv
  rw [show params.logGroupSize = (params.logGroupSize.toNat : Int) by omega, shl128_ok (by omega)] at hN
  simp only [ok.injEq] at hN
  subst hN
  unfold Mic.checkInterval at hc
  obtain ⟨_, c1, hc⟩ := bind_eq_ok.mp hc
  obtain ⟨_, c2, hc⟩ := bind_eq_ok.mp hc
  obtain ⟨_, c3, hc⟩ := bind_eq_ok.mp hc
  have c1 := failIf_eq_ok.mp c1
  have c3 := failIf_eq_ok.mp c3
  have c4 := failIf_eq_ok.mp hc
  rw [ge_iff_le, BitVec.le_def, one_shl_toNat (by omega)] at c3
  rw [gt_iff_lt, BitVec.lt_def] at c4
  exact ⟨fun e => c1 (Or.inl e), fun e => c1 (Or.inr e), by omega, by omega⟩

namespace Spec.MicSetup
variable {fp : FpEnv} {params : MicParameters} {g : Mic} (hs : MicSetup fp params g)
include hs

theorem dcfSetup : DcfSetup fp (Mic.dcfParams params) (.uint .w128) g.dcf := by
  obtain ⟨g0, Ts, h0, rfl⟩ := hs.created
  obtain ⟨_, _, _, hd, _⟩ := Mic.create_spec h0
  have hd' := Dcf.create_spec hd
  refine ⟨⟨g0.dcf, Ts, hd, rfl, Or.inr ⟨_, rfl⟩⟩, rfl, by show params.logGroupSize ≤ 128; omega, ?_⟩
  have := Setup.of_flat (Ts := Ts) (T := fun _ => .uint .w128) hd'.2.2 (by
    intro h q hq
    obtain ⟨_, rfl⟩ := Dcf.dpfParameters_get hq
    rfl) (fun _ _ => Or.inr ⟨_, rfl⟩) (fun _ _ => Or.inl rfl)
  intro k hk
  obtain ⟨i, hi, rfl⟩ := List.getElem_of_mem hk
  exact this.bytes i _ (List.getElem?_eq_getElem hi)

theorem params_eq : g.params = params := by
  obtain ⟨g0, Ts, h0, rfl⟩ := hs.created
  exact (Mic.create_spec h0).2.2.1

theorem log_range : 1 ≤ params.logGroupSize ∧ params.logGroupSize ≤ 127 := by
  obtain ⟨g0, Ts, h0, _⟩ := hs.created
  exact ⟨hs.dcfSetup.log_pos, (Mic.create_spec h0).2.1⟩

theorem interval {iv : Interval} (h : iv ∈ params.intervals) : iv.lower ≠ none ∧ iv.upper ≠ none ∧
    iv.q.toNat < 2 ^ params.logGroupSize.toNat ∧ iv.p.toNat ≤ iv.q.toNat := by
  obtain ⟨g0, Ts, h0, _⟩ := hs.created
  exact (Mic.create_spec h0).2.2.2.2 iv h

theorem shl_eq : shl128 1 g.params.logGroupSize = ok ((1 : U128) <<< params.logGroupSize.toNat) := by
  have := hs.log_range
  rw [hs.params_eq, show params.logGroupSize = (params.logGroupSize.toNat : Int) by omega, shl128_ok (by omega)]
  rfl

theorem N_toNat : ((1 : U128) <<< params.logGroupSize.toNat).toNat = 2 ^ params.logGroupSize.toNat := by
  have := hs.log_range
  exact one_shl_toNat (by omega)

end Spec.MicSetup

namespace Mic

/-- Value of `xP` where it is defined. -/
def xPv (g : Mic) (N : U128) (c : Cell) : U128 :=
  (c.x + N - 1 - (g.params.intervals.getD c.j ⟨none, none⟩).p) % N
/-- Value of `xQ` where it is defined. -/
def xQv (g : Mic) (N : U128) (c : Cell) : U128 :=
  (c.x + N - 1 - ((g.params.intervals.getD c.j ⟨none, none⟩).q + 1) % N) % N

/-- All that happens for one key, point and interval. -/
def cellRes (g : Mic) (env : Env) (N : U128) (c : Cell) : Res U128 :=
  g.dcf.evaluate env (uintHelper 128) c.key.dcfKey (g.xPv N c) >>= fun s =>
  g.dcf.evaluate env (uintHelper 128) c.key.dcfKey (g.xQv N c) >>= fun t => g.output N c s t

theorem mem_cells {keys : List MicKey} {points : List U128} {m : Nat} {c : Cell}
    (h : c ∈ cells keys points m) : c.key ∈ keys ∧ c.x ∈ points ∧ c.j < m := by
  unfold cells at h
  rw [List.mem_flatMap] at h
  obtain ⟨⟨k, x⟩, hkx, h⟩ := h
  rw [List.mem_map] at h
  obtain ⟨j, hj, rfl⟩ := h
  have := List.of_mem_zip hkx
  exact ⟨this.1, this.2, List.mem_range.mp hj⟩

theorem cells_length (keys : List MicKey) (points : List U128) (m : Nat) (hlen : points.length = keys.length) :
    (cells keys points m).length = keys.length * m := by
  rw [cells, List.length_flatMap]
  simp only [List.length_map, List.length_range]
  rw [List.map_const', List.sum_replicate_nat, List.length_zip, hlen, Nat.min_self]

end Mic

namespace Spec.MicSetup
variable {fp : FpEnv} {params : MicParameters} {g : Mic} (hs : MicSetup fp params g)
include hs

theorem evaluate_cases (env : Env) (k : DcfKey) (x : U128) :
    OkOrInvalid (g.dcf.evaluate env (uintHelper 128) k x) := by
  have hd := hs.dcfSetup
  by_cases hk : g.dcf.dpf.KeyOk k
  · have := hd.evaluate_ok env hk x
    show OkOrInvalid (g.dcf.evaluate env (Ty.uint .w128).helper k x)
    rw [this]; exact hd.evalFold_cases env hk x
  · exact Or.inr (hd.evaluate_bad env hk x)

theorem output_cases (N : U128) {c : Mic.Cell} (hj : c.j < params.intervals.length)
    (hm : params.intervals.length ≤ c.key.outputMaskShare.length) (s t : U128) :
    OkOrInvalid (g.output N c s t) := by
  unfold Mic.output
  rw [rd_lt (by rw [hs.params_eq]; exact hj), bind_ok, rd_lt (by omega), bind_ok]
  exact OkOrInvalid.ok _

theorem batchEval_eq (env : Env) (keys : List MicKey) (points : List U128)
    (hlen : points.length = keys.length) (hp : ∀ x ∈ points, x.toNat < 2 ^ params.logGroupSize.toNat)
    (hm : ∀ k ∈ keys, params.intervals.length ≤ k.outputMaskShare.length)
    (hk : keys.length < 2 ^ 31) (hint : keys.length * params.intervals.length < 2 ^ 31) :
    g.batchEval env keys points = mapRes (g.cellRes env ((1 : U128) <<< params.logGroupSize.toNat))
      (Mic.cells keys points params.intervals.length) := by
  unfold Mic.batchEval
  rw [failIf_false (by omega), bind_ok, hs.shl_eq, bind_ok]
  obtain ⟨us, hus⟩ := (mapRes_unit_eq_ok (f := fun x : U128 =>
    failIf (x ≥ (1 : U128) <<< params.logGroupSize.toNat) .invalidArgument) (l := points.take (2 ^ 31))).mpr (by
      intro x hx
      apply failIf_false
      rw [ge_iff_le, BitVec.le_def, hs.N_toNat]
      have := hp x (List.mem_of_mem_take hx)
      omega)
  have hcl := Mic.cells_length keys points params.intervals.length hlen
  rw [hus, bind_ok, hs.params_eq, if_neg (by omega)]
  dsimp only
  generalize hcs : Mic.cells keys points params.intervals.length = cs
  generalize (1 : U128) <<< params.logGroupSize.toNat = N
  have hcell : ∀ c ∈ cs, c.key ∈ keys ∧ c.j < params.intervals.length := by
    intro c hc
    subst hcs
    have := Mic.mem_cells hc
    exact ⟨this.1, this.2.2⟩
  have e1 : mapRes (g.xP N) cs = ok (cs.map (g.xPv N)) := by
    apply mapRes_eq_ok_map
    intro c hc
    unfold Mic.xP Mic.xPv
    rw [rd_getD (by rw [hs.params_eq]; exact (hcell c hc).2), bind_ok]
  have e2 : mapRes (g.xQ N) cs = ok (cs.map (g.xQv N)) := by
    apply mapRes_eq_ok_map
    intro c hc
    unfold Mic.xQ Mic.xQv
    rw [rd_getD (by rw [hs.params_eq]; exact (hcell c hc).2), bind_ok]
  have hb : ∀ f : Mic.Cell → U128, g.dcf.batchEvaluate env (uintHelper 128) (cs.map (·.key.dcfKey)) (cs.map f) =
      mapRes (fun c => g.dcf.evaluate env (uintHelper 128) c.key.dcfKey (f c)) cs := by
    intro f
    have := C28_batch_partial fp _ (.uint .w128) g.dcf hs.dcfSetup env (cs.map (·.key.dcfKey)) (cs.map f) (by simp)
      (by rw [List.length_map, ← hcs, hcl]; exact hint)
    refine this.trans ?_
    rw [show (cs.map (·.key.dcfKey)).zip (cs.map f) = cs.map fun c => (c.key.dcfKey, f c) from by
      rw [List.zip_map', ], mapRes_map]
    rfl
  rw [e1, bind_ok, e2, bind_ok, hb, hb]
  exact mapRes_fuse _ _ (fun c s t => g.output N c s t) cs (fun c _ => hs.evaluate_cases env _ _)
    (fun c _ => hs.evaluate_cases env _ _)
    (fun c hc s t => hs.output_cases N (hcell c hc).2 (hm _ (hcell c hc).1) s t)

end Spec.MicSetup


/-! ## Congruences modulo the group size -/

/-- The 128-bit number `v` is congruent to `z` modulo `N`. -/
def Cong (N : Nat) (v : U128) (z : Int) : Prop := (N : Int) ∣ (v.toNat : Int) - z

namespace Cong
variable {N : Nat}

theorem self (v : U128) : Cong N v v.toNat := by
  unfold Cong; rw [Int.sub_self]; exact Int.dvd_zero _

theorem congr {v : U128} {x y : Int} (h : Cong N v x) (e : x = y) : Cong N v y := e ▸ h

theorem of_toNat {v : U128} {n : Nat} (h : v.toNat = n) : Cong N v n := h ▸ self v

theorem add (hN : N ∣ 2 ^ 128) {a b : U128} {x y : Int} (ha : Cong N a x) (hb : Cong N b y) :
    Cong N (a + b) (x + y) := by
  unfold Cong at *
  have h1 := Nat.div_add_mod (a.toNat + b.toNat) (2 ^ 128)
  rw [← BitVec.toNat_add] at h1
  have h2 : (N : Int) ∣ ((2 ^ 128 * ((a.toNat + b.toNat) / 2 ^ 128) : Nat) : Int) :=
    Int.natCast_dvd_natCast.mpr (Nat.dvd_trans hN (Nat.dvd_mul_right _ _))
  have h3 := Int.dvd_sub (Int.dvd_add ha hb) h2
  have e : (a.toNat : Int) - x + ((b.toNat : Int) - y) -
      ((2 ^ 128 * ((a.toNat + b.toNat) / 2 ^ 128) : Nat) : Int) = ((a + b).toNat : Int) - (x + y) := by
    omega
  rwa [e] at h3

theorem sub (hN : N ∣ 2 ^ 128) {a b : U128} {x y : Int} (ha : Cong N a x) (hb : Cong N b y) :
    Cong N (a - b) (x - y) := by
  have hab : a - b + b = a := BitVec.sub_add_cancel a b
  have h := add hN (self (N := N) (a - b)) (self (N := N) b)
  rw [hab] at h
  unfold Cong at *
  have h3 := Int.dvd_sub (Int.dvd_sub ha hb) h
  have e : (a.toNat : Int) - x - ((b.toNat : Int) - y) - ((a.toNat : Int) - ((a - b).toNat + b.toNat)) =
      ((a - b).toNat : Int) - (x - y) := by omega
  rwa [e] at h3

theorem mod {a M : U128} {x : Int} (hM : M.toNat = N) (ha : Cong N a x) : Cong N (a % M) x := by
  unfold Cong at *
  rw [BitVec.toNat_umod, hM]
  have h1 := Nat.div_add_mod a.toNat N
  have h2 : (N : Int) ∣ ((N * (a.toNat / N) : Nat) : Int) :=
    Int.natCast_dvd_natCast.mpr (Nat.dvd_mul_right _ _)
  have h3 := Int.dvd_sub ha h2
  have e : (a.toNat : Int) - x - ((N * (a.toNat / N) : Nat) : Int) = ((a.toNat % N : Nat) : Int) - x := by
    omega
  rwa [e] at h3

theorem ofInt (hN : N ∣ 2 ^ 128) (z : Int) : Cong N (BitVec.ofInt 128 z) z := by
  unfold Cong
  rw [BitVec.toNat_ofInt]
  have h0 : 0 ≤ z % ((2 ^ 128 : Nat) : Int) := Int.emod_nonneg _ (by decide)
  rw [Int.toNat_of_nonneg h0]
  have h1 : ((2 ^ 128 : Nat) : Int) ∣ z % ((2 ^ 128 : Nat) : Int) - z := by
    refine ⟨- (z / ((2 ^ 128 : Nat) : Int)), ?_⟩
    have := Int.mul_ediv_add_emod z ((2 ^ 128 : Nat) : Int)
    rw [Int.mul_neg]; omega
  exact Int.dvd_trans (Int.natCast_dvd_natCast.mpr hN) h1

end Cong

/-! ## Correctness -/

namespace Spec.MicSetup
variable {fp : FpEnv} {params : MicParameters} {g : Mic} (hs : MicSetup fp params g)
include hs

theorem N_dvd : 2 ^ params.logGroupSize.toNat ∣ 2 ^ 128 := by
  have := hs.log_range
  exact Nat.pow_dvd_pow _ (by omega)

theorem two_N_le : 2 * 2 ^ params.logGroupSize.toNat ≤ 2 ^ 128 := by
  have := hs.log_range
  rw [← Nat.pow_succ']
  exact Nat.pow_le_pow_right (by omega) (by omega)

/-- The correction term. -/
theorem correctionTerm_cong {iv : Interval} (hiv : iv ∈ params.intervals) {rIn : U128}
    (hr : rIn.toNat < 2 ^ params.logGroupSize.toNat) (rOut : U128) :
    Cong (2 ^ params.logGroupSize.toNat)
      (Mic.correctionTerm ((1 : U128) <<< params.logGroupSize.toNat) rIn rOut iv)
      (rOut.toNat + (ind ((iv.q.toNat + rIn.toNat) % 2 ^ params.logGroupSize.toNat <
          (iv.p.toNat + rIn.toNat) % 2 ^ params.logGroupSize.toNat) -
        ind (iv.p.toNat < (iv.p.toNat + rIn.toNat) % 2 ^ params.logGroupSize.toNat) +
        ind ((iv.q.toNat + 1) % 2 ^ params.logGroupSize.toNat <
          (iv.q.toNat + 1 + rIn.toNat) % 2 ^ params.logGroupSize.toNat) +
        ind ((iv.q.toNat + rIn.toNat) % 2 ^ params.logGroupSize.toNat =
          2 ^ params.logGroupSize.toNat - 1))) := by
  have hN := hs.N_toNat
  have hdvd := hs.N_dvd
  have h2 := hs.two_N_le
  obtain ⟨_, _, hq, hpq⟩ := hs.interval hiv
  unfold Mic.correctionTerm
  dsimp only
  generalize (1 : U128) <<< params.logGroupSize.toNat = NB at *
  generalize 2 ^ params.logGroupSize.toNat = N at *
  have eq' : ((iv.q + 1) % NB).toNat = (iv.q.toNat + 1) % N := by
    rw [BitVec.toNat_umod, hN, BitVec.toNat_add_of_lt (by rw [show (1 : U128).toNat = 1 from rfl]; omega)]; rfl
  have ep : ((iv.p + rIn) % NB).toNat = (iv.p.toNat + rIn.toNat) % N := by
    rw [BitVec.toNat_umod, hN, BitVec.toNat_add_of_lt (by omega)]
  have eq : ((iv.q + rIn) % NB).toNat = (iv.q.toNat + rIn.toNat) % N := by
    rw [BitVec.toNat_umod, hN, BitVec.toNat_add_of_lt (by omega)]
  have e1 : (iv.q + 1).toNat = iv.q.toNat + 1 :=
    BitVec.toNat_add_of_lt (by rw [show (1 : U128).toNat = 1 from rfl]; omega)
  have eqq : ((iv.q + 1 + rIn) % NB).toNat = (iv.q.toNat + 1 + rIn.toNat) % N := by
    rw [BitVec.toNat_umod, hN, BitVec.toNat_add_of_lt (by omega), e1]
  have eN : (NB - 1).toNat = N - 1 := by
    rw [BitVec.toNat_sub_of_le (by rw [BitVec.le_def, hN]; show 1 ≤ N; omega), hN]; rfl
  have sel1 : ∀ (c d : Prop) [Decidable c] [Decidable d], (c ↔ d) → Cong N (Mic.sel c 1) (ind d) := by
    intro c d _ _ h
    unfold Mic.sel
    rw [show (if c then 1 else 0 : Int) = ind d by unfold ind; simp only [h]]
    exact Cong.ofInt hdvd _
  have sel2 : ∀ (c d : Prop) [Decidable c] [Decidable d], (c ↔ d) → Cong N (Mic.sel c (-1)) (- ind d) := by
    intro c d _ _ h
    unfold Mic.sel
    rw [show (if c then -1 else 0 : Int) = - ind d by unfold ind; simp only [h]; split <;> rfl]
    exact Cong.ofInt hdvd _
  have := ((((Cong.self (N := N) rOut).add hdvd
    (sel1 ((iv.p + rIn) % NB > (iv.q + rIn) % NB) ((iv.q.toNat + rIn.toNat) % N < (iv.p.toNat + rIn.toNat) % N)
      (by rw [gt_iff_lt, BitVec.lt_def, ep, eq]))).add hdvd
    (sel2 ((iv.p + rIn) % NB > iv.p) (iv.p.toNat < (iv.p.toNat + rIn.toNat) % N)
      (by rw [gt_iff_lt, BitVec.lt_def, ep]))).add hdvd
    (sel1 ((iv.q + 1 + rIn) % NB > (iv.q + 1) % NB) ((iv.q.toNat + 1) % N < (iv.q.toNat + 1 + rIn.toNat) % N)
      (by rw [gt_iff_lt, BitVec.lt_def, eq', eqq]))).add hdvd
    (sel1 ((iv.q + rIn) % NB = NB - 1) ((iv.q.toNat + rIn.toNat) % N = N - 1)
      (by rw [← BitVec.toNat_inj, eq, eN]))
  have := this.mod hN
  refine this.congr ?_
  omega

theorem xPv_toNat {c : Mic.Cell} {iv : Interval} (hiv : params.intervals[c.j]? = some iv)
    (hx : c.x.toNat < 2 ^ params.logGroupSize.toNat) :
    (g.xPv ((1 : U128) <<< params.logGroupSize.toNat) c).toNat =
      (c.x.toNat + 2 ^ params.logGroupSize.toNat - 1 - iv.p.toNat) % 2 ^ params.logGroupSize.toNat := by
  have hN := hs.N_toNat
  have h2 := hs.two_N_le
  obtain ⟨_, _, hq, hpq⟩ := hs.interval (List.mem_of_getElem? hiv)
  unfold Mic.xPv
  rw [hs.params_eq, List.getD, hiv, Option.getD_some]
  generalize (1 : U128) <<< params.logGroupSize.toNat = NB at *
  generalize 2 ^ params.logGroupSize.toNat = N at *
  have e1 : (c.x + NB).toNat = c.x.toNat + N := by rw [BitVec.toNat_add_of_lt (by omega), hN]
  have e2 : (c.x + NB - 1).toNat = c.x.toNat + N - 1 := by
    rw [BitVec.toNat_sub_of_le (by rw [BitVec.le_def, e1]; show 1 ≤ _; omega), e1]; rfl
  rw [BitVec.toNat_umod, hN, BitVec.toNat_sub_of_le (by rw [BitVec.le_def, e2]; omega), e2]

theorem xQv_toNat {c : Mic.Cell} {iv : Interval} (hiv : params.intervals[c.j]? = some iv)
    (hx : c.x.toNat < 2 ^ params.logGroupSize.toNat) :
    (g.xQv ((1 : U128) <<< params.logGroupSize.toNat) c).toNat =
      (c.x.toNat + 2 ^ params.logGroupSize.toNat - 1 - (iv.q.toNat + 1) % 2 ^ params.logGroupSize.toNat) %
        2 ^ params.logGroupSize.toNat := by
  have hN := hs.N_toNat
  have h2 := hs.two_N_le
  obtain ⟨_, _, hq, hpq⟩ := hs.interval (List.mem_of_getElem? hiv)
  unfold Mic.xQv
  rw [hs.params_eq, List.getD, hiv, Option.getD_some]
  generalize (1 : U128) <<< params.logGroupSize.toNat = NB at *
  generalize 2 ^ params.logGroupSize.toNat = N at *
  have e0 : ((iv.q + 1) % NB).toNat = (iv.q.toNat + 1) % N := by
    rw [BitVec.toNat_umod, hN, BitVec.toNat_add_of_lt (by rw [show (1 : U128).toNat = 1 from rfl]; omega)]; rfl
  have e0' : (iv.q.toNat + 1) % N < N := Nat.mod_lt _ (by omega)
  have e1 : (c.x + NB).toNat = c.x.toNat + N := by rw [BitVec.toNat_add_of_lt (by omega), hN]
  have e2 : (c.x + NB - 1).toNat = c.x.toNat + N - 1 := by
    rw [BitVec.toNat_sub_of_le (by rw [BitVec.le_def, e1]; show 1 ≤ _; omega), e1]; rfl
  rw [BitVec.toNat_umod, hN, BitVec.toNat_sub_of_le (by rw [BitVec.le_def, e2, e0]; omega), e2, e0]

/-- One output of one party. -/
theorem output_cong {c : Mic.Cell} {iv : Interval} (hiv : params.intervals[c.j]? = some iv) {z : U128}
    (hz : c.key.outputMaskShare[c.j]? = some (Mic.blockMessage z)) (s t : U128) :
    ∃ y, g.output ((1 : U128) <<< params.logGroupSize.toNat) c s t = ok y ∧
      Cong (2 ^ params.logGroupSize.toNat) y
        ((if c.key.dcfKey.party ≠ 0 then ind (iv.p.toNat < c.x.toNat) -
            ind ((iv.q.toNat + 1) % 2 ^ params.logGroupSize.toNat < c.x.toNat) else 0) -
          s.toNat + t.toNat + z.toNat) := by
  have hN := hs.N_toNat
  have h2 := hs.two_N_le
  have hdvd := hs.N_dvd
  obtain ⟨_, _, hq, hpq⟩ := hs.interval (List.mem_of_getElem? hiv)
  unfold Mic.output
  rw [hs.params_eq, rd_eq_ok.mpr hiv, bind_ok, rd_eq_ok.mpr hz, bind_ok]
  dsimp only
  generalize (1 : U128) <<< params.logGroupSize.toNat = NB at *
  generalize 2 ^ params.logGroupSize.toNat = N at *
  have e0 : ((iv.q + 1) % NB).toNat = (iv.q.toNat + 1) % N := by
    rw [BitVec.toNat_umod, hN, BitVec.toNat_add_of_lt (by rw [show (1 : U128).toNat = 1 from rfl]; omega)]; rfl
  refine ⟨_, rfl, ?_⟩
  have ev : valueUint128 (Mic.blockMessage z) = z := makeU128_split z
  have := ((((Cong.ofInt hdvd (if c.key.dcfKey.party ≠ 0 then
      (if c.x > iv.p then 1 else 0) - (if c.x > (iv.q + 1) % NB then 1 else 0) else 0)).sub hdvd
    ((Cong.self (N := N) s).mod hN)).add hdvd ((Cong.self (N := N) t).mod hN)).add hdvd
    (Cong.self (N := N) z)).mod hN
  rw [ev]
  refine this.congr ?_
  simp only [ind, gt_iff_lt, BitVec.lt_def, e0]

theorem register : MicSetup fp params ⟨g.params, g.dcf.register (uintHelper 128)⟩ := by
  obtain ⟨g0, Ts, h0, rfl⟩ := hs.created
  refine ⟨g0, Ts ++ [.uint .w128], h0, ?_⟩
  simp only [Dcf.register, Dcf.registerAll, Dpf.registerAll, List.foldl_append, List.foldl_cons, List.foldl_nil]
  rfl

theorem gen_eq (env : Env) {rIn : U128} (hr : rIn.toNat < 2 ^ params.logGroupSize.toNat) {rOut : List U128}
    (hlen : rOut.length = params.intervals.length)
    (hro : ∀ r ∈ rOut, r.toNat < 2 ^ params.logGroupSize.toNat) (seed0 seed1 : U128) (rand : Nat → U128) :
    g.gen env rIn rOut seed0 seed1 rand =
      ((g.dcf.generateKeysFor env (uintHelper 128)
        (((1 : U128) <<< params.logGroupSize.toNat - 1 + rIn) % (1 : U128) <<< params.logGroupSize.toNat) 1
          seed0 seed1).1 >>= fun k =>
        ok (⟨k.1, (List.range params.intervals.length).map fun i =>
              Mic.blockMessage (rand i % (1 : U128) <<< params.logGroupSize.toNat)⟩,
            ⟨k.2, (List.range params.intervals.length).map fun i => Mic.blockMessage
              ((Mic.correctionTerm ((1 : U128) <<< params.logGroupSize.toNat) rIn (rOut.getD i 0)
                (params.intervals.getD i ⟨none, none⟩) - rand i % (1 : U128) <<< params.logGroupSize.toNat) %
                  (1 : U128) <<< params.logGroupSize.toNat)⟩),
       ⟨g.params, g.dcf.register (uintHelper 128)⟩) := by
  have hc : (shl128 1 g.params.logGroupSize >>= fun N => g.checkGen N rIn rOut >>= fun _ => ok N) =
      ok ((1 : U128) <<< params.logGroupSize.toNat) := by
    rw [hs.shl_eq, bind_ok]
    unfold Mic.checkGen
    rw [failIf_false (by rw [hs.params_eq]; omega), bind_ok,
      failIf_false (by rw [ge_iff_le, BitVec.le_def, hs.N_toNat]; omega), bind_ok]
    obtain ⟨us, hus⟩ := (mapRes_unit_eq_ok (f := fun x : U128 =>
      failIf (x ≥ (1 : U128) <<< params.logGroupSize.toNat) .invalidArgument) (l := rOut)).mpr (by
        intro x hx
        apply failIf_false
        rw [ge_iff_le, BitVec.le_def, hs.N_toNat]
        have := hro x hx
        omega)
    rw [hus]; rfl
  unfold Mic.gen
  rw [hc]
  dsimp only
  congr 1
  congr 1
  funext k
  obtain ⟨k0, k1⟩ := k
  dsimp only
  rw [hs.params_eq]
  have e : ∀ f : Nat → Res (IntegerP × IntegerP), ∀ h : Nat → IntegerP × IntegerP,
      (∀ i, i < params.intervals.length → f i = ok (h i)) →
      (mapRes f (List.range params.intervals.length) >>= fun zs =>
        ok ((⟨k0, zs.map (·.1)⟩ : MicKey), (⟨k1, zs.map (·.2)⟩ : MicKey))) =
      ok (⟨k0, (List.range params.intervals.length).map fun i => (h i).1⟩,
          ⟨k1, (List.range params.intervals.length).map fun i => (h i).2⟩) := by
    intro f h hf
    rw [mapRes_eq_ok_map (g := h) (fun i hi => hf i (List.mem_range.mp hi)), bind_ok, List.map_map, List.map_map]
    rfl
  refine e _ (fun i => (_, _)) ?_
  intro i hi
  rw [rd_getD hi ⟨none, none⟩, bind_ok, rd_getD (show i < rOut.length by omega) (0 : U128), bind_ok]
  rfl

/-- Correctness of generated keys. -/
theorem correct (env : Env) {rIn : U128} (hr : rIn.toNat < 2 ^ params.logGroupSize.toNat) {rOut : List U128}
    (hlen : rOut.length = params.intervals.length)
    (hro : ∀ r ∈ rOut, r.toNat < 2 ^ params.logGroupSize.toNat) (seed0 seed1 : U128) (rand : Nat → U128) :
    ∃ k0 k1 g', g.gen env rIn rOut seed0 seed1 rand = (ok (k0, k1), g') ∧ MicSetup fp params g' ∧
      (params.intervals.length < 2 ^ 31 → ∀ (x : Nat) (X : U128), x < 2 ^ params.logGroupSize.toNat →
        X.toNat = (x + rIn.toNat) % 2 ^ params.logGroupSize.toNat →
        ∃ ys0 ys1, g'.eval env k0 X = ok ys0 ∧ g'.eval env k1 X = ok ys1 ∧
          ys0.length = params.intervals.length ∧ ys1.length = params.intervals.length ∧
          ∀ (j : Nat) (iv : Interval) (r y0 y1 : U128), params.intervals[j]? = some iv → rOut[j]? = some r →
            ys0[j]? = some y0 → ys1[j]? = some y1 →
            (y0.toNat + y1.toNat) % 2 ^ params.logGroupSize.toNat =
              (r.toNat + if iv.p.toNat ≤ x ∧ x ≤ iv.q.toNat then 1 else 0) %
                2 ^ params.logGroupSize.toNat) := by
  rw [hs.gen_eq env hr hlen hro seed0 seed1 rand]
  have hs' := hs.register
  have hN := hs.N_toNat
  have h2 := hs.two_N_le
  have hdvd := hs.N_dvd
  have hpos : 0 < 2 ^ params.logGroupSize.toNat := Nat.two_pow_pos _
  generalize hγ : ((1 : U128) <<< params.logGroupSize.toNat - 1 + rIn) % (1 : U128) <<< params.logGroupSize.toNat = γ
  have eγ : γ.toNat = (2 ^ params.logGroupSize.toNat - 1 + rIn.toNat) % 2 ^ params.logGroupSize.toNat := by
    have eN : ((1 : U128) <<< params.logGroupSize.toNat - 1).toNat = 2 ^ params.logGroupSize.toNat - 1 := by
      rw [BitVec.toNat_sub_of_le (by rw [BitVec.le_def, hN]; show 1 ≤ _; omega), hN]; rfl
    rw [← hγ, BitVec.toNat_umod, hN, BitVec.toNat_add_of_lt (by omega), eN]
  obtain ⟨k0, k1, hk, hev⟩ := hs'.dcfSetup.correct env (alpha := γ)
    (by rw [eγ]; exact Nat.mod_lt _ hpos) rfl (C20_encoded_represents (.uint .w128) 1) seed0 seed1
  have hev : ∀ x : U128, x.toNat < 2 ^ params.logGroupSize.toNat → ∃ v0 v1 : U128,
      Dcf.evaluate (g.dcf.register (uintHelper 128)) env (uintHelper 128) k0 x = ok v0 ∧
      Dcf.evaluate (g.dcf.register (uintHelper 128)) env (uintHelper 128) k1 x = ok v1 ∧
      v0 + v1 = if x.toNat < γ.toNat then (1 : U128) else 0 := hev
  have hgen : (g.dcf.generateKeysFor env (uintHelper 128) γ 1 seed0 seed1).1 = ok (k0, k1) := hk
  obtain ⟨hp0, hp1⟩ := Dpf.generateKeys_party (show Dpf.generateKeysIncremental _ _ _ _ _ _ = ok (k0, k1) from by
    rw [hs'.dcfSetup.generateKeys_unfold] at hk; exact hk)
  rw [hgen, bind_ok]
  refine ⟨_, _, _, rfl, hs', ?_⟩
  intro hint x X hx hX
  have hXlt : X.toNat < 2 ^ params.logGroupSize.toNat := by rw [hX]; exact Nat.mod_lt _ hpos
  generalize hM0 : (List.range params.intervals.length).map (fun i =>
    Mic.blockMessage (rand i % (1 : U128) <<< params.logGroupSize.toNat)) = M0
  generalize hM1 : (List.range params.intervals.length).map (fun i => Mic.blockMessage
    ((Mic.correctionTerm ((1 : U128) <<< params.logGroupSize.toNat) rIn (rOut.getD i 0)
      (params.intervals.getD i ⟨none, none⟩) - rand i % (1 : U128) <<< params.logGroupSize.toNat) %
        (1 : U128) <<< params.logGroupSize.toNat)) = M1
  have hl0 : M0.length = params.intervals.length := by subst hM0; simp
  have hl1 : M1.length = params.intervals.length := by subst hM1; simp
  have ec : ∀ k : MicKey, Mic.cells [k] [X] params.intervals.length =
      (List.range params.intervals.length).map fun j => ⟨k, X, j⟩ := by
    intro k; simp [Mic.cells]
  have key : ∀ j, j < params.intervals.length → ∃ y0 y1,
      Mic.cellRes ⟨g.params, g.dcf.register (uintHelper 128)⟩ env ((1 : U128) <<< params.logGroupSize.toNat)
        ⟨⟨k0, M0⟩, X, j⟩ = ok y0 ∧
      Mic.cellRes ⟨g.params, g.dcf.register (uintHelper 128)⟩ env ((1 : U128) <<< params.logGroupSize.toNat)
        ⟨⟨k1, M1⟩, X, j⟩ = ok y1 ∧
      ∀ iv r, params.intervals[j]? = some iv → rOut[j]? = some r →
        (y0.toNat + y1.toNat) % 2 ^ params.logGroupSize.toNat =
          (r.toNat + if iv.p.toNat ≤ x ∧ x ≤ iv.q.toNat then 1 else 0) % 2 ^ params.logGroupSize.toNat := by
    intro j hj
    have hiv := List.getElem?_eq_getElem hj
    have hro' := List.getElem?_eq_getElem (show j < rOut.length by omega)
    generalize params.intervals[j] = iv at hiv
    generalize rOut[j] = r at hro'
    generalize hz0 : rand j % (1 : U128) <<< params.logGroupSize.toNat = z0
    generalize hz : Mic.correctionTerm ((1 : U128) <<< params.logGroupSize.toNat) rIn r iv = z
    have cz := hs.correctionTerm_cong (List.mem_of_getElem? hiv) hr r
    rw [hz] at cz
    have m0 : M0[j]? = some (Mic.blockMessage z0) := by
      rw [← hM0, List.getElem?_map, List.getElem?_range hj, Option.map_some, hz0]
    have m1 : M1[j]? = some (Mic.blockMessage ((z - z0) % (1 : U128) <<< params.logGroupSize.toNat)) := by
      rw [← hM1, List.getElem?_map, List.getElem?_range hj, Option.map_some, hz0, List.getD, hro', List.getD, hiv,
        Option.getD_some, Option.getD_some, hz]
    have xp := hs'.xPv_toNat (c := ⟨⟨k0, M0⟩, X, j⟩) hiv hXlt
    have xq := hs'.xQv_toNat (c := ⟨⟨k0, M0⟩, X, j⟩) hiv hXlt
    have xp' : Mic.xPv ⟨g.params, g.dcf.register (uintHelper 128)⟩ ((1 : U128) <<< params.logGroupSize.toNat)
        ⟨⟨k1, M1⟩, X, j⟩ = Mic.xPv ⟨g.params, g.dcf.register (uintHelper 128)⟩
          ((1 : U128) <<< params.logGroupSize.toNat) ⟨⟨k0, M0⟩, X, j⟩ := rfl
    have xq' : Mic.xQv ⟨g.params, g.dcf.register (uintHelper 128)⟩ ((1 : U128) <<< params.logGroupSize.toNat)
        ⟨⟨k1, M1⟩, X, j⟩ = Mic.xQv ⟨g.params, g.dcf.register (uintHelper 128)⟩
          ((1 : U128) <<< params.logGroupSize.toNat) ⟨⟨k0, M0⟩, X, j⟩ := rfl
    unfold Mic.cellRes
    rw [xp', xq']
    generalize Mic.xPv ⟨g.params, g.dcf.register (uintHelper 128)⟩ ((1 : U128) <<< params.logGroupSize.toNat)
        ⟨⟨k0, M0⟩, X, j⟩ = XP at *
    generalize Mic.xQv ⟨g.params, g.dcf.register (uintHelper 128)⟩ ((1 : U128) <<< params.logGroupSize.toNat)
        ⟨⟨k0, M0⟩, X, j⟩ = XQ at *
    obtain ⟨s0, s1, es0, es1, hsum⟩ := hev XP (by rw [xp]; exact Nat.mod_lt _ hpos)
    obtain ⟨t0, t1, et0, et1, htum⟩ := hev XQ (by rw [xq]; exact Nat.mod_lt _ hpos)
    obtain ⟨y0, ey0, c0⟩ := hs'.output_cong (c := ⟨⟨k0, M0⟩, X, j⟩) hiv m0 s0 t0
    obtain ⟨y1, ey1, c1⟩ := hs'.output_cong (c := ⟨⟨k1, M1⟩, X, j⟩) hiv m1 s1 t1
    refine ⟨y0, y1, ?_, ?_, ?_⟩
    · dsimp only
      rw [es0, bind_ok, et0, bind_ok]; exact ey0
    · dsimp only
      rw [es1, bind_ok, et1, bind_ok]; exact ey1
    · intro iv' r' hiv' hr'
      rw [hiv] at hiv'
      rw [hro'] at hr'
      cases hiv'
      cases hr'
      obtain ⟨_, _, hq, hpq⟩ := hs.interval (List.mem_of_getElem? hiv)
      dsimp only at c0 c1
      rw [if_neg (by rw [hp0]; simp)] at c0
      rw [if_pos (by rw [hp1]; decide)] at c1
      have hsum' : Cong (2 ^ params.logGroupSize.toNat) (s0 + s1) (ind (XP.toNat < γ.toNat)) := by
        rw [show (s0 + s1) = if XP.toNat < γ.toNat then (1 : U128) else 0 from hsum]
        unfold ind; split
        · exact Cong.self 1
        · exact Cong.self 0
      have htum' : Cong (2 ^ params.logGroupSize.toNat) (t0 + t1) (ind (XQ.toNat < γ.toNat)) := by
        rw [show (t0 + t1) = if XQ.toNat < γ.toNat then (1 : U128) else 0 from htum]
        unfold ind; split
        · exact Cong.self 1
        · exact Cong.self 0
      have cs : Cong (2 ^ params.logGroupSize.toNat) (s0 + s1) (s0.toNat + s1.toNat) :=
        (Cong.self s0).add hdvd (Cong.self s1)
      have ct : Cong (2 ^ params.logGroupSize.toNat) (t0 + t1) (t0.toNat + t1.toNat) :=
        (Cong.self t0).add hdvd (Cong.self t1)
      have cz1 : Cong (2 ^ params.logGroupSize.toNat) ((z - z0) % (1 : U128) <<< params.logGroupSize.toNat)
          (z.toNat - z0.toNat) := ((Cong.self z).sub hdvd (Cong.self z0)).mod hN
      have hid := mic_identity (2 ^ params.logGroupSize.toNat) x rIn.toNat iv.p.toNat iv.q.toNat hx hr hpq hq
        X.toNat γ.toNat _ _ _ _ XP.toNat XQ.toNat hX eγ rfl rfl rfl rfl xp xq
      generalize ((z - z0) % (1 : U128) <<< params.logGroupSize.toNat) = z1 at *
      generalize 2 ^ params.logGroupSize.toNat = N at *
      generalize (s0 + s1) = S at *
      generalize (t0 + t1) = U at *
      have hfin : (N : Int) ∣ ((y0.toNat + y1.toNat : Nat) : Int) -
          ((r.toNat + (if iv.p.toNat ≤ x ∧ x ≤ iv.q.toNat then 1 else 0) : Nat) : Int) := by
        unfold Cong at *
        have h := Int.dvd_add (Int.dvd_add (Int.dvd_add (Int.dvd_add c0 c1) (Int.dvd_sub cs hsum'))
          (Int.dvd_sub htum' ct)) (Int.dvd_add cz1 cz)
        refine cast (congrArg (fun z : Int => (N : Int) ∣ z) ?_) h
        have hI : ((if iv.p.toNat ≤ x ∧ x ≤ iv.q.toNat then 1 else 0 : Nat) : Int) =
            ind (iv.p.toNat ≤ x ∧ x ≤ iv.q.toNat) := by unfold ind; split <;> rfl
        omega
      have h3 := Int.emod_eq_emod_iff_emod_sub_eq_zero.mpr (Int.emod_eq_zero_of_dvd hfin)
      exact_mod_cast h3
  have hev' : ∀ (k : DcfKey) (M : List IntegerP), M.length = params.intervals.length →
      Mic.eval ⟨g.params, g.dcf.register (uintHelper 128)⟩ env ⟨k, M⟩ X =
      mapRes (fun j => Mic.cellRes ⟨g.params, g.dcf.register (uintHelper 128)⟩ env
        ((1 : U128) <<< params.logGroupSize.toNat) ⟨⟨k, M⟩, X, j⟩) (List.range params.intervals.length) := by
    intro k M hM
    unfold Mic.eval
    rw [hs'.batchEval_eq env [⟨k, M⟩] [X] rfl (by simpa using hXlt) (by simp [hM])
      (show (1 : Nat) < 2 ^ 31 by decide) (show 1 * _ < _ by omega), ec, mapRes_map]
  rw [hev' k0 M0 hl0, hev' k1 M1 hl1]
  have all : ∀ f : Nat → Res U128, (∀ j, j < params.intervals.length → ∃ y, f j = ok y) →
      ∃ ys, mapRes f (List.range params.intervals.length) = ok ys := by
    intro f hf
    refine ⟨_, mapRes_eq_ok_map (g := fun j => match f j with | .ok y => y | _ => 0) ?_⟩
    intro j hj
    obtain ⟨y, hy⟩ := hf j (List.mem_range.mp hj)
    rw [hy]
  obtain ⟨ys0, e0⟩ := all _ (fun j hj => by obtain ⟨y0, _, h, _⟩ := key j hj; exact ⟨y0, h⟩)
  obtain ⟨ys1, e1⟩ := all _ (fun j hj => by obtain ⟨_, y1, _, h, _⟩ := key j hj; exact ⟨y1, h⟩)
  have e0' := mapRes_eq_ok.mp e0
  have e1' := mapRes_eq_ok.mp e1
  simp only [List.length_range, List.getElem_range] at e0' e1'
  refine ⟨ys0, ys1, e0, e1, e0'.1, e1'.1, ?_⟩
  intro j iv r y0 y1 hiv hr' hy0 hy1
  have hj : j < params.intervals.length := (List.getElem?_eq_some_iff.mp hiv).1
  obtain ⟨a, b, ha, hb, h⟩ := key j hj
  have f0 := e0'.2 j hj (by omega)
  have f1 := e1'.2 j hj (by omega)
  rw [ha] at f0
  rw [hb] at f1
  rw [List.getElem?_eq_getElem (by omega)] at hy0 hy1
  simp only [Option.some.injEq] at hy0 hy1
  simp only [ok.injEq] at f0 f1
  rw [← hy0, ← hy1, ← f0, ← f1]
  exact h iv r hiv hr'

end Spec.MicSetup

end Verif
