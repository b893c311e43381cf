import Verif.Lemmas.Share
/-! Invariants of key generation. -/
namespace Verif
open Res Spec
namespace Dpf

theorem bool_xor_cancel : ∀ x y : Bool, x = (y ^^ (x ^^ y)) := by decide

theorem clear_xor (a c : U128) (hc : c &&& ~~~1#128 = c) :
    (a ^^^ c) &&& ~~~1#128 = (a &&& ~~~1#128) ^^^ c := by
  conv => rhs; rw [← hc]
  apply BitVec.eq_of_getLsbD_eq
  intro i hi
  simp only [BitVec.getLsbD_and, BitVec.getLsbD_xor]
  cases a.getLsbD i <;> cases c.getLsbD i <;> cases (~~~1#128).getLsbD i <;> rfl

theorem clear_lsb (a : U128) : (a &&& ~~~1#128).getLsbD 0 = false := by
  simp

theorem clear_clear_xor (a b : U128) :
    ((a &&& ~~~1#128) ^^^ (b &&& ~~~1#128)) &&& ~~~1#128 =
      (a &&& ~~~1#128) ^^^ (b &&& ~~~1#128) := by
  apply BitVec.eq_of_getLsbD_eq
  intro i hi
  simp only [BitVec.getLsbD_and, BitVec.getLsbD_xor]
  cases a.getLsbD i <;> cases b.getLsbD i <;> cases (~~~1#128).getLsbD i <;> rfl

/-- The correction word computed by key generation for the bit `b` of alpha. -/
def genCw (G : Bool → U128 → U128) (b : Bool) (n0 n1 : Node) (vc : List Value) : CorrectionWord where
  seed := (G (!b) n0.seed &&& ~~~1#128) ^^^ (G (!b) n1.seed &&& ~~~1#128)
  controlLeft := (G false n0.seed).getLsbD 0 ^^ (G false n1.seed).getLsbD 0 ^^ b ^^ true
  controlRight := (G true n0.seed).getLsbD 0 ^^ (G true n1.seed).getLsbD 0 ^^ b
  valueCorrection := vc

/-- On the path of alpha the control bits stay different. -/
theorem genCw_on (G : Bool → U128 → U128) (b : Bool) (n0 n1 : Node) (vc : List Value)
    (hc : n0.ctrl ≠ n1.ctrl) :
    (step G (genCw G b n0 n1 vc) b n0).ctrl ≠ (step G (genCw G b n0 n1 vc) b n1).ctrl := by
  have hs : (genCw G b n0 n1 vc).seed.getLsbD 0 = false := by
    simp [genCw]
  have hx : ∀ n : Node, (if n.ctrl then G b n.seed ^^^ (genCw G b n0 n1 vc).seed
      else G b n.seed).getLsbD 0 = (G b n.seed).getLsbD 0 := by
    intro n; split
    · rw [BitVec.getLsbD_xor, hs]; simp
    · rfl
  unfold step child
  dsimp only
  rw [hx, hx]
  cases b <;> cases h0 : n0.ctrl <;> cases h1 : n1.ctrl <;> simp_all [genCw]
  all_goals exact bool_xor_cancel _ _

/-- Next to the path of alpha the two nodes become equal. -/
theorem genCw_off (G : Bool → U128 → U128) (b : Bool) (n0 n1 : Node) (vc : List Value)
    (hc : n0.ctrl ≠ n1.ctrl) :
    step G (genCw G b n0 n1 vc) (!b) n0 = step G (genCw G b n0 n1 vc) (!b) n1 := by
  have hs : (genCw G b n0 n1 vc).seed.getLsbD 0 = false := by
    simp [genCw]
  have hcl : (genCw G b n0 n1 vc).seed &&& ~~~1#128 = (genCw G b n0 n1 vc).seed :=
    clear_clear_xor _ _
  have hx : ∀ n : Node, (if n.ctrl then G (!b) n.seed ^^^ (genCw G b n0 n1 vc).seed
      else G (!b) n.seed).getLsbD 0 = (G (!b) n.seed).getLsbD 0 := by
    intro n; split
    · rw [BitVec.getLsbD_xor, hs]; simp
    · rfl
  have hy : ∀ n : Node, (if n.ctrl then G (!b) n.seed ^^^ (genCw G b n0 n1 vc).seed
      else G (!b) n.seed) &&& ~~~1#128 =
      if n.ctrl then (G (!b) n.seed &&& ~~~1#128) ^^^ (genCw G b n0 n1 vc).seed
      else G (!b) n.seed &&& ~~~1#128 := by
    intro n; split
    · exact clear_xor _ _ hcl
    · rfl
  unfold step child
  dsimp only
  rw [hx, hx, hy, hy]
  have e1 : ∀ x y : U128, x ^^^ (x ^^^ y) = y := by
    intro x y; rw [← BitVec.xor_assoc]; simp
  have e2 : ∀ x y : U128, y ^^^ (x ^^^ y) = x := by
    intro x y; rw [BitVec.xor_comm x y, ← BitVec.xor_assoc]; simp
  cases b <;> cases h0 : n0.ctrl <;> cases h1 : n1.ctrl <;>
    simp_all [genCw]
  all_goals exact bool_xor_cancel _ _

variable {d : Dpf}

/-- State of key generation for given nodes. -/
def stOf (n0 n1 : Node) (cws : List CorrectionWord) : GenState :=
  ⟨(n0.seed, n1.seed), (n0.ctrl, n1.ctrl), cws, cws⟩

theorem valueCorrectionAt_cws (env : Env) (t : Nat) (alpha : U128) (beta : List Value)
    (n0 n1 : Node) (cws cws' : List CorrectionWord) :
    d.valueCorrectionAt env t alpha beta (stOf n0 n1 cws) =
      d.valueCorrectionAt env t alpha beta (stOf n0 n1 cws') := rfl

theorem WF.generateNext_eq (wf : d.WF) (env : Env) (alpha : U128) (beta : List Value)
    (n0 n1 : Node) (cws : List CorrectionWord) {t : Nat} (ht : t < d.logAt (d.n - 1)) :
    d.generateNext env alpha beta (stOf n0 n1 cws) (t + 1) =
      (d.valueCorrectionAt env (t + 1) alpha beta (stOf n0 n1 []) >>= fun vc =>
        let b := alpha.toNat.testBit (d.logAt (d.n - 1) - (t + 1))
        let cw := genCw (dpfPrg env) b n0 n1 vc
        ok (stOf (step (dpfPrg env) cw b n0) (step (dpfPrg env) cw b n1) (cws ++ [cw]))) := by
  unfold generateNext
  rw [valueCorrectionAt_cws env (t + 1) alpha beta n0 n1 cws []]
  cases d.valueCorrectionAt env (t + 1) alpha beta (stOf n0 n1 []) with
  | ok vc =>
    rw [bind_ok, bind_ok]
    dsimp only [stOf]
    rw [Aes128FixedKeyHash.evaluate_eq _ _ _ _ _ (by simp) (by simp), bind_ok,
      Aes128FixedKeyHash.evaluate_eq _ _ _ _ _ (by simp) (by simp), bind_ok]
    simp only [List.map_cons, List.map_nil]
    simp only [rd, List.getElem?_cons_zero, List.getElem?_cons_succ, bind_ok]
    rw [wf.lastLog_ok, bind_ok]
    have e : ((d.logAt (d.n - 1) : Int) - ((t + 1 : Nat) : Int)) =
        ((d.logAt (d.n - 1) - (t + 1) : Nat) : Int) := by omega
    rw [e, pathBit_eq, bind_ok]
    have eb : alpha.getLsbD (d.logAt (d.n - 1) - (t + 1)) =
        alpha.toNat.testBit (d.logAt (d.n - 1) - (t + 1)) := rfl
    rw [eb]
    generalize alpha.toNat.testBit (d.logAt (d.n - 1) - (t + 1)) = b
    simp only [lowestBit_eq]
    have hl : hash env kPrgKeyLeft = dpfPrg env false := rfl
    have hr : hash env kPrgKeyRight = dpfPrg env true := rfl
    rw [hl, hr]
    generalize dpfPrg env = G
    have hcw : (⟨if b then clearLowestBit (G false n0.seed) ^^^ clearLowestBit (G false n1.seed)
        else clearLowestBit (G true n0.seed) ^^^ clearLowestBit (G true n1.seed),
        (G false n0.seed).getLsbD 0 ^^ (G false n1.seed).getLsbD 0 ^^ b ^^ true,
        (G true n0.seed).getLsbD 0 ^^ (G true n1.seed).getLsbD 0 ^^ b, vc⟩ : CorrectionWord) =
        genCw G b n0 n1 vc := by
      cases b <;> rfl
    have hcl : (genCw G b n0 n1 vc).seed &&& ~~~1#128 = (genCw G b n0 n1 vc).seed :=
      clear_clear_xor _ _
    have hs : (genCw G b n0 n1 vc).seed.getLsbD 0 = false := by simp [genCw]
    rw [hcw]
    have key : ∀ n : Node, step G (genCw G b n0 n1 vc) b n =
        ⟨if n.ctrl then (G b n.seed &&& ~~~1#128) ^^^ (genCw G b n0 n1 vc).seed
          else G b n.seed &&& ~~~1#128,
         (G b n.seed).getLsbD 0 ^^ (n.ctrl && (if b then (genCw G b n0 n1 vc).controlRight
            else (genCw G b n0 n1 vc).controlLeft))⟩ := by
      intro n
      unfold step child
      dsimp only
      cases n.ctrl with
      | true =>
        simp only [if_true]
        rw [clear_xor _ _ hcl, BitVec.getLsbD_xor, hs]; simp
      | false => rfl
    rw [key, key]
    cases b <;> rfl
  | err c => rfl
  | ub => rfl
  | crash => rfl

/-- Invariant of the loop of key generation after `t` levels. -/
structure GenInv (d : Dpf) (env : Env) (alpha : U128) (beta : List Value) (r0 r1 : Node) (t : Nat)
    (st : GenState) : Prop where
  cws : st.cws0 = st.cws1
  len : st.cws0.length = t
  node0 : walk (dpfPrg env) st.cws0 (alpha.toNat / 2 ^ (d.logAt (d.n - 1) - t)) r0 =
    ⟨st.seeds.1, st.control.1⟩
  node1 : walk (dpfPrg env) st.cws0 (alpha.toNat / 2 ^ (d.logAt (d.n - 1) - t)) r1 =
    ⟨st.seeds.2, st.control.2⟩
  /-- On the path of alpha control bits differ at every depth. -/
  on : ∀ j, j ≤ t →
    (walk (dpfPrg env) (st.cws0.take j) (alpha.toNat / 2 ^ (d.logAt (d.n - 1) - j)) r0).ctrl ≠
    (walk (dpfPrg env) (st.cws0.take j) (alpha.toNat / 2 ^ (d.logAt (d.n - 1) - j)) r1).ctrl
  /-- Off the path of alpha the nodes are equal at every depth. -/
  off : ∀ j, j ≤ t → ∀ y, y < 2 ^ j → y ≠ alpha.toNat / 2 ^ (d.logAt (d.n - 1) - j) →
    walk (dpfPrg env) (st.cws0.take j) y r0 = walk (dpfPrg env) (st.cws0.take j) y r1
  /-- Value corrections are computed from the nodes on the path. -/
  vc : ∀ j cw, st.cws0[j]? = some cw → d.valueCorrectionAt env (j + 1) alpha beta
    (stOf (walk (dpfPrg env) (st.cws0.take j) (alpha.toNat / 2 ^ (d.logAt (d.n - 1) - j)) r0)
      (walk (dpfPrg env) (st.cws0.take j) (alpha.toNat / 2 ^ (d.logAt (d.n - 1) - j)) r1) []) =
    ok cw.valueCorrection
  /-- Correction words are computed from the nodes on the path. -/
  gen : ∀ j cw, st.cws0[j]? = some cw → cw = genCw (dpfPrg env)
    (alpha.toNat.testBit (d.logAt (d.n - 1) - (j + 1)))
    (walk (dpfPrg env) (st.cws0.take j) (alpha.toNat / 2 ^ (d.logAt (d.n - 1) - j)) r0)
    (walk (dpfPrg env) (st.cws0.take j) (alpha.toNat / 2 ^ (d.logAt (d.n - 1) - j)) r1) cw.valueCorrection

theorem GenInv.stOf_eq {env : Env} {alpha : U128} {beta : List Value} {r0 r1 : Node} {t : Nat}
    {st : GenState} (inv : GenInv d env alpha beta r0 r1 t st) :
    st = stOf (walk (dpfPrg env) st.cws0 (alpha.toNat / 2 ^ (d.logAt (d.n - 1) - t)) r0)
      (walk (dpfPrg env) st.cws0 (alpha.toNat / 2 ^ (d.logAt (d.n - 1) - t)) r1) st.cws0 := by
  rw [inv.node0, inv.node1]
  have := inv.cws
  obtain ⟨s, c, w0, w1⟩ := st
  simp only at this
  subst this
  rfl

theorem genInv_init (d : Dpf) (env : Env) (alpha : U128) (beta : List Value) (s0 s1 : U128)
    (ha : alpha.toNat < 2 ^ d.logAt (d.n - 1)) :
    GenInv d env alpha beta ⟨s0, false⟩ ⟨s1, true⟩ 0 ⟨(s0, s1), (false, true), [], []⟩ := by
  refine ⟨rfl, rfl, rfl, rfl, ?_, ?_, ?_, by intro j cw h; simp at h⟩
  · intro j hj
    have : j = 0 := by omega
    subst this; simp [walk]
  · intro j hj y hy hne
    have : j = 0 := by omega
    subst this
    rw [Nat.sub_zero, Nat.div_eq_of_lt ha] at hne
    simp at hy; omega
  · intro j cw h; simp at h

theorem div_pow_succ {a m t : Nat} (h : t < m) :
    a / 2 ^ (m - (t + 1)) / 2 = a / 2 ^ (m - t) ∧
    a / 2 ^ (m - (t + 1)) % 2 = (a.testBit (m - (t + 1))).toNat := by
  constructor
  · rw [Nat.div_div_eq_div_mul, ← Nat.pow_succ]; congr 2; omega
  · rw [Nat.testBit_eq_decide_div_mod_eq]
    have : a / 2 ^ (m - (t + 1)) % 2 < 2 := Nat.mod_lt _ (by decide)
    by_cases h1 : a / 2 ^ (m - (t + 1)) % 2 = 1
    · simp [h1]
    · have h0 : a / 2 ^ (m - (t + 1)) % 2 = 0 := by omega
      simp [h0]

/-- One level of key generation keeps the invariant. -/
theorem WF.genInv_step (wf : d.WF) {env : Env} {alpha : U128} {beta : List Value} {r0 r1 : Node}
    {t : Nat} {st : GenState} (inv : GenInv d env alpha beta r0 r1 t st)
    (ht : t < d.logAt (d.n - 1)) {vc : List Value}
    (hvc : d.valueCorrectionAt env (t + 1) alpha beta (stOf
      (walk (dpfPrg env) st.cws0 (alpha.toNat / 2 ^ (d.logAt (d.n - 1) - t)) r0)
      (walk (dpfPrg env) st.cws0 (alpha.toNat / 2 ^ (d.logAt (d.n - 1) - t)) r1) []) = ok vc) :
    ∃ st', d.generateNext env alpha beta st (t + 1) = ok st' ∧
      GenInv d env alpha beta r0 r1 (t + 1) st' := by
  have hst := inv.stOf_eq
  have hgen := wf.generateNext_eq env alpha beta
    (walk (dpfPrg env) st.cws0 (alpha.toNat / 2 ^ (d.logAt (d.n - 1) - t)) r0)
    (walk (dpfPrg env) st.cws0 (alpha.toNat / 2 ^ (d.logAt (d.n - 1) - t)) r1) st.cws0 ht
  rw [hvc, bind_ok, ← hst] at hgen
  have hon := inv.on t (Nat.le_refl _)
  have hfull : st.cws0.take t = st.cws0 := List.take_of_length_le (by rw [inv.len]; omega)
  rw [hfull] at hon
  obtain ⟨hdiv, hmod⟩ := div_pow_succ (a := alpha.toNat) ht
  have hbit : (alpha.toNat / 2 ^ (d.logAt (d.n - 1) - (t + 1))).testBit 0 =
      alpha.toNat.testBit (d.logAt (d.n - 1) - (t + 1)) := by
    rw [Nat.testBit_div_two_pow]; simp
  dsimp only at hgen
  generalize hb : alpha.toNat.testBit (d.logAt (d.n - 1) - (t + 1)) = b at hgen hmod hbit
  generalize hn0 : walk (dpfPrg env) st.cws0 (alpha.toNat / 2 ^ (d.logAt (d.n - 1) - t)) r0 = n0
    at hgen hon hvc
  generalize hn1 : walk (dpfPrg env) st.cws0 (alpha.toNat / 2 ^ (d.logAt (d.n - 1) - t)) r1 = n1
    at hgen hon hvc
  have hw : ∀ r y, walk (dpfPrg env) (st.cws0 ++ [genCw (dpfPrg env) b n0 n1 vc]) y r =
      step (dpfPrg env) (genCw (dpfPrg env) b n0 n1 vc) (y.testBit 0)
        (walk (dpfPrg env) st.cws0 (y / 2) r) := by
    intro r y; rw [walk_snoc, Nat.shiftRight_eq_div_pow, Nat.pow_one]
  have hlen := inv.len
  have htk : ∀ j, j ≤ t → (st.cws0 ++ [genCw (dpfPrg env) b n0 n1 vc]).take j = st.cws0.take j := by
    intro j hj; rw [List.take_append_of_le_length (by omega)]
  have htk1 : (st.cws0 ++ [genCw (dpfPrg env) b n0 n1 vc]).take (t + 1) =
      st.cws0 ++ [genCw (dpfPrg env) b n0 n1 vc] := List.take_of_length_le (by simp; omega)
  refine ⟨_, hgen, rfl, by simp [stOf, hlen], ?_, ?_, ?_, ?_, ?_, ?_⟩
  · dsimp only [stOf]
    rw [hw, hbit, hdiv, hn0]
  · dsimp only [stOf]
    rw [hw, hbit, hdiv, hn1]
  · intro j hj
    dsimp only [stOf]
    rcases Nat.lt_or_ge t j with h | h
    · have : j = t + 1 := by omega
      subst this
      rw [htk1, hw, hw, hbit, hdiv, hn0, hn1]
      exact genCw_on _ _ _ _ _ hon
    · rw [htk j h]; exact inv.on j h
  · intro j hj y hy hne
    dsimp only [stOf]
    rcases Nat.lt_or_ge t j with h | h
    · have : j = t + 1 := by omega
      subst this
      rw [htk1, hw, hw]
      by_cases hp : y / 2 = alpha.toNat / 2 ^ (d.logAt (d.n - 1) - t)
      · rw [hp, hn0, hn1]
        have hyb : y.testBit 0 = !b := by
          have h1 : y % 2 ≠ b.toNat := by
            intro h1
            apply hne
            have e1 := Nat.div_add_mod y 2
            have e2 := Nat.div_add_mod (alpha.toNat / 2 ^ (d.logAt (d.n - 1) - (t + 1))) 2
            rw [hdiv, hmod] at e2
            omega
          rw [Nat.testBit_zero]
          have : y % 2 < 2 := Nat.mod_lt _ (by decide)
          cases b <;> simp at h1 ⊢ <;> omega
        rw [hyb]
        exact genCw_off _ _ _ _ _ hon
      · have := inv.off t (Nat.le_refl _) (y / 2) (by rw [Nat.pow_succ] at hy; omega) hp
        rw [hfull] at this
        rw [this]
    · rw [htk j h]; exact inv.off j h y hy hne
  · intro j cw hcw
    dsimp only [stOf] at hcw ⊢
    rcases Nat.lt_or_ge j t with h | h
    · rw [List.getElem?_append_left (by omega)] at hcw
      rw [htk j (by omega)]
      exact inv.vc j cw hcw
    · have hjt : j = t := by
        have := (List.getElem?_eq_some_iff.mp hcw).1
        simp at this; omega
      subst hjt
      rw [List.getElem?_append_right (by omega), hlen] at hcw
      simp only [Nat.sub_self, List.getElem?_cons_zero, Option.some.injEq] at hcw
      subst hcw
      rw [htk j (Nat.le_refl _), hfull, hn0, hn1]
      exact hvc
  · intro j cw hcw
    dsimp only [stOf] at hcw ⊢
    rcases Nat.lt_or_ge j t with h | h
    · rw [List.getElem?_append_left (by omega)] at hcw
      rw [htk j (by omega)]
      exact inv.gen j cw hcw
    · have hjt : j = t := by
        have := (List.getElem?_eq_some_iff.mp hcw).1
        simp at this; omega
      subst hjt
      rw [List.getElem?_append_right (by omega), hlen] at hcw
      simp only [Nat.sub_self, List.getElem?_cons_zero, Option.some.injEq] at hcw
      subst hcw
      rw [htk j (Nat.le_refl _), hfull, hn0, hn1, hb]
      rfl

/-- The correction of the elements of one block. -/
def corrList (env : Env) (T : Ty) (k : Nat) (n0 n1 : Node) (idx : Nat) (b : T.den) : List T.den :=
  let A := blockElems env T k n0.seed
  let B := blockElems env T k n1.seed
  List.zipWith (fun b a => if n1.ctrl then T.helper.neg (T.helper.sub b a) else T.helper.sub b a)
    (B.set idx (T.helper.add (B.getD idx T.helper.zero) b)) A

theorem corrList_length (env : Env) {T : Ty} {k : Nat} (hf : T.bytesRead ≤ 16 * k) (n0 n1 : Node)
    (idx : Nat) (b : T.den) : (corrList env T k n0 n1 idx b).length = T.helper.elementsPerBlock := by
  have h0 := (blockElems_ok env hf n0.seed).2
  have h1 := (blockElems_ok env hf n1.seed).2
  simp [corrList, h0, h1]

theorem WF.computeValueCorrection_ok (wf : d.WF) (env : Env) {h : Nat} (hh : h < d.n) {T : Ty}
    (ht : d.TypedAt h T) (hr : d.Registered T) (n0 n1 : Node) (a : U128) {beta : Value} {b : T.den}
    (hb : T.helper.fromValue beta = ok b) :
    d.computeValueCorrection env h (n0.seed, n1.seed) a beta n1.ctrl =
      ok ((corrList env T (d.blocksAt h) n0 n1 (a.toNat % 2 ^ d.gapAt h) b).map T.helper.toValue) := by
  unfold computeValueCorrection
  rw [wf.blocks_ok hh, bind_ok]
  obtain ⟨p, hp, hp'⟩ := wf.param_ok hh
  dsimp only
  rw [Aes128FixedKeyHash.evaluate_eq _ _ _ _ _ rfl (fun _ => rfl), bind_ok,
    wf.domainToBlockIndex_ok hh, bind_ok, hp, bind_ok]
  unfold getValueCorrectionFunction
  rw [ht.vt p hp', hr, bind_ok, List.map_append]
  have l0 : ((iota n0.seed (d.blocksAt h)).map (hash env kPrgKeyValue)).length = d.blocksAt h := by
    simp [iota_length]
  rw [List.take_append_of_le_length (by omega), List.take_of_length_le (by omega),
    List.drop_append_of_le_length (by omega), List.drop_of_length_le (by omega), List.nil_append]
  have h0 := blockElems_ok env ht.fits n0.seed
  have h1 := blockElems_ok env ht.fits n1.seed
  unfold Helper.computeValueCorrectionFor
  rw [hb, bind_ok]
  show ((T.helper.convertBytesToArrayOf (seedBytes env _ _)) >>= _) = _
  rw [h0.1, bind_ok]
  show ((T.helper.convertBytesToArrayOf (seedBytes env _ _)) >>= _) = _
  rw [h1.1, bind_ok, rd_getD (by rw [h1.2]; exact ht.mod_lt _) T.helper.zero, bind_ok]
  rfl

theorem WF.alphaPrefix_ok (wf : d.WF) {h : Nat} (hh : h < d.n) (alpha : U128) :
    ∃ x : U128, (if (d.logAt (d.n - 1) : Int) - (d.logAt h : Int) < 128 then
        shr128 alpha ((d.logAt (d.n - 1) : Int) - (d.logAt h : Int)) else ok 0) = ok x ∧
      x.toNat = alpha.toNat / 2 ^ (d.logAt (d.n - 1) - d.logAt h) := by
  have h1 : d.logAt h ≤ d.logAt (d.n - 1) := by
    rcases Nat.lt_or_ge h (d.n - 1) with h1 | h1
    · exact Nat.le_of_lt (wf.log_asc h (d.n - 1) h1 (by omega))
    · have : h = d.n - 1 := by omega
      rw [this]; omega
  have h2 := wf.log_le (d.n - 1)
  have e : (d.logAt (d.n - 1) : Int) - (d.logAt h : Int) =
    ((d.logAt (d.n - 1) - d.logAt h : Nat) : Int) := by omega
  rw [e]
  split
  · rename_i hlt
    rw [shr128_ok (by omega)]
    exact ⟨_, rfl, shr_toNat _ _⟩
  · refine ⟨0, rfl, ?_⟩
    have : d.logAt (d.n - 1) - d.logAt h = 128 := by omega
    rw [this, Nat.div_eq_of_lt alpha.isLt]; rfl

/-- Index of alpha inside its block at level `h`. -/
def alphaIndex (d : Dpf) (alpha : U128) (h : Nat) : Nat :=
  alpha.toNat / 2 ^ (d.logAt (d.n - 1) - d.logAt h) % 2 ^ d.gapAt h

/-- Everything key generation needs about the betas. -/
structure BetasOk (d : Dpf) (T : Nat → Ty) (beta : List Value) (b : (h : Nat) → (T h).den) :
    Prop where
  typed : ∀ h, h < d.n → d.TypedAt h (T h)
  reg : ∀ h, h < d.n → d.Registered (T h)
  len : beta.length = d.n
  dec : ∀ h v, beta[h]? = some v → (T h).helper.fromValue v = ok (b h)
  val : ∀ h v, beta[h]? = some v → validateValue (T h).helper.toValueType v = ok ()

theorem WF.valueCorrectionAt_ok (wf : d.WF) (env : Env) {T : Nat → Ty} {beta : List Value}
    {b : (h : Nat) → (T h).den} (hb : BetasOk d T beta b) (alpha : U128) (t : Nat) (n0 n1 : Node) :
    ∃ vc, d.valueCorrectionAt env (t + 1) alpha beta (stOf n0 n1 []) = ok vc ∧
      (∀ h, h < d.n → d.treeAt h = t → vc = (corrList env (T h) (d.blocksAt h) n0 n1
        (d.alphaIndex alpha h) (b h)).map (T h).helper.toValue) ∧
      ((∀ h, h < d.n → d.treeAt h ≠ t) → vc = []) := by
  unfold valueCorrectionAt
  rw [Nat.add_sub_cancel]
  cases hl : d.pv.treeToHierarchy.lookup t with
  | some h =>
    obtain ⟨hh, htree⟩ := (wf.lookup t h).mp hl
    obtain ⟨p, hp, hp'⟩ := wf.param_ok hh
    dsimp only
    rw [hp, bind_ok, wf.lastLog_ok, bind_ok, wf.log_eq h p hp']
    obtain ⟨x, hx, hxn⟩ := wf.alphaPrefix_ok hh alpha
    have hlt : h < beta.length := by rw [hb.len]; exact hh
    have hdec := hb.dec h _ (List.getElem?_eq_getElem hlt)
    have hc := wf.computeValueCorrection_ok env hh (hb.typed h hh) (hb.reg h hh) n0 n1 x hdec
    refine ⟨(corrList env (T h) (d.blocksAt h) n0 n1 (x.toNat % 2 ^ d.gapAt h) (b h)).map
      (T h).helper.toValue, ?_, ?_, ?_⟩
    · split at hx
      · rename_i hc'
        rw [if_pos hc', hx, bind_ok, rd_lt hlt, bind_ok]; exact hc
      · rename_i hc'
        simp only [ok.injEq] at hx
        subst hx
        rw [if_neg hc', bind_ok, rd_lt hlt, bind_ok]; exact hc
    · intro h' hh' ht'
      have : h' = h := by
        have := (wf.lookup t h').mpr ⟨hh', ht'⟩
        rw [hl] at this; simpa using this.symm
      subst this
      rw [alphaIndex, hxn]
    · intro hne; exact absurd htree (hne h hh)
  | none =>
    refine ⟨[], rfl, ?_, fun _ => rfl⟩
    intro h hh ht
    have := (wf.lookup t h).mpr ⟨hh, ht⟩
    rw [hl] at this; simp at this

/-- What the two generated keys satisfy. -/
structure GenOk (d : Dpf) (env : Env) (alpha : U128) (T : Nat → Ty) (b : (h : Nat) → (T h).den)
    (seed0 seed1 : U128) (k0 k1 : DpfKey) : Prop where
  seed0 : k0.seed = some seed0
  seed1 : k1.seed = some seed1
  party0 : k0.party = 0
  party1 : k1.party = 1
  cws : k1.correctionWords = k0.correctionWords
  last : k1.lastLevelValueCorrection = k0.lastLevelValueCorrection
  len : k0.correctionWords.length + 1 = d.pv.treeLevelsNeeded
  on : ∀ t, t < d.pv.treeLevelsNeeded →
    (nodeAt env k0 t (alpha.toNat / 2 ^ (d.logAt (d.n - 1) - t))).ctrl ≠
    (nodeAt env k1 t (alpha.toNat / 2 ^ (d.logAt (d.n - 1) - t))).ctrl
  off : ∀ t, t < d.pv.treeLevelsNeeded → ∀ y, y < 2 ^ t →
    y ≠ alpha.toNat / 2 ^ (d.logAt (d.n - 1) - t) → nodeAt env k0 t y = nodeAt env k1 t y
  vc : ∀ h, h < d.n → d.valueCorrectionOf k0 h =
    ok ((corrList env (T h) (d.blocksAt h)
      (nodeAt env k0 (d.treeAt h) (alpha.toNat / 2 ^ (d.logAt (d.n - 1) - d.treeAt h)))
      (nodeAt env k1 (d.treeAt h) (alpha.toNat / 2 ^ (d.logAt (d.n - 1) - d.treeAt h)))
      (d.alphaIndex alpha h) (b h)).map (T h).helper.toValue)
  novc : ∀ t cw, k0.correctionWords[t]? = some cw → (∀ h, h < d.n → d.treeAt h ≠ t) →
    cw.valueCorrection = []
  gen : ∀ t cw, k0.correctionWords[t]? = some cw → cw = genCw (dpfPrg env)
    (alpha.toNat.testBit (d.logAt (d.n - 1) - (t + 1)))
    (nodeAt env k0 t (alpha.toNat / 2 ^ (d.logAt (d.n - 1) - t)))
    (nodeAt env k1 t (alpha.toNat / 2 ^ (d.logAt (d.n - 1) - t))) cw.valueCorrection

theorem WF.checkKeyGenArgs_ok (wf : d.WF) {alpha : U128} {beta : List Value}
    (ha : alpha.toNat < 2 ^ d.logAt (d.n - 1)) (hl : beta.length = d.n)
    (hv : ∀ (h : Nat) (p : DpfParameters) (v : Value), d.pv.parameters[h]? = some p → beta[h]? = some v →
      validateValue p.vt v = ok ()) :
    d.checkKeyGenArgs alpha beta = ok () := by
  unfold checkKeyGenArgs
  rw [failIf_false (by unfold n at hl; omega), bind_ok]
  have hm : ∃ us, mapRes (fun i => rd beta i >>= fun v => d.validateBeta i v)
      (List.range d.pv.parameters.length) = ok us := by
    rw [mapRes_unit_eq_ok]
    intro i hi
    simp only [List.mem_range] at hi
    obtain ⟨p, hp, hp'⟩ := wf.param_ok (h := i) hi
    have hlt : i < beta.length := by rw [hl]; exact hi
    rw [rd_lt hlt, bind_ok, validateBeta, hp, bind_ok]
    exact hv i p _ hp' (List.getElem?_eq_getElem hlt)
  obtain ⟨us, hus⟩ := hm
  rw [hus, bind_ok, wf.lastLog_ok, bind_ok]
  have := wf.log_le (d.n - 1)
  split
  · rename_i hlt
    rw [shl128_ok (by omega), bind_ok, failIf_false]
    show ¬ (_ ≤ alpha)
    rw [BitVec.le_def, BitVec.toNat_shiftLeft, Nat.shiftLeft_eq]
    have h1 : 2 ^ d.logAt (d.n - 1) < 2 ^ 128 := Nat.pow_lt_pow_right (by decide) (by omega)
    show ¬ (1 % 2 ^ 128 * 2 ^ d.logAt (d.n - 1) % 2 ^ 128 ≤ alpha.toNat)
    rw [Nat.mod_eq_of_lt (by decide : 1 < 2 ^ 128), Nat.one_mul, Nat.mod_eq_of_lt h1]
    omega
  · rfl

/-- Key generation succeeds on valid arguments. -/
theorem WF.generateKeys_ok (wf : d.WF) (env : Env) {T : Nat → Ty} {beta : List Value}
    {b : (h : Nat) → (T h).den} (hb : BetasOk d T beta b) {alpha : U128}
    (ha : alpha.toNat < 2 ^ d.logAt (d.n - 1)) (seed0 seed1 : U128) :
    ∃ k0 k1, d.generateKeysIncremental env alpha beta seed0 seed1 = ok (k0, k1) ∧
      GenOk d env alpha T b seed0 seed1 k0 k1 := by
  have hpos := wf.pos
  have hneed := wf.needed
  have htl := wf.tree_le (d.n - 1)
  obtain ⟨st, hst, inv⟩ := foldRes_range_inv
    (f := fun s i => d.generateNext env alpha beta s (i + 1))
    (fun i s => GenInv d env alpha beta ⟨seed0, false⟩ ⟨seed1, true⟩ i s)
    (n := d.pv.treeLevelsNeeded - 1) (genInv_init d env alpha beta seed0 seed1 ha)
    (by
      intro i s hi hs
      obtain ⟨vc, hvc, _⟩ := wf.valueCorrectionAt_ok env hb alpha i
        (walk (dpfPrg env) s.cws0 (alpha.toNat / 2 ^ (d.logAt (d.n - 1) - i)) ⟨seed0, false⟩)
        (walk (dpfPrg env) s.cws0 (alpha.toNat / 2 ^ (d.logAt (d.n - 1) - i)) ⟨seed1, true⟩)
      exact wf.genInv_step hs (by omega) hvc)
  unfold generateKeysIncremental
  rw [wf.checkKeyGenArgs_ok ha hb.len (by
    intro h p v hp hv
    have hlt : h < d.n := (List.getElem?_eq_some_iff.mp hp).1
    rw [(hb.typed h hlt).vt p hp]
    exact hb.val h v hv), bind_ok, foldRes_map, hst, bind_ok]
  have hlt : beta.length - 1 < beta.length := by rw [hb.len]; omega
  dsimp only
  rw [rd_lt hlt, bind_ok]
  have hn : d.pv.parameters.length - 1 < d.n := by unfold n; unfold n at hpos; omega
  have hdec := hb.dec (d.pv.parameters.length - 1) (beta[beta.length - 1]) (by
    have := hb.len
    unfold n at this
    rw [← this, List.getElem?_eq_getElem])
  have hnode0 := inv.node0
  have hnode1 := inv.node1
  have hcv := wf.computeValueCorrection_ok env hn (hb.typed _ hn) (hb.reg _ hn)
    ⟨st.seeds.1, st.control.1⟩ ⟨st.seeds.2, st.control.2⟩ alpha hdec
  rw [show ((⟨st.seeds.1, st.control.1⟩ : Node).seed, (⟨st.seeds.2, st.control.2⟩ : Node).seed) =
    st.seeds from rfl] at hcv
  dsimp only at hcv
  rw [hcv, bind_ok]
  refine ⟨_, _, rfl, ?_⟩
  have hlen := inv.len
  refine ⟨rfl, rfl, rfl, rfl, inv.cws.symm, rfl, by dsimp only; omega, ?_, ?_, ?_, ?_, ?_⟩
  · intro t ht
    have := inv.on t (by omega)
    simp only [nodeAt, root, DpfKey.seedBlock, ← inv.cws]
    exact this
  · intro t ht y hy hne
    have := inv.off t (by omega) y hy hne
    simp only [nodeAt, root, DpfKey.seedBlock, ← inv.cws]
    exact this
  · intro h hh
    unfold valueCorrectionOf
    by_cases hlast : (h : Int) < (d.pv.parameters.length : Int) - 1
    · rw [if_pos hlast, wf.tree_ok hh, bind_ok]
      have hh' : h + 1 < d.n := by unfold n; omega
      have hlt : d.treeAt h < st.cws0.length := by
        have := wf.tree_lt_needed' hh'; omega
      dsimp only
      rw [rd_lt hlt, bind_ok]
      have hvc := inv.vc (d.treeAt h) _ (List.getElem?_eq_getElem hlt)
      obtain ⟨vc, e1, e2, _⟩ := wf.valueCorrectionAt_ok env hb alpha (d.treeAt h)
        (walk (dpfPrg env) (st.cws0.take (d.treeAt h))
          (alpha.toNat / 2 ^ (d.logAt (d.n - 1) - d.treeAt h)) ⟨seed0, false⟩)
        (walk (dpfPrg env) (st.cws0.take (d.treeAt h))
          (alpha.toNat / 2 ^ (d.logAt (d.n - 1) - d.treeAt h)) ⟨seed1, true⟩)
      rw [e1] at hvc
      simp only [ok.injEq] at hvc
      rw [← hvc, e2 h hh rfl]
      simp only [nodeAt, root, DpfKey.seedBlock, ← inv.cws]
      rfl
    · rw [if_neg hlast]
      have : h = d.pv.parameters.length - 1 := by unfold n at hh; omega
      subst this
      have hn1 : d.pv.parameters.length - 1 = d.n - 1 := rfl
      have ht1 : d.treeAt (d.pv.parameters.length - 1) = st.cws0.length := by
        rw [hn1]; omega
      dsimp only
      simp only [nodeAt, root, DpfKey.seedBlock, ← inv.cws]
      rw [ht1, List.take_of_length_le (Nat.le_refl _), hlen]
      have c0 : walk (dpfPrg env) st.cws0
          (alpha.toNat / 2 ^ (d.logAt (d.n - 1) - (d.pv.treeLevelsNeeded - 1)))
          ⟨seed0, false⟩ = ⟨st.seeds.1, st.control.1⟩ := hnode0
      have c1 : walk (dpfPrg env) st.cws0
          (alpha.toNat / 2 ^ (d.logAt (d.n - 1) - (d.pv.treeLevelsNeeded - 1)))
          ⟨seed1, true⟩ = ⟨st.seeds.2, st.control.2⟩ := hnode1
      show _ = ok (List.map _ (corrList env _ _
        (walk (dpfPrg env) st.cws0 _ ⟨seed0, false⟩) (walk (dpfPrg env) st.cws0 _ ⟨seed1, true⟩) _ _))
      rw [c0, c1]
      have : d.alphaIndex alpha (d.pv.parameters.length - 1) =
          alpha.toNat % 2 ^ d.gapAt (d.pv.parameters.length - 1) := by
        rw [alphaIndex, hn1]; simp
      rw [this]
  · intro t cw hcw hne
    have hvc := inv.vc t cw hcw
    obtain ⟨vc, e1, _, e3⟩ := wf.valueCorrectionAt_ok env hb alpha t
        (walk (dpfPrg env) (st.cws0.take t)
          (alpha.toNat / 2 ^ (d.logAt (d.n - 1) - t)) ⟨seed0, false⟩)
        (walk (dpfPrg env) (st.cws0.take t)
          (alpha.toNat / 2 ^ (d.logAt (d.n - 1) - t)) ⟨seed1, true⟩)
    rw [e1] at hvc
    simp only [ok.injEq] at hvc
    rw [← hvc, e3 hne]
  · intro t cw hcw
    simp only [nodeAt, root, DpfKey.seedBlock, ← inv.cws]
    exact inv.gen t cw hcw

end Dpf
end Verif
