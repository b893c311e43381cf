import Verif.Lemmas.SyntheticData
import Verif.Props.Accept
import Verif.Props.PointFunction
import Verif.Props.Evaluation
import Verif.Props.KeyGenOverloads
/-! Lemmas for C75: evaluation of all levels. -/
namespace Verif
open Res Spec SyntheticData

/-- The type of all levels. -/
abbrev T32 : Nat → Ty := fun _ => .uint .w32

/-- The parameters for levels given as natural numbers. -/
abbrev levelParams (levels : List Nat) : List DpfParameters := parameters (levels.map Int.ofNat)

theorem levelParams_get (levels : List Nat) (h : Nat) :
    (levelParams levels)[h]? = levels[h]?.map fun l => ⟨(l : Int), some (.integer 32), .val 0⟩ := by
  simp only [levelParams, parameters, List.getElem?_map]
  cases levels[h]? <;> rfl

theorem levelParams_length (levels : List Nat) : (levelParams levels).length = levels.length := by
  simp [parameters]

theorem logSize_levels {levels : List Nat} {h a : Nat} (e : levels[h]? = some a) : logSize (levelParams levels) h = a := by
  unfold logSize
  rw [levelParams_get, e]
  simp

theorem lastLogSize_levels {L : Nat} {levels : List Nat} (g : LevelsUpTo L levels) :
    lastLogSize (levelParams levels) = L := by
  unfold lastLogSize
  rw [levelParams_length]
  exact logSize_levels (by rw [← List.getLast?_eq_getElem?]; exact g.last)

theorem Spec.LevelsUpTo.ne {L : Nat} {levels : List Nat} (g : LevelsUpTo L levels) : levels ≠ [] := by
  intro h; have := g.last; rw [h] at this; simp at this

theorem Spec.LevelsUpTo.le {L : Nat} {levels : List Nat} (g : LevelsUpTo L levels) {a : Nat} (h : a ∈ levels) : a ≤ L := by
  obtain ⟨l, rfl⟩ := List.getLast?_eq_some_iff.mp g.last
  have := List.pairwise_append.mp g.ascending
  rcases List.mem_append.mp h with h | h
  · exact Nat.le_of_lt (this.2.2 a h L (by simp))
  · simp at h; omega

theorem levelParams_valid {L : Nat} {levels : List Nat} (g : LevelsUpTo L levels) : ValidParams (levelParams levels) := by
  have hm : ∀ p ∈ levelParams levels, ∃ a ∈ levels, p = ⟨(a : Int), some (.integer 32), .val 0⟩ := by
    intro p hp
    simp only [levelParams, parameters, List.map_map, List.mem_map] at hp
    obtain ⟨a, ha, rfl⟩ := hp
    exact ⟨a, ha, rfl⟩
  refine ⟨?_, ?_, ?_, ?_, ?_⟩
  · intro h
    have := levelParams_length levels
    rw [h] at this
    exact g.ne (List.length_eq_zero_iff.mp this.symm)
  · intro p hp
    obtain ⟨a, ha, rfl⟩ := hm p hp
    have := g.le ha
    have := g.bits
    constructor
    · dsimp only; omega
    · dsimp only; omega
  · simp only [levelParams, parameters, List.map_map]
    rw [List.pairwise_map]
    exact g.ascending.imp fun h => by dsimp; omega
  · intro p hp
    obtain ⟨a, ha, rfl⟩ := hm p hp
    exact ⟨_, rfl, (by simp [ValidBits] : ValidBits 32)⟩
  · intro p hp
    obtain ⟨a, ha, rfl⟩ := hm p hp
    exact ⟨0, rfl, by decide, by decide⟩

theorem mem_extensions {params : List DpfParameters} {prev h : Nat} {x y : U128} {a b : Nat}
    (ha : logSize params prev = a) (hb : logSize params h = b) (hab : a ≤ b) (hb' : b ≤ 128) (hx : x.toNat < 2 ^ a) :
    y ∈ extensions params prev h x ↔ y.toNat / 2 ^ (b - a) = x.toNat := by
  have hlt : ∀ k, k < 2 ^ (b - a) → x.toNat * 2 ^ (b - a) + k < 2 ^ 128 := by
    intro k hk
    have h1 : (x.toNat + 1) * 2 ^ (b - a) ≤ 2 ^ a * 2 ^ (b - a) := Nat.mul_le_mul_right _ hx
    rw [← Nat.pow_add, show a + (b - a) = b by omega, Nat.add_mul] at h1
    have h2 : 2 ^ b ≤ 2 ^ 128 := Nat.pow_le_pow_right (by omega) hb'
    omega
  have hpos : 0 < 2 ^ (b - a) := Nat.two_pow_pos _
  simp only [extensions, ha, hb, List.mem_map, List.mem_range]
  constructor
  · rintro ⟨k, hk, rfl⟩
    rw [BitVec.toNat_ofNat, Nat.mod_eq_of_lt (hlt k hk), Nat.add_comm, Nat.add_mul_div_right _ _ hpos,
      Nat.div_eq_of_lt hk, Nat.zero_add]
  · intro h
    refine ⟨y.toNat % 2 ^ (b - a), Nat.mod_lt _ hpos, ?_⟩
    apply BitVec.eq_of_toNat_eq
    rw [BitVec.toNat_ofNat, ← h, Nat.div_add_mod', Nat.mod_eq_of_lt y.isLt]

theorem extensions_sorted {params : List DpfParameters} {prev h : Nat} {x : U128} {a b : Nat}
    (ha : logSize params prev = a) (hb : logSize params h = b) (hab : a ≤ b) (hb' : b ≤ 128) (hx : x.toNat < 2 ^ a) :
    (extensions params prev h x).Pairwise (· < ·) := by
  have hlt : ∀ k, k < 2 ^ (b - a) → x.toNat * 2 ^ (b - a) + k < 2 ^ 128 := by
    intro k hk
    have h1 : (x.toNat + 1) * 2 ^ (b - a) ≤ 2 ^ a * 2 ^ (b - a) := Nat.mul_le_mul_right _ hx
    rw [← Nat.pow_add, show a + (b - a) = b by omega, Nat.add_mul] at h1
    have h2 : 2 ^ b ≤ 2 ^ 128 := Nat.pow_le_pow_right (by omega) hb'
    omega
  simp only [extensions, ha, hb]
  rw [List.pairwise_map]
  refine List.Pairwise.imp_of_mem ?_ List.pairwise_lt_range
  intro i j hi hj hij
  rw [List.mem_range] at hi hj
  rw [BitVec.lt_def, BitVec.toNat_ofNat, BitVec.toNat_ofNat, Nat.mod_eq_of_lt (hlt i hi), Nat.mod_eq_of_lt (hlt j hj)]
  omega

/-- What the loop evaluates. -/
theorem outputPoints_evaluated {L : Nat} {xs : List U128} {levels : List Nat} (g : GoodLevels L levels)
    (hs : xs.Pairwise (· < ·)) (hx : ∀ x ∈ xs, x.toNat < 2 ^ L) :
    (∀ b, levels[0]? = some b → Evaluated L xs levels 0 (allPoints (levelParams levels) 0)) ∧
    ∀ j a b, levels[j]? = some a → levels[j + 1]? = some b →
      Evaluated L xs levels (j + 1) ((dropBits xs (L - a)).flatMap (extensions (levelParams levels) j (j + 1))) := by
  refine ⟨?_, ?_⟩
  · intro b hb
    have hbL : b ≤ 128 := Nat.le_trans (g.le (List.mem_of_getElem? hb)) g.bits
    have hp : 2 ^ b ≤ 2 ^ 128 := Nat.pow_le_pow_right (by omega) hbL
    have hl := logSize_levels hb
    refine ⟨?_, ?_⟩
    · rw [allPoints, hl, List.pairwise_map]
      refine List.Pairwise.imp_of_mem ?_ List.pairwise_lt_range
      intro i j hi hj hij
      rw [List.mem_range] at hi hj
      rw [BitVec.lt_def, BitVec.toNat_ofNat, BitVec.toNat_ofNat, Nat.mod_eq_of_lt (by omega), Nat.mod_eq_of_lt (by omega)]
      exact hij
    · intro y
      rw [allPoints, hl, List.mem_map]
      constructor
      · rintro ⟨k, hk, rfl⟩
        rw [List.mem_range] at hk
        refine ⟨b, hb, by rw [BitVec.toNat_ofNat, Nat.mod_eq_of_lt (by omega)]; exact hk, ?_⟩
        intro j a h; omega
      · rintro ⟨b', hb', hy, _⟩
        rw [hb] at hb'
        cases hb'
        exact ⟨y.toNat, List.mem_range.mpr hy, by simp⟩
  · intro j a b ha hb
    have hab : a < b := by
      obtain ⟨h1, e1⟩ := List.getElem?_eq_some_iff.mp ha
      obtain ⟨h2, e2⟩ := List.getElem?_eq_some_iff.mp hb
      have := List.pairwise_iff_getElem.mp g.ascending j (j + 1) h1 h2 (by omega)
      omega
    have hbL := g.le (List.mem_of_getElem? hb)
    have hL := g.bits
    have hla := logSize_levels ha
    have hlb := logSize_levels hb
    have hd : ∀ z ∈ dropBits xs (L - a), z.toNat < 2 ^ a ∧ ∃ x ∈ xs, z.toNat = x.toNat / 2 ^ (L - a) := by
      intro z hz
      obtain ⟨x, hxx, rfl⟩ := (dropBits_mem xs (L - a) z).mp hz
      have e : (x >>> (L - a)).toNat = x.toNat / 2 ^ (L - a) := by rw [BitVec.toNat_ushiftRight, Nat.shiftRight_eq_div_pow]
      refine ⟨?_, x, hxx, e⟩
      rw [e, Nat.div_lt_iff_lt_mul (Nat.two_pow_pos _), ← Nat.pow_add, show a + (L - a) = L by omega]
      exact hx x hxx
    refine ⟨?_, ?_⟩
    · rw [List.pairwise_flatMap]
      refine ⟨fun z hz => extensions_sorted hla hlb (by omega) (by omega) (hd z hz).1, ?_⟩
      refine List.Pairwise.imp_of_mem ?_ (dropBits_sorted hs (L - a))
      intro z w hz hw hzw u hu v hv
      have h1 := (mem_extensions hla hlb (by omega) (by omega) (hd z hz).1).mp hu
      have h2 := (mem_extensions hla hlb (by omega) (by omega) (hd w hw).1).mp hv
      rw [BitVec.lt_def] at hzw ⊢
      rw [← h1, ← h2] at hzw
      apply Nat.lt_of_not_le
      intro hle
      have := Nat.div_le_div_right (c := 2 ^ (b - a)) hle
      omega
    · intro y
      rw [List.mem_flatMap]
      constructor
      · rintro ⟨z, hz, hy⟩
        obtain ⟨hz1, x, hxx, hz2⟩ := hd z hz
        have h1 := (mem_extensions hla hlb (by omega) (by omega) hz1).mp hy
        refine ⟨b, hb, ?_, ?_⟩
        · rw [← h1, Nat.div_lt_iff_lt_mul (Nat.two_pow_pos _), ← Nat.pow_add, show a + (b - a) = b by omega] at hz1
          exact hz1
        · intro j' a' e ha'
          obtain rfl : j = j' := by omega
          rw [ha] at ha'
          cases ha'
          exact ⟨x, hxx, by rw [h1, hz2]⟩
      · rintro ⟨b', hb', hy, h⟩
        rw [hb] at hb'
        cases hb'
        obtain ⟨x, hxx, e⟩ := h j a rfl ha
        have hm := (dropBits_mem xs (L - a) (x >>> (L - a))).mpr ⟨x, hxx, rfl⟩
        refine ⟨_, hm, (mem_extensions hla hlb (by omega) (by omega) (hd _ hm).1).mpr ?_⟩
        rw [BitVec.toNat_ushiftRight, Nat.shiftRight_eq_div_pow, e]

/-- The loop over the levels after the first. -/
theorem evaluateLevels_ok {fp : FpEnv} {L : Nat} {levels : List Nat} (g : GoodLevels L levels) {d : Dpf}
    (hs : Setup fp (levelParams levels) T32 d) (env : Env) (key : DpfKey)
    (hkey : ∀ h, h < levels.length → ∃ v, d.evaluateAt env (Ty.uint .w32).helper key h [0] = ok v)
    (P : Nat → List U128)
    (hne : ∀ h, h + 1 < levels.length → P h ≠ [] ∧ (P h).length < 2 ^ 31 ∧
      ∀ x ∈ P h, x.toNat < 2 ^ logSize (levelParams levels) h)
    (hext : ∀ h, h + 2 < levels.length → ∀ x ∈ P (h + 1), ∃ y ∈ P h, x ∈ extensions (levelParams levels) h (h + 1) y) :
    ∀ (k h : Nat), h + 1 + k = levels.length → ∀ (ctx ctx1 : EvaluationContext) (vals : List Output),
    History d env key ctx → ctx.previousHierarchyLevel = (h : Int) - 1 →
    d.evaluateUntil env (Ty.uint .w32).helper h (if h = 0 then [] else P (h - 1)) ctx = (ok vals, ctx1) →
    ctx1.previousHierarchyLevel = (h : Int) →
    ∃ out, evaluateLevels d env ((List.range' (h + 1) k).map fun i => P (i - 1)) (h + 1) ctx1 = ok out ∧
      out.length = k ∧ ∀ i, i < k → ∃ v, out[i]? = some v ∧
        d.evaluateAt env (Ty.uint .w32).helper key (h + 1 + i : Nat)
          ((P (h + i)).flatMap (extensions (levelParams levels) (h + i) (h + 1 + i))) = ok v := by
  obtain ⟨d0, Ts, hd0, hdd, _⟩ := hs.created
  obtain ⟨_, _, htl, _, htree, _⟩ := C16_levels fp _ d0 hd0
  rw [levelParams_length] at htl
  have hdepth : ∀ h a, levels[h]? = some a → treeDepth d h ≤ a ∧ a ≤ treeDepth d h + 2 := by
    intro h a ha
    have hlt := (List.getElem?_eq_some_iff.mp ha).1
    have hpv : d.pv = d0.pv := by rw [hdd]; exact (d0.registerAll_pv Ts).1
    have ht := List.getElem?_eq_getElem (l := d0.pv.hierarchyToTree) (i := h) (by omega)
    have hp : (levelParams levels)[h]? = some ⟨(a : Int), some (.integer 32), .val 0⟩ := by rw [levelParams_get, ha]; rfl
    obtain ⟨h1, h2⟩ := htree h _ _ ht hp
    have h3 := h2 (.uint .w32) rfl
    have he : treeDepth d h = d0.pv.hierarchyToTree[h]'(by omega) := by
      rw [treeDepth, hpv, List.getD_eq_getElem?_getD, ht]; rfl
    rw [he]
    dsimp only [Int.toNat_natCast] at h1 h3
    rw [show (Ty.uint .w32).helper.elementsPerBlock = 2 ^ 2 from rfl,
      Nat.pow_le_pow_iff_right (by omega)] at h3
    omega
  intro k
  induction k with
  | zero => intro h hk ctx ctx1 vals _ _ _ _; exact ⟨[], rfl, rfl, by intro i hi; omega⟩
  | succ k ih =>
    intro h hk ctx ctx1 vals hist hprev hcall hprev1
    obtain ⟨n1, n2, n3⟩ := hne h (by omega)
    have ha := List.getElem?_eq_getElem (l := levels) (i := h) (by omega)
    have hb := List.getElem?_eq_getElem (l := levels) (i := h + 1) (by omega)
    have hab : levels[h] < levels[h + 1] :=
      List.pairwise_iff_getElem.mp g.ascending h (h + 1) (by omega) (by omega) (by omega)
    have hst := g.step h _ _ ha hb
    have hla := logSize_levels ha
    have hlb := logSize_levels hb
    have hsm : SmallExpansion (levelParams levels) d h (h + 1) (P h) := by
      left
      have := hdepth h _ ha
      have := hdepth (h + 1) _ hb
      have a3 : treeDepth d (h + 1) - treeDepth d h < 31 := by omega
      have a4 : 2 ^ (treeDepth d (h + 1) - treeDepth d h) ≤ 2 ^ 30 := Nat.pow_le_pow_right (by omega) (by omega)
      have a5 := Nat.mul_le_mul (Nat.le_of_lt n2) a4
      have a6 : 2 ^ 31 * 2 ^ 30 < (2 : Nat) ^ 64 := by decide
      exact ⟨a3, Nat.lt_of_le_of_lt a5 a6⟩
    have hsize : (P h).length * 2 ^ (logSize (levelParams levels) (h + 1) - logSize (levelParams levels) h) < 2 ^ 63 := by
      rw [hla, hlb]
      have h1 : 2 ^ (levels[h + 1] - levels[h]) ≤ 2 ^ 28 := Nat.pow_le_pow_right (by omega) hst
      have h2 := Nat.mul_le_mul (Nat.le_of_lt n2) h1
      have h3 : 2 ^ 31 * 2 ^ 28 < (2 : Nat) ^ 63 := by decide
      omega
    obtain ⟨vals2, ctx2, h2⟩ : ∃ (vals2 : List Output) (ctx2 : EvaluationContext),
        d.evaluateUntil env (Ty.uint .w32).helper (h + 1 : Nat) (P h) ctx1 = (ok vals2, ctx2) := C07_accepts_partial fp _ T32 d hs env key ctx ctx1 hist (.uint .w32) h _ vals hcall
      (h + 1) (by omega) (by rw [levelParams_length]; omega) (P h) n1 n3 (by rw [hla, hlb]; omega) hsize (by
        by_cases h0 : h = 0
        · left; rw [if_pos h0]
        · right
          rw [if_neg h0, hprev]
          obtain ⟨j, rfl⟩ : ∃ j, h = j + 1 := ⟨h - 1, by omega⟩
          rw [show (((j + 1 : Nat) : Int) - 1).toNat = j by omega]
          exact hext j (by omega)) hsm (hkey (h + 1) (by omega))
    have hist1 : History d env key ctx1 := by
      have := History.evalUntil (.uint .w32) h (if h = 0 then [] else P (h - 1)) hist
      rwa [hcall] at this
    obtain ⟨e1, _, _, e2⟩ := C03_incremental_partial fp _ T32 d hs env key ctx1 hist1 (.uint .w32) (h + 1 : Nat) (P h) vals2
      (by rw [h2]) (by rw [hprev1, Int.toNat_natCast, Int.toNat_natCast]; exact hsm)
    rw [h2] at e2
    rw [outputPoints, hprev1, if_neg (by omega), Int.toNat_natCast, Int.toNat_natCast] at e1
    obtain ⟨out, o1, o2, o3⟩ := ih (h + 1) (by omega) ctx1 ctx2 vals2 hist1 (by rw [hprev1]; omega)
      (by rw [if_neg (by omega), Nat.add_sub_cancel]; exact h2) e2
    refine ⟨vals2 :: out, ?_, by simp [o2], ?_⟩
    · rw [List.range'_succ, List.map_cons, evaluateLevels, Nat.add_sub_cancel]
      rw [h2]
      show (do let rest ← evaluateLevels d env _ (h + 1 + 1) ctx2; ok (vals2 :: rest)) = _
      rw [o1]; rfl
    · intro i hi
      cases i with
      | zero => exact ⟨vals2, rfl, e1⟩
      | succ i =>
        obtain ⟨v, v1, v2⟩ := o3 i (by omega)
        refine ⟨v, by simpa using v1, ?_⟩
        rw [show h + (i + 1) = h + 1 + i by omega, show h + 1 + (i + 1) = h + 1 + 1 + i by omega]
        exact v2

theorem Spec.SharesPoint.congr {params : List DpfParameters} {T : Nat → Ty} {d : Dpf} {env : Env} {alpha : U128}
    {b b' : (h : Nat) → (T h).den} {k0 k1 : DpfKey} (h : SharesPoint params T d env alpha b k0 k1)
    (e : ∀ h, h < params.length → b h = b' h) : SharesPoint params T d env alpha b' k0 k1 := by
  intro i hi points hp
  obtain ⟨v0, v1, a1, a2, a3, a4, a5⟩ := h i hi points hp
  exact ⟨v0, v1, a1, a2, a3, a4, by rw [a5, e i hi]⟩

/-- Creating the DPF, generating keys and creating a context succeed. -/
theorem run_keys {fp : FpEnv} {L : Nat} {levels : List Nat} (g : LevelsUpTo L levels) (env : Env) (alpha : U128)
    (halpha : alpha.toNat < 2 ^ L) (seed0 seed1 : U128) :
    ∃ d0 d k0 k1, Dpf.createIncremental fp (levelParams levels) = ok d0 ∧
      d0.generateKeysIntegers env alpha ((levels.map Int.ofNat).map fun _ => 1) seed0 seed1 = (ok (k0, k1), d) ∧
      Setup fp (levelParams levels) T32 d ∧
      SharesPoint (levelParams levels) T32 d env alpha (fun _ => (1 : BitVec 32)) k0 k1 ∧
      d.pv.parameters.length = levels.length ∧
      d.createEvaluationContext k0 = ok ⟨d.pv.parameters, some k0, -1, [], 0⟩ := by
  have hv := levelParams_valid g
  have hall : ∀ p ∈ levelParams levels, p.valueType = some (.integer 32) := by
    intro p hp
    simp only [levelParams, parameters, List.mem_map] at hp
    obtain ⟨a, _, rfl⟩ := hp; rfl
  obtain ⟨d0, hd0⟩ := C16_accepts fp _ hv fun p hp => ⟨.uint .w32, rfl, by decide, hall p hp⟩
  have hc : Created fp (levelParams levels) d0 := ⟨d0, [], hd0, rfl⟩
  have hl := levelParams_length levels
  have hbl : ((levels.map Int.ofNat).map fun _ => (1 : U128)).length = (levelParams levels).length := by
    rw [hl]; simp
  have hbv : ∀ (h : Nat) (x : U128), ((levels.map Int.ofNat).map fun _ => (1 : U128))[h]? = some x → x = 1 := by
    intro h x hx
    obtain ⟨_, _, rfl⟩ := List.mem_map.mp (List.mem_of_getElem? hx); rfl
  have hbs : ∀ (h : Nat) (x : U128), ((levels.map Int.ofNat).map fun _ => (1 : U128))[h]? = some x →
      x.toNat < 2 ^ ((fun _ : Nat => Width.w32) h).bits := by
    intro h x hx; rw [hbv h x hx]; exact (by decide : 1 < 2 ^ 32)
  have ha : alpha.toNat < 2 ^ lastLogSize (levelParams levels) := by rw [lastLogSize_levels g]; exact halpha
  obtain ⟨k0, k1, d, hk, hs, hsh⟩ := (C59_integers fp _ (fun _ => .w32) d0 hc
    (fun h p hp => hall p (List.mem_of_getElem? hp)) env alpha _ seed0 seed1).1 ⟨hbl, hbs, ha⟩
  refine ⟨d0, d, k0, k1, hd0, hk, hs, ?_, ?_, ?_⟩
  · refine hsh.congr ?_
    intro h hh
    have e := List.getElem?_eq_getElem (l := (levels.map Int.ofNat).map fun _ => (1 : U128)) (i := h) (by omega)
    rw [List.getD_eq_getElem?_getD, e, Option.getD_some, hbv h _ e]; rfl
  · rw [← hl]; exact hs.toCreated.n_eq
  · rw [Dpf.integers_eq] at hk
    obtain ⟨hk1, hk2⟩ := Prod.mk.inj hk
    rw [hk2] at hk1
    obtain ⟨k0', k1', hk', hacc⟩ := C17_keys_accepted fp _ _ d hs env alpha ha _ _
      (betas_integers (w := fun _ => .w32) hbl hbs) seed0 seed1
    rw [hk1] at hk'
    obtain ⟨rfl, rfl⟩ := Prod.mk.inj (Res.ok.inj hk')
    obtain ⟨_, ⟨ctx, hctx, _⟩, _⟩ := hacc k0 (Or.inl rfl)
    obtain ⟨rfl, _⟩ := hs.wf.create_ctxOk env hctx
    exact hctx

theorem mapRes_const {α β : Type} {f : α → Res β} {b : β} : (l : List α) → (∀ x ∈ l, f x = ok b) →
    mapRes f l = ok (List.replicate l.length b)
  | [], _ => rfl
  | a :: l, h => by
    rw [mapRes_cons, h a (by simp), mapRes_const l fun x hx => h x (by simp [hx])]; rfl

theorem alphaOf_ok {L : Nat} (hL : L ≤ 128) (random : U128) :
    alphaOf (L : Int) random = ok (BitVec.ofNat 128 (random.toNat % 2 ^ L)) := by
  unfold alphaOf
  split
  · rw [shl128, if_neg (by omega), Int.toNat_natCast]
    show ok (random % ((1 : U128) <<< L)) = _
    congr 1
    apply BitVec.eq_of_toNat_eq
    have h1 : ((1 : U128) <<< L).toNat = 2 ^ L := by
      rw [BitVec.toNat_shiftLeft, Nat.shiftLeft_eq, show (1 : U128).toNat = 1 from rfl, Nat.one_mul]
      exact Nat.mod_eq_of_lt (Nat.pow_lt_pow_right (by omega) (by omega))
    rw [BitVec.toNat_umod, h1, BitVec.toNat_ofNat]
    exact (Nat.mod_eq_of_lt (Nat.lt_of_le_of_lt (Nat.mod_le _ _) random.isLt)).symm
  · obtain rfl : L = 128 := by omega
    congr 1
    apply BitVec.eq_of_toNat_eq
    rw [BitVec.toNat_ofNat, Nat.mod_mod, Nat.mod_eq_of_lt random.isLt]

theorem flatMap_extensions_length {params : List DpfParameters} {prev h a b : Nat}
    (ha : logSize params prev = a) (hb : logSize params h = b) (l : List U128) :
    (l.flatMap (extensions params prev h)).length = l.length * 2 ^ (b - a) := by
  induction l with
  | nil => simp
  | cons x l ih =>
    rw [List.flatMap_cons, List.length_append, ih, List.length_cons, Nat.add_mul, Nat.one_mul, Nat.add_comm]
    simp [extensions, ha, hb]

/-- The program completes on good levels. -/
theorem run_ok {fp : FpEnv} {L : Nat} {levels : List Nat} (g : GoodLevels L levels) (env : Env) {xs : List U128}
    (hsort : xs.Pairwise (· < ·)) (hx : ∀ x ∈ xs, x.toNat < 2 ^ L) (hn : xs.length < 2 ^ 31)
    {prefixes : List (List U128)} (hp : ∀ i a, i + 1 < levels.length → levels[i]? = some a →
      prefixes[a]? = some (dropBits xs (L - a)))
    (hne : 1 < levels.length → xs ≠ []) (fl : Flags) (h1 : fl.logDomainSize = L) (h2 : fl.onlyNonzeros = false)
    (random seed0 seed1 : U128) :
    ∃ d k0 k1 out, run fp env fl prefixes (levels.map Int.ofNat) random seed0 seed1 =
        ok (k0, List.replicate fl.numIterations.toNat out) ∧
      Setup fp (levelParams levels) T32 d ∧
      SharesPoint (levelParams levels) T32 d env (BitVec.ofNat 128 (random.toNat % 2 ^ L)) (fun _ => (1 : BitVec 32)) k0 k1 ∧
      out.length = levels.length ∧
      ∀ (i : Nat) vals, out[i]? = some vals → ∃ points, Evaluated L xs levels i points ∧
        d.evaluateAt env (Ty.uint .w32).helper k0 i points = ok vals ∧ vals.length = points.length ∧
        (∀ b, i = 0 → levels[0]? = some b → points.length = 2 ^ b) ∧
        (∀ j a b, i = j + 1 → levels[j]? = some a → levels[j + 1]? = some b →
          points.length = (dropBits xs (L - a)).length * 2 ^ (b - a)) := by
  have halpha : (BitVec.ofNat 128 (random.toNat % 2 ^ L)).toNat < 2 ^ L := by
    rw [BitVec.toNat_ofNat]
    exact Nat.lt_of_le_of_lt (Nat.mod_le _ _) (Nat.mod_lt _ (Nat.two_pow_pos _))
  obtain ⟨d0, d, k0, k1, hd0, hk, hs, hsh, hpl, hctx⟩ := run_keys (fp := fp) g.toLevelsUpTo env _ halpha seed0 seed1
  have hl := levelParams_length levels
  have hlen : 0 < levels.length := List.length_pos_iff.mpr g.ne
  obtain ⟨ev0, ev1⟩ := outputPoints_evaluated g hsort hx
  -- the prefixes of each level
  let P : Nat → List U128 := fun h => dropBits xs (L - levels.getD h 0)
  have hP : ∀ h a, levels[h]? = some a → P h = dropBits xs (L - a) := by
    intro h a e; simp only [P, List.getD_eq_getElem?_getD, e, Option.getD_some]
  have hto : prefixesToEvaluate prefixes (levels.map Int.ofNat) =
      ok ([] :: (List.range' 1 (levels.length - 1)).map fun i => P (i - 1)) := by
    have : mapRes (fun l => rdInt prefixes l) (levels.map Int.ofNat).dropLast =
        ok ((List.range' 1 (levels.length - 1)).map fun i => P (i - 1)) := by
      have hm : ∀ i (hi : i < (levels.map Int.ofNat).dropLast.length),
          ∃ h : i + 1 < levels.length, (levels.map Int.ofNat).dropLast[i] = (levels[i] : Int) := by
        intro i hi
        simp only [List.length_dropLast, List.length_map] at hi
        exact ⟨by omega, by simp [List.getElem_dropLast]⟩
      rw [mapRes_eq_ok_map (g := fun l => dropBits xs (L - l.toNat))]
      · congr 1
        apply List.ext_getElem
        · simp
        · intro i hi _
          rw [List.length_map] at hi
          obtain ⟨h, e⟩ := hm i hi
          rw [List.getElem_map, e, Int.toNat_natCast, List.getElem_map, List.getElem_range']
          simp only [Nat.one_mul, Nat.add_sub_cancel_left]
          exact (hP i _ (List.getElem?_eq_getElem (by omega))).symm
      · intro l hl
        obtain ⟨i, hi, rfl⟩ := List.mem_iff_getElem.mp hl
        obtain ⟨h, e⟩ := hm i hi
        rw [e, rdInt_natCast, rd_eq_ok, Int.toNat_natCast]
        exact hp i _ h (List.getElem?_eq_getElem (by omega))
    rw [prefixesToEvaluate, this]; rfl
  have hkey : ∀ h, h < levels.length → ∃ v, d.evaluateAt env (Ty.uint .w32).helper k0 h [0] = ok v := by
    intro h hh
    obtain ⟨v0, _, e, _⟩ := hsh h (by omega) [0] (by intro x hx; rw [List.mem_singleton.mp hx]; exact Nat.two_pow_pos _)
    exact ⟨v0, e⟩
  have hb0 := List.getElem?_eq_getElem (l := levels) (i := 0) (by omega)
  have hfirst := g.first _ hb0
  have hlog0 := logSize_levels hb0
  obtain ⟨f1, f2⟩ := C02_full_domain fp _ T32 d hs env k0 _ hctx 0 (by omega) (by omega)
  obtain ⟨v0, _, e0, _, e0l, _⟩ := hsh 0 (by omega) (allPoints (levelParams levels) 0) (by
    intro x hx
    obtain ⟨b', hb', hlt, _⟩ := ((ev0 _ hb0).2 x).mp hx
    rw [logSize_levels hb']; exact hlt)
  have e0' : (d.evaluateUntil env (Ty.uint .w32).helper (0 : Nat) [] ⟨d.pv.parameters, some k0, -1, [], 0⟩).1 = ok v0 := by
    rw [← e0]; exact f1
  obtain ⟨_, _, _, hprev⟩ := C03_incremental_partial fp _ T32 d hs env k0 _ (.create hctx) (.uint .w32) (0 : Nat) [] v0 e0'
    (Or.inr (by simp))
  have hcall : d.evaluateUntil env (Ty.uint .w32).helper (0 : Nat) [] ⟨d.pv.parameters, some k0, -1, [], 0⟩ =
      (ok v0, (d.evaluateUntil env (Ty.uint .w32).helper (0 : Nat) [] ⟨d.pv.parameters, some k0, -1, [], 0⟩).2) := by
    rw [← e0']
  generalize (d.evaluateUntil env (Ty.uint .w32).helper (0 : Nat) [] ⟨d.pv.parameters, some k0, -1, [], 0⟩).2 = ctx1
    at hcall hprev
  have hdrop : ∀ h a, levels[h]? = some a → ∀ z ∈ P h, z.toNat < 2 ^ a := by
    intro h a e z hz
    rw [hP h a e] at hz
    obtain ⟨x, hxx, rfl⟩ := (dropBits_mem xs (L - a) z).mp hz
    have hle := g.le (List.mem_of_getElem? e)
    rw [BitVec.toNat_ushiftRight, Nat.shiftRight_eq_div_pow, Nat.div_lt_iff_lt_mul (Nat.two_pow_pos _), ← Nat.pow_add,
      show a + (L - a) = L by omega]
    exact hx x hxx
  obtain ⟨out, o1, o2, o3⟩ := evaluateLevels_ok g hs env k0 hkey P (by
      intro h hh
      have e := List.getElem?_eq_getElem (l := levels) (i := h) (by omega)
      refine ⟨by rw [hP h _ e]; exact dropBits_ne (hne (by omega)) _, ?_, ?_⟩
      · rw [hP h _ e]
        exact Nat.lt_of_le_of_lt (dropBits_length_le xs (Nat.zero_le _)) hn
      · rw [logSize_levels e]; exact hdrop h _ e) (by
      intro h hh z hz
      have ea := List.getElem?_eq_getElem (l := levels) (i := h) (by omega)
      have eb := List.getElem?_eq_getElem (l := levels) (i := h + 1) (by omega)
      have hab : levels[h] < levels[h + 1] :=
        List.pairwise_iff_getElem.mp g.ascending h (h + 1) (by omega) (by omega) (by omega)
      have hle := g.le (List.mem_of_getElem? eb)
      have hL := g.bits
      rw [hP _ _ eb] at hz
      obtain ⟨x, hxx, rfl⟩ := (dropBits_mem xs _ z).mp hz
      have hm : x >>> (L - levels[h]) ∈ P h := by rw [hP _ _ ea]; exact (dropBits_mem _ _ _).mpr ⟨x, hxx, rfl⟩
      refine ⟨_, hm, (mem_extensions (logSize_levels ea) (logSize_levels eb) (by omega) (by omega) (hdrop h _ ea _ hm)).mpr ?_⟩
      rw [BitVec.toNat_ushiftRight, BitVec.toNat_ushiftRight, Nat.shiftRight_eq_div_pow, Nat.shiftRight_eq_div_pow,
        Nat.div_div_eq_div_mul, ← Nat.pow_add, show L - levels[h + 1] + (levels[h + 1] - levels[h]) = L - levels[h] by omega])
    (levels.length - 1) 0 (by omega) _ ctx1 v0 (.create hctx) rfl hcall (by simpa using hprev)
  refine ⟨d, k0, k1, v0 :: out, ?_, hs, hsh, by simp [o2]; omega, ?_⟩
  · have heval : evaluateLevels d env ([] :: (List.range' 1 (levels.length - 1)).map fun i => P (i - 1)) 0
        ⟨d.pv.parameters, some k0, -1, [], 0⟩ = ok (v0 :: out) := by
      rw [evaluateLevels]
      show (do let vals ← value (d.evaluateUntil env (Ty.uint .w32).helper (0 : Nat) []
                  ⟨d.pv.parameters, some k0, -1, [], 0⟩).1
               let rest ← evaluateLevels d env _ (0 + 1) (d.evaluateUntil env (Ty.uint .w32).helper (0 : Nat) []
                  ⟨d.pv.parameters, some k0, -1, [], 0⟩).2
               ok (vals :: rest)) = _
      rw [hcall]
      show (do let rest ← evaluateLevels d env _ (0 + 1) ctx1; ok (v0 :: rest)) = _
      rw [o1]; rfl
    have hrun : runHierarchicalEvaluation d env k0 ([] :: (List.range' 1 (levels.length - 1)).map fun i => P (i - 1))
        fl.numIterations = ok (List.replicate fl.numIterations.toNat (v0 :: out)) := by
      rw [runHierarchicalEvaluation, hctx]
      show (check (_ = d.pv.parameters.length) >>= fun _ => _) = _
      rw [check_true (by simp; omega)]
      show mapRes _ _ = _
      rw [mapRes_const (List.range fl.numIterations.toNat) (fun _ _ => heval), List.length_range]
    rw [run, hto]
    show (value (Dpf.createIncremental fp (levelParams levels)) >>= fun d => _) = _
    rw [hd0]
    show (alphaOf fl.logDomainSize random >>= fun alpha => _) = _
    rw [h1, alphaOf_ok g.bits]
    show (value (d0.generateKeysIntegers env (BitVec.ofNat 128 (random.toNat % 2 ^ L)) ((levels.map Int.ofNat).map fun _ => 1)
      seed0 seed1).1 >>= fun keys => _) = _
    rw [hk, h2]
    show (runHierarchicalEvaluation d env k0 _ fl.numIterations >>= fun results => _) = _
    rw [hrun]; rfl
  · intro i vals hv
    cases i with
    | zero =>
      simp only [List.getElem?_cons_zero, Option.some.injEq] at hv
      subst hv
      refine ⟨_, ev0 _ hb0, e0, e0l, ?_, ?_⟩
      · intro b _ hb
        rw [allPoints, logSize_levels hb]; simp
      · intro j a b h; omega
    | succ i =>
      simp only [List.getElem?_cons_succ] at hv
      have hi : i < levels.length - 1 := by rw [← o2]; exact (List.getElem?_eq_some_iff.mp hv).1
      obtain ⟨v, hv', he⟩ := o3 i hi
      rw [hv] at hv'
      cases hv'
      have ea := List.getElem?_eq_getElem (l := levels) (i := i) (by omega)
      have eb := List.getElem?_eq_getElem (l := levels) (i := i + 1) (by omega)
      simp only [Nat.zero_add, Nat.add_comm 1 i] at he
      rw [hP _ _ ea] at he
      have hev := ev1 i _ _ ea eb
      refine ⟨_, hev, he, ?_, by intro b h; omega, ?_⟩
      · obtain ⟨v0', _, q1, _, q2, _⟩ := hsh (i + 1) (by omega) _ (by
          intro x hx
          obtain ⟨b', hb', hlt, _⟩ := (hev.2 x).mp hx
          rw [logSize_levels hb']; exact hlt)
        rw [show d.evaluateAt env (Ty.uint .w32).helper k0 (i + 1 : Nat) _ = ok v0' from q1] at he
        rw [← Res.ok.inj he]; exact q2
      · intro j a b h ha hb
        obtain rfl : j = i := by omega
        rw [ea] at ha; rw [eb] at hb
        cases ha; cases hb
        exact flatMap_extensions_length (logSize_levels ea) (logSize_levels eb) _

end Verif
