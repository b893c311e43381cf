import Verif.Spec.Benchmarks
import Verif.Lemmas.Aggregation
import Verif.Lemmas.SyntheticRun
/-!
# Lemmas for C82
-/
namespace Verif
open Res Spec Benchmarks SyntheticData

/-- The parameters for sizes given as natural numbers. -/
abbrev sizeParams (w : Width) (sizes : List Nat) : List DpfParameters := parametersOf w (sizes.map Int.ofNat)

theorem sizeParams_get (w : Width) (sizes : List Nat) (h : Nat) :
    (sizeParams w sizes)[h]? = sizes[h]?.map fun l => ⟨(l : Int), some (.integer w.bits), .val 0⟩ := by
  simp only [sizeParams, parametersOf, List.getElem?_map]
  cases sizes[h]? <;> rfl

theorem sizeParams_length (w : Width) (sizes : List Nat) : (sizeParams w sizes).length = sizes.length := by
  simp [parametersOf]

theorem sizeParams_mem {w : Width} {sizes : List Nat} {p : DpfParameters} (hp : p ∈ sizeParams w sizes) :
    ∃ a ∈ sizes, p = ⟨(a : Int), some (.integer w.bits), .val 0⟩ := by
  simp only [sizeParams, parametersOf, List.map_map, List.mem_map] at hp
  obtain ⟨a, ha, rfl⟩ := hp
  exact ⟨a, ha, rfl⟩

theorem logSize_sizes {w : Width} {sizes : List Nat} {h a : Nat} (e : sizes[h]? = some a) :
    logSize (sizeParams w sizes) h = a := by
  unfold logSize
  rw [sizeParams_get, e]
  simp

theorem lastLogSize_sizes {w : Width} {L : Nat} {sizes : List Nat} (g : LevelsUpTo L sizes) :
    lastLogSize (sizeParams w sizes) = L := by
  unfold lastLogSize
  rw [sizeParams_length]
  exact logSize_sizes (by rw [← List.getLast?_eq_getElem?]; exact g.last)

theorem sizeParams_valid {w : Width} {L : Nat} {sizes : List Nat} (g : LevelsUpTo L sizes) : ValidParams (sizeParams w sizes) := by
  refine ⟨?_, ?_, ?_, ?_, ?_⟩
  · intro h
    have := sizeParams_length w sizes
    rw [h] at this
    exact g.ne (List.length_eq_zero_iff.mp this.symm)
  · intro p hp
    obtain ⟨a, ha, rfl⟩ := sizeParams_mem hp
    have := g.le ha
    have := g.bits
    constructor
    · dsimp only; omega
    · dsimp only; omega
  · simp only [sizeParams, parametersOf, List.map_map]
    rw [List.pairwise_map]
    exact g.ascending.imp fun h => by dsimp; omega
  · intro p hp
    obtain ⟨a, ha, rfl⟩ := sizeParams_mem hp
    exact ⟨_, rfl, (by cases w <;> simp [ValidBits, Width.bits] : ValidBits w.bits)⟩
  · intro p hp
    obtain ⟨a, ha, rfl⟩ := sizeParams_mem hp
    exact ⟨0, rfl, by decide, by decide⟩

/-- Sizes of hierarchies that can be evaluated level by level. -/
theorem treeDepth_sizes {fp : FpEnv} {w : Width} {sizes : List Nat} {d : Dpf} (hc : Created fp (sizeParams w sizes) d)
    {h a : Nat} (ha : sizes[h]? = some a) : treeDepth d h ≤ a ∧ a ≤ treeDepth d h + 4 := by
  obtain ⟨d0, Ts, hd0, hdd⟩ := hc
  obtain ⟨_, _, htl, _, htree, _⟩ := C16_levels fp _ d0 hd0
  rw [sizeParams_length] at htl
  have hlt := (List.getElem?_eq_some_iff.mp ha).1
  have hpv : d.pv = d0.pv := by rw [hdd]; exact (d0.registerAll_pv Ts).1
  have ht := List.getElem?_eq_getElem (l := d0.pv.hierarchyToTree) (i := h) (by omega)
  have hp : (sizeParams w sizes)[h]? = some ⟨(a : Int), some (.integer w.bits), .val 0⟩ := by rw [sizeParams_get, ha]; rfl
  obtain ⟨h1, h2⟩ := htree h _ _ ht hp
  have h3 := h2 (.uint w) rfl
  have he : treeDepth d h = d0.pv.hierarchyToTree[h]'(by omega) := by
    rw [treeDepth, hpv, List.getD_eq_getElem?_getD, ht]; rfl
  rw [he]
  dsimp only [Int.toNat_natCast] at h1 h3
  have h4 : (Ty.uint w).helper.elementsPerBlock ≤ 2 ^ 4 := by cases w <;> decide
  have h5 := (Nat.pow_le_pow_iff_right (by omega)).mp (Nat.le_trans h3 h4)
  omega

/-- Creating the DPF, generating keys and creating a context succeed. -/
theorem createHierarchy_ok {fp : FpEnv} {w : Width} {L : Nat} {sizes : List Nat} (g : LevelsUpTo L sizes) (env : Env)
    {alpha : U128} (halpha : alpha.toNat < 2 ^ L) {beta : List U128} (hbl : beta.length = sizes.length)
    (hbs : ∀ (h : Nat) (x : U128), beta[h]? = some x → x.toNat < 2 ^ w.bits) (seed0 seed1 : U128) :
    ∃ d k0 k1 ctx, createHierarchy fp env w (sizes.map Int.ofNat) alpha beta seed0 seed1 = ok (d, k0, ctx) ∧
      Setup fp (sizeParams w sizes) (fun _ => .uint w) d ∧
      SharesPoint (sizeParams w sizes) (fun _ => .uint w) d env alpha
        (fun h => BitVec.ofNat w.bits (beta.getD h 0).toNat) k0 k1 ∧
      d.createEvaluationContext k0 = ok ctx ∧ ctx.previousHierarchyLevel = -1 := by
  have hv := sizeParams_valid (w := w) g
  have hall : ∀ p ∈ sizeParams w sizes, p.valueType = some (.integer w.bits) := by
    intro p hp
    obtain ⟨a, _, rfl⟩ := sizeParams_mem hp; rfl
  obtain ⟨d0, hd0⟩ := C16_accepts fp _ hv fun p hp => ⟨.uint w, rfl, by cases w <;> decide, hall p hp⟩
  have hc : Created fp (sizeParams w sizes) d0 := ⟨d0, [], hd0, rfl⟩
  have hl := sizeParams_length w sizes
  have ha : alpha.toNat < 2 ^ lastLogSize (sizeParams w sizes) := by rw [lastLogSize_sizes g]; exact halpha
  obtain ⟨k0, k1, d, hk, hs, hsh⟩ := (C59_integers fp _ (fun _ => w) d0 hc
    (fun h p hp => hall p (List.mem_of_getElem? hp)) env alpha beta seed0 seed1).1 ⟨by omega, hbs, ha⟩
  have hctx : ∃ ctx, d.createEvaluationContext k0 = ok ctx ∧ ctx.previousHierarchyLevel = -1 := by
    have hk2 := hk
    rw [Dpf.integers_eq] at hk2
    obtain ⟨hk1, hk2⟩ := Prod.mk.inj hk2
    rw [hk2] at hk1
    obtain ⟨k0', k1', hk', hacc⟩ := C17_keys_accepted fp _ _ d hs env alpha ha _ _
      (betas_integers (w := fun _ => w) (by omega) hbs) seed0 seed1
    rw [hk1] at hk'
    obtain ⟨rfl, rfl⟩ := Prod.mk.inj (Res.ok.inj hk')
    obtain ⟨_, ⟨ctx, hctx, _⟩, _⟩ := hacc k0 (Or.inl rfl)
    obtain ⟨rfl, _⟩ := hs.wf.create_ctxOk env hctx
    exact ⟨_, hctx, rfl⟩
  obtain ⟨ctx, hctx, hp⟩ := hctx
  refine ⟨d, k0, k1, ctx, ?_, hs, hsh, hctx, hp⟩
  unfold createHierarchy
  rw [hd0]
  dsimp only [value, bind_ok]
  rw [hk]
  dsimp only [value, bind_ok]
  rw [hctx]
  rfl

/-- With invalid parameters the DPF cannot be created. -/
theorem createHierarchy_invalid {fp : FpEnv} {w : Width} {sizes : List Int} (h : ¬ ValidParams (parametersOf w sizes)) (env : Env)
    (alpha : U128) (beta : List U128) (seed0 seed1 : U128) : createHierarchy fp env w sizes alpha beta seed0 seed1 = crash := by
  unfold createHierarchy
  rw [C16_rejects fp _ h]; rfl

/-- With a point outside of the domain there are no keys. -/
theorem createHierarchy_outside {fp : FpEnv} {w : Width} {L : Nat} {sizes : List Nat} (g : LevelsUpTo L sizes) (env : Env)
    {alpha : U128} (halpha : 2 ^ L ≤ alpha.toNat) (beta : List U128) (seed0 seed1 : U128) :
    createHierarchy fp env w (sizes.map Int.ofNat) alpha beta seed0 seed1 = crash := by
  have hv := sizeParams_valid (w := w) g
  have hall : ∀ p ∈ sizeParams w sizes, p.valueType = some (.integer w.bits) := by
    intro p hp
    obtain ⟨a, _, rfl⟩ := sizeParams_mem hp; rfl
  obtain ⟨d0, hd0⟩ := C16_accepts fp _ hv fun p hp => ⟨.uint w, rfl, by cases w <;> decide, hall p hp⟩
  have he := (C59_integers fp _ (fun _ => w) d0 ⟨d0, [], hd0, rfl⟩
    (fun h p hp => hall p (List.mem_of_getElem? hp)) env alpha beta seed0 seed1).2.1 (by
      rintro ⟨_, _, h⟩
      rw [lastLogSize_sizes g] at h; omega)
  unfold createHierarchy
  rw [hd0]
  dsimp only [value, bind_ok]
  rw [he]; rfl

/-- The rounds of a loop that calls `EvaluateNext`. -/
def roundsFrom (start : Nat) (prefixes : List (List U128)) : List Round :=
  match prefixes with
  | [] => []
  | p :: ps => (start, p) :: roundsFrom (start + 1) ps

theorem After.previous {fp : FpEnv} {params : List DpfParameters} {T : Nat → Ty} {d : Dpf} (hs : Setup fp params T d)
    {env : Env} {key : DpfKey} {prev : Int} {avail : List U128} {ctx : EvaluationContext}
    (ha : After params d env key prev avail ctx) : ctx.previousHierarchyLevel = prev := by
  rcases ha with ⟨rfl, hc⟩ | ⟨S, h1, P1, vals1, ctx0, hist, rfl, hcall, hlev, _⟩
  · obtain ⟨rfl, _⟩ := hs.wf.create_ctxOk env hc; rfl
  · exact hlev

/-- The loop over all levels. -/
theorem evaluateAll_ok {fp : FpEnv} {params : List DpfParameters} {t : Ty} {d : Dpf} (hs : Setup fp params (fun _ => t) d)
    {env : Env} {alpha : U128} {b : Nat → t.den} {k0 k1 : DpfKey} (hk : SharesPoint params (fun _ => t) d env alpha b k0 k1) :
    (ps : List (List U128)) → (start : Nat) → (avail : List U128) → (ctx : EvaluationContext) →
    After params d env k0 ((start : Int) - 1) avail ctx →
    (0 ≤ (start : Int) - 1 → ∀ x ∈ avail, x.toNat < 2 ^ logSize params ((start : Int) - 1).toNat) →
    RoundsOk params d ((start : Int) - 1) avail (roundsFrom start ps) →
    ∃ out, evaluateAll d env t ps ctx = ok out ∧ out.length = ps.length ∧
      ∀ i p, ps[i]? = some p → ∃ vals, out[i]? = some vals ∧
        d.evaluateAt env t.helper k0 (start + i : Nat)
          (outputPoints params (((start + i : Nat) : Int) - 1) (start + i : Nat) p) = ok vals
  | [], _, _, _, _, _, _ => ⟨[], rfl, rfl, by intro i p h; cases h⟩
  | p :: ps, start, avail, ctx, ha, hav, hr => by
    have hz : ∀ h, ∀ x ∈ [(0 : U128)], x.toNat < 2 ^ logSize params h := by
      intro h x hx; rw [List.mem_singleton.mp hx]; exact Nat.two_pow_pos _
    obtain ⟨vals, ctx', e1, e2, e3⟩ := ha.step hs
      (fun h hh => let ⟨v0, _, e0, _⟩ := hk h hh [0] (hz h); ⟨v0, e0⟩)
      (fun h hh => let ⟨v0, _, e0, _⟩ := hk h hh _ fun x hx => allPoints_lt hx; ⟨v0, e0⟩) hav hr
    obtain ⟨r1, r2, r3, r4, r5, r6⟩ := hr
    have hprev := ha.previous hs
    have hnext : d.evaluateNext env t.helper p ctx = (ok vals, ctx') := by
      unfold Dpf.evaluateNext
      by_cases hp : p = []
      · rw [if_pos hp, ← e1]
        have := r3.mpr hp
        rw [show (start : Nat) = 0 by omega]; rfl
      · rw [if_neg hp, hprev, show ((start : Int) - 1) + 1 = start by omega]
        exact e1
    obtain ⟨out, o1, o2, o3⟩ := evaluateAll_ok hs hk ps (start + 1) _ ctx'
      (by rw [show (((start + 1 : Nat) : Int) - 1) = start by omega]; exact e3)
      (by
        rw [show (((start + 1 : Nat) : Int) - 1) = start by omega, Int.toNat_natCast]
        intro _
        exact outputPoints_range hs.toCreated hs.wf r1 r2 (fun h0 x hx => hav h0 x (r4 x hx)))
      (by rw [show (((start + 1 : Nat) : Int) - 1) = start by omega]; exact r6)
    refine ⟨vals :: out, ?_, by simp [o2], ?_⟩
    · rw [evaluateAll, hnext]
      show (do let rest ← evaluateAll d env t ps ctx'; ok (vals :: rest)) = _
      rw [o1]; rfl
    · intro i q hq
      cases i with
      | zero =>
        simp only [List.getElem?_cons_zero, Option.some.injEq] at hq
        subst hq
        exact ⟨vals, rfl, e2⟩
      | succ i =>
        simp only [List.getElem?_cons_succ] at hq
        obtain ⟨v, v1, v2⟩ := o3 i q hq
        refine ⟨v, by simpa using v1, ?_⟩
        rw [show start + (i + 1) = start + 1 + i by omega]
        exact v2

/-- Good prefixes can be evaluated. -/
theorem GoodPrefixes.rounds {fp : FpEnv} {w : Width} {L : Nat} {sizes : List Nat} (g : LevelsUpTo L sizes)
    (hfirst : ∀ l, sizes[0]? = some l → l < 63) {prefixes : List (List U128)} (hp : GoodPrefixes sizes prefixes)
    {d : Dpf} (hc : Created fp (sizeParams w sizes) d)
    (hstep : ∀ i a b, sizes[i]? = some a → sizes[i + 1]? = some b → b - a ≤ 26 ∨
      (b ≤ 30 ∧ ∀ p, prefixes[i + 1]? = some p → p.length ≤ 2 ^ a)) :
    ∀ (k s : Nat), s + k = sizes.length → ∀ avail,
      (∀ i p, s = i + 1 → prefixes[i]? = some p → avail = outputPoints (sizeParams w sizes) ((i : Int) - 1) i p) →
      RoundsOk (sizeParams w sizes) d ((s : Int) - 1) avail (roundsFrom s (prefixes.drop s)) := by
  intro k
  induction k with
  | zero =>
    intro s hk avail _
    rw [List.drop_eq_nil_of_le (by rw [hp.count]; omega)]
    exact True.intro
  | succ k ih =>
    intro s hk avail hav
    have hl := sizeParams_length w sizes
    have hs : s < prefixes.length := by rw [hp.count]; omega
    rw [List.drop_eq_getElem_cons hs]
    have hps := List.getElem?_eq_getElem hs
    have hbs := List.getElem?_eq_getElem (l := sizes) (i := s) (by omega)
    refine ⟨by omega, by omega, ?_, ?_, ?_, ?_⟩
    · cases s with
      | zero => exact ⟨fun _ => hp.first _ hps, fun _ => by omega⟩
      | succ i =>
        refine ⟨fun h => by omega, fun h => ?_⟩
        exact absurd h (hp.rest i _ _ (List.getElem?_eq_getElem (by omega)) hps).1
    · intro x hx
      cases s with
      | zero => rw [hp.first _ hps] at hx; cases hx
      | succ i =>
        have has := List.getElem?_eq_getElem (l := sizes) (i := i) (by omega)
        have hxa := (hp.rest i _ _ has hps).2.2 x hx
        have hpi := List.getElem?_eq_getElem (l := prefixes) (i := i) (by omega)
        rw [hav i _ rfl hpi, outputPoints]
        cases i with
        | zero =>
          rw [if_pos (by omega), Int.toNat_natCast, allPoints, logSize_sizes has, List.mem_map]
          exact ⟨x.toNat, List.mem_range.mpr hxa, by simp⟩
        | succ j =>
          have hjs := List.getElem?_eq_getElem (l := sizes) (i := j) (by omega)
          rw [if_neg (by omega), Int.toNat_natCast, List.mem_flatMap, show (((j + 1 : Nat) : Int) - 1).toNat = j by omega]
          obtain ⟨y, hy, e⟩ := hp.extend j _ _ _ _ hjs has hpi hps x hx
          have hlt : sizes[j] < sizes[j + 1] :=
            List.pairwise_iff_getElem.mp g.ascending j (j + 1) (by omega) (by omega) (by omega)
          have h128 := Nat.le_trans (g.le (List.mem_of_getElem? has)) g.bits
          exact ⟨y, hy, (mem_extensions (logSize_sizes hjs) (logSize_sizes has) (by omega) h128
            ((hp.rest j _ _ hjs hpi).2.2 y hy)).mpr e⟩
    · cases s with
      | zero => rw [if_pos (by omega), logSize_sizes hbs]; exact hfirst _ hbs
      | succ i =>
        have has := List.getElem?_eq_getElem (l := sizes) (i := i) (by omega)
        rw [if_neg (by omega), show (((i + 1 : Nat) : Int) - 1).toNat = i by omega, logSize_sizes hbs, logSize_sizes has]
        have hlt : sizes[i] < sizes[i + 1] :=
          List.pairwise_iff_getElem.mp g.ascending i (i + 1) (by omega) (by omega) (by omega)
        have hst := hstep i _ _ has hbs
        have h2 := (hp.rest i _ _ has hps).2.1
        have t1 := treeDepth_sizes hc has
        have t2 := treeDepth_sizes hc hbs
        have hd : treeDepth d (i + 1) - treeDepth d i < 31 := by omega
        refine ⟨by omega, ?_, Or.inl ⟨hd, ?_⟩⟩
        rotate_left
        · have e1 : 2 ^ (treeDepth d (i + 1) - treeDepth d i) ≤ 2 ^ 30 := Nat.pow_le_pow_right (by omega) (by omega)
          have e2 := Nat.mul_le_mul (Nat.le_of_lt h2) e1
          have e3 : 2 ^ 31 * 2 ^ 30 < (2 : Nat) ^ 64 := by decide
          exact Nat.lt_of_le_of_lt e2 e3
        rcases hst with hst | ⟨h30, hlen⟩
        · have e1 : 2 ^ (sizes[i + 1] - sizes[i]) ≤ 2 ^ 26 := Nat.pow_le_pow_right (by omega) hst
          have e2 := Nat.mul_le_mul (Nat.le_of_lt h2) e1
          have e3 : 2 ^ 31 * 2 ^ 26 < (2 : Nat) ^ 63 := by decide
          omega
        · have e1 := Nat.mul_le_mul_right (2 ^ (sizes[i + 1] - sizes[i])) (hlen _ hps)
          rw [← Nat.pow_add, show sizes[i] + (sizes[i + 1] - sizes[i]) = sizes[i + 1] by omega] at e1
          have e2 : 2 ^ sizes[i + 1] ≤ 2 ^ 30 := Nat.pow_le_pow_right (by omega) h30
          have e3 : 2 ^ 30 < (2 : Nat) ^ 63 := by decide
          omega
    · have := ih (s + 1) (by omega) (outputPoints (sizeParams w sizes) ((s : Int) - 1) s prefixes[s]) (by
        intro i p hi hpi
        obtain rfl : s = i := by omega
        rw [hps] at hpi
        cases hpi
        rfl)
      rw [show (((s + 1 : Nat) : Int) - 1) = s by omega] at this
      exact this

/-- Evaluating a hierarchy with good prefixes completes. -/
theorem hierarchy_ok {fp : FpEnv} {w : Width} {L : Nat} {sizes : List Nat} (g : LevelsUpTo L sizes)
    (hfirst : ∀ l, sizes[0]? = some l → l < 63) {prefixes : List (List U128)} (hp : GoodPrefixes sizes prefixes)
    (hstep : ∀ i a b, sizes[i]? = some a → sizes[i + 1]? = some b → b - a ≤ 26 ∨
      (b ≤ 30 ∧ ∀ p, prefixes[i + 1]? = some p → p.length ≤ 2 ^ a))
    (env : Env) {alpha : U128} (halpha : alpha.toNat < 2 ^ L) {beta : List U128} (hbl : beta.length = sizes.length)
    (hbs : ∀ (h : Nat) (x : U128), beta[h]? = some x → x.toNat < 2 ^ w.bits) (iterations : Nat) (seed0 seed1 : U128) :
    ∃ h r, createHierarchy fp env w (sizes.map Int.ofNat) alpha beta seed0 seed1 = ok h ∧
      evaluateHierarchy env w h prefixes iterations = ok r ∧
      EvaluatesHierarchy fp env w sizes alpha (fun h => (beta.getD h 0).toNat) (pointsOf w sizes prefixes) iterations r := by
  obtain ⟨d, k0, k1, ctx, e, hs, hsh, hctx, _⟩ := createHierarchy_ok (fp := fp) g env halpha hbl hbs seed0 seed1
  have hr := GoodPrefixes.rounds g hfirst hp hs.toCreated hstep sizes.length 0 (by omega) [] (by intro i p h; omega)
  rw [List.drop_zero] at hr
  obtain ⟨out, o1, o2, o3⟩ := evaluateAll_ok hs hsh prefixes 0 [] ctx (Or.inl ⟨rfl, hctx⟩) (by intro h; omega) hr
  refine ⟨_, (k0, List.replicate iterations out), e, ?_, d, k1, out, rfl, hs, hsh, by rw [o2, hp.count], ?_⟩
  · unfold evaluateHierarchy
    dsimp only
    rw [mapRes_const (List.range iterations) (fun _ _ => o1), List.length_range]
    rfl
  · intro i hi
    have hip := List.getElem?_eq_getElem (l := prefixes) (i := i) (by rw [hp.count]; exact hi)
    obtain ⟨v, v1, v2⟩ := o3 i _ hip
    rw [Nat.zero_add] at v2
    refine ⟨v, v1, ?_⟩
    rw [pointsOf, List.getD_eq_getElem?_getD, hip]
    exact v2

/-- Only the levels that exist matter. -/
theorem Spec.EvaluatesHierarchy.congr {fp : FpEnv} {env : Env} {w : Width} {sizes : List Nat} {alpha : U128} {beta beta' : Nat → Nat}
    {points points' : Nat → List U128} {iterations : Nat} {r : DpfKey × List (List (List (Ty.uint w).den))}
    (h : EvaluatesHierarchy fp env w sizes alpha beta points iterations r)
    (hb : ∀ i, i < sizes.length → beta i = beta' i) (hp : ∀ i, i < sizes.length → points i = points' i) :
    EvaluatesHierarchy fp env w sizes alpha beta' points' iterations r := by
  obtain ⟨d, k1, out, o1, o2, o3, o4, o5⟩ := h
  refine ⟨d, k1, out, o1, o2, ?_, o4, ?_⟩
  · intro i hi points hpt
    obtain ⟨v0, v1, a1, a2, a3, a4, a5⟩ := o3 i hi points hpt
    refine ⟨v0, v1, a1, a2, a3, a4, ?_⟩
    rw [sizeParams_length] at hi
    rw [a5]
    dsimp only
    rw [hb i hi]
  · intro i hi
    rw [← hp i hi]; exact o5 i hi

end Verif
