import Verif.Spec.Aggregation
import Verif.Props.Evaluation
import Verif.Props.KeyGenOverloads
/-!
# Lemmas for C79 and C80
-/
namespace Verif
open Res Spec

/-- A context of `key` after rounds of which the last was at level `prev`, with values at the points `avail`. -/
def After (params : List DpfParameters) (d : Dpf) (env : Env) (key : DpfKey) (prev : Int) (avail : List U128)
    (ctx : EvaluationContext) : Prop :=
  (prev = -1 ∧ d.createEvaluationContext key = ok ctx) ∨
  ∃ (S : Ty) (h : Nat) (P : List U128) (vals : List S.den) (ctx' : EvaluationContext), History d env key ctx' ∧ prev = h ∧
    d.evaluateUntil env S.helper h P ctx' = (ok vals, ctx) ∧ ctx.previousHierarchyLevel = h ∧ (ctx'.previousHierarchyLevel < 0 ↔ P = []) ∧
    ctx'.previousHierarchyLevel < h ∧ avail = outputPoints params ctx'.previousHierarchyLevel h P

theorem allPoints_lt {params : List DpfParameters} {h : Nat} {x : U128} (hx : x ∈ allPoints params h) :
    x.toNat < 2 ^ logSize params h := by
  obtain ⟨k, hk, rfl⟩ := List.mem_map.mp hx
  rw [BitVec.toNat_ofNat]
  exact Nat.lt_of_le_of_lt (Nat.mod_le _ _) (List.mem_range.mp hk)

/-- One round on the context of one key. -/
theorem After.step {fp : FpEnv} {params : List DpfParameters} {T : Nat → Ty} {d : Dpf} (hs : Setup fp params T d)
    {env : Env} {key : DpfKey} (hkey : ∀ h, h < params.length → ∃ v, d.evaluateAt env (T h).helper key h [0] = ok v)
    (hall : ∀ h, h < params.length → ∃ v, d.evaluateAt env (T h).helper key h (allPoints params h) = ok v)
    {prev : Int} {avail : List U128} {ctx : EvaluationContext} (ha : After params d env key prev avail ctx)
    (hav : 0 ≤ prev → ∀ x ∈ avail, x.toNat < 2 ^ logSize params prev.toNat)
    {h : Nat} {P : List U128} {rounds : List Round} (hr : RoundsOk params d prev avail ((h, P) :: rounds)) :
    ∃ vals ctx', d.evaluateUntil env (T h).helper h P ctx = (ok vals, ctx') ∧
      d.evaluateAt env (T h).helper key h (outputPoints params prev h P) = ok vals ∧
      After params d env key h (outputPoints params prev h P) ctx' := by
  obtain ⟨r1, r2, r3, r4, r5, -⟩ := hr
  rcases ha with ⟨rfl, hc⟩ | ⟨S, h1, P1, vals1, ctx0, hist, rfl, hcall, hlev, hfirst, hlt, rfl⟩
  · rw [if_pos (by omega)] at r5
    obtain rfl := r3.mp (by omega)
    have hist : History d env key ctx := .create hc
    obtain ⟨e1, -⟩ := C02_full_domain fp params T d hs env key ctx hc h r2 r5
    obtain ⟨vals, hv⟩ := hall h r2
    rw [hv] at e1
    have hp : ctx.previousHierarchyLevel = -1 := by
      obtain ⟨rfl, _⟩ := hs.wf.create_ctxOk env hc; rfl
    obtain ⟨c1, c2, c3, c4⟩ := C03_incremental_partial fp params T d hs env key ctx hist (T h) h [] vals e1
      (Or.inr ⟨by
        have h1 := hs.wf.tree_le h
        rw [hs.toCreated.logAt_eq] at h1
        exact Nat.lt_of_le_of_lt (Nat.sub_le _ _) (show d.treeAt h < 64 by omega), by simp⟩)
    rw [hp] at c1
    refine ⟨vals, _, Prod.ext e1 rfl, c1, Or.inr ⟨T h, h, [], vals, ctx, hist, rfl, Prod.ext e1 rfl, c4, c2, c3, by rw [hp]⟩⟩
  · rw [if_neg (by omega), Int.toNat_natCast] at r5
    obtain ⟨q1, q2, q3⟩ := r5
    have hne : P ≠ [] := fun e => by have := r3.mpr e; omega
    have hist1 : History d env key ctx := by
      have := History.evalUntil S h1 P1 hist
      rwa [hcall] at this
    obtain ⟨vals, ctx', h2⟩ := C07_accepts_partial fp params T d hs env key ctx0 ctx hist S h1 P1 vals1 hcall h (by omega) r2 P
      hne (fun x hx => by have := hav (by omega) x (r4 x hx); rwa [Int.toNat_natCast] at this) q1 q2 (by
        by_cases h0 : P1 = []
        · exact Or.inl h0
        · right
          intro x hx
          have := r4 x hx
          rw [outputPoints, if_neg (fun hh => h0 (hfirst.mp hh)), List.mem_flatMap, Int.toNat_natCast] at this
          exact this) q3 (hkey h r2)
    obtain ⟨c1, c2, c3, c4⟩ := C03_incremental_partial fp params T d hs env key ctx hist1 (T h) h P vals
      (by rw [h2]) (by rw [hlev, Int.toNat_natCast, Int.toNat_natCast]; exact q3)
    rw [hlev] at c1
    rw [h2] at c4
    exact ⟨vals, ctx', h2, c1, Or.inr ⟨T h, h, P, vals, ctx, hist1, rfl, h2, c4, c2, c3, by rw [hlev]⟩⟩

/-! ### Sums -/

theorem addVectors_length {α : Type} (H : Helper α) {n : Nat} : (vs : List (List α)) → vs ≠ [] → (∀ v ∈ vs, v.length = n) →
    (addVectors H vs).length = n
  | [], h, _ => absurd rfl h
  | [v], _, hn => hn v (by simp)
  | v :: w :: vs, _, hn => by
    rw [addVectors, List.length_zipWith, hn v (by simp), addVectors_length H (w :: vs) (by simp) fun u hu => hn u (by simp [hu])]
    simp

theorem addVectors_zip {α γ β : Type} {H : Helper α} (g : H.IsGroup) {points : List γ} :
    (cs : List β) → (V0 V1 : β → List α) → (f : β → γ → α) → cs ≠ [] →
    (∀ c ∈ cs, (V0 c).length = points.length ∧ (V1 c).length = points.length ∧ List.zipWith H.add (V0 c) (V1 c) = points.map (f c)) →
    List.zipWith H.add (addVectors H (cs.map V0)) (addVectors H (cs.map V1)) = points.map fun x => total H (cs.map fun c => f c x)
  | [], _, _, _, h, _ => absurd rfl h
  | [c], V0, V1, f, _, hc => by
    simp only [List.map_cons, List.map_nil, addVectors, total, List.foldr_cons, List.foldr_nil, g.add_zero]
    exact (hc c (by simp)).2.2
  | c :: c' :: cs, V0, V1, f, _, hc => by
    have ih := addVectors_zip g (c' :: cs) V0 V1 f (by simp) fun x hx => hc x (by simp [hx])
    obtain ⟨l0, l1, e⟩ := hc c (by simp)
    have m0 := addVectors_length H (n := points.length) ((c' :: cs).map V0) (by simp) (by
      intro v hv; obtain ⟨x, hx, rfl⟩ := List.mem_map.mp hv; exact (hc x (by simp [hx])).1)
    have m1 := addVectors_length H (n := points.length) ((c' :: cs).map V1) (by simp) (by
      intro v hv; obtain ⟨x, hx, rfl⟩ := List.mem_map.mp hv; exact (hc x (by simp [hx])).2.1)
    have e0 : ∀ V : β → List α, addVectors H ((c :: c' :: cs).map V) =
        List.zipWith H.add (V c) (addVectors H ((c' :: cs).map V)) := fun V => rfl
    rw [e0, e0]
    generalize addVectors H ((c' :: cs).map V0) = A0 at *
    generalize addVectors H ((c' :: cs).map V1) = A1 at *
    apply List.ext_getElem
    · simp [l0, l1, m0, m1]
    · intro i h1 h2
      rw [List.length_map] at h2
      have a := congrArg (fun l => l[i]?) e
      have b := congrArg (fun l => l[i]?) ih
      rw [List.getElem?_eq_getElem (by simp [l0, l1, h2]), List.getElem?_eq_getElem (by simp [h2])] at a
      rw [List.getElem?_eq_getElem (by simp [m0, m1, h2]), List.getElem?_eq_getElem (by simp [h2])] at b
      simp only [List.getElem_zipWith, List.getElem_map, Option.some.injEq] at a b
      simp only [List.getElem_zipWith, List.getElem_map]
      rw [List.map_cons, total, List.foldr_cons, ← total, ← a, ← b]
      generalize (V0 c)[i] = p, (V1 c)[i] = q, A0[i] = r, A1[i] = s
      rw [g.add_assoc, g.add_assoc, ← g.add_assoc r, g.add_comm r q, g.add_assoc]

theorem total_filter {α β : Type} {H : Helper α} (g : H.IsGroup) (p : β → Prop) [DecidablePred p] (f : β → α) : (l : List β) →
    total H (l.map fun c => if p c then f c else H.zero) = total H ((l.filter fun c => p c).map f)
  | [] => rfl
  | c :: l => by
    have ih := total_filter g p f l
    rw [List.map_cons, total, List.foldr_cons, ← total, ih]
    by_cases h : p c
    · rw [if_pos h, List.filter_cons_of_pos (by simpa using h)]; rfl
    · rw [if_neg h, List.filter_cons_of_neg (by simpa using h), g.zero_add]

/-! ### Rounds -/

/-- A report with its keys. -/
abbrev Keyed (T : Nat → Ty) := Report T × DpfKey × DpfKey

/-- One round of both servers. -/
theorem round_ok {fp : FpEnv} {params : List DpfParameters} {T : Nat → Ty} {d : Dpf} (hs : Setup fp params T d)
    {env : Env} {cs : List (Keyed T)} (hne : cs ≠ []) (hk : ∀ c ∈ cs, SharesPoint params T d env c.1.alpha c.1.b c.2.1 c.2.2)
    {prev : Int} {avail : List U128} {C0 C1 : Keyed T → EvaluationContext}
    (h0 : ∀ c ∈ cs, After params d env c.2.1 prev avail (C0 c)) (h1 : ∀ c ∈ cs, After params d env c.2.2 prev avail (C1 c))
    (hav : 0 ≤ prev → ∀ x ∈ avail, x.toNat < 2 ^ logSize params prev.toNat)
    {h : Nat} {P : List U128} {rounds : List Round} (hr : RoundsOk params d prev avail ((h, P) :: rounds))
    (hpts : ∀ x ∈ outputPoints params prev h P, x.toNat < 2 ^ logSize params h) :
    ∃ v0 v1, ∃ D0 D1 : Keyed T → EvaluationContext,
      serverRound d env (T h).helper h P (cs.map C0) = (ok v0, cs.map D0) ∧
      serverRound d env (T h).helper h P (cs.map C1) = (ok v1, cs.map D1) ∧
      (∀ c ∈ cs, After params d env c.2.1 h (outputPoints params prev h P) (D0 c)) ∧
      (∀ c ∈ cs, After params d env c.2.2 h (outputPoints params prev h P) (D1 c)) ∧
      v0.length = (outputPoints params prev h P).length ∧ v1.length = (outputPoints params prev h P).length ∧
      List.zipWith (T h).helper.add v0 v1 = (outputPoints params prev h P).map fun x => totalAt params (cs.map (·.1)) h x := by
  have hh := hr.2.1
  have key : ∀ c ∈ cs, ∃ v0 v1, d.evaluateUntil env (T h).helper h P (C0 c) = (ok v0, (d.evaluateUntil env (T h).helper h P (C0 c)).2) ∧
      d.evaluateUntil env (T h).helper h P (C1 c) = (ok v1, (d.evaluateUntil env (T h).helper h P (C1 c)).2) ∧
      After params d env c.2.1 h (outputPoints params prev h P) (d.evaluateUntil env (T h).helper h P (C0 c)).2 ∧
      After params d env c.2.2 h (outputPoints params prev h P) (d.evaluateUntil env (T h).helper h P (C1 c)).2 ∧
      v0.length = (outputPoints params prev h P).length ∧ v1.length = (outputPoints params prev h P).length ∧
      List.zipWith (T h).helper.add v0 v1 = (outputPoints params prev h P).map fun x =>
        if x.toNat = alphaPrefix params c.1.alpha h then c.1.b h else (T h).helper.zero := by
    intro c hc
    have hz : ∀ h, ∀ x ∈ [(0 : U128)], x.toNat < 2 ^ logSize params h := by
      intro h x hx; rw [List.mem_singleton.mp hx]; exact Nat.two_pow_pos _
    obtain ⟨v0, ctx0, a1, a2, a3⟩ := (h0 c hc).step hs
      (fun h hh => let ⟨v0, _, e0, _⟩ := hk c hc h hh [0] (hz h); ⟨v0, e0⟩)
      (fun h hh => let ⟨v0, _, e0, _⟩ := hk c hc h hh _ fun x hx => allPoints_lt hx; ⟨v0, e0⟩) hav hr
    obtain ⟨v1, ctx1, b1, b2, b3⟩ := (h1 c hc).step hs
      (fun h hh => let ⟨_, v1, _, e1, _⟩ := hk c hc h hh [0] (hz h); ⟨v1, e1⟩)
      (fun h hh => let ⟨_, v1, _, e1, _⟩ := hk c hc h hh _ fun x hx => allPoints_lt hx; ⟨v1, e1⟩) hav hr
    obtain ⟨u0, u1, e0, e1, l0, l1, e⟩ := hk c hc h hh _ hpts
    rw [a2] at e0; rw [b2] at e1
    obtain rfl := Res.ok.inj e0
    obtain rfl := Res.ok.inj e1
    refine ⟨v0, v1, by rw [a1], by rw [b1], by rw [a1]; exact a3, by rw [b1]; exact b3, l0, l1, e⟩
  let V : EvaluationContext → List (T h).den := fun ctx => ((d.evaluateUntil env (T h).helper h P ctx).1).getD []
  have hV0 : ∀ c ∈ cs, (d.evaluateUntil env (T h).helper h P (C0 c)).1 = ok (V (C0 c)) := by
    intro c hc
    obtain ⟨v0, _, a, _⟩ := key c hc
    dsimp only [V]; rw [a]; rfl
  have hV1 : ∀ c ∈ cs, (d.evaluateUntil env (T h).helper h P (C1 c)).1 = ok (V (C1 c)) := by
    intro c hc
    obtain ⟨_, v1, _, a, _⟩ := key c hc
    dsimp only [V]; rw [a]; rfl
  have hm : ∀ C : Keyed T → EvaluationContext, (∀ c ∈ cs, (d.evaluateUntil env (T h).helper h P (C c)).1 = ok (V (C c))) →
      serverRound d env (T h).helper h P (cs.map C) = (ok (addVectors (T h).helper (cs.map fun c => V (C c))),
        cs.map fun c => (d.evaluateUntil env (T h).helper h P (C c)).2) := by
    intro C hC
    have e : mapRes (fun ctx => (d.evaluateUntil env (T h).helper h P ctx).1) (cs.map C) = ok (cs.map fun c => V (C c)) := by
      clear hne hk h0 h1 key hV0 hV1
      induction cs with
      | nil => rfl
      | cons c cs ih =>
        rw [List.map_cons, mapRes_cons, hC c (by simp), ih fun x hx => hC x (by simp [hx])]; rfl
    unfold serverRound
    rw [e, List.map_map]; rfl
  have hz : ∀ c ∈ cs, (V (C0 c)).length = (outputPoints params prev h P).length ∧
      (V (C1 c)).length = (outputPoints params prev h P).length ∧
      List.zipWith (T h).helper.add (V (C0 c)) (V (C1 c)) = (outputPoints params prev h P).map fun x =>
        if x.toNat = alphaPrefix params c.1.alpha h then c.1.b h else (T h).helper.zero := by
    intro c hc
    obtain ⟨v0, v1, a0, a1, _, _, a4⟩ := key c hc
    have e0 : V (C0 c) = v0 := by dsimp only [V]; rw [a0]; rfl
    have e1 : V (C1 c) = v1 := by dsimp only [V]; rw [a1]; rfl
    rw [e0, e1]; exact a4
  refine ⟨_, _, _, _, hm C0 hV0, hm C1 hV1, fun c hc => ?_, fun c hc => ?_, ?_, ?_, ?_⟩
  · obtain ⟨_, _, _, _, a, _⟩ := key c hc; exact a
  · obtain ⟨_, _, _, _, _, a, _⟩ := key c hc; exact a
  · refine addVectors_length _ _ (by simpa using hne) ?_
    intro v hv; obtain ⟨c, hc, rfl⟩ := List.mem_map.mp hv; exact (hz c hc).1
  · refine addVectors_length _ _ (by simpa using hne) ?_
    intro v hv; obtain ⟨c, hc, rfl⟩ := List.mem_map.mp hv; exact (hz c hc).2.1
  · rw [addVectors_zip (T h).helper_isGroup cs _ _ _ hne hz]
    refine List.map_congr_left fun x hx => ?_
    rw [total_filter (T h).helper_isGroup (fun c : Keyed T => x.toNat = alphaPrefix params c.1.alpha h) (fun c => c.1.b h) cs]
    unfold totalAt
    rw [List.filter_map, List.map_map]
    rfl

theorem outputPoints_range {fp : FpEnv} {params : List DpfParameters} {d : Dpf} (hc : Created fp params d)
    (wf : d.WF) {prev : Int} {h : Nat} {P : List U128} (hlt : prev < h) (hh : h < params.length)
    (hP : 0 ≤ prev → ∀ x ∈ P, x.toNat < 2 ^ logSize params prev.toNat) :
    ∀ x ∈ outputPoints params prev h P, x.toNat < 2 ^ logSize params h := by
  intro x hx
  unfold outputPoints at hx
  split at hx
  · exact allPoints_lt hx
  · rename_i h0
    obtain ⟨y, hy, hx⟩ := List.mem_flatMap.mp hx
    obtain ⟨k, hk, rfl⟩ := List.mem_map.mp hx
    rw [Int.toNat_natCast, List.mem_range] at hk
    rw [Int.toNat_natCast]
    have hl : logSize params prev.toNat < logSize params h := by
      rw [← hc.logAt_eq, ← hc.logAt_eq]
      exact wf.log_asc _ _ (by omega) (by rw [hc.n_eq]; exact hh)
    have h1 := hP (by omega) y hy
    rw [BitVec.toNat_ofNat]
    refine Nat.lt_of_le_of_lt (Nat.mod_le _ _) ?_
    have h2 : (y.toNat + 1) * 2 ^ (logSize params h - logSize params prev.toNat) ≤
        2 ^ logSize params prev.toNat * 2 ^ (logSize params h - logSize params prev.toNat) := Nat.mul_le_mul_right _ h1
    rw [← Nat.pow_add, Nat.add_sub_cancel' (Nat.le_of_lt hl), Nat.add_mul] at h2
    omega

/-- All rounds of both servers. -/
theorem rounds_ok {fp : FpEnv} {params : List DpfParameters} {T : Nat → Ty} {d : Dpf} (hs : Setup fp params T d)
    {env : Env} {cs : List (Keyed T)} (hne : cs ≠ []) (hk : ∀ c ∈ cs, SharesPoint params T d env c.1.alpha c.1.b c.2.1 c.2.2) :
    ∀ (rounds : List Round) (prev : Int) (avail : List U128) (C0 C1 : Keyed T → EvaluationContext),
    (∀ c ∈ cs, After params d env c.2.1 prev avail (C0 c)) → (∀ c ∈ cs, After params d env c.2.2 prev avail (C1 c)) →
    (0 ≤ prev → ∀ x ∈ avail, x.toNat < 2 ^ logSize params prev.toNat) → RoundsOk params d prev avail rounds →
    ∃ s0 s1 : List ((h : Nat) × List (T h).den), serverRounds d env T rounds (cs.map C0) = ok s0 ∧ serverRounds d env T rounds (cs.map C1) = ok s1 ∧
      s0.length = rounds.length ∧ s1.length = rounds.length ∧
      ∀ (i h : Nat) (points : List U128), (roundPoints params prev rounds)[i]? = some (h, points) →
        ∃ v0 v1 : List (T h).den, s0[i]? = some ⟨h, v0⟩ ∧ s1[i]? = some ⟨h, v1⟩ ∧ v0.length = points.length ∧ v1.length = points.length ∧
          List.zipWith (T h).helper.add v0 v1 = points.map fun x => totalAt params (cs.map (·.1)) h x := by
  intro rounds
  induction rounds with
  | nil =>
    intro prev avail C0 C1 _ _ _ _
    exact ⟨[], [], rfl, rfl, rfl, rfl, by intro i h points hi; simp [roundPoints] at hi⟩
  | cons r rounds ih =>
    obtain ⟨h, P⟩ := r
    intro prev avail C0 C1 h0 h1 hav hr
    have hpts := outputPoints_range hs.toCreated hs.wf hr.1 hr.2.1 (P := P) fun hp x hx => hav hp x (hr.2.2.2.1 x hx)
    obtain ⟨v0, v1, D0, D1, e0, e1, a0, a1, l0, l1, e⟩ := round_ok hs hne hk h0 h1 hav hr hpts
    obtain ⟨s0, s1, f0, f1, m0, m1, f⟩ := ih h (outputPoints params prev h P) D0 D1 a0 a1
      (fun _ => by rw [Int.toNat_natCast]; exact hpts) hr.2.2.2.2.2
    refine ⟨⟨h, v0⟩ :: s0, ⟨h, v1⟩ :: s1, ?_, ?_, by simp [m0], by simp [m1], ?_⟩
    · rw [serverRounds, e0]
      show (do let rest ← serverRounds d env T rounds (cs.map D0); ok ((⟨h, v0⟩ : (h : Nat) × List (T h).den) :: rest)) = _
      rw [f0]; rfl
    · rw [serverRounds, e1]
      show (do let rest ← serverRounds d env T rounds (cs.map D1); ok ((⟨h, v1⟩ : (h : Nat) × List (T h).den) :: rest)) = _
      rw [f1]; rfl
    · intro i h' points hi
      cases i with
      | zero =>
        simp only [roundPoints, List.getElem?_cons_zero, Option.some.injEq, Prod.mk.injEq] at hi
        obtain ⟨rfl, rfl⟩ := hi
        exact ⟨v0, v1, rfl, rfl, l0, l1, e⟩
      | succ i =>
        simp only [roundPoints, List.getElem?_cons_succ] at hi
        obtain ⟨u0, u1, g⟩ := f i h' points hi
        exact ⟨u0, u1, by simpa using g⟩

/-- Keys and contexts for all reports. -/
theorem reports_keys {fp : FpEnv} {params : List DpfParameters} {T : Nat → Ty} {d : Dpf} (hs : Setup fp params T d)
    (env : Env) (reports : List (Report T)) (hr : ∀ r ∈ reports, r.Valid params) :
    ∃ cs : List (Keyed T), ∃ C0 C1 : Keyed T → EvaluationContext, cs.map (·.1) = reports ∧
      mapRes (fun r => d.generateKeysIncremental env r.alpha r.beta r.seed0 r.seed1) reports = ok (cs.map (·.2)) ∧
      mapRes d.createEvaluationContext (cs.map (·.2.1)) = ok (cs.map C0) ∧
      mapRes d.createEvaluationContext (cs.map (·.2.2)) = ok (cs.map C1) ∧
      (∀ c ∈ cs, SharesPoint params T d env c.1.alpha c.1.b c.2.1 c.2.2) ∧
      (∀ c ∈ cs, d.createEvaluationContext c.2.1 = ok (C0 c)) ∧ (∀ c ∈ cs, d.createEvaluationContext c.2.2 = ok (C1 c)) := by
  refine (?_ : ∃ cs : List (Keyed T), _ ∧ _ ∧ _ ∧ _ ∧ _ ∧ _ ∧ _).imp fun cs h =>
    ⟨fun c => (d.createEvaluationContext c.2.1).getD ⟨[], none, 0, [], 0⟩, fun c => (d.createEvaluationContext c.2.2).getD ⟨[], none, 0, [], 0⟩, h⟩
  induction reports with
  | nil => exact ⟨[], rfl, rfl, rfl, rfl, by simp, by simp, by simp⟩
  | cons r reports ih =>
    obtain ⟨cs, i1, i2, i3, i4, i5, i6, i7⟩ := ih fun r hr' => hr r (by simp [hr'])
    have hv := hr r (by simp)
    obtain ⟨k0, k1, hk, hsh⟩ := C01_point_function_partial fp params T d hs env r.alpha hv.point r.beta r.b hv.values r.seed0 r.seed1
    obtain ⟨k0', k1', hk', hacc⟩ := C17_keys_accepted fp params T d hs env r.alpha hv.point r.beta r.b hv.values r.seed0 r.seed1
    rw [hk] at hk'
    obtain ⟨rfl, rfl⟩ := Prod.mk.inj (Res.ok.inj hk')
    obtain ⟨_, ⟨c0, hc0, _⟩, _⟩ := hacc k0 (Or.inl rfl)
    obtain ⟨_, ⟨c1, hc1, _⟩, _⟩ := hacc k1 (Or.inr rfl)
    refine ⟨(r, k0, k1) :: cs, by simp [i1], ?_, ?_, ?_, ?_, ?_, ?_⟩
    · rw [mapRes_cons, hk, i2]; rfl
    · rw [List.map_cons, mapRes_cons, hc0, i3, List.map_cons, hc0]; rfl
    · rw [List.map_cons, mapRes_cons, hc1, i4, List.map_cons, hc1]; rfl
    · intro c hc
      rcases List.mem_cons.mp hc with rfl | hc
      · exact hsh
      · exact i5 c hc
    · intro c hc
      rcases List.mem_cons.mp hc with rfl | hc
      · show d.createEvaluationContext k0 = ok ((d.createEvaluationContext k0).getD _)
        rw [hc0]; rfl
      · exact i6 c hc
    · intro c hc
      rcases List.mem_cons.mp hc with rfl | hc
      · show d.createEvaluationContext k1 = ok ((d.createEvaluationContext k1).getD _)
        rw [hc1]; rfl
      · exact i7 c hc

/-! ### Heavy hitters -/

theorem total_ones (w : Nat) {β : Type} (l : List β) : total (uintHelper w) (l.map fun _ => (1 : BitVec w)) = BitVec.ofNat w l.length := by
  induction l with
  | nil => rfl
  | cons a l ih =>
    rw [List.map_cons, total, List.foldr_cons, ← total, ih, List.length_cons, Nat.add_comm, BitVec.ofNat_add]; rfl

/-- With all values 1, the sums count. -/
theorem totalAt_count {params : List DpfParameters} {w : Nat → Width} (reports : List (Report fun h => .uint (w h)))
    (hone : ∀ r ∈ reports, ∀ h, h < params.length → r.b h = (1 : BitVec (w h).bits)) {h : Nat} (hh : h < params.length)
    (hfew : reports.length < 2 ^ (w h).bits) (x : U128) :
    BitVec.toNat (w := (w h).bits) (totalAt params reports h x) = countAt params (reports.map (·.alpha)) h x := by
  have e : totalAt params reports h x = BitVec.ofNat (w h).bits (reports.filter fun r => x.toNat = alphaPrefix params r.alpha h).length := by
    rw [← total_ones]
    unfold totalAt
    exact congrArg _ (List.map_congr_left fun r hr => hone r (List.mem_filter.mp hr).1 h hh)
  rw [e, BitVec.toNat_ofNat, countAt, List.countP_map, List.countP_eq_length_filter]
  refine Nat.mod_eq_of_lt (Nat.lt_of_le_of_lt (List.length_filter_le _ _) hfew)

theorem zip_map_filter {α β : Type} (f : α → β) (p : β → Bool) : (l : List α) →
    ((l.zip (l.map f)).filter fun q => p q.2).map (·.1) = l.filter fun x => p (f x)
  | [] => rfl
  | a :: l => by
    rw [List.map_cons, List.zip_cons_cons, List.filter_cons, List.filter_cons]
    split
    · rw [List.map_cons, zip_map_filter f p l]
    · exact zip_map_filter f p l

/-- All points of a level are the extensions of all points of a level before. -/
theorem allPoints_extend {params : List DpfParameters} {a b : Nat} (hab : logSize params a ≤ logSize params b) (hb : logSize params b ≤ 128) :
    (allPoints params a).flatMap (extensions params a b) = allPoints params b := by
  unfold allPoints
  have e : ∀ g : Nat, (List.range (2 ^ logSize params a)).flatMap (fun x => (List.range g).map fun k => x * g + k) =
      List.range (2 ^ logSize params a * g) := by
    intro g
    generalize 2 ^ logSize params a = n
    induction n with
    | zero => simp
    | succ n ih =>
      rw [List.range_succ, List.flatMap_append, ih, List.flatMap_singleton, Nat.succ_mul, List.range_add]
  have h := e (2 ^ (logSize params b - logSize params a))
  rw [← Nat.pow_add, Nat.add_sub_cancel' hab] at h
  rw [← h, List.flatMap_map, List.map_flatMap]
  rw [List.flatMap_def, List.flatMap_def]
  refine congrArg _ (List.map_congr_left fun x hx => ?_)
  rw [List.mem_range] at hx
  have : 2 ^ logSize params a ≤ 2 ^ 128 := Nat.pow_le_pow_right (by omega) (by omega)
  unfold extensions
  rw [List.map_map, BitVec.toNat_ofNat, Nat.mod_eq_of_lt (by omega)]
  rfl

theorem filter_flatMap_filter {α β : Type} (p : α → Bool) (q : β → Bool) (f : α → List β) : (l : List α) →
    (∀ x ∈ l, ∀ y ∈ f x, q y = true → p x = true) → ((l.filter p).flatMap f).filter q = (l.flatMap f).filter q
  | [], _ => rfl
  | a :: l, h => by
    have ih := filter_flatMap_filter p q f l fun x hx => h x (by simp [hx])
    rw [List.flatMap_cons, List.filter_append, ← ih]
    by_cases hp : p a = true
    · rw [List.filter_cons_of_pos hp, List.flatMap_cons, List.filter_append]
    · rw [List.filter_cons_of_neg hp, List.filter_eq_nil_iff.mpr fun y hy hq => hp (h a (by simp) y hy hq), List.nil_append]

/-- The points that at least `t` clients have as a prefix. -/
def heavyAt (params : List DpfParameters) (alphas : List U128) (t h : Nat) : List U128 :=
  (allPoints params h).filter fun x => t ≤ countAt params alphas h x

theorem heavy_extend {params : List DpfParameters} {a b : Nat} (hab : logSize params a ≤ logSize params b)
    (hbl : logSize params b ≤ lastLogSize params) (hb : logSize params b ≤ 128) (alphas : List U128) (t : Nat) :
    ((heavyAt params alphas t a).flatMap (extensions params a b)).filter (fun x => decide (t ≤ countAt params alphas b x)) =
      heavyAt params alphas t b := by
  unfold heavyAt
  rw [filter_flatMap_filter, allPoints_extend hab hb]
  intro x hx y hy hq
  rw [decide_eq_true_eq] at hq ⊢
  refine Nat.le_trans hq (List.countP_mono_left fun c _ hc => ?_)
  rw [decide_eq_true_eq] at hc ⊢
  have hxl := allPoints_lt hx
  obtain ⟨k, hk, rfl⟩ := List.mem_map.mp hy
  rw [List.mem_range] at hk
  have h2 : (x.toNat + 1) * 2 ^ (logSize params b - logSize params a) ≤
      2 ^ logSize params a * 2 ^ (logSize params b - logSize params a) := Nat.mul_le_mul_right _ hxl
  rw [← Nat.pow_add, Nat.add_sub_cancel' hab, Nat.add_mul] at h2
  have h3 : 2 ^ logSize params b ≤ 2 ^ 128 := Nat.pow_le_pow_right (by omega) hb
  rw [BitVec.toNat_ofNat, Nat.mod_eq_of_lt (by omega)] at hc
  unfold alphaPrefix at hc ⊢
  have h4 : lastLogSize params - logSize params a =
      (lastLogSize params - logSize params b) + (logSize params b - logSize params a) := by omega
  rw [h4, Nat.pow_add, ← Nat.div_div_eq_div_mul, ← hc, Nat.add_comm, Nat.add_mul_div_right _ _ (Nat.two_pow_pos _),
    Nat.div_eq_of_lt hk, Nat.zero_add]

theorem heavy_length {params : List DpfParameters} {h : Nat} (hb : logSize params h ≤ 128) (alphas : List U128) {t : Nat} (ht : 1 ≤ t) :
    (heavyAt params alphas t h).length ≤ alphas.length := by
  have hn : (heavyAt params alphas t h).Nodup := by
    refine List.Pairwise.filter _ ?_
    unfold allPoints
    rw [List.pairwise_map]
    refine List.Pairwise.imp_of_mem ?_ List.pairwise_lt_range
    intro i j hi hj hij e
    rw [List.mem_range] at hi hj
    have h3 : 2 ^ logSize params h ≤ 2 ^ 128 := Nat.pow_le_pow_right (by omega) hb
    have := congrArg BitVec.toNat e
    rw [BitVec.toNat_ofNat, BitVec.toNat_ofNat, Nat.mod_eq_of_lt (by omega), Nat.mod_eq_of_lt (by omega)] at this
    omega
  have := hn.length_le_of_subset (l₂ := alphas.map fun a => BitVec.ofNat 128 (alphaPrefix params a h)) (by
    intro x hx
    have h1 := (List.mem_filter.mp hx).2
    rw [decide_eq_true_eq] at h1
    obtain ⟨a, ha, e⟩ := List.countP_pos_iff.mp (Nat.lt_of_lt_of_le ht h1)
    rw [decide_eq_true_eq] at e
    exact List.mem_map.mpr ⟨a, ha, by rw [← e]; simp⟩)
  rwa [List.length_map] at this

/-- The rounds after the first, and the first one. -/
theorem hitters_ok {fp : FpEnv} {params : List DpfParameters} {w : Nat → Width} {d : Dpf}
    (hs : Setup fp params (fun h => .uint (w h)) d)
    {env : Env} {cs : List (Keyed fun h => .uint (w h))} (hne : cs ≠ [])
    (hk : ∀ c ∈ cs, SharesPoint params (fun h => .uint (w h)) d env c.1.alpha c.1.b c.2.1 c.2.2)
    (hone : ∀ c ∈ cs, ∀ h, h < params.length → c.1.b h = (1 : BitVec (w h).bits))
    (hfew : ∀ h, h < params.length → cs.length < 2 ^ (w h).bits) (hfew' : cs.length < 2 ^ 31) {t : Nat} (ht : 1 ≤ t) :
    ∀ (levels : List Nat) (prev : Int) (found avail : List U128) (C0 C1 : Keyed (fun h => .uint (w h)) → EvaluationContext),
    (∀ c ∈ cs, After params d env c.2.1 prev avail (C0 c)) → (∀ c ∈ cs, After params d env c.2.2 prev avail (C1 c)) →
    LevelsOk params prev levels →
    ((prev = -1 ∧ found = [] ∧ levels ≠ []) ∨ (0 ≤ prev ∧ prev.toNat < params.length ∧ (∀ x ∈ found, x ∈ avail) ∧
      (∀ x ∈ avail, x.toNat < 2 ^ logSize params prev.toNat) ∧
      found = heavyAt params (cs.map (·.1.alpha)) t prev.toNat)) →
    hitters params d env w t levels prev found (cs.map C0) (cs.map C1) =
      ok (heavyAt params (cs.map (·.1.alpha)) t (levels.getLast?.getD prev.toNat)) := by
  have hc := hs.toCreated
  have wf := hs.wf
  have hasc : ∀ a b : Nat, a < b → b < params.length → logSize params a < logSize params b := by
    intro a b hab hb
    rw [← hc.logAt_eq, ← hc.logAt_eq]
    exact wf.log_asc _ _ hab (by rw [hc.n_eq]; exact hb)
  have hle : ∀ a, logSize params a ≤ 128 := fun a => by rw [← hc.logAt_eq]; exact wf.log_le a
  have hlast : ∀ a, a < params.length → logSize params a ≤ lastLogSize params := by
    intro a ha
    unfold lastLogSize
    rcases Nat.lt_or_ge a (params.length - 1) with h1 | h1
    · exact Nat.le_of_lt (hasc _ _ h1 (by omega))
    · rw [show a = params.length - 1 by omega]; omega
  intro levels
  induction levels with
  | nil =>
    intro prev found avail C0 C1 h0 h1 hl hf
    rcases hf with ⟨_, _, h⟩ | ⟨_, _, _, _, rfl⟩
    · exact absurd rfl h
    · rfl
  | cons h levels ih =>
    intro prev found avail C0 C1 h0 h1 hl hf
    obtain ⟨hl1, hl2, hl3, hl4⟩ := hl
    have hgl : ∀ x : Nat, ((h :: levels).getLast?.getD x) = levels.getLast?.getD h := by
      intro x
      rw [List.getLast?_cons]; simp
    rw [hgl]
    unfold hitters
    by_cases hz : 0 ≤ prev ∧ found = []
    · rw [if_pos hz]
      -- nothing found: nothing is heavy later
      rcases hf with ⟨hp, _⟩ | ⟨hp1, hp2, hp3, hp4, hp5⟩
      · omega
      · have hm : ∀ (levels : List Nat) (prev : Int), 0 ≤ prev → prev.toNat < params.length → LevelsOk params prev levels →
            heavyAt params (cs.map (·.1.alpha)) t prev.toNat = [] →
            heavyAt params (cs.map (·.1.alpha)) t (levels.getLast?.getD prev.toNat) = [] := by
          intro levels
          induction levels with
          | nil => intro prev _ _ _ h; exact h
          | cons h levels ih =>
            intro prev a1 a2 a3 a4
            obtain ⟨b1, b2, b3, b4⟩ := a3
            have e := heavy_extend (Nat.le_of_lt (hasc _ _ (by omega) b2)) (hlast h b2) (hle h) (cs.map (·.1.alpha)) t (a := prev.toNat)
            rw [a4] at e
            have := ih h (by omega) (by rw [Int.toNat_natCast]; exact b2) b4 (by rw [Int.toNat_natCast, ← e]; rfl)
            rw [List.getLast?_cons]
            simpa using this
        have := hm (h :: levels) prev hp1 hp2 ⟨hl1, hl2, hl3, hl4⟩ (by rw [← hp5]; exact hz.2)
        rw [hgl] at this
        rw [this]
    · rw [if_neg hz]
      have hr : RoundsOk params d prev avail ((h, found) :: []) := by
        refine ⟨hl1, hl2, ?_, ?_, ?_, trivial⟩
        · rcases hf with ⟨rfl, rfl, _⟩ | ⟨hp, _⟩
          · simp
          · constructor
            · intro h; omega
            · intro h; exact absurd ⟨hp, h⟩ hz
        · rcases hf with ⟨_, rfl, _⟩ | ⟨_, _, hp, _⟩
          · simp
          · exact hp
        · split
          · rename_i hp
            rw [if_pos hp] at hl3; exact hl3
          · rename_i hp
            rw [if_neg hp] at hl3
            rcases hf with ⟨hp', _⟩ | ⟨hp1, hp2, hp3, hp4, hp5⟩
            · omega
            · have hlen : found.length ≤ cs.length := by
                rw [hp5]
                refine Nat.le_trans (heavy_length (hle _) _ ht) (by simp)
              refine ⟨by omega, ?_, Or.inl ?_⟩
              · have a1 : 2 ^ (logSize params h - logSize params prev.toNat) ≤ 2 ^ 23 := Nat.pow_le_pow_right (by omega) (by omega)
                have a2 := Nat.mul_le_mul (Nat.le_trans hlen (Nat.le_of_lt hfew')) a1
                have a3 : 2 ^ 31 * 2 ^ 23 < (2 : Nat) ^ 63 := by decide
                omega
              · have a1 := wf.tree_le h
                have a2 := wf.log_le_tree prev.toNat
                rw [hc.logAt_eq] at a1 a2
                have a3 : d.treeAt h - d.treeAt prev.toNat < 31 := by omega
                refine ⟨a3, ?_⟩
                have a4 : 2 ^ (d.treeAt h - d.treeAt prev.toNat) ≤ 2 ^ 30 := Nat.pow_le_pow_right (by omega) (by omega)
                have a5 := Nat.mul_le_mul (Nat.le_trans hlen (Nat.le_of_lt hfew')) a4
                have a6 : 2 ^ 31 * 2 ^ 30 < (2 : Nat) ^ 64 := by decide
                exact Nat.lt_of_le_of_lt a5 a6
      have hav : 0 ≤ prev → ∀ x ∈ avail, x.toNat < 2 ^ logSize params prev.toNat := by
        intro hp
        rcases hf with ⟨hp', _⟩ | ⟨_, _, _, hp4, _⟩
        · omega
        · exact hp4
      have hpts := outputPoints_range hc wf hl1 hl2 (P := found) fun hp x hx => hav hp x (hr.2.2.2.1 x hx)
      obtain ⟨v0, v1, D0, D1, e0, e1, a0, a1, l0, l1, e⟩ := round_ok hs hne hk h0 h1 hav hr hpts
      have e0' : serverRound d env (uintHelper (w h).bits) h found (cs.map C0) = (ok v0, cs.map D0) := e0
      have e1' : serverRound d env (uintHelper (w h).bits) h found (cs.map C1) = (ok v1, cs.map D1) := e1
      rw [e0', e1']
      show hitters params d env w t levels h ((((outputPoints params prev h found).zip
        (List.zipWith (Ty.uint (w h)).helper.add v0 v1)).filter fun q => decide (t ≤ BitVec.toNat (w := (w h).bits) q.2)).map (·.1))
        (cs.map D0) (cs.map D1) = _
      rw [e, zip_map_filter (fun x => totalAt params (cs.map (·.1)) h x) (fun v => decide (t ≤ BitVec.toNat (w := (w h).bits) v))]
      have hcount : (fun x => decide (t ≤ BitVec.toNat (w := (w h).bits) (totalAt params (cs.map (·.1)) h x))) =
          fun x => decide (t ≤ countAt params (cs.map (·.1.alpha)) h x) := by
        funext x
        rw [totalAt_count (cs.map (·.1)) (by
          intro r hr; obtain ⟨c, hc, rfl⟩ := List.mem_map.mp hr; exact hone c hc) hl2 (by simpa using hfew h hl2) x, List.map_map]
        rfl
      rw [hcount]
      have hnew : (outputPoints params prev h found).filter (fun x => decide (t ≤ countAt params (cs.map (·.1.alpha)) h x)) =
          heavyAt params (cs.map (·.1.alpha)) t h := by
        rcases hf with ⟨rfl, rfl, _⟩ | ⟨hp1, hp2, hp3, hp4, rfl⟩
        · rw [outputPoints, if_pos (by omega)]; rfl
        · rw [outputPoints, if_neg (by omega), Int.toNat_natCast]
          exact heavy_extend (Nat.le_of_lt (hasc _ _ (by omega) hl2)) (hlast h hl2) (hle h) _ _
      have := ih h _ (outputPoints params prev h found) D0 D1 a0 a1 hl4 (Or.inr ⟨by omega, by rw [Int.toNat_natCast]; exact hl2,
        fun x hx => (List.mem_filter.mp hx).1, by rw [Int.toNat_natCast]; exact hpts, by rw [Int.toNat_natCast]; exact hnew⟩)
      rw [Int.toNat_natCast] at this
      exact this

end Verif
