import Verif.Lemmas.Aggregation
/-!
# C79, C80: two servers that add up the shares of many clients
-/
namespace Verif
open Res Spec

/-! ## C79 -/

/-- C79 (with the restrictions of C01 and C03): any number of clients generate keys for points with values for each level;
each of the two servers gets one key of every client, evaluates the contexts of all keys in the same rounds, and adds up the
results of each round. All calls succeed, and the sums of the two servers for a round add up, at each of its points `x`, to
the sum of the values of the clients whose points have the prefix `x`. -/
theorem C79_sums_partial (fp : FpEnv) (params : List DpfParameters) (T : Nat → Ty) (d : Dpf) (hs : Setup fp params T d)
    (env : Env) (reports : List (Report T)) (hne : reports ≠ []) (hr : ∀ r ∈ reports, r.Valid params)
    (rounds : List Round) (hrounds : RoundsOk params d (-1) [] rounds) :
    ∃ (keys : List (DpfKey × DpfKey)) (ctxs0 ctxs1 : List EvaluationContext) (s0 s1 : List ((h : Nat) × List (T h).den)),
      mapRes (fun r => d.generateKeysIncremental env r.alpha r.beta r.seed0 r.seed1) reports = ok keys ∧
      mapRes d.createEvaluationContext (keys.map (·.1)) = ok ctxs0 ∧
      mapRes d.createEvaluationContext (keys.map (·.2)) = ok ctxs1 ∧
      serverRounds d env T rounds ctxs0 = ok s0 ∧ serverRounds d env T rounds ctxs1 = ok s1 ∧
      s0.length = rounds.length ∧ s1.length = rounds.length ∧
      ∀ (i h : Nat) (points : List U128), (roundPoints params (-1) rounds)[i]? = some (h, points) →
        ∃ v0 v1 : List (T h).den, s0[i]? = some ⟨h, v0⟩ ∧ s1[i]? = some ⟨h, v1⟩ ∧
          v0.length = points.length ∧ v1.length = points.length ∧
          List.zipWith (T h).helper.add v0 v1 = points.map fun x => totalAt params reports h x := by
  obtain ⟨cs, C0, C1, rfl, e1, e2, e3, hk, k0, k1⟩ := reports_keys hs env reports hr
  obtain ⟨s0, s1, f0, f1, l0, l1, f⟩ := rounds_ok hs (by simpa using hne) hk rounds (-1) [] C0 C1
    (fun c hc => Or.inl ⟨rfl, k0 c hc⟩) (fun c hc => Or.inl ⟨rfl, k1 c hc⟩) (by intro h; omega) hrounds
  refine ⟨cs.map (·.2), _, _, s0, s1, e1, ?_, ?_, f0, f1, l0, l1, f⟩
  · rw [List.map_map]; exact e2
  · rw [List.map_map]; exact e3

/-- The clients of the example have the points 77, 300, 77 and 79, all with the values 1, 2, 3, 4 for the four levels. -/
def exReports : List (Report fun _ => .uint .w8) :=
  [(77, 1, 2), (300, 3, 4), (77, 5, 6), (79, 7, 8)].map fun (a, s0, s1) =>
    ⟨a, [.integer (.u64 1), .integer (.u64 2), .integer (.u64 3), .integer (.u64 4)],
      fun h => BitVec.ofNat 8 (if h < 4 then h + 1 else 0), s0, s1⟩

theorem exReports_valid : ∀ r ∈ exReports, r.Valid exParams8 := by
  intro r hr
  simp only [exReports, List.map_cons, List.map_nil, List.mem_cons, List.not_mem_nil, or_false] at hr
  have hv : BetasRepresent exParams8 (fun _ => .uint .w8) [.integer (.u64 1), .integer (.u64 2), .integer (.u64 3), .integer (.u64 4)]
      (fun h => BitVec.ofNat 8 (if h < 4 then h + 1 else 0)) := by
    refine ⟨rfl, ?_⟩
    intro h v hv
    match h, hv with
    | 0, hv => simp at hv; subst hv; exact ⟨_, rfl, rfl⟩
    | 1, hv => simp at hv; subst hv; exact ⟨_, rfl, rfl⟩
    | 2, hv => simp at hv; subst hv; exact ⟨_, rfl, rfl⟩
    | 3, hv => simp at hv; subst hv; exact ⟨_, rfl, rfl⟩
    | h + 4, hv => simp at hv
  rcases hr with rfl | rfl | rfl | rfl <;> exact ⟨by decide, hv⟩

/-- Three rounds: all 8 points of the first level; below 1 and 4 at the second one; below 19 and 4 at the last one. -/
def exRounds : List Round := [(0, []), (1, [1, 4]), (3, [19, 4])]

theorem exRounds_ok : RoundsOk exParams8 exDpf (-1) [] exRounds := by
  have p0 : outputPoints exParams8 (-1) 0 [] = [0, 1, 2, 3, 4, 5, 6, 7] := by decide +kernel
  have p1 : outputPoints exParams8 0 1 [1, 4] = [4, 5, 6, 7, 16, 17, 18, 19] := by decide +kernel
  refine ⟨by decide, by decide, by simp, by simp, by rw [if_pos (by decide)]; decide, ?_⟩
  refine ⟨by decide, by decide, by simp, ?_, ?_, ?_⟩
  · rw [show ((0 : Nat) : Int) = 0 from rfl, p0]
    intro x hx; simp at hx ⊢; rcases hx with rfl | rfl <;> simp
  · rw [if_neg (by decide)]
    exact ⟨by decide, by decide, exSmall _ _ _ (by decide)⟩
  refine ⟨by decide, by decide, by simp, ?_, ?_, trivial⟩
  · rw [show ((0 : Nat) : Int) = 0 from rfl, show ((1 : Nat) : Int) = 1 from rfl, p1]
    intro x hx; simp at hx ⊢; rcases hx with rfl | rfl <;> simp
  rw [if_neg (by decide)]
  exact ⟨by decide, by decide, exSmall _ _ _ (by decide)⟩

/-- C79 on the example: at the second level, three of the clients have the prefix 77 / 2^4 = 79 / 2^4 = 4 with the value 2
and one has the prefix 300 / 2^4 = 18. -/
example : ∃ (s0 s1 : List ((_ : Nat) × List (BitVec 8))) (v0 v1 : List (BitVec 8)),
    s0[1]? = some ⟨1, v0⟩ ∧ s1[1]? = some ⟨1, v1⟩ ∧
    List.zipWith (· + ·) v0 v1 = [6, 0, 0, 0, 0, 0, 2, 0] := by
  obtain ⟨keys, c0, c1, s0, s1, _, _, _, _, _, _, _, h⟩ := C79_sums_partial exFp exParams8 _ exDpf exDpf_setup exEnv exReports
    (by simp [exReports]) exReports_valid exRounds exRounds_ok
  obtain ⟨v0, v1, e0, e1, _, _, e⟩ := h 1 1 _ rfl
  refine ⟨s0, s1, v0, v1, e0, e1, e.trans ?_⟩
  exact (by decide +kernel : List.map (β := BitVec 8) (fun x => totalAt exParams8 exReports 1 x) (outputPoints exParams8 0 1 [1, 4]) =
    [6, 0, 0, 0, 0, 0, 2, 0])

/-! ## C80 -/

/-- C80: the values of all clients are 1 and of some unsigned integer type, there are fewer clients than it has elements
(and less than 2^31), and the servers go through any ascending levels, at each of them publishing the sums at the points below
the prefixes found before. Then, for every threshold `t ≥ 1`, they find exactly those points of the last of these levels that
are prefixes of the points of at least `t` clients, in increasing order. -/
theorem C80_hitters (fp : FpEnv) (params : List DpfParameters) (w : Nat → Width) (d : Dpf)
    (hs : Setup fp params (fun h => .uint (w h)) d) (env : Env) (reports : List (Report fun h => .uint (w h)))
    (hne : reports ≠ []) (hr : ∀ r ∈ reports, r.Valid params)
    (hone : ∀ r ∈ reports, ∀ h, h < params.length → r.b h = (1 : BitVec (w h).bits))
    (hfew : ∀ h, h < params.length → reports.length < 2 ^ (w h).bits) (hfew' : reports.length < 2 ^ 31)
    (t : Nat) (ht : 1 ≤ t) (levels : List Nat) (last : Nat) (hlast : levels.getLast? = some last) (hl : LevelsOk params (-1) levels) :
    ∃ (keys : List (DpfKey × DpfKey)) (ctxs0 ctxs1 : List EvaluationContext),
      mapRes (fun r => d.generateKeysIncremental env r.alpha r.beta r.seed0 r.seed1) reports = ok keys ∧
      mapRes d.createEvaluationContext (keys.map (·.1)) = ok ctxs0 ∧
      mapRes d.createEvaluationContext (keys.map (·.2)) = ok ctxs1 ∧
      hitters params d env w t levels (-1) [] ctxs0 ctxs1 =
        ok ((allPoints params last).filter fun x => t ≤ countAt params (reports.map (·.alpha)) last x) := by
  obtain ⟨cs, C0, C1, rfl, e1, e2, e3, hk, k0, k1⟩ := reports_keys hs env reports hr
  have h := hitters_ok hs (by simpa using hne) hk (fun c hc => hone c.1 (List.mem_map.mpr ⟨c, hc, rfl⟩))
    (fun h hh => by simpa using hfew h hh) (by simpa using hfew') ht levels (-1) [] [] C0 C1
    (fun c hc => Or.inl ⟨rfl, k0 c hc⟩) (fun c hc => Or.inl ⟨rfl, k1 c hc⟩) hl
    (Or.inl ⟨rfl, rfl, by rintro rfl; simp at hlast⟩)
  rw [hlast] at h
  refine ⟨cs.map (·.2), cs.map C0, cs.map C1, e1, ?_, ?_, ?_⟩
  · rw [List.map_map]; exact e2
  · rw [List.map_map]; exact e3
  · rw [h, List.map_map]; rfl

/-- The same clients with all values 1. -/
def exVotes : List (Report fun _ => .uint .w8) :=
  exReports.map fun r => { r with beta := List.replicate 4 (.integer (.u64 1)), b := fun _ => 1#8 }

theorem exVotes_valid : ∀ r ∈ exVotes, r.Valid exParams8 := by
  intro r hr
  obtain ⟨r', hr', rfl⟩ := List.mem_map.mp hr
  refine ⟨(exReports_valid r' hr').point, rfl, ?_⟩
  intro h v hv
  obtain rfl := List.eq_of_mem_replicate (List.mem_of_getElem? hv)
  exact ⟨_, rfl, rfl⟩

/-- C80 on the example: with levels 0, 2 and 3, exactly 77 is found to be reported twice. -/
example : ∃ keys ctxs0 ctxs1,
    mapRes (fun r : Report fun _ => .uint .w8 => exDpf.generateKeysIncremental exEnv r.alpha r.beta r.seed0 r.seed1) exVotes = ok keys ∧
    mapRes exDpf.createEvaluationContext (keys.map (·.1)) = ok ctxs0 ∧
    mapRes exDpf.createEvaluationContext (keys.map (·.2)) = ok ctxs1 ∧
    hitters exParams8 exDpf exEnv (fun _ => .w8) 2 [0, 2, 3] (-1) [] ctxs0 ctxs1 = ok [77] := by
  obtain ⟨keys, c0, c1, h1, h2, h3, h4⟩ := C80_hitters exFp exParams8 (fun _ => .w8) exDpf exDpf_setup exEnv exVotes
    (by simp [exVotes, exReports]) exVotes_valid (by
      intro r hr h _
      obtain ⟨r', hr', rfl⟩ := List.mem_map.mp hr; rfl) (by intro h _; decide) (by decide) 2 (by decide) [0, 2, 3] 3 rfl
    ⟨by decide, by decide, by decide, by decide, by decide, by decide, by decide, by decide, by decide, trivial⟩
  refine ⟨keys, c0, c1, h1, h2, h3, ?_⟩
  rw [h4, show (allPoints exParams8 3).filter (fun x => decide (2 ≤ countAt exParams8 (exVotes.map (·.alpha)) 3 x)) = [77] by
    decide +kernel]

end Verif
