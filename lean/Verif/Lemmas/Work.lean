import Verif.Spec.Work
import Verif.Lemmas.FaultsOn
import Verif.Lemmas.FaultsHistory
import Verif.Lemmas.Machine
import Verif.Lemmas.Communication
/-! # Calls of the cipher and of the allocator -/
namespace Verif
open Res Spec Faulty

/-- If the run without failures returns, the run with them makes `n` calls. -/
def Costs {α : Type} (m : Faulty α) (x : Res α) (n : Nat) : Prop := ∀ a, x = ok a → MakesCalls m n a

/-- The same for code that modifies an object. -/
def CostsOn {κ α : Type} (m : FaultyOn κ α) (x : Res α × κ) (n : Nat) : Prop :=
  ∀ a c, x = (ok a, c) → MakesCallsOn m n a c

theorem Costs.lift {α : Type} (x : Res α) : Costs (lift x) x 0 := by
  rintro a rfl more
  rw [Nat.zero_add]; rfl

theorem Costs.bind {α β : Type} {m : Faulty α} {x : Res α} {f : α → Faulty β} {g : α → Res β} {n n' : Nat}
    (h : Costs m x n) (hf : ∀ a, x = ok a → Costs (f a) (g a) n') : Costs (m >>= f) (x >>= g) (n + n') := by
  intro b hb more
  cases x with
  | ok a =>
    rw [bind_ok] at hb
    show Faulty.bind m f _ = _
    unfold Faulty.bind
    rw [Nat.add_assoc, h a rfl]
    exact hf a rfl b hb more
  | err c => exact nomatch hb
  | ub => exact nomatch hb
  | crash => exact nomatch hb

theorem Costs.liftThen {α β : Type} {x : Res α} {f : α → Faulty β} {g : α → Res β} {n : Nat}
    (hf : ∀ a, x = ok a → Costs (f a) (g a) n) : Costs (Faulty.lift x >>= f) (x >>= g) n := by
  have := Costs.bind (.lift x) hf
  rwa [Nat.zero_add] at this

theorem Costs.call (c : Code) : Costs (Faulty.call c) (ok ()) 1 := by
  rintro a h more
  cases h
  rw [Nat.add_comm, List.replicate_succ]; rfl

theorem Costs.callThen {β : Type} {c : Code} {f : Unit → Faulty β} {x : Res β} {n : Nat} (h : Costs (f ()) x n) :
    Costs (Faulty.call c >>= f) x (1 + n) :=
  Costs.bind (x := ok ()) (g := fun _ => x) (.call c) (fun _ _ => h)

theorem Costs.ite {α : Type} {P : Prop} [Decidable P] {m m' : Faulty α} {x x' : Res α} {n : Nat}
    (h : P → Costs m x n) (h' : ¬ P → Costs m' x' n) : Costs (if P then m else m') (if P then x else x') n := by
  by_cases hp : P
  · rw [if_pos hp, if_pos hp]; exact h hp
  · rw [if_neg hp, if_neg hp]; exact h' hp

theorem Costs.cast {α : Type} {m : Faulty α} {x : Res α} {n n' : Nat} (h : Costs m x n) (e : n = n') :
    Costs m x n' := e ▸ h

theorem Costs.fold {α σ : Type} {f : σ → α → Faulty σ} {g : σ → α → Res σ} {c : α → Nat} :
    ∀ (l : List α), (∀ a ∈ l, ∀ s, Costs (f s a) (g s a) (c a)) →
      ∀ s : σ, Costs (fold f s l) (foldRes g s l) (l.map c).sum
  | [], _, s => .lift (ok s)
  | a :: l, h, s => by
    rw [foldRes_cons, List.map_cons, List.sum_cons]
    exact .bind (h a (by simp) s) fun s' _ => Costs.fold l (fun b hb => h b (by simp [hb])) s'

theorem Costs.foldConst {α σ : Type} {f : σ → α → Faulty σ} {g : σ → α → Res σ} {c : Nat} (l : List α)
    (h : ∀ a ∈ l, ∀ s, Costs (f s a) (g s a) c) (s : σ) : Costs (Faulty.fold f s l) (foldRes g s l) (l.length * c) :=
  (Costs.fold (c := fun _ => c) l h s).cast (sum_map_const _ _)

theorem CostsOn.done {κ α : Type} (r : Res α) (c : κ) : CostsOn (endF r c) (r, c) 0 := by
  intro a c' h more
  cases h
  rw [Nat.zero_add]; rfl

theorem CostsOn.keep {κ α β : Type} {m : Faulty α} {x : Res α} {c c0 : κ} {f : α → FaultyOn κ β}
    {g : α → Res β × κ} {n n' : Nat} (h : Costs m x n) (hf : ∀ a, x = ok a → CostsOn (f a) (g a) n') :
    CostsOn (keepF m c f) (Dpf.keep x c0 g) (n + n') := by
  intro b c' hb more
  cases x with
  | ok a =>
    unfold keepF
    rw [Nat.add_assoc, h a rfl]
    exact hf a rfl b c' hb more
  | err c => exact nomatch hb
  | ub => exact nomatch hb
  | crash => exact nomatch hb

theorem CostsOn.thenDo {κ α β : Type} {m : FaultyOn κ α} {y : Res (α × κ)} {c0 : κ}
    {f : α → κ → FaultyOn κ β} {g : α × κ → Res β × κ} {n n' : Nat}
    (h : ∀ a c, y = ok (a, c) → MakesCallsOn m n a c)
    (hf : ∀ a c, y = ok (a, c) → CostsOn (f a c) (g (a, c)) n') : CostsOn (thenF m f) (Dpf.keep y c0 g) (n + n') := by
  intro b c' hb more
  cases y with
  | ok ac =>
    unfold thenF
    rw [Nat.add_assoc, h ac.1 ac.2 rfl]
    exact hf ac.1 ac.2 rfl b c' hb more
  | err c => exact nomatch hb
  | ub => exact nomatch hb
  | crash => exact nomatch hb

theorem blockStarts_length (n : Nat) : (blockStarts n Aes128FixedKeyHash.kBatchSize).length = batches n := by
  simp [blockStarts, batches, Aes128FixedKeyHash.kBatchSize]

/-- The last batch may be smaller, but is not empty. -/
theorem batch_one {n start : Nat} (h : start ∈ blockStarts n Aes128FixedKeyHash.kBatchSize) :
    batches (min (n - start) Aes128FixedKeyHash.kBatchSize) = 1 := by
  unfold blockStarts Aes128FixedKeyHash.kBatchSize at h
  obtain ⟨i, hi, rfl⟩ := List.mem_map.mp h
  have hi := List.mem_range.mp hi
  unfold batches Aes128FixedKeyHash.kBatchSize
  omega

theorem batches_le {n : Nat} (h : 0 < n) (h' : n ≤ 64) : batches n = 1 := by unfold batches; omega

namespace Aes128FixedKeyHash

theorem evaluate_costs (env : Env) (key : U128) (alias : Bool) (input out : List U128) :
    Costs (evaluateF env key alias input out) (evaluate env key alias input out) (batches input.length) := by
  unfold evaluateF evaluate
  refine .liftThen fun _ _ => (Costs.foldConst (c := 1) _ (fun a _ s => ?_) _).cast ?_
  · unfold evaluateBatchF evaluateBatch
    exact .liftThen fun _ _ => .callThen (n := 0) (.liftThen fun _ _ => .liftThen fun _ _ => .lift _)
  · rw [blockStarts_length, Nat.mul_one]

theorem evaluate_costs' (env : Env) (key : U128) (alias : Bool) (input out : List U128) {n : Nat}
    (h : batches input.length = n) :
    Costs (evaluateF env key alias input out) (evaluate env key alias input out) n := (evaluate_costs _ _ _ _ _).cast h

end Aes128FixedKeyHash
open Aes128FixedKeyHash

theorem slice_length {α : Type} {l r : List α} {s n : Nat} (h : slice l s n = ok r) : r.length = n := by
  unfold slice at h
  split at h
  · cases h; simp; omega
  · exact nomatch h

theorem evaluateSeedsNoHwy_costs (env : Env) (keyL keyR : U128) (numSeeds numLevels numCw : Nat)
    (seedsIn : List U128) (controlIn : List Bool) (paths : List U128) (rightshift : Int)
    (corr : CorrArrays) (alias : Bool) (seedsOut : List U128) (controlOut : List Bool) :
    Costs (evaluateSeedsNoHwyF env keyL keyR numSeeds numLevels numCw seedsIn controlIn paths rightshift corr alias
      seedsOut controlOut) (evaluateSeedsNoHwy env keyL keyR numSeeds numLevels numCw seedsIn controlIn paths rightshift
      corr alias seedsOut controlOut) (batches numSeeds * (numLevels * 2)) := by
  unfold evaluateSeedsNoHwyF evaluateSeedsNoHwy
  refine (Costs.foldConst (c := numLevels * 2) _ (fun start hst s => ?_) _).cast (by rw [blockStarts_length])
  refine (Costs.foldConst (c := 2) _ (fun level _ s => ?_) _).cast (by rw [List.length_range])
  unfold noHwyLevelF noHwyLevel
  exact .liftThen fun x hx => .bind (n := 1) (n' := 1) (evaluate_costs' _ _ _ _ _ (by
      rw [slice_length hx]; exact batch_one hst)) fun _ _ =>
    .bind (n := 1) (n' := 0) (evaluate_costs' _ _ _ _ _ (by rw [slice_length hx]; exact batch_one hst)) fun _ _ =>
    .liftThen fun _ _ => .liftThen fun _ _ => .liftThen fun _ _ => .liftThen fun _ _ => .liftThen fun _ _ =>
    .liftThen fun _ _ => .liftThen fun _ _ => .lift _

/-- Seeds that do not fill a vector. -/
theorem rest_eq (n b : Nat) (hb : 0 < b) :
    n - (n * 16 / (4 * (16 * b)) * (4 * (16 * b)) +
      (n * 16 - n * 16 / (4 * (16 * b)) * (4 * (16 * b))) / (16 * b) * (16 * b)) / 16 = n % b := by
  have e : 4 * (16 * b) = 16 * (4 * b) := by omega
  rw [e, Nat.mul_comm n 16, Nat.mul_div_mul_left _ _ (by decide)]
  generalize hf : n / (4 * b) = f
  have h1 : f * (4 * b) ≤ n := by rw [← hf]; exact Nat.div_mul_le_self _ _
  have e2 : f * (16 * (4 * b)) = 16 * (f * (4 * b)) := by rw [Nat.mul_left_comm]
  rw [e2, ← Nat.mul_sub, Nat.mul_div_mul_left _ _ (by decide)]
  generalize hm : n - f * (4 * b) = m
  have e3 : m / b * (16 * b) = 16 * (m / b * b) := by rw [Nat.mul_left_comm]
  rw [e3, ← Nat.mul_add, Nat.mul_div_cancel_left _ (by decide), ← Nat.sub_sub, hm]
  have h2 : n = m + f * 4 * b := by rw [Nat.mul_assoc]; omega
  rw [h2, Nat.add_mul_mod_self_right]
  have := Nat.div_add_mod m b
  rw [Nat.mul_comm] at this
  omega

theorem evaluateSeedsHwy_costs (h : HwyEnv) (ha : h.aligned = true) {b : Nat} (hb : 0 < b) (hl : h.lanes = 16 * b)
    (env : Env) (keyL keyR : U128) {numSeeds numLevels : Nat} (h1 : numSeeds ≠ 0) (h2 : numLevels ≠ 0) (numCw : Nat)
    (seedsIn : List U128) (controlIn : List Bool) (paths : List U128) (rightshift : Int)
    (corr : CorrArrays) (alias : Bool) (seedsOut : List U128) (controlOut : List Bool) :
    Costs (evaluateSeedsHwyF h env keyL keyR numSeeds numLevels numCw seedsIn controlIn paths rightshift corr alias
      seedsOut controlOut) (evaluateSeedsHwy h env keyL keyR numSeeds numLevels numCw seedsIn controlIn paths rightshift
      corr alias seedsOut controlOut) (2 + if numSeeds % b = 0 then 0 else 1) := by
  unfold evaluateSeedsHwyF evaluateSeedsHwy
  have n1 : ¬ (numSeeds = 0 ∨ numLevels = 0) := by simp only [h1, h2, or_self, not_false_eq_true]
  have n2 : ¬ (h.aligned = false ∨ h.lanes < 16 ∨ h.lanes % 16 ≠ 0) := by
    rw [ha, hl]
    simp only [Bool.true_eq_false, false_or]
    omega
  rw [if_neg n1, if_neg n1, if_neg n2, if_neg n2]
  refine Costs.cast (.callThen (.callThen (n := if numSeeds % b = 0 then 0 else 1)
    (.liftThen fun _ _ => .liftThen fun _ _ => ?_))) (by rw [← Nat.add_assoc])
  dsimp only
  rw [hl, rest_eq _ _ hb]
  by_cases hr : numSeeds % b = 0
  · rw [if_pos hr, if_neg (by omega), if_neg (by omega)]; exact .lift _
  · rw [if_neg hr, if_pos (by omega), if_pos (by omega)]; exact .callThen (n := 0) (.lift _)

theorem evaluateSeeds_costs {env : Env} {vector : Option Nat} (hp : UsesVectors env vector) (ev : DpfExpansion)
    (paths : List U128) (cws : List CorrectionWord) (hne : ev.seeds.length ≠ 0) :
    Costs (evaluateSeedsF env ev paths cws) (evaluateSeeds env ev paths cws)
      (walkCalls vector ev.seeds.length cws.length) := by
  unfold evaluateSeedsF evaluateSeeds walkCalls
  refine .liftThen fun _ _ => ?_
  by_cases hc : cws.length = 0
  · rw [if_pos (.inr hc), if_pos (.inr hc), if_pos hc]; exact .lift _
  · have hn : ¬ (ev.seeds.length = 0 ∨ cws.length = 0) := by simp only [hne, hc, or_self, not_false_eq_true]
    rw [if_neg hn, if_neg hn, if_neg hc]
    refine .callThen (.bind (n' := 0) ?_ fun _ _ => .lift _)
    unfold evaluateSeedsInternalF evaluateSeedsInternal
    refine .liftThen fun _ _ => ?_
    dsimp only
    cases vector with
    | none =>
      have hp : ∀ numSeeds numLevels numCw seeds paths, env.target numSeeds numLevels numCw seeds paths = none := hp
      rw [hp]
      exact (evaluateSeedsNoHwy_costs _ _ _ _ _ _ _ _ _ _ _ _ _ _).cast (by
        rw [Nat.mul_comm, Nat.mul_comm cws.length])
    | some b =>
      obtain ⟨hb, ht⟩ := hp
      obtain ⟨t, ht, ha, hl⟩ := ht ev.seeds.length cws.length (cws.length : Int).toNat ev.seeds paths
      rw [ht]
      exact evaluateSeedsHwy_costs _ ha hb hl _ _ _ hne hc _ _ _ _ _ _ _ _ _

theorem expandLevel_costs (env : Env) (ev : DpfExpansion) (cw : CorrectionWord) :
    Costs (expandLevelF env ev cw) (expandLevel env ev cw) (2 * batches ev.seeds.length) := by
  unfold expandLevelF expandLevel
  refine (Costs.foldConst (c := 2) _ (fun start hst s => ?_) _).cast (by rw [blockStarts_length, Nat.mul_comm])
  exact .liftThen fun x hx => .bind (n := 1) (n' := 1) (evaluate_costs' _ _ _ _ _ (by
      rw [slice_length hx]; exact batch_one hst)) fun _ _ =>
    .bind (n := 1) (n' := 0) (evaluate_costs' _ _ _ _ _ (by rw [slice_length hx]; exact batch_one hst)) fun _ _ =>
    .liftThen fun _ _ => .lift _

theorem expandLevels_costs (env : Env) (cws : List CorrectionWord) (ns : List Node) :
    Costs (fold (expandLevelF env) (.ofNodes ns) cws) (foldRes (expandLevel env) (.ofNodes ns) cws)
      ((List.range cws.length).map fun l => 2 * batches (ns.length * 2 ^ l)).sum := by
  induction cws generalizing ns with
  | nil => exact .lift _
  | cons cw cws ih =>
    rw [foldRes_cons, List.length_cons, List.range_succ_eq_map, List.map_cons, List.sum_cons, List.map_map]
    refine .bind ((expandLevel_costs _ _ _).cast (by simp [DpfExpansion.ofNodes])) fun s hs => ?_
    rw [expandLevel_ofNodes] at hs
    cases hs
    refine (ih _).cast ?_
    congr 1
    apply List.map_congr_left
    intro l _
    simp only [Function.comp_def, List.length_flatMap, List.length_cons, List.length_nil]
    rw [sum_map_const, Nat.pow_succ']
    congr 2
    rw [Nat.mul_assoc]

theorem expandSeeds_costs (env : Env) (cws : List CorrectionWord) (ns : List Node) :
    Costs (expandSeedsF env (.ofNodes ns) cws) (expandSeeds env (.ofNodes ns) cws)
      (2 + ((List.range cws.length).map fun l => 2 * batches (ns.length * 2 ^ l)).sum) := by
  unfold expandSeedsF expandSeeds
  refine (Costs.callThen (Costs.callThen (Costs.ite (fun _ => expandLevels_costs _ _ _) fun _ => ?_))).cast
    (by rw [← Nat.add_assoc])
  intro a h
  exact nomatch h

theorem getD_of_rd {α : Type} {l : List α} {i : Nat} {a d : α} (h : rd l i = ok a) : l.getD i d = a := by
  unfold rd at h
  cases e : l[i]? with
  | none => rw [e] at h; exact nomatch h
  | some b => rw [e] at h; cases h; rw [List.getD_eq_getElem?_getD, e]; rfl

namespace Dpf
variable {d : Dpf}

theorem computeValueCorrection_costs (env : Env) (h : Nat) (seeds : U128 × U128) (alpha : U128)
    (beta : Value) (invert : Bool) :
    Costs (d.computeValueCorrectionF env h seeds alpha beta invert)
      (d.computeValueCorrection env h seeds alpha beta invert) (batches (2 * d.blocksAt h)) := by
  unfold computeValueCorrectionF computeValueCorrection
  refine .liftThen fun k hk => .bind (n' := 0) (evaluate_costs' _ _ _ _ _ ?_) fun _ _ => .liftThen fun _ _ =>
    .liftThen fun _ _ => .liftThen fun _ _ => .lift _
  have e : d.blocksAt h = k := getD_of_rd hk
  rw [e, List.length_append, Nat.two_mul]
  simp [iota]
  rfl

theorem valueCorrectionAt_costs (env : Env) (treeLevel : Nat) (alpha : U128) (beta : List Value) (st : GenState) :
    Costs (d.valueCorrectionAtF env treeLevel alpha beta st) (d.valueCorrectionAt env treeLevel alpha beta st)
      (match d.pv.treeToHierarchy.lookup (treeLevel - 1) with
        | some h => batches (2 * d.blocksAt h)
        | none => 0) := by
  unfold valueCorrectionAtF valueCorrectionAt
  cases d.pv.treeToHierarchy.lookup (treeLevel - 1) with
  | none => exact .lift _
  | some h =>
    refine .liftThen fun p _ => .liftThen fun last _ => ?_
    dsimp only
    by_cases hs : last - p.logDomainSize < 128
    · rw [if_pos hs, if_pos hs]
      exact .liftThen fun _ _ => .liftThen fun _ _ => computeValueCorrection_costs _ _ _ _ _ _
    · rw [if_neg hs, if_neg hs]
      exact .liftThen fun _ _ => .liftThen fun _ _ => computeValueCorrection_costs _ _ _ _ _ _

theorem generateNext_costs (env : Env) (alpha : U128) (beta : List Value) (st : GenState) (treeLevel : Nat) :
    Costs (d.generateNextF env alpha beta st treeLevel) (d.generateNext env alpha beta st treeLevel)
      ((match d.pv.treeToHierarchy.lookup (treeLevel - 1) with
        | some h => batches (2 * d.blocksAt h)
        | none => 0) + 2) := by
  unfold generateNextF generateNext
  exact .bind (valueCorrectionAt_costs _ _ _ _ _) fun _ _ => .bind (n := 1) (n' := 1) (evaluate_costs' _ _ _ _ _ (by simp [batches]))
    fun _ _ => .bind (n := 1) (n' := 0) (evaluate_costs' _ _ _ _ _ (by simp [batches])) fun _ _ => .lift _

theorem sum_zeros {l : List Nat} (h : ∀ x ∈ l, x = 0) : l.sum = 0 := by
  induction l with
  | nil => rfl
  | cons a l ih => rw [List.sum_cons, h a (by simp), ih fun x hx => h x (by simp [hx])]

theorem sum_single (c : Nat) {n k : Nat} (h : k < n) : ((List.range n).map fun i => if i = k then c else 0).sum = c := by
  induction n with
  | zero => omega
  | succ n ih =>
    rw [List.range_succ, List.map_append, List.sum_append]
    simp only [List.map_cons, List.map_nil, List.sum_cons, List.sum_nil, Nat.add_zero]
    by_cases e : n = k
    · rw [if_pos e, sum_zeros, Nat.zero_add]
      intro x hx
      obtain ⟨i, hi, rfl⟩ := List.mem_map.mp hx
      have hi := List.mem_range.mp hi
      rw [if_neg (by omega)]
    · rw [if_neg e, Nat.add_zero]
      exact ih (by omega)

/-- What is counted at each level of the tree and at the end is what is counted for each level of the hierarchy. -/
theorem WF.levels_sum (wf : d.WF) (g : Nat → Nat) :
    ((List.range (d.treeAt (d.n - 1))).map fun t =>
      (match d.pv.treeToHierarchy.lookup t with
        | some h => g h
        | none => 0)).sum + g (d.n - 1) = ((List.range d.n).map g).sum := by
  have hpos := wf.pos
  have e : ∀ t, (match d.pv.treeToHierarchy.lookup t with
        | some h => g h
        | none => 0) = ((List.range d.n).map fun h => if d.treeAt h = t then g h else 0).sum := by
    intro t
    cases hl : d.pv.treeToHierarchy.lookup t with
    | none =>
      symm
      dsimp only
      apply sum_zeros
      intro x hx
      obtain ⟨h, hh, rfl⟩ := List.mem_map.mp hx
      have hh := List.mem_range.mp hh
      rw [if_neg]
      intro ht
      have := (wf.lookup t h).mpr ⟨hh, ht⟩
      rw [hl] at this
      exact nomatch this
    | some h0 =>
      obtain ⟨h1, h2⟩ := (wf.lookup t h0).mp hl
      dsimp only
      have : ∀ h ∈ List.range d.n, (if d.treeAt h = t then g h else 0) = if h = h0 then g h0 else 0 := by
        intro h hh
        have hh := List.mem_range.mp hh
        by_cases e : h = h0
        · rw [e, if_pos h2, if_pos rfl]
        · rw [if_neg e, if_neg]
          intro ht
          rcases Nat.lt_or_gt_of_ne e with hlt | hlt
          · have := wf.tree_asc _ _ hlt h1; omega
          · have := wf.tree_asc _ _ hlt hh; omega
      rw [List.map_congr_left this]
      exact (sum_single _ h1).symm
  simp only [e]
  rw [sum_places]
  obtain ⟨m, hm⟩ : ∃ m, d.n = m + 1 := ⟨d.n - 1, by omega⟩
  rw [hm, List.range_succ, List.map_append, List.map_append, List.sum_append, List.sum_append]
  simp only [List.map_cons, List.map_nil, List.sum_cons, List.sum_nil, Nat.add_zero, Nat.add_sub_cancel]
  rw [if_neg (by omega), Nat.add_zero]
  congr 2
  apply List.map_congr_left
  intro h hh
  have hh := List.mem_range.mp hh
  exact if_pos (wf.tree_asc _ _ hh (by omega))

theorem WF.generateKeys_costs (wf : d.WF) (env : Env) (alpha : U128) (beta : List Value) (seed0 seed1 : U128) :
    Costs (d.generateKeysIncrementalF env alpha beta seed0 seed1)
      (d.generateKeysIncremental env alpha beta seed0 seed1)
      (keyGenCalls (d.treeAt (d.n - 1)) d.n d.blocksAt) := by
  unfold generateKeysIncrementalF generateKeysIncremental
  refine Costs.cast (.liftThen fun _ _ => .bind
    (.fold _ (fun t _ s => generateNext_costs env alpha beta s t) _) fun _ _ =>
    .liftThen fun _ _ => .bind (n' := 0) (computeValueCorrection_costs _ _ _ _ _ _) fun _ _ => .lift _) ?_
  rw [List.map_map, wf.needed, Nat.add_sub_cancel]
  simp only [Function.comp_def, Nat.add_sub_cancel, Nat.add_zero]
  rw [sum_map_add, sum_map_const, List.length_range]
  unfold keyGenCalls
  rw [← wf.levels_sum fun h => batches (2 * d.blocksAt h)]
  have : d.pv.parameters.length = d.n := rfl
  rw [this]
  omega

theorem hashExpandedSeeds_costs (env : Env) (h : Nat) (expansion : List U128) :
    Costs (d.hashExpandedSeedsF env h expansion) (d.hashExpandedSeeds env h expansion)
      (1 + batches (expansion.length * d.blocksAt h)) := by
  unfold hashExpandedSeedsF hashExpandedSeeds
  refine .liftThen fun k hk => .callThen (evaluate_costs' _ _ _ _ _ ?_)
  have e : d.blocksAt h = k := getD_of_rd hk
  rw [e]
  simp [iota, List.length_flatMap, sum_map_const]

/-- Levels of the tree above a level, in a key that was accepted. -/
theorem WF.words_length (wf : d.WF) {key : DpfKey} (hk : d.KeyOk key) {h : Nat} (hh : h < d.n) {stop : Nat}
    (hstop : rd d.pv.hierarchyToTree h = ok stop) {cws : List CorrectionWord}
    (hc : subspan key.correctionWords 0 ((stop : Int) - (0 : Nat)) = ok cws) : cws.length = d.treeAt h := by
  have e : d.treeAt h = stop := getD_of_rd hstop
  have h1 := hk.len
  have h2 := wf.tree_lt_needed hh
  unfold subspan at hc
  rw [if_neg (by omega), if_neg (by omega)] at hc
  cases hc
  simp
  omega

theorem expandAndUpdateContext_calls (wf : d.WF) (env : Env) {h : Nat} (hh : h < d.n) {ctx : EvaluationContext}
    (hk : d.KeyOk ctx.keyD) {ev : DpfExpansion} {ctx' : EvaluationContext}
    (he : d.expandAndUpdateContext env h [] ctx = ok (ev, ctx')) :
    MakesCallsOn (d.expandAndUpdateContextF env h [] ctx)
      (3 + ((List.range (d.treeAt h)).map fun l => 2 * batches (2 ^ l)).sum) ev ctx' ∧
      ev.seeds.length = 2 ^ d.treeAt h := by
  unfold expandAndUpdateContext at he
  rw [if_pos rfl, bind_ok] at he
  dsimp only at he
  obtain ⟨stop, hstop, he⟩ := bind_eq_ok.mp he
  obtain ⟨cws, hcws, he⟩ := bind_eq_ok.mp he
  obtain ⟨ev', hev, he⟩ := bind_eq_ok.mp he
  cases he
  have hl := wf.words_length hk hh hstop hcws
  have hroot : (⟨[ctx.keyD.seedBlock], [decide (ctx.keyD.party ≠ 0)]⟩ : DpfExpansion) =
      .ofNodes [⟨ctx.keyD.seedBlock, decide (ctx.keyD.party ≠ 0)⟩] := rfl
  rw [hroot] at hev
  have hcost := expandSeeds_costs env cws [⟨ctx.keyD.seedBlock, decide (ctx.keyD.party ≠ 0)⟩] _ hev
  constructor
  · intro more
    unfold expandAndUpdateContextF expandFromF
    rw [if_pos rfl, hroot]
    have e1 : 3 + ((List.range (d.treeAt h)).map fun l => 2 * batches (2 ^ l)).sum + more =
        1 + (2 + ((List.range cws.length).map fun l => 2 * batches ([Node.mk ctx.keyD.seedBlock
          (decide (ctx.keyD.party ≠ 0))].length * 2 ^ l)).sum + more) := by
      rw [hl]
      simp only [List.length_cons, List.length_nil, Nat.zero_add, Nat.one_mul]
      omega
    rw [e1]
    unfold keepF
    rw [Costs.call .resourceExhausted () rfl]
    dsimp only
    rw [hstop]
    dsimp only [lift]
    rw [hcws]
    dsimp only
    rw [hcost more]
    rfl
  · by_cases hf : [Node.mk ctx.keyD.seedBlock (decide (ctx.keyD.party ≠ 0))].length * 2 ^ cws.length < 2 ^ 64
    · rw [expandSeeds_ofNodes _ _ _ hf] at hev
      cases hev
      simp [DpfExpansion.ofNodes, hl]
    · rw [expandSeeds_ub _ _ _ hf] at hev
      exact nomatch hev

/-- Evaluating the whole domain. -/
theorem WF.evaluateUntil_costs (wf : d.WF) {α : Type} (env : Env) (H : Helper α) (h : Int) (ctx : EvaluationContext) :
    CostsOn (d.evaluateUntilF env H h [] ctx) (d.evaluateUntil env H h [] ctx)
      (domainCalls (d.treeAt h.toNat) (d.blocksAt h.toNat)) := by
  have e0 : domainCalls (d.treeAt h.toNat) (d.blocksAt h.toNat) =
      0 + (0 + ((3 + ((List.range (d.treeAt h.toNat)).map fun l => 2 * batches (2 ^ l)).sum) +
        ((1 + batches (2 ^ d.treeAt h.toNat * d.blocksAt h.toNat)) + 0))) := by
    unfold domainCalls; omega
  rw [e0]
  unfold evaluateUntilF evaluateUntil
  refine .keep (.lift _) fun x hx => ?_
  obtain ⟨hN, prevH, gap⟩ := x
  obtain ⟨ha, hN', _⟩ := wf.untilArgs_of_ok hx
  subst hN'
  have hh : h.toNat < d.n := by have := ha.level; omega
  have hk : d.KeyOk ctx.keyD := by
    have hv := ha.ctx_ok
    unfold ProtoValidator.validateEvaluationContext at hv
    obtain ⟨_, _, hv⟩ := bind_eq_ok.mp hv
    obtain ⟨_, _, hv⟩ := bind_eq_ok.mp hv
    obtain ⟨_, _, hv⟩ := bind_eq_ok.mp hv
    obtain ⟨_, hv, _⟩ := bind_eq_ok.mp hv
    exact (wf.validateDpfKey_iff _).mp hv
  refine .keep (.lift _) fun y hy => ?_
  obtain ⟨ti, pm⟩ := y
  have hti : ti = [] := by
    have : d.dedupPrefixes prevH [] = ok ([], []) := rfl
    rw [this] at hy; cases hy; rfl
  subst hti
  refine .thenDo (fun ev c he => (expandAndUpdateContext_calls wf env hh hk he).1) fun ev ctx' he => ?_
  have hlen := (expandAndUpdateContext_calls wf env hh hk he).2
  have e : (d.finishUntil env H h.toNat gap [] [] pm ctx'.keyD ev, ctx') =
      keep (d.hashExpandedSeeds env h.toNat ev.seeds) ctx' fun hashed =>
        (d.correctUntil H h.toNat gap [] [] pm ctx'.keyD ev hashed, ctx') := by
    rw [Verif.Dpf.finishUntil_eq]
    cases d.hashExpandedSeeds env h.toNat ev.seeds <;> rfl
  dsimp only
  rw [e]
  exact .keep ((hashExpandedSeeds_costs _ _ _).cast (by rw [hlen])) fun _ _ => .done _ _

theorem checkEvaluateAt_level {key : DpfKey} {l : Int} {points : List U128} {x : Nat}
    (h : d.checkEvaluateAt key l points = ok x) : x = l.toNat ∧ x < d.n := by
  unfold checkEvaluateAt at h
  obtain ⟨_, h1, h⟩ := bind_eq_ok.mp h
  obtain ⟨_, h2, h⟩ := bind_eq_ok.mp h
  have hx : x = l.toNat := by
    obtain ⟨_, _, h⟩ := bind_eq_ok.mp h
    dsimp only at h
    split at h
    · obtain ⟨_, _, h⟩ := bind_eq_ok.mp h
      obtain ⟨_, _, h⟩ := bind_eq_ok.mp h
      obtain ⟨_, _, h⟩ := bind_eq_ok.mp h
      obtain ⟨_, _, h⟩ := bind_eq_ok.mp h
      cases h; rfl
    · obtain ⟨_, _, h⟩ := bind_eq_ok.mp h
      obtain ⟨_, _, h⟩ := bind_eq_ok.mp h
      obtain ⟨_, _, h⟩ := bind_eq_ok.mp h
      cases h; rfl
  refine ⟨hx, ?_⟩
  have h3 : ¬ l < 0 := by
    intro hc; rw [failIf_true hc] at h1; exact nomatch h1
  have h4 : ¬ l ≥ (d.pv.parameters.length : Int) := by
    intro hc; rw [failIf_true hc] at h2; exact nomatch h2
  unfold n
  omega

/-- Evaluating points. -/
theorem WF.evaluateAt_costs (wf : d.WF) {α : Type} {env : Env} {vector : Option Nat}
    (hp : UsesVectors env vector) (H : Helper α) (key : DpfKey) (h : Int)
    (points : List U128) (hne : points ≠ []) :
    Costs (d.evaluateAtF env H key h points) (d.evaluateAt env H key h points)
      (pointCalls vector points.length (d.treeAt h.toNat) (d.blocksAt h.toNat) H.elementsPerBlock) := by
  have e0 : pointCalls vector points.length (d.treeAt h.toNat) (d.blocksAt h.toNat) H.elementsPerBlock =
      (if 1 < H.elementsPerBlock then 1 else 0) + (1 +
      (walkCalls vector points.length (d.treeAt h.toNat) +
      ((1 + batches (points.length * d.blocksAt h.toNat)) + 0))) := by unfold pointCalls; omega
  rw [e0]
  unfold evaluateAtF evaluateAt
  refine .liftThen fun hN hh => ?_
  obtain ⟨hN', hlt⟩ := checkEvaluateAt_level hh
  subst hN'
  have hk := (wf.validateDpfKey_iff _).mp (checkEvaluateAt_key hh)
  rw [if_neg hne, if_neg hne]
  have hc1 : Costs (d.treeIndicesForF H h.toNat points) (d.treeIndicesFor H h.toNat points)
      (if 1 < H.elementsPerBlock then 1 else 0) := by
    unfold treeIndicesForF treeIndicesFor
    by_cases he : 1 < H.elementsPerBlock
    · rw [if_pos he, if_pos he, if_pos he]; exact .callThen (n := 0) (.lift _)
    · rw [if_neg he, if_neg he, if_neg he]; exact .lift _
  refine .bind hc1 fun ti hti => .callThen ?_
  have hpos : 0 < points.length := List.length_pos_iff.mpr hne
  unfold finishAtF finishAt
  refine .liftThen fun stop hstop => .liftThen fun cws hcws => ?_
  have hl := wf.words_length hk hlt hstop hcws
  refine .bind ((evaluateSeeds_costs hp _ _ _ (by simp; omega)).cast (by rw [hl]; simp)) fun ev hev => ?_
  have hlen : ev.seeds.length = points.length := by
    have hti' : ti.length = points.length := by
      unfold evaluateSeeds at hev
      obtain ⟨_, h1, _⟩ := bind_eq_ok.mp hev
      refine Classical.byContradiction fun hc => ?_
      rw [failIf_true (by right; simpa using fun e => hc e.symm)] at h1
      exact nomatch h1
    have hroot : (⟨List.replicate points.length key.seedBlock,
        List.replicate points.length (decide (key.party ≠ 0))⟩ : DpfExpansion) =
        .ofNodes (List.replicate points.length ⟨key.seedBlock, decide (key.party ≠ 0)⟩) := by
      simp [DpfExpansion.ofNodes]
    rw [hroot, evaluateSeeds_ofNodes _ _ _ _ (by simp [hti']) (by
      have := wf.tree_le h.toNat
      have := wf.log_le h.toNat
      omega)] at hev
    cases hev
    simp [DpfExpansion.ofNodes, hti']
  exact .bind ((hashExpandedSeeds_costs _ _ _).cast (by rw [hlen])) fun _ _ => .lift _

end Dpf
end Verif
