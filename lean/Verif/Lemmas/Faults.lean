import Verif.Spec.Faults
import Verif.Lemmas.AtCtx
import Verif.Lemmas.History
/-! # Failing calls of the environment -/
namespace Verif
open Res Spec Faulty

/-- A run with failures follows the run without. -/
def Follows {α : Type} (m : Faulty α) (x : Res α) : Prop := ∀ fs, Reported fs (m fs).2 x (m fs).1

theorem Follows.lift {α : Type} (x : Res α) : Follows (lift x) x := fun fs => ⟨[], rfl, .inl ⟨by simp, rfl⟩⟩

theorem Follows.bind {α β : Type} {m : Faulty α} {x : Res α} {f : α → Faulty β} {g : α → Res β}
    (h : Follows m x) (hf : ∀ a, x = ok a → Follows (f a) (g a)) : Follows (m >>= f) (x >>= g) := by
  intro fs
  show Reported fs (Faulty.bind m f fs).2 _ (Faulty.bind m f fs).1
  obtain ⟨made, e, hm⟩ := h fs
  unfold Faulty.bind
  rcases hr : m fs with ⟨r, rest⟩
  rw [hr] at e hm
  dsimp only at e hm
  rcases hm with ⟨h1, rfl⟩ | ⟨h1, rfl | rfl⟩
  · cases r with
    | ok a =>
      dsimp only
      rw [bind_ok]
      obtain ⟨made', e', hm'⟩ := hf a rfl rest
      refine ⟨made ++ made', by rw [e, List.append_assoc, ← e'], ?_⟩
      rcases hm' with ⟨h2, h3⟩ | ⟨h2, h3⟩
      · exact .inl ⟨by simp [h1, h2], h3⟩
      · exact .inr ⟨by simp [h2], h3⟩
    | err c => exact ⟨made, e, .inl ⟨h1, rfl⟩⟩
    | ub => exact ⟨made, e, .inl ⟨h1, rfl⟩⟩
    | crash => exact ⟨made, e, .inl ⟨h1, rfl⟩⟩
  · exact ⟨made, e, .inr ⟨h1, .inl rfl⟩⟩
  · exact ⟨made, e, .inr ⟨h1, .inr rfl⟩⟩

/-- Codes of failing calls. -/
def FaultCode (c : Code) : Prop := c = .internal ∨ c = .resourceExhausted

theorem Follows.call {c : Code} (hc : FaultCode c) : Follows (Faulty.call c) (ok ()) := by
  intro fs
  match fs with
  | [] => exact ⟨[], rfl, .inl ⟨by simp, rfl⟩⟩
  | false :: fs => exact ⟨[false], rfl, .inl ⟨by simp, rfl⟩⟩
  | true :: fs =>
    refine ⟨[true], rfl, .inr ⟨by simp, ?_⟩⟩
    rcases hc with rfl | rfl
    · exact .inl rfl
    · exact .inr rfl

theorem Follows.callThen {β : Type} {c : Code} (hc : FaultCode c) {f : Unit → Faulty β} {x : Res β}
    (h : Follows (f ()) x) : Follows (Faulty.call c >>= f) x :=
  Follows.bind (x := ok ()) (g := fun _ => x) (.call hc) (fun _ _ => h)

theorem Follows.callTwiceThen {β : Type} {c : Code} (hc : FaultCode c) {f : Unit → Faulty β} {x : Res β}
    (h : Follows (f ()) x) : Follows (callTwice c >>= f) x := by
  refine Follows.bind (x := ok ()) (g := fun _ => x) ?_ (fun _ _ => h)
  intro fs
  have hcode : ∀ r : Res Unit, r = err c → r = err .internal ∨ r = err .resourceExhausted := by
    rintro _ rfl
    rcases hc with rfl | rfl
    · exact .inl rfl
    · exact .inr rfl
  match fs with
  | [] => exact ⟨[], rfl, .inl ⟨by simp, rfl⟩⟩
  | [false] => exact ⟨[false], rfl, .inl ⟨by simp, rfl⟩⟩
  | [true] => exact ⟨[true], rfl, .inr ⟨by simp, hcode _ rfl⟩⟩
  | false :: false :: fs => exact ⟨[false, false], rfl, .inl ⟨by simp, rfl⟩⟩
  | false :: true :: fs => exact ⟨[false, true], rfl, .inr ⟨by simp, hcode _ rfl⟩⟩
  | true :: false :: fs => exact ⟨[true, false], rfl, .inr ⟨by simp, hcode _ rfl⟩⟩
  | true :: true :: fs => exact ⟨[true, true], rfl, .inr ⟨by simp, hcode _ rfl⟩⟩

theorem Follows.liftThen {α β : Type} {x : Res α} {f : α → Faulty β} {g : α → Res β}
    (hf : ∀ a, x = ok a → Follows (f a) (g a)) : Follows (Faulty.lift x >>= f) (x >>= g) := .bind (.lift x) hf

theorem Follows.fold {α σ : Type} {f : σ → α → Faulty σ} {g : σ → α → Res σ} (h : ∀ s a, Follows (f s a) (g s a)) :
    ∀ (l : List α) (s : σ), Follows (fold f s l) (foldRes g s l)
  | [], s => .lift (ok s)
  | a :: l, s => by
    rw [foldRes_cons]
    exact .bind (h s a) fun s' _ => Follows.fold h l s'

theorem Follows.ite {α : Type} {P : Prop} [Decidable P] {m m' : Faulty α} {x x' : Res α} (h : P → Follows m x)
    (h' : ¬ P → Follows m' x') : Follows (if P then m else m') (if P then x else x') := by
  by_cases hp : P
  · rw [if_pos hp, if_pos hp]; exact h hp
  · rw [if_neg hp, if_neg hp]; exact h' hp

theorem internalCode : FaultCode .internal := .inl rfl
theorem memoryCode : FaultCode .resourceExhausted := .inr rfl

namespace Aes128FixedKeyHash

theorem evaluateBatch_follows (env : Env) (key : U128) (input : List U128) (n : Nat) (out : List U128) (start : Nat) :
    Follows (evaluateBatchF env key input n out start) (evaluateBatch env key input n out start) := by
  unfold evaluateBatchF evaluateBatch
  exact .liftThen fun _ _ => .callThen internalCode (.liftThen fun _ _ => .liftThen fun _ _ => .lift _)

theorem evaluate_follows (env : Env) (key : U128) (alias : Bool) (input out : List U128) :
    Follows (evaluateF env key alias input out) (evaluate env key alias input out) := by
  unfold evaluateF evaluate
  exact .liftThen fun _ _ => .fold (fun _ _ => evaluateBatch_follows _ _ _ _ _ _) _ _

end Aes128FixedKeyHash
open Aes128FixedKeyHash

theorem noHwyLevel_follows (env : Env) (keyL keyR : U128) (numSeeds numLevels numCw : Nat)
    (seedsIn : List U128) (controlIn : List Bool) (paths : List U128) (rightshift : Int)
    (corr : CorrArrays) (alias : Bool) (start batch : Nat) (st : List U128 × List Bool) (level : Nat) :
    Follows (noHwyLevelF env keyL keyR numSeeds numLevels numCw seedsIn controlIn paths rightshift corr alias start batch
      st level) (noHwyLevel env keyL keyR numSeeds numLevels numCw seedsIn controlIn paths rightshift corr alias start
      batch st level) := by
  unfold noHwyLevelF noHwyLevel
  exact .liftThen fun _ _ => .bind (evaluate_follows _ _ _ _ _) fun _ _ => .bind (evaluate_follows _ _ _ _ _) fun _ _ =>
    .liftThen fun _ _ => .liftThen fun _ _ => .liftThen fun _ _ => .liftThen fun _ _ => .liftThen fun _ _ =>
    .liftThen fun _ _ => .liftThen fun _ _ => .lift _

theorem evaluateSeedsNoHwy_follows (env : Env) (keyL keyR : U128) (numSeeds numLevels numCw : Nat)
    (seedsIn : List U128) (controlIn : List Bool) (paths : List U128) (rightshift : Int)
    (corr : CorrArrays) (alias : Bool) (seedsOut : List U128) (controlOut : List Bool) :
    Follows (evaluateSeedsNoHwyF env keyL keyR numSeeds numLevels numCw seedsIn controlIn paths rightshift corr alias
      seedsOut controlOut) (evaluateSeedsNoHwy env keyL keyR numSeeds numLevels numCw seedsIn controlIn paths rightshift
      corr alias seedsOut controlOut) := by
  unfold evaluateSeedsNoHwyF evaluateSeedsNoHwy
  exact .fold (fun _ _ => .fold (fun _ _ => noHwyLevel_follows _ _ _ _ _ _ _ _ _ _ _ _ _ _ _ _) _ _) _ _

theorem evaluateSeedsHwy_follows (h : HwyEnv) (env : Env) (keyL keyR : U128) (numSeeds numLevels numCw : Nat)
    (seedsIn : List U128) (controlIn : List Bool) (paths : List U128) (rightshift : Int)
    (corr : CorrArrays) (alias : Bool) (seedsOut : List U128) (controlOut : List Bool) :
    Follows (evaluateSeedsHwyF h env keyL keyR numSeeds numLevels numCw seedsIn controlIn paths rightshift corr alias
      seedsOut controlOut) (evaluateSeedsHwy h env keyL keyR numSeeds numLevels numCw seedsIn controlIn paths rightshift
      corr alias seedsOut controlOut) := by
  unfold evaluateSeedsHwyF evaluateSeedsHwy
  refine .ite (fun _ => .lift _) fun _ => .ite (fun _ => evaluateSeedsNoHwy_follows _ _ _ _ _ _ _ _ _ _ _ _ _ _)
    fun _ => .callThen internalCode (.callThen internalCode (.liftThen fun _ _ => .liftThen fun _ _ =>
      .ite (fun _ => .callThen memoryCode (.lift _)) fun _ => .lift _))

theorem evaluateSeedsInternal_follows (env : Env) (keyL keyR : U128) (numSeeds numLevels : Nat) (numCw : Int)
    (seedsIn : List U128) (controlIn : List Bool) (paths : List U128) (rightshift : Int)
    (corr : CorrArrays) (alias : Bool) (seedsOut : List U128) (controlOut : List Bool) :
    Follows (evaluateSeedsInternalF env keyL keyR numSeeds numLevels numCw seedsIn controlIn paths rightshift corr alias
      seedsOut controlOut) (evaluateSeedsInternal env keyL keyR numSeeds numLevels numCw seedsIn controlIn paths
      rightshift corr alias seedsOut controlOut) := by
  unfold evaluateSeedsInternalF evaluateSeedsInternal
  refine .liftThen fun _ _ => ?_
  dsimp only
  cases env.target numSeeds numLevels numCw.toNat seedsIn paths
  · exact evaluateSeedsNoHwy_follows _ _ _ _ _ _ _ _ _ _ _ _ _ _
  · exact evaluateSeedsHwy_follows _ _ _ _ _ _ _ _ _ _ _ _ _ _ _

theorem evaluateSeeds_follows (env : Env) (ev : DpfExpansion) (paths : List U128) (cws : List CorrectionWord) :
    Follows (evaluateSeedsF env ev paths cws) (evaluateSeeds env ev paths cws) := by
  unfold evaluateSeedsF evaluateSeeds
  exact .liftThen fun _ _ => .ite (fun _ => .lift _) fun _ =>
    .callThen memoryCode (.bind (evaluateSeedsInternal_follows _ _ _ _ _ _ _ _ _ _ _ _ _ _) fun _ _ => .lift _)

theorem expandLevel_follows (env : Env) (ev : DpfExpansion) (cw : CorrectionWord) :
    Follows (expandLevelF env ev cw) (expandLevel env ev cw) := by
  unfold expandLevelF expandLevel
  exact .fold (fun _ _ => .liftThen fun _ _ => .bind (evaluate_follows _ _ _ _ _) fun _ _ =>
    .bind (evaluate_follows _ _ _ _ _) fun _ _ => .liftThen fun _ _ => .lift _) _ _

theorem expandSeeds_follows (env : Env) (ev : DpfExpansion) (cws : List CorrectionWord) :
    Follows (expandSeedsF env ev cws) (expandSeeds env ev cws) := by
  unfold expandSeedsF expandSeeds
  exact .callThen memoryCode (.callThen memoryCode
    (.ite (fun _ => .fold (expandLevel_follows env) _ _) fun _ => .lift _))

namespace Dpf
variable {d : Dpf}

theorem computeValueCorrection_follows (env : Env) (h : Nat) (seeds : U128 × U128) (alpha : U128)
    (beta : Value) (invert : Bool) :
    Follows (d.computeValueCorrectionF env h seeds alpha beta invert)
      (d.computeValueCorrection env h seeds alpha beta invert) := by
  unfold computeValueCorrectionF computeValueCorrection
  exact .liftThen fun _ _ => .bind (evaluate_follows _ _ _ _ _) fun _ _ => .liftThen fun _ _ => .liftThen fun _ _ =>
    .liftThen fun _ _ => .lift _

theorem valueCorrectionAt_follows (env : Env) (treeLevel : Nat) (alpha : U128) (beta : List Value) (st : GenState) :
    Follows (d.valueCorrectionAtF env treeLevel alpha beta st) (d.valueCorrectionAt env treeLevel alpha beta st) := by
  unfold valueCorrectionAtF valueCorrectionAt
  cases d.pv.treeToHierarchy.lookup (treeLevel - 1) with
  | none => exact .lift _
  | some h =>
    refine .liftThen fun p _ => .liftThen fun last _ => ?_
    dsimp only
    by_cases hs : last - p.logDomainSize < 128
    · rw [if_pos hs, if_pos hs]
      exact .liftThen fun _ _ => .liftThen fun _ _ => computeValueCorrection_follows _ _ _ _ _ _
    · rw [if_neg hs, if_neg hs]
      exact .liftThen fun _ _ => .liftThen fun _ _ => computeValueCorrection_follows _ _ _ _ _ _

theorem generateNext_follows (env : Env) (alpha : U128) (beta : List Value) (st : GenState) (treeLevel : Nat) :
    Follows (d.generateNextF env alpha beta st treeLevel) (d.generateNext env alpha beta st treeLevel) := by
  unfold generateNextF generateNext
  exact .bind (valueCorrectionAt_follows _ _ _ _ _) fun _ _ => .bind (evaluate_follows _ _ _ _ _) fun _ _ =>
    .bind (evaluate_follows _ _ _ _ _) fun _ _ => .lift _

theorem generateKeysIncremental_follows (env : Env) (alpha : U128) (beta : List Value) (seed0 seed1 : U128) :
    Follows (d.generateKeysIncrementalF env alpha beta seed0 seed1)
      (d.generateKeysIncremental env alpha beta seed0 seed1) := by
  unfold generateKeysIncrementalF generateKeysIncremental
  exact .liftThen fun _ _ => .bind (.fold (fun _ _ => generateNext_follows _ _ _ _ _) _ _) fun _ _ =>
    .liftThen fun _ _ => .bind (computeValueCorrection_follows _ _ _ _ _ _) fun _ _ => .lift _

theorem startPartials_follows (prefixes : List U128) (startLevel stopLevel : Nat) (ctx : EvaluationContext) :
    Follows (startPartialsF prefixes startLevel stopLevel ctx) (startPartials prefixes startLevel stopLevel ctx) := by
  unfold startPartialsF startPartials
  exact .ite (fun _ => .liftThen fun _ _ => .callThen memoryCode (.liftThen fun _ _ => .lift _)) fun _ =>
    .callThen memoryCode (.lift _)

theorem computePartialEvaluations_follows (env : Env) (prefixes : List U128) (h : Int) (updateCtx : Bool)
    (ctx : EvaluationContext) : Follows (d.computePartialEvaluationsF env prefixes h updateCtx ctx)
      (d.computePartialEvaluations env prefixes h updateCtx ctx) := by
  unfold computePartialEvaluationsF computePartialEvaluations
  exact .liftThen fun _ _ => .liftThen fun _ _ => .bind (startPartials_follows _ _ _ _) fun _ _ => .liftThen fun _ _ =>
    .bind (evaluateSeeds_follows _ _ _ _) fun _ _ => .lift _

theorem hashExpandedSeeds_follows (env : Env) (h : Nat) (expansion : List U128) :
    Follows (d.hashExpandedSeedsF env h expansion) (d.hashExpandedSeeds env h expansion) := by
  unfold hashExpandedSeedsF hashExpandedSeeds
  exact .liftThen fun _ _ => .callThen memoryCode (evaluate_follows _ _ _ _ _)

theorem treeIndicesFor_follows {α : Type} (H : Helper α) (h : Nat) (points : List U128) :
    Follows (d.treeIndicesForF H h points) (d.treeIndicesFor H h points) := by
  unfold treeIndicesForF treeIndicesFor
  exact .ite (fun _ => .callThen memoryCode (.lift _)) fun _ => .lift _

theorem finishAt_follows {α : Type} (env : Env) (H : Helper α) (key : DpfKey) (h : Nat) (points : List U128)
    (treeIndices : List U128) (sel : DpfExpansion) (startLevel : Nat) :
    Follows (d.finishAtF env H key h points treeIndices sel startLevel)
      (d.finishAt env H key h points treeIndices sel startLevel) := by
  unfold finishAtF finishAt
  exact .liftThen fun _ _ => .liftThen fun _ _ => .bind (evaluateSeeds_follows _ _ _ _) fun _ _ =>
    .bind (hashExpandedSeeds_follows _ _ _) fun _ _ => .lift _

theorem evaluateAt_follows {α : Type} (env : Env) (H : Helper α) (key : DpfKey) (h : Int) (points : List U128) :
    Follows (d.evaluateAtF env H key h points) (d.evaluateAt env H key h points) := by
  unfold evaluateAtF evaluateAt
  exact .liftThen fun _ _ => .ite (fun _ => .lift _) fun _ => .bind (treeIndicesFor_follows _ _ _) fun _ _ =>
    .callThen memoryCode (finishAt_follows _ _ _ _ _ _ _ _)

theorem applySeeds_follows (env : Env) (keys : List DpfKey) (points : List U128) (treeShift : Int)
    (startLevel stopLevel : Nat) (ev : DpfExpansion) :
    Follows (applySeedsF env keys points treeShift startLevel stopLevel ev)
      (applySeeds env keys points treeShift startLevel stopLevel ev) := by
  unfold applySeedsF applySeeds
  exact .ite (fun _ => .callThen memoryCode (.liftThen fun _ _ =>
    .bind (evaluateSeedsInternal_follows _ _ _ _ _ _ _ _ _ _ _ _ _ _) fun _ _ => .lift _)) fun _ => .lift _

theorem applyLevel_follows {α : Type} (env : Env) (H : Helper α) (keys : List DpfKey) (points : List U128)
    (rightshift : Int) (st : ApplyState) (h : Nat) :
    Follows (d.applyLevelF env H keys points rightshift st h) (d.applyLevel env H keys points rightshift st h) := by
  unfold applyLevelF applyLevel
  exact .liftThen fun _ _ => .liftThen fun _ _ => .liftThen fun _ _ => .liftThen fun _ _ =>
    .bind (applySeeds_follows _ _ _ _ _ _ _) fun _ _ => .bind (hashExpandedSeeds_follows _ _ _) fun _ _ =>
    .liftThen fun _ _ => .liftThen fun _ _ => .lift _

end Dpf
end Verif
