import Verif.Lemmas.Interchange
import Verif.Props.PointFunction
import Verif.Props.Evaluation
/-!
# C73: objects whose parameters mean the same are interchangeable

The two objects may have been created on machines whose floating-point results differ (`fp`, `fp'`), with different
security parameters, different encodings of the value types and different registered types.
-/
namespace Verif
open Res Spec

/-- C73: evaluation at points returns the same on both objects, for every key, well-formed or not. -/
theorem C73_at (fp fp' : FpEnv) (params params' : List DpfParameters) (d d' : Dpf) (hc : Created fp params d)
    (hc' : Created fp' params' d') (hs : SameLevels params params') (env : Env) (S : Ty) (key : DpfKey) (h : Int)
    (points : List U128) : d'.evaluateAt env S.helper key h points = d.evaluateAt env S.helper key h points :=
  (hc.alike hc' hs).evaluateAt env S.helper key h points

/-- C73: `EvaluateAndApply` makes the same calls of the callback and returns the same status on both objects. -/
theorem C73_apply (fp fp' : FpEnv) (params params' : List DpfParameters) (d d' : Dpf) (hc : Created fp params d)
    (hc' : Created fp' params' d') (hs : SameLevels params params') (env : Env) (S : Ty) (σ : Type)
    (keys : List DpfKey) (points : List U128) (op : σ → List S.den → Bool × σ) (s : σ) (rightshift : Int) :
    d'.evaluateAndApply env S.helper keys points op s rightshift =
      d.evaluateAndApply env S.helper keys points op s rightshift :=
  (hc.alike hc' hs).evaluateAndApply env S.helper keys points op s rightshift

/-- C73: both objects make contexts of the same keys, and every sequence of calls on the contexts they made of a key
returns the same results. -/
theorem C73_contexts (fp fp' : FpEnv) (params params' : List DpfParameters) (d d' : Dpf) (hc : Created fp params d)
    (hc' : Created fp' params' d') (hs : SameLevels params params') (env : Env) (key : DpfKey) :
    (∃ ctx ctx', d.createEvaluationContext key = ok ctx ∧ d'.createEvaluationContext key = ok ctx' ∧
      ∀ calls, callResults d' env calls ctx' = callResults d env calls ctx) ∨
    (d.createEvaluationContext key = err .invalidArgument ∧ d'.createEvaluationContext key = err .invalidArgument) := by
  have ha := hc.alike hc' hs
  unfold Dpf.createEvaluationContext
  rw [ha.validateDpfKey]
  rcases hc.wf.validateDpfKey_cases key with hv | hv
  · rw [hv, bind_ok, bind_ok]
    refine Or.inl ⟨_, _, rfl, rfl, fun calls => ?_⟩
    refine hc.callResults_alike hc' hs env calls (ctx := ⟨d.pv.parameters, some key, -1, [], 0⟩) ?_ ?_
    · refine hc.sameParameters_self fun i p hp => ?_
      have hi : i < params'.length := by rw [hs.count]; exact (List.getElem?_eq_some_iff.mp hp).1
      obtain ⟨c, h1, _⟩ := hs.type i p _ hp (List.getElem?_eq_getElem hi)
      exact ⟨c, h1⟩
    · refine hc'.sameParameters_self fun i q hq => ?_
      have hi : i < params.length := by rw [← hs.count]; exact (List.getElem?_eq_some_iff.mp hq).1
      obtain ⟨c, _, h1⟩ := hs.type i _ q (List.getElem?_eq_getElem hi) hq
      exact ⟨c, h1⟩
  · rw [hv]
    exact Or.inr ⟨rfl, rfl⟩

/-- C73: on any context that fits one object, and the same context with parameters that fit the other one, every
sequence of calls returns the same results. -/
theorem C73_any_context (fp fp' : FpEnv) (params params' : List DpfParameters) (d d' : Dpf)
    (hc : Created fp params d) (hc' : Created fp' params' d') (hs : SameLevels params params') (env : Env)
    (ctx : EvaluationContext) (qs : List DpfParameters) (h : SameParameters params ctx.parameters)
    (h' : SameParameters params' qs) (calls : List ContextCall) :
    callResults d' env calls { ctx with parameters := qs } = callResults d env calls ctx :=
  hc.callResults_alike hc' hs env calls h h'

/-- C73: whenever key generation returned keys, the levels have output types and the messages hold values, and if one
party evaluates its key with the object that made the keys and the other party with the other object, their results
add up to the point function. -/
theorem C73_shares (fp fp' : FpEnv) (params params' : List DpfParameters) (d d' : Dpf) (hc : Created fp params d)
    (hc' : Created fp' params' d') (hs : SameLevels params params') (env : Env) (alpha : U128) (beta : List Value)
    (seed0 seed1 : U128) (k0 k1 : DpfKey)
    (hk : d.generateKeysIncremental env alpha beta seed0 seed1 = ok (k0, k1)) :
    ∃ (T : Nat → Ty) (b : (h : Nat) → (T h).den), BetasRepresent params T beta b ∧
      (∀ h p, params[h]? = some p → p.valueType = some (T h).helper.toValueType) ∧
      ∀ h, h < params.length → ∀ points : List U128, (∀ x ∈ points, x.toNat < 2 ^ logSize params h) →
        ∃ v0 v1, d.evaluateAt env (T h).helper k0 h points = ok v0 ∧
          d'.evaluateAt env (T h).helper k1 h points = ok v1 ∧
          List.zipWith (T h).helper.add v0 v1 = points.map fun x =>
            if x.toNat = alphaPrefix params alpha h then b h else (T h).helper.zero := by
  obtain ⟨T, hset⟩ := hc.setup_of_generateKeys hk
  obtain ⟨ha, b, hb⟩ := hset.of_generateKeys hk
  refine ⟨T, b, hb, hset.types, fun h hh points hp => ?_⟩
  obtain ⟨k0', k1', hk', hall⟩ := C01_point_function_partial fp params T d hset env alpha ha beta b hb seed0 seed1
  rw [hk] at hk'
  cases hk'
  obtain ⟨v0, v1, e0, e1, _, _, e⟩ := hall h hh points hp
  refine ⟨v0, v1, e0, ?_, e⟩
  rw [C73_at fp fp' params params' d d' hc hc' hs, e1]

/-- C19, exactly, for every object: key generation returns keys iff the value type of every level is, in the encoding
of `ToValueType`, the type of an output type registered or built in for which enough bytes are reserved, the
messages hold values of these types, and alpha is in the domain. -/
theorem C19_exact (fp : FpEnv) (params : List DpfParameters) (d : Dpf) (hc : Created fp params d) (env : Env)
    (alpha : U128) (beta : List Value) (seed0 seed1 : U128) :
    (∃ k0 k1, d.generateKeysIncremental env alpha beta seed0 seed1 = ok (k0, k1)) ↔
      alpha.toNat < 2 ^ lastLogSize params ∧ ∃ T b, Setup fp params T d ∧ BetasRepresent params T beta b := by
  constructor
  · rintro ⟨k0, k1, hk⟩
    obtain ⟨T, hset⟩ := hc.setup_of_generateKeys hk
    obtain ⟨ha, b, hb⟩ := hset.of_generateKeys hk
    exact ⟨ha, T, b, hset, hb⟩
  · rintro ⟨ha, T, b, hset, hb⟩
    exact (C19_registered fp params T d hset env alpha beta seed0 seed1).1.mpr ⟨ha, b, hb⟩

/-- C19 on an example. -/
example : ∃ T b, Setup exFp exParams8 T exDpf ∧ BetasRepresent exParams8 T [.integer (.u64 1), .integer (.u64 2),
    .integer (.u64 3), .integer (.u64 4)] b :=
  ((C19_exact _ _ exDpf ⟨exDpf, [], exDpf_eq, rfl⟩ exEnv 77 [.integer (.u64 1), .integer (.u64 2), .integer (.u64 3),
    .integer (.u64 4)] 1 2).mp ⟨_, _, Res.eq_ok_getD (by decide +kernel) (DpfKey.default, DpfKey.default)⟩).2

/-- C73, the part about key generation that holds: if the types of all levels are registered with both objects, in
particular encoded as `ToValueType` does, both generate the same keys from the same random seeds. Missing: types that
are the same but encoded differently (`C73_encoding`, `C73_keys_refuted`). -/
theorem C73_keys_partial (fp fp' : FpEnv) (params params' : List DpfParameters) (T T' : Nat → Ty) (d d' : Dpf)
    (hs : Setup fp params T d) (hs' : Setup fp' params' T' d') (hl : SameLevels params params') (env : Env)
    (alpha : U128) (beta : List Value) (seed0 seed1 : U128) :
    d'.generateKeysIncremental env alpha beta seed0 seed1 = d.generateKeysIncremental env alpha beta seed0 seed1 := by
  have ha := hs.toCreated.alike hs'.toCreated hl
  refine ha.generateKeys (fun i p q hp hq => ?_) env alpha beta seed0 seed1
  have hi : i < d.n := (List.getElem?_eq_some_iff.mp hp).1
  have hi' : i < d'.n := (List.getElem?_eq_some_iff.mp hq).1
  have e := (hs.typedAt hi).vt p hp
  have e' := (hs'.typedAt hi').vt q hq
  have ht : T i = T' i := by
    have := ha.type i p q hp hq
    rw [e, e'] at this
    exact Ty.eq_of_equal _ _ (sameType_iff.mpr this)
  refine ⟨by rw [e, e', ht], ?_⟩
  rw [e, e', hs.registered hi, hs'.registered hi', ht]

/-- C73: if one object makes keys of the arguments, and the other one has a level whose type is encoded otherwise than
`ToValueType` encodes it, the other one returns FAILED_PRECONDITION, whatever is registered with it. -/
theorem C73_encoding (fp fp' : FpEnv) (params params' : List DpfParameters) (d d' : Dpf) (hc : Created fp params d)
    (hc' : Created fp' params' d') (hl : SameLevels params params') (env : Env) (alpha : U128) (beta : List Value)
    (seed0 seed1 : U128) (k0 k1 : DpfKey)
    (hk : d.generateKeysIncremental env alpha beta seed0 seed1 = ok (k0, k1)) (h : Nat) (q : DpfParameters)
    (hq : params'[h]? = some q) (ht : ∀ S : Ty, q.valueType ≠ some S.helper.toValueType) :
    d'.generateKeysIncremental env alpha beta seed0 seed1 = err .failedPrecondition := by
  obtain ⟨T, hs⟩ := hc.setup_of_generateKeys hk
  obtain ⟨ha, b, hb⟩ := hs.of_generateKeys hk
  refine hs.generateKeys_other hc' hl env ha hb seed0 seed1 (h0 := h) (q0 := withDefaultSecurity q) ?_ ?_
  · rw [hc'.params, List.getElem?_map, hq]; rfl
  · intro hm
    have hq' : d'.pv.parameters[h]? = some (withDefaultSecurity q) := by
      rw [hc'.params, List.getElem?_map, hq]; rfl
    have e := (hs.typed_other hc' hl (List.getElem?_eq_some_iff.mp hq').1 hq' hm).1
    rw [DpfParameters.vt, withDefaultSecurity_vt] at e
    cases hv : q.valueType with
    | none =>
      rw [hv] at e
      have := (T h).valueTypesAreEqual_self
      rw [← e] at this
      cases this
    | some t =>
      rw [hv] at e
      exact ht (T h) (by rw [hv]; exact congrArg some e)

/-- C73: an object one of whose value types is encoded otherwise than `ToValueType` encodes it never makes keys,
whatever is registered with it. -/
theorem C73_never (fp : FpEnv) (params : List DpfParameters) (d : Dpf) (hc : Created fp params d) (h : Nat)
    (p : DpfParameters) (hp : params[h]? = some p) (ht : ∀ S : Ty, p.valueType ≠ some S.helper.toValueType) (env : Env)
    (alpha : U128) (beta : List Value) (seed0 seed1 : U128) (k0 k1 : DpfKey) :
    d.generateKeysIncremental env alpha beta seed0 seed1 ≠ ok (k0, k1) := by
  intro hk
  obtain ⟨T, hset⟩ := hc.setup_of_generateKeys hk
  exact ht (T h) (hset.types h p hp)

/-! ## Examples and refutation -/

/-- The parameters of the example with another security parameter, and the modulus 11 given as a 128-bit number. -/
def exParamsOther : List DpfParameters :=
  [⟨3, some (.integer 8), .val 60⟩, ⟨10, some (.tuple [.integer 64, .intModN 32 (.u128 0 11)]), .val 0⟩,
   ⟨128, some (.xorWrapper 128), .val 0⟩]

/-- Other floating-point results. -/
def exFp' : FpEnv := ⟨fun _ _ => 79, fun _ => 1⟩

theorem exOther_same : SameLevels exParams exParamsOther := by
  refine ⟨rfl, ?_, ?_⟩
  · intro i p q hp hq
    match i, hp, hq with
    | 0, hp, hq => cases hp; cases hq; rfl
    | 1, hp, hq => cases hp; cases hq; rfl
    | 2, hp, hq => cases hp; cases hq; rfl
    | i + 3, hp, hq => simp [exParams] at hp
  · intro i p q hp hq
    match i, hp, hq with
    | 0, hp, hq => cases hp; cases hq; exact ⟨_, rfl, rfl⟩
    | 1, hp, hq => cases hp; cases hq; exact ⟨.tuple [.integer 64, .intModN 32 11], by rfl, by rfl⟩
    | 2, hp, hq => cases hp; cases hq; exact ⟨_, rfl, rfl⟩
    | i + 3, hp, hq => simp [exParams] at hp

theorem exOther_created : ∃ d, Dpf.createIncremental exFp' exParamsOther = ok d := by
  have h : (match Dpf.createIncremental exFp' exParamsOther with
    | .ok _ => true
    | _ => false) = true := by decide +kernel
  split at h
  · rename_i d hd
    exact ⟨d, hd⟩
  · simp at h

/-- No output type has the second type of these parameters. -/
theorem exOther_type (S : Ty) :
    (some (.tuple [.integer 64, .intModN 32 (.u128 0 11)]) : Option ValueType) ≠ some S.helper.toValueType := by
  intro e
  have h1 : valueTypesAreEqual S.helper.toValueType (exT 1).helper.toValueType = ok true := by
    rw [← Option.some.inj e]; decide +kernel
  rw [Ty.eq_of_equal _ _ h1] at e
  revert e
  decide +kernel

/-- C73 on the example: the second party evaluates with the other object. -/
example (env : Env) : ∃ d d' k0 k1, Setup exFp exParams exT d ∧ Created exFp' exParamsOther d' ∧
    d.generateKeysIncremental env 12345 exBeta 1 2 = ok (k0, k1) ∧
    ∃ v0 v1, d.evaluateAt env (exT 1).helper k0 (1 : Nat) [0, 5] = ok v0 ∧
      d'.evaluateAt env (exT 1).helper k1 (1 : Nat) [0, 5] = ok v1 ∧
      List.zipWith (exT 1).helper.add v0 v1 = [exB 1, (exT 1).helper.zero] := by
  obtain ⟨d, hs⟩ := exSetup
  obtain ⟨d', hd'⟩ := exOther_created
  have hc' : Created exFp' exParamsOther d' := ⟨d', [], hd', rfl⟩
  obtain ⟨k0, k1, h1, h2⟩ := C01_point_function_partial exFp exParams exT d hs env 12345 (by decide +kernel) exBeta exB
    exBetas 1 2
  obtain ⟨v0, v1, e0, e1, _, _, e⟩ := h2 1 (by decide) [0, 5] (by
    intro x hx
    simp only [List.mem_cons, List.not_mem_nil, or_false] at hx
    rcases hx with rfl | rfl <;> decide +kernel)
  refine ⟨d, d', k0, k1, hs, hc', h1, v0, v1, e0, ?_, ?_⟩
  · rw [C73_at exFp exFp' exParams exParamsOther d d' hs.toCreated hc' exOther_same]
    exact e1
  · rw [e]
    have e : alphaPrefix exParams 12345 1 = 0 := by decide +kernel
    have e0 : BitVec.toNat (0 : U128) = 0 := rfl
    have e5 : BitVec.toNat (5 : U128) = 5 := rfl
    rw [e, List.map_cons, List.map_cons, List.map_nil, e0, e5, if_pos rfl, if_neg (by decide)]

/-- C73 does not hold for key generation: the parameters mean the same and the second object has the same types
registered, but it refuses with FAILED_PRECONDITION, because its modulus is encoded as a 128-bit number. -/
theorem C73_keys_refuted : ∃ d d0, Setup exFp exParams exT d ∧ Dpf.createIncremental exFp' exParamsOther = ok d0 ∧
    ∀ env alpha, alpha.toNat < 2 ^ 128 → ∀ seed0 seed1,
      (∃ k0 k1, d.generateKeysIncremental env alpha exBeta seed0 seed1 = ok (k0, k1)) ∧
      (d0.registerAll [exT 0, exT 1, exT 2]).generateKeysIncremental env alpha exBeta seed0 seed1 =
        err .failedPrecondition := by
  obtain ⟨d, hs⟩ := exSetup
  obtain ⟨d0, hd0⟩ := exOther_created
  refine ⟨d, d0, hs, hd0, fun env alpha ha seed0 seed1 => ?_⟩
  obtain ⟨k0, k1, hk⟩ := (C19_registered exFp exParams exT d hs env alpha exBeta seed0 seed1).1.mpr
    ⟨by rw [show lastLogSize exParams = 128 by decide +kernel]; exact ha, exB, exBetas⟩
  exact ⟨⟨k0, k1, hk⟩, C73_encoding exFp exFp' exParams exParamsOther d _ hs.toCreated ⟨d0, _, hd0, rfl⟩ exOther_same
    env alpha exBeta seed0 seed1 k0 k1 hk 1 _ rfl exOther_type⟩

/-- C73 on the example: contexts of a generated key. -/
example (env : Env) : ∃ d d' key ctx ctx', Created exFp exParams d ∧ Created exFp' exParamsOther d' ∧
    d.createEvaluationContext key = ok ctx ∧ d'.createEvaluationContext key = ok ctx' ∧
    ∀ calls, callResults d' env calls ctx' = callResults d env calls ctx := by
  obtain ⟨d, hs⟩ := exSetup
  obtain ⟨d', hd'⟩ := exOther_created
  have hc' : Created exFp' exParamsOther d' := ⟨d', [], hd', rfl⟩
  obtain ⟨k0, k1, h1, h2⟩ := C01_point_function_partial exFp exParams exT d hs env 12345 (by decide +kernel) exBeta exB
    exBetas 1 2
  rcases C73_contexts exFp exFp' exParams exParamsOther d d' hs.toCreated hc' exOther_same env k0 with
    ⟨ctx, ctx', e, e', h⟩ | ⟨e, _⟩
  · exact ⟨d, d', k0, ctx, ctx', hs.toCreated, hc', e, e', h⟩
  · obtain ⟨v0, _, e0, _⟩ := h2 1 (by decide) [0, 5] (by
    intro x hx
    simp only [List.mem_cons, List.not_mem_nil, or_false] at hx
    rcases hx with rfl | rfl <;> decide +kernel)
    unfold Dpf.evaluateAt at e0
    obtain ⟨_, e1, _⟩ := bind_eq_ok.mp e0
    unfold Dpf.createEvaluationContext at e
    rcases hs.wf.validateDpfKey_cases k0 with hv | hv
    · rw [hv] at e; cases e
    · unfold Dpf.checkEvaluateAt at e1
      simp only [bind_eq_ok] at e1
      rw [hv] at e1
      simp at e1
      obtain ⟨_, a, _, h⟩ := e1
      split at h
      · obtain ⟨_, _, h⟩ := bind_eq_ok.mp h
        obtain ⟨_, _, h⟩ := bind_eq_ok.mp h
        cases h
      · obtain ⟨_, _, h⟩ := bind_eq_ok.mp h
        cases h

/-- C73 on the example: the callbacks are called with the same values; shares of one DPF and of the other add up. -/
example (env : Env) : ∃ d d', Created exFp exParams d ∧ Created exFp' exParamsOther d' ∧
    (∀ (S : Ty) keys points, d'.evaluateAndApply env S.helper keys points (fun (n : Nat) _ => (true, n + 1)) 0 0 =
      d.evaluateAndApply env S.helper keys points (fun (n : Nat) _ => (true, n + 1)) 0 0) ∧
    (∀ ctx calls, SameParameters exParams ctx.parameters → ∀ qs, SameParameters exParamsOther qs →
      callResults d' env calls { ctx with parameters := qs } = callResults d env calls ctx) ∧
    ∃ k0 k1 T b, d.generateKeysIncremental env 12345 exBeta 1 2 = ok (k0, k1) ∧ BetasRepresent exParams T exBeta b ∧
      ∃ v0 v1, d.evaluateAt env (T 1).helper k0 (1 : Nat) [] = ok v0 ∧ d'.evaluateAt env (T 1).helper k1 (1 : Nat) [] = ok v1 := by
  obtain ⟨d, hs⟩ := exSetup
  obtain ⟨d', hd'⟩ := exOther_created
  have hc' : Created exFp' exParamsOther d' := ⟨d', [], hd', rfl⟩
  refine ⟨d, d', hs.toCreated, hc', fun S keys points => ?_, fun ctx calls h qs h' => ?_, ?_⟩
  · exact C73_apply exFp exFp' exParams exParamsOther d d' hs.toCreated hc' exOther_same env S Nat keys points _ _ _
  · exact C73_any_context exFp exFp' exParams exParamsOther d d' hs.toCreated hc' exOther_same env ctx qs h h' calls
  · obtain ⟨k0, k1, h1, _⟩ := C01_point_function_partial exFp exParams exT d hs env 12345 (by decide +kernel) exBeta exB
      exBetas 1 2
    obtain ⟨T, b, e1, _, e2⟩ := C73_shares exFp exFp' exParams exParamsOther d d' hs.toCreated hc' exOther_same env 12345
      exBeta 1 2 k0 k1 h1
    obtain ⟨v0, v1, e3, e4, _⟩ := e2 1 (by decide) [] (by simp)
    exact ⟨k0, k1, T, b, h1, e1, v0, v1, e3, e4⟩

theorem exSame : SameLevels exParams exParams := by
  refine ⟨rfl, fun i p q hp hq => ?_, fun i p q hp hq => ?_⟩
  · rw [hp] at hq; cases hq; rfl
  · rw [hp] at hq
    cases hq
    match i, hp with
    | 0, hp => cases hp; exact ⟨_, rfl, rfl⟩
    | 1, hp => cases hp; exact ⟨.tuple [.integer 64, .intModN 32 11], by rfl, by rfl⟩
    | 2, hp => cases hp; exact ⟨_, rfl, rfl⟩
    | i + 3, hp => simp [exParams] at hp

/-- C73 on the example: a level whose type no C++ type has. -/
example (d : Dpf) (hd : Created exFp' exParamsOther d) (env : Env) (alpha : U128) (beta : List Value) (k0 k1 : DpfKey) :
    d.generateKeysIncremental env alpha beta 1 2 ≠ ok (k0, k1) :=
  C73_never exFp' exParamsOther d hd 1 _ rfl exOther_type env alpha beta 1 2 k0 k1

/-- C73 on the example: another DPF with the same levels and types generates the same keys. -/
example (env : Env) (d d' : Dpf) (hs : Setup exFp exParams exT d) (hs' : Setup exFp exParams exT d') (alpha : U128)
    (beta : List Value) : d'.generateKeysIncremental env alpha beta 1 2 = d.generateKeysIncremental env alpha beta 1 2 :=
  C73_keys_partial exFp exFp exParams exParams exT exT d d' hs hs' exSame env alpha beta 1 2

end Verif
