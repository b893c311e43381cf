import Verif.Lemmas.ApplyWork
import Verif.Props.Communication
import Verif.Props.Faults
/-!
# C97: how much is computed
-/
namespace Verif
open Res Spec

/-- C97 for key generation: the calls of the cipher are those of both seeds at each level of the tree and of the values
of each level of the hierarchy. -/
theorem C97_generateKeys (fp : FpEnv) (params : List DpfParameters) (T : Nat → Ty) (d : Dpf) (hs : Setup fp params T d)
    (depth : Nat → Nat) (hd : IsDepth params T depth) (env : Env) (alpha : U128) (beta : List Value)
    (seed0 seed1 : U128) (keys : DpfKey × DpfKey)
    (hk : d.generateKeysIncremental env alpha beta seed0 seed1 = ok keys) :
    MakesCalls (d.generateKeysIncrementalF env alpha beta seed0 seed1)
      (keyGenCalls (depth (params.length - 1)) params.length (blocksOf d)) keys := by
  have h := hs.wf.generateKeys_costs env alpha beta seed0 seed1 keys hk
  rw [hs.toCreated.n_eq] at h
  rw [hs.isDepth.unique hd _ (by have := hs.params_pos; omega)] at h
  exact h

/-- C97 on an example: four levels in a tree of depth 5, with 14 calls. -/
example : ∃ keys, MakesCalls (exDpf.generateKeysIncrementalF exEnv 77 [.integer (.u64 1), .integer (.u64 2),
    .integer (.u64 3), .integer (.u64 4)] 1 2) 14 keys := by
  have h := C97_generateKeys _ _ _ exDpf exDpf_setup _ exDepths8_eq exEnv 77 [.integer (.u64 1), .integer (.u64 2),
    .integer (.u64 3), .integer (.u64 4)] 1 2 _ (Res.eq_ok_getD (by decide +kernel) (DpfKey.default, DpfKey.default))
  have e : keyGenCalls (exDepths8 (exParams8.length - 1)) exParams8.length (blocksOf exDpf) = 14 := by decide +kernel
  rw [e] at h
  exact ⟨_, h⟩

/-- C97: the number of calls does not depend on what is secret, the point, the values and the seeds (nor on the
cipher). -/
theorem C97_generateKeys_hides (fp : FpEnv) (params : List DpfParameters) (T : Nat → Ty) (d : Dpf)
    (hs : Setup fp params T d) (env env' : Env) (alpha alpha' : U128) (beta beta' : List Value)
    (seed0 seed1 seed0' seed1' : U128) (keys keys' : DpfKey × DpfKey)
    (hk : d.generateKeysIncremental env alpha beta seed0 seed1 = ok keys)
    (hk' : d.generateKeysIncremental env' alpha' beta' seed0' seed1' = ok keys') :
    ∃ n, MakesCalls (d.generateKeysIncrementalF env alpha beta seed0 seed1) n keys ∧
      MakesCalls (d.generateKeysIncrementalF env' alpha' beta' seed0' seed1') n keys' :=
  ⟨_, C97_generateKeys fp params T d hs _ hs.isDepth _ _ _ _ _ _ hk,
    C97_generateKeys fp params T d hs _ hs.isDepth _ _ _ _ _ _ hk'⟩

/-- C97 on an example: another point, values and seeds. -/
example : ∃ n keys keys', keys ≠ keys' ∧
    MakesCalls (exDpf.generateKeysIncrementalF exEnv 77 [.integer (.u64 1), .integer (.u64 2), .integer (.u64 3),
      .integer (.u64 4)] 1 2) n keys ∧
    MakesCalls (exDpf.generateKeysIncrementalF exEnv 500 [.integer (.u64 5), .integer (.u64 0), .integer (.u64 0),
      .integer (.u64 9)] 3 8) n keys' := by
  obtain ⟨n, h, h'⟩ := C97_generateKeys_hides _ _ _ exDpf exDpf_setup exEnv exEnv 77 500
    [.integer (.u64 1), .integer (.u64 2), .integer (.u64 3), .integer (.u64 4)]
    [.integer (.u64 5), .integer (.u64 0), .integer (.u64 0), .integer (.u64 9)] 1 2 3 8 _ _
    (Res.eq_ok_getD (by decide +kernel) (DpfKey.default, DpfKey.default))
    (Res.eq_ok_getD (by decide +kernel) (DpfKey.default, DpfKey.default))
  refine ⟨n, _, _, fun e => ?_, h, h'⟩
  have e := congrArg (fun k => k.1.seed) e
  revert e
  decide +kernel

/-- C97 for evaluating the whole domain of a level: the calls depend on its depth in the tree and its blocks, and on
nothing else. -/
theorem C97_domain (fp : FpEnv) (params : List DpfParameters) (T : Nat → Ty) (d : Dpf) (hs : Setup fp params T d)
    (depth : Nat → Nat) (hd : IsDepth params T depth) (env : Env) (S : Ty) (h : Nat) (ctx ctx' : EvaluationContext)
    (values : List S.den) (he : d.evaluateUntil env S.helper h [] ctx = (ok values, ctx')) :
    MakesCallsOn (d.evaluateUntilF env S.helper h [] ctx) (domainCalls (depth h) (blocksOf d h)) values ctx' := by
  have e := hs.wf.evaluateUntil_costs env S.helper h ctx values ctx' he
  rw [Int.toNat_natCast] at e
  have hh : h < params.length := by
    rw [← hs.toCreated.n_eq]
    have hx : ∃ x, d.checkEvaluateUntil S.helper h [] ctx = ok x := by
      unfold Dpf.evaluateUntil at he
      cases hc : d.checkEvaluateUntil S.helper h [] ctx with
      | ok x => exact ⟨x, rfl⟩
      | err c => rw [hc] at he; exact nomatch he
      | ub => rw [hc] at he; exact nomatch he
      | crash => rw [hc] at he; exact nomatch he
    obtain ⟨⟨a, b, c⟩, hx⟩ := hx
    have := (hs.wf.untilArgs_of_ok hx).1.level
    omega
  rw [hs.isDepth.unique hd _ hh] at e
  exact e

/-- C97 on an example: the 512 points of the last level, with 15 calls. -/
example : ∃ values ctx', MakesCallsOn (exDpf.evaluateUntilF exEnv (Ty.uint .w8).helper 3 [] exCtx0) 15 values ctx' := by
  have h1 : (exDpf.evaluateUntil exEnv (Ty.uint .w8).helper 3 [] exCtx0).1 = _ :=
    Res.eq_ok_getD (by decide +kernel) []
  have h := C97_domain _ _ _ exDpf exDpf_setup _ exDepths8_eq exEnv (.uint .w8) 3 exCtx0 _ _ (Prod.ext h1 rfl)
  have e : domainCalls (exDepths8 3) (blocksOf exDpf 3) = 15 := by decide +kernel
  rw [e] at h
  exact ⟨_, _, h⟩

/-- C97: the work for the whole domain is linear in the number of leaves of the tree. (Each call is for up to 64
blocks.) -/
theorem C97_linear (depth blocks : Nat) :
    64 * domainCalls depth blocks ≤ 2 ^ depth * (blocks + 2) + 126 * depth + 317 := by
  have h : ∀ n, 64 * ((List.range n).map fun l => 2 * batches (2 ^ l)).sum + 2 ≤ 2 * 2 ^ n + 126 * n := by
    intro n
    induction n with
    | zero => simp
    | succ n ih =>
      rw [List.range_succ, List.map_append, List.sum_append, Nat.pow_succ]
      simp only [List.map_cons, List.map_nil, List.sum_cons, List.sum_nil, Nat.add_zero]
      have : 64 * batches (2 ^ n) ≤ 2 ^ n + 63 := by unfold batches; omega
      omega
  have h1 := h depth
  have h2 : 64 * batches (2 ^ depth * blocks) ≤ 2 ^ depth * blocks + 63 := by unfold batches; omega
  unfold domainCalls
  rw [Nat.mul_add (2 ^ depth)]
  omega

/-- C97 on an example: a tree with 2^20 leaves, less than 0.05 calls for each. -/
example : 20 * domainCalls 20 1 < 2 ^ 20 := by
  have := C97_linear 20 1
  omega

/-- C97 for evaluating points: on machines that never use vectors, or always vectors of one size, the calls depend on
the number of points, and not on the points or the key. -/
theorem C97_points (fp : FpEnv) (params : List DpfParameters) (T : Nat → Ty) (d : Dpf) (hs : Setup fp params T d)
    (depth : Nat → Nat) (hd : IsDepth params T depth) (env : Env) (vector : Option Nat)
    (hp : UsesVectors env vector) (S : Ty) (key : DpfKey) (h : Nat) (points : List U128) (hne : points ≠ []) (values : List S.den)
    (he : d.evaluateAt env S.helper key h points = ok values) :
    MakesCalls (d.evaluateAtF env S.helper key h points)
      (pointCalls vector points.length (depth h) (blocksOf d h) (perBlock S)) values := by
  have e := hs.wf.evaluateAt_costs hp S.helper key h points hne values he
  rw [Int.toNat_natCast, perBlock_eq] at e
  have hh : h < params.length := by
    rw [← hs.toCreated.n_eq]
    unfold Dpf.evaluateAt at he
    obtain ⟨x, hx, _⟩ := bind_eq_ok.mp he
    have := Dpf.checkEvaluateAt_level hx
    omega
  rw [hs.isDepth.unique hd _ hh] at e
  exact e

/-- C97 on an example: three points of the last level, with 15 calls. -/
example : ∃ values, MakesCalls (exDpf.evaluateAtF exEnv (Ty.uint .w8).helper exKey 3 [0, 77, 511]) 15 values := by
  have h := C97_points _ _ _ exDpf exDpf_setup _ exDepths8_eq exEnv none (fun _ _ _ _ _ => rfl)
    (.uint .w8) exKey 3
    [0, 77, 511] (by simp) _ (Res.eq_ok_getD (by decide +kernel) [])
  have e : pointCalls none [(0 : U128), 77, 511].length (exDepths8 3) (blocksOf exDpf 3) (perBlock (.uint .w8)) = 15 := by
    decide +kernel
  rw [e] at h
  exact ⟨_, h⟩

/-- C97 on an example: the same with vectors of two blocks, with 8 calls. -/
example : ∃ values, MakesCalls (exDpf.evaluateAtF exHwyEnv (Ty.uint .w8).helper exKey 3 [0, 77, 511]) 8 values := by
  have h := C97_points _ _ _ exDpf exDpf_setup _ exDepths8_eq exHwyEnv (some 2)
    ⟨by decide, fun _ _ _ _ _ => ⟨_, rfl, rfl, rfl⟩⟩ (.uint .w8) exKey 3
    [0, 77, 511] (by simp) _ (Res.eq_ok_getD (by decide +kernel) [])
  have e : pointCalls (some 2) [(0 : U128), 77, 511].length (exDepths8 3) (blocksOf exDpf 3) (perBlock (.uint .w8)) =
      8 := by decide +kernel
  rw [e] at h
  exact ⟨_, h⟩

/-- C97 for keys of comparison functions: the tree is one level less deep than the domain has bits. -/
theorem C97_dcf (fp : FpEnv) (p : DpfParameters) (T : Ty) (c : Dcf) (hs : DcfSetup fp p T c) (env : Env) (alpha : U128)
    (beta : Value) (seed0 seed1 : U128) (keys : DcfKey × DcfKey)
    (hk : c.generateKeys env alpha beta seed0 seed1 = ok keys) :
    MakesCalls (c.generateKeysF env alpha beta seed0 seed1)
      (keyGenCalls (p.logDomainSize.toNat - 1) p.logDomainSize.toNat (blocksOf c.dpf)) keys := by
  have wf := hs.setup.wf
  have hn : c.dpf.n = p.logDomainSize.toNat := by rw [hs.setup.toCreated.n_eq, Dcf.dpfParameters_length]
  have hc : Costs (c.generateKeysF env alpha beta seed0 seed1) (c.generateKeys env alpha beta seed0 seed1)
      (keyGenCalls (c.dpf.treeAt (c.dpf.n - 1)) c.dpf.n c.dpf.blocksAt) := by
    unfold Dcf.generateKeysF Dcf.generateKeys
    exact .liftThen fun _ _ => wf.generateKeys_costs _ _ _ _ _
  have := hc keys hk
  rw [hn, hs.treeAt_eq (by have := wf.pos; omega)] at this
  exact this

/-- C97 on an example. -/
example : ∃ keys, MakesCalls (exDcf.generateKeysF exEnv 37 (.tuple [.integer (.u64 7), .intModN (.u64 10)]) 1 2) 16
    keys := by
  have h := C97_dcf exFp exDcfParams exDcfTy exDcf exDcf_setup exEnv 37 (.tuple [.integer (.u64 7), .intModN (.u64 10)]) 1 2
    _ (Res.eq_ok_getD (by decide +kernel) (DpfKey.default, DpfKey.default))
  have e : keyGenCalls (exDcfParams.logDomainSize.toNat - 1) exDcfParams.logDomainSize.toNat (blocksOf exDcf.dpf) =
      16 := by decide +kernel
  rw [e] at h
  exact ⟨_, h⟩

end Verif
