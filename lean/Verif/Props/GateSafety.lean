import Verif.Lemmas.GateSafety
import Verif.Props.Mic
/-!
# C61: comparison functions and interval gates on arbitrary input
-/
namespace Verif
open Res Spec

/-- C61, `Create` of a comparison function: for all parameters without empty tuples and with fewer
than 2^23 integers in the type, a DCF or an error. -/
theorem C61_dcf_create (fp : FpEnv) (p : DpfParameters)
    (hne : ∀ t, p.valueType = some t → NoEmptyTuple t ∧ leaves t < 2 ^ 23) : Safe (Dcf.create fp p) :=
  dcfCreate_safe fp p hne

/-- C61, `GenerateKeys`: for all points and all messages for beta, keys or INVALID_ARGUMENT. Missing:
domains of 2^129 points (`C29_create_refuted`). -/
theorem C61_dcf_keygen_partial (fp : FpEnv) (p : DpfParameters) (T : Ty) (c : Dcf) (hs : DcfSetup fp p T c)
    (env : Env) (alpha : U128) (beta : Value) (seed0 seed1 : U128) :
    (∃ keys, c.generateKeys env alpha beta seed0 seed1 = ok keys) ∨
    c.generateKeys env alpha beta seed0 seed1 = err .invalidArgument :=
  hs.generateKeys_cases env alpha beta seed0 seed1

/-- C61, `GenerateKeys<S>` for any element type, fitting or not: keys or INVALID_ARGUMENT, and the DCF
can still be used with its own type. -/
theorem C61_dcf_typed_partial (fp : FpEnv) (p : DpfParameters) (T : Ty) (c : Dcf) (hs : DcfSetup fp p T c)
    (env : Env) (S : Ty) (alpha : U128) (beta : S.den) (seed0 seed1 : U128) :
    (let r := c.generateKeysFor env S.helper alpha beta seed0 seed1
     ((∃ keys, r.1 = ok keys) ∨ r.1 = err .invalidArgument) ∧ DcfSetup fp p T r.2) :=
  ⟨(hs.register S).generateKeys_cases env alpha _ seed0 seed1, hs.register S⟩

/-- C61, `Evaluate`: for all keys and points, a value or INVALID_ARGUMENT. -/
theorem C61_dcf_evaluate (fp : FpEnv) (p : DpfParameters) (T : Ty) (c : Dcf) (hs : DcfSetup fp p T c)
    (env : Env) (key : DcfKey) (x : U128) :
    (∃ y, c.evaluate env T.helper key x = ok y) ∨ c.evaluate env T.helper key x = err .invalidArgument :=
  hs.evaluate_cases env key x

/-- C61, `BatchEvaluate`: for all keys and points, one value per key or INVALID_ARGUMENT. Missing: 2^31
keys or more (`C28_many`, `C28_refuted`). -/
theorem C61_dcf_batch_partial (fp : FpEnv) (p : DpfParameters) (T : Ty) (c : Dcf) (hs : DcfSetup fp p T c)
    (env : Env) (keys : List DcfKey) (points : List U128) (hint : keys.length < 2 ^ 31) :
    (∃ ys, c.batchEvaluate env T.helper keys points = ok ys ∧ ys.length = keys.length) ∨
    c.batchEvaluate env T.helper keys points = err .invalidArgument :=
  hs.batchEvaluate_cases env keys points hint

/-- C61, `BatchEvaluate` into an output span of any size with any contents: on success the span has one
value per key, otherwise INVALID_ARGUMENT. Missing: 2^31 keys or more. -/
theorem C61_dcf_into_partial (fp : FpEnv) (p : DpfParameters) (T : Ty) (c : Dcf) (hs : DcfSetup fp p T c)
    (env : Env) (keys : List DcfKey) (points : List U128) (output : List T.den) (hint : keys.length < 2 ^ 31) :
    (let r := c.batchEvaluateInto env T.helper keys points output
     (r.1 = ok () ∧ output.length = keys.length ∧ r.2.length = keys.length) ∨ r.1 = err .invalidArgument) := by
  dsimp only
  by_cases h : points.length = keys.length ∧ output.length = keys.length
  · have e := C28_output T c env keys points output h.1 h.2
    dsimp only at e
    rcases hs.batchEvaluate_cases env keys points hint with ⟨ys, e', hl⟩ | e'
    · rw [e'] at e
      obtain ⟨u, h1, h2⟩ := bind_eq_ok.mp e
      exact Or.inl ⟨h1, h.2, by rw [ok.inj h2]; exact hl⟩
    · right
      rw [e'] at e
      generalize c.batchEvaluateInto env T.helper keys points output = r at e
      obtain ⟨r1, r2⟩ := r
      cases r1 <;> simp at e ⊢
      exact e
  · exact Or.inr (by rw [C28_sizes c env T keys points output (by omega)])

/-- C61, `Create` of a gate: for all parameters, a gate or an error. -/
theorem C61_mic_create (fp : FpEnv) (params : MicParameters) : Safe (Mic.create fp params) :=
  micCreate_cases fp params

/-- C61, `Gen`: for all masks, keys or INVALID_ARGUMENT, and a gate that can be used again. -/
theorem C61_mic_gen (fp : FpEnv) (params : MicParameters) (g : Mic) (hs : MicSetup fp params g) (env : Env)
    (rIn : U128) (rOut : List U128) (seed0 seed1 : U128) (rand : Nat → U128) :
    (let r := g.gen env rIn rOut seed0 seed1 rand
     ((∃ keys, r.1 = ok keys) ∨ r.1 = err .invalidArgument) ∧ MicSetup fp params r.2) :=
  ⟨hs.gen_cases env rIn rOut seed0 seed1 rand, hs.gen_after env rIn rOut seed0 seed1 rand⟩

/-- C61, `BatchEval`: for all keys with a mask share for every interval and all points, one value per
key and interval or INVALID_ARGUMENT. Missing: keys with fewer mask shares (`C61_mic_eval_refuted`) and batches
for which the number of keys or outputs does not fit an `int` (`C31_many`). -/
theorem C61_mic_eval_partial (fp : FpEnv) (params : MicParameters) (g : Mic) (hs : MicSetup fp params g)
    (env : Env) (keys : List MicKey) (points : List U128)
    (hm : ∀ k ∈ keys, params.intervals.length ≤ k.outputMaskShare.length)
    (hint : keys.length < 2 ^ 31) (hcells : keys.length * params.intervals.length < 2 ^ 31) :
    (∃ ys, g.batchEval env keys points = ok ys ∧ ys.length = keys.length * params.intervals.length) ∨
    g.batchEval env keys points = err .invalidArgument :=
  hs.batchEval_cases env keys points hm hint hcells

/-- C61: whenever a key can be evaluated, the same key with too few mask shares (as few as none) makes
the evaluation read out of range: every gate, key and point is affected. -/
theorem C61_mic_eval_refuted (fp : FpEnv) (params : MicParameters) (g : Mic) (hs : MicSetup fp params g)
    (env : Env) (key : MicKey) (x : U128) (ys : List U128) (h : g.eval env key x = ok ys)
    (masks : List IntegerP) (hm : masks.length < params.intervals.length) :
    g.eval env ⟨key.dcfKey, masks⟩ x = ub :=
  hs.few_masks env key x ys masks h hm

/-- C61 on examples: creation with odd parameters. -/
example : Safe (Dcf.create exFp ⟨-7, some (.xorWrapper 3), .val 0⟩) ∧ Safe (Dcf.create exFp ⟨300, none, .nan⟩) ∧
    Safe (Mic.create exFp ⟨127, [⟨some (.u128 1 3), some .notSet⟩]⟩) :=
  ⟨C61_dcf_create _ _ (by intro t h; cases h; exact ⟨trivial, (by decide : 1 < 2 ^ 23)⟩), C61_dcf_create _ _ (by intro t h; cases h),
    C61_mic_create _ _⟩

/-- C61 on an example: keys and a point that do not fit, a wrong element type, a malformed key. -/
example : (∃ k, exDcf.generateKeys exEnv 77 (.tuple []) 1 2 = ok k) ∨
    exDcf.generateKeys exEnv 77 (.tuple []) 1 2 = err .invalidArgument :=
  C61_dcf_keygen_partial exFp exDcfParams exDcfTy exDcf exDcf_setup exEnv 77 (.tuple []) 1 2
example : DcfSetup exFp exDcfParams exDcfTy
    (exDcf.generateKeysFor exEnv (Ty.uint .w8).helper 5 7#8 1 2).2 :=
  (C61_dcf_typed_partial exFp exDcfParams exDcfTy exDcf exDcf_setup exEnv (.uint .w8) 5 7#8 1 2).2
example : exDcf.batchEvaluate exEnv exDcfTy.helper [exKey, DpfKey.default] [3, 4] = err .invalidArgument := by
  rcases C61_dcf_batch_partial exFp exDcfParams exDcfTy exDcf exDcf_setup exEnv [exKey, DpfKey.default] [3, 4]
    (show (2 : Nat) < 2 ^ 31 by decide) with
    ⟨ys, e, _⟩ | e
  · exfalso
    have h : (match exDcf.batchEvaluate exEnv exDcfTy.helper [exKey, DpfKey.default] [3, 4] with
      | .ok _ => false | _ => true) = true := by decide +kernel
    rw [e] at h
    cases h
  · exact e
example (y : exDcfTy.den) : (exDcf.batchEvaluateInto exEnv exDcfTy.helper [exKey] [3] [y, y]).1 =
    err .invalidArgument := by
  rcases C61_dcf_into_partial exFp exDcfParams exDcfTy exDcf exDcf_setup exEnv [exKey] [3] [y, y]
    (show (1 : Nat) < 2 ^ 31 by decide) with ⟨_, h, _⟩ | h
  · cases h
  · exact h

/-- C61 on an example: a gate with two intervals evaluates two malformed keys. -/
example : (∃ ys, exMic.batchEval exEnv [⟨exKey, [.notSet, .notSet]⟩, ⟨DpfKey.default, [.u64 1, .u64 2]⟩] [3, 4] =
      ok ys ∧ ys.length = 4) ∨
    exMic.batchEval exEnv [⟨exKey, [.notSet, .notSet]⟩, ⟨DpfKey.default, [.u64 1, .u64 2]⟩] [3, 4] =
      err .invalidArgument :=
  C61_mic_eval_partial exFp exMicParams exMic exMic_setup exEnv _ _ (by
    intro k hk
    simp only [List.mem_cons, List.not_mem_nil, or_false] at hk
    rcases hk with rfl | rfl <;> decide) (show (2 : Nat) < 2 ^ 31 by decide) (show (2 * 2 : Nat) < 2 ^ 31 by decide)

/-- C61 on an example: keys from `Gen`, one mask share removed. -/
example (k : MicKey) (ys : List U128) (h : exMic.eval exEnv k 3 = ok ys) :
    exMic.eval exEnv ⟨k.dcfKey, [.u64 0]⟩ 3 = ub :=
  C61_mic_eval_refuted exFp exMicParams exMic exMic_setup exEnv k 3 ys h [.u64 0] (by decide)
example : exMic64.eval exEnv ⟨exMic64Keys.1.dcfKey, []⟩ 4 = ub :=
  C61_mic_eval_refuted exFp exMicParams64' exMic64 ⟨exMic64, [], exMic64_create, rfl⟩ exEnv exMic64Keys.1 4 _
    (Res.eq_ok_getD (by decide +kernel) []) [] (by decide)

/-- C61 on an example: an arbitrary key of a DCF; masks that do not fit. -/
example (key : DcfKey) (x : U128) : exDcf.evaluate exEnv exDcfTy.helper key x ≠ ub := by
  rcases C61_dcf_evaluate exFp exDcfParams exDcfTy exDcf exDcf_setup exEnv key x with ⟨y, h⟩ | h <;> rw [h] <;> simp
example (rand : Nat → U128) : (exMic.gen exEnv (2 ^ 100) [1, 2, 3] 1 2 rand).1 ≠ ub ∧
    MicSetup exFp exMicParams (exMic.gen exEnv (2 ^ 100) [1, 2, 3] 1 2 rand).2 := by
  obtain ⟨h, hs⟩ := C61_mic_gen exFp exMicParams exMic exMic_setup exEnv (2 ^ 100) [1, 2, 3] 1 2 rand
  refine ⟨?_, hs⟩
  rcases h with ⟨k, h⟩ | h <;> rw [h] <;> simp

end Verif
