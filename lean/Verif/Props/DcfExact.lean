import Verif.Lemmas.DcfExact
import Verif.Props.Dcf
/-!
# Properties C27 and C29 for all types: what a DCF does
-/
namespace Verif
open Res Spec

/-- C27, what the code does for every type and every message it accepts: the shares add up to beta below alpha and to
zero elsewhere in the place of integers and residues; in the place of a `XorWrapper` they add up to beta if the path to
the point goes left at an odd number of levels before it has left the path to alpha, and otherwise to zero, whichever of
the two points is smaller. -/
theorem C27_exact (fp : FpEnv) (p : DpfParameters) (T : Ty) (c : Dcf) (hs : DcfSetup fp p T c) (env : Env)
    (alpha : U128) (halpha : alpha.toNat < 2 ^ p.logDomainSize.toNat) (beta : Value) (b : T.den)
    (hb : AcceptedBeta T alpha beta b) (seed0 seed1 : U128) :
    ∃ k0 k1, c.generateKeys env alpha beta seed0 seed1 = ok (k0, k1) ∧
      ∀ x : U128, x.toNat < 2 ^ p.logDomainSize.toNat →
        ∃ v0 v1, c.evaluate env T.helper k0 x = ok v0 ∧ c.evaluate env T.helper k1 x = ok v1 ∧
          T.helper.add v0 v1 = compared T b (decide (x.toNat < alpha.toNat))
            (decide (sharedZeros p.logDomainSize.toNat x.toNat alpha.toNat p.logDomainSize.toNat % 2 = 1)) :=
  hs.correct_all env halpha hb seed0 seed1

/-- C29, what `GenerateKeys` accepts: keys are returned iff alpha is in the domain and the message stands for some
element, of which only the `XorWrapper` parts count if alpha is zero; otherwise the error is INVALID_ARGUMENT. -/
theorem C29_generateKeys_exact (fp : FpEnv) (p : DpfParameters) (T : Ty) (c : Dcf) (hs : DcfSetup fp p T c) (env : Env)
    (alpha : U128) (beta : Value) (seed0 seed1 : U128) :
    ((∃ k0 k1, c.generateKeys env alpha beta seed0 seed1 = ok (k0, k1)) ↔
      alpha.toNat < 2 ^ p.logDomainSize.toNat ∧ ∃ b, AcceptedBeta T alpha beta b) ∧
    (c.generateKeys env alpha beta seed0 seed1 = err .invalidArgument ↔
      ¬ (alpha.toNat < 2 ^ p.logDomainSize.toNat ∧ ∃ b, AcceptedBeta T alpha beta b)) := by
  have hpos := hs.log_pos
  obtain ⟨h1, h2⟩ := C19_registered fp _ _ _ hs.setup env (alpha >>> 1)
    ((List.range p.logDomainSize.toNat).map fun i =>
      if alpha.toNat / 2 ^ (p.logDomainSize.toNat - i - 1) % 2 = 1 then beta else setToZero beta) seed0 seed1
  rw [hs.generateKeys_unfold env alpha beta seed0 seed1, h1, h2]
  have hpow : 2 ^ p.logDomainSize.toNat = 2 ^ (p.logDomainSize.toNat - 1) * 2 := by
    rw [← Nat.pow_succ]; congr 1; omega
  have hshr : (alpha >>> 1).toNat = alpha.toNat / 2 := by rw [Dpf.shr_toNat]
  have e : ((alpha >>> 1).toNat < 2 ^ lastLogSize (Dcf.dpfParameters p) ∧
      ∃ b, BetasRepresent (Dcf.dpfParameters p) (fun _ => T)
        ((List.range p.logDomainSize.toNat).map fun i =>
          if alpha.toNat / 2 ^ (p.logDomainSize.toNat - i - 1) % 2 = 1 then beta else setToZero beta) b) ↔
      alpha.toNat < 2 ^ p.logDomainSize.toNat ∧ ∃ b, AcceptedBeta T alpha beta b := by
    rw [hs.lastLogSize_eq, hshr]
    constructor
    · rintro ⟨ha, b, hb⟩
      exact ⟨by omega, hs.acceptedBeta (by omega) hb⟩
    · rintro ⟨ha, b, hb⟩
      exact ⟨by omega, _, hs.betasRepresent hb⟩
  exact ⟨e, not_congr e⟩

/-- `C27_exact` contains `C27_comparison_partial`: a message that represents an element is accepted, and without
`XorWrapper` only the comparison counts. -/
theorem C27_exact_comparison (T : Ty) (alpha : U128) (beta : Value) (b : T.den) (hb : Represents T beta b) :
    AcceptedBeta T alpha beta b ∧ (T.noXor = true → ∀ less odd : Bool,
      compared T b less odd = if less then b else T.helper.zero) :=
  ⟨hb.accepted, fun h l o => compared_noXor T h b l o⟩

/-- Parameters used in the examples: a byte and an XOR-shared byte, 2^3 points. -/
def exMixTy : Ty := .tuple (.cons (.uint .w8) (.one (.xorWrapper .w8)))
@[inherit_doc exMixTy] def exMixParams : DpfParameters := ⟨3, some exMixTy.helper.toValueType, .val 0⟩
/-- The DCF with these parameters. -/
def exMixDcf : Dcf := ((Dcf.create exFp exMixParams).getD ⟨0, exDpf⟩).registerAll [exMixTy]
theorem exMixDcf_setup : DcfSetup exFp exMixParams exMixTy exMixDcf :=
  ⟨⟨_, [exMixTy], Res.eq_ok_getD (by decide +kernel) _, rfl, Or.inl (by simp)⟩, rfl, by decide, by decide +kernel⟩

/-- C27 on an example, alpha = 5, beta = (7, 9). At point 0, below alpha, both parts are there; at point 4, below alpha,
only the byte is; at point 6, above alpha, nothing. -/
example : ∃ k0 k1, exMixDcf.generateKeys exEnv 5 (.tuple [.integer (.u64 7), .xorWrapper (.u64 9)]) 1 2 = ok (k0, k1) ∧
    ∀ x : U128, x.toNat < 8 → ∃ v0 v1, exMixDcf.evaluate exEnv exMixTy.helper k0 x = ok v0 ∧
      exMixDcf.evaluate exEnv exMixTy.helper k1 x = ok v1 ∧
      (x = 0 → exMixTy.helper.add v0 v1 = (7#8, 9#8)) ∧ (x = 4 → exMixTy.helper.add v0 v1 = (7#8, 0#8)) ∧
      (x = 6 → exMixTy.helper.add v0 v1 = (0#8, 0#8)) := by
  obtain ⟨k0, k1, hk, h⟩ := C27_exact exFp exMixParams exMixTy exMixDcf exMixDcf_setup exEnv 5 (by decide)
    (.tuple [.integer (.u64 7), .xorWrapper (.u64 9)]) (7#8, 9#8)
    (C27_exact_comparison exMixTy 5 _ _ ⟨_, rfl, _, _, rfl, ⟨_, rfl, rfl⟩, _, rfl, _, rfl, rfl⟩).1 1 2
  refine ⟨k0, k1, hk, fun x hx => ?_⟩
  obtain ⟨v0, v1, h0, h1, hs⟩ := h x hx
  refine ⟨v0, v1, h0, h1, ?_, ?_, ?_⟩ <;> rintro rfl <;> rw [hs] <;> rfl

/-- C29 on an example: with alpha = 0, the byte of the message may be unset; with alpha = 1 it may not. -/
example : (∃ k0 k1, exMixDcf.generateKeys exEnv 0 (.tuple [.integer .notSet, .xorWrapper (.u64 9)]) 1 2 = ok (k0, k1)) ∧
    exMixDcf.generateKeys exEnv 1 (.tuple [.integer .notSet, .xorWrapper (.u64 9)]) 1 2 = err .invalidArgument := by
  constructor
  · refine (C29_generateKeys_exact exFp exMixParams exMixTy exMixDcf exMixDcf_setup exEnv 0 _ 1 2).1.mpr
      ⟨by decide, (0#8, 9#8), ?_⟩
    unfold AcceptedBeta
    rw [if_pos rfl]
    exact ⟨_, rfl, _, _, rfl, ⟨_, rfl⟩, _, rfl, _, rfl, rfl⟩
  · refine (C29_generateKeys_exact exFp exMixParams exMixTy exMixDcf exMixDcf_setup exEnv 1 _ 1 2).2.mpr ?_
    rintro ⟨_, b, hb⟩
    unfold AcceptedBeta at hb
    rw [if_neg (by decide)] at hb
    obtain ⟨vs, hv, v, vs', rfl, ⟨i, rfl, hi⟩, _⟩ := hb
    simp only [Value.tuple.injEq, List.cons.injEq, Value.integer.injEq] at hv
    obtain ⟨rfl, _⟩ := hv
    simp [intMsg] at hi

end Verif
