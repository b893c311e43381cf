import Verif.Model.KeyGenOverloads
import Verif.Props.PointFunction
/-! Facts about the overloads of key generation. -/
namespace Verif
open Res Spec

namespace Dpf
variable (d : Dpf)

theorem convert_eq (args : List TypedArg) (vs : List Value) :
    args.foldl convertStep (vs, d) =
      (vs ++ args.map (fun x => x.1.helper.toValue x.2), d.registerAll (args.map (·.1))) := by
  induction args generalizing vs d with
  | nil => simp [registerAll]
  | cons x xs ih =>
    rw [List.foldl_cons]
    show xs.foldl convertStep (vs ++ [x.1.helper.toValue x.2], d.registerValueType x.1.helper) = _
    rw [ih]
    simp [registerAll]

theorem variadic_eq (env : Env) (alpha : U128) (x : TypedArg) (xs : List TypedArg)
    (seed0 seed1 : U128) : d.generateKeysVariadic env alpha x xs seed0 seed1 =
      ((d.registerAll ((x :: xs).map (·.1))).generateKeysIncremental env alpha
        ((x :: xs).map fun x => x.1.helper.toValue x.2) seed0 seed1,
       d.registerAll ((x :: xs).map (·.1))) := by
  have := convert_eq d (x :: xs) []
  rw [List.nil_append] at this
  unfold generateKeysVariadic
  show (((x :: xs).foldl convertStep ([], d)).2.generateKeysIncremental _ _
    ((x :: xs).foldl convertStep ([], d)).1 _ _, ((x :: xs).foldl convertStep ([], d)).2) = _
  rw [this]

theorem span_eq (env : Env) (alpha : U128) (t : Ty) (xs : List t.den) (seed0 seed1 : U128) :
    d.generateKeysSpan env alpha t xs seed0 seed1 =
      ((d.registerAll (xs.map fun _ => t)).generateKeysIncremental env alpha
        (xs.map t.helper.toValue) seed0 seed1, d.registerAll (xs.map fun _ => t)) := by
  have := convert_eq d (xs.map fun x => ⟨t, x⟩) []
  rw [List.foldl_map, List.nil_append] at this
  unfold generateKeysSpan
  dsimp only
  rw [this, List.map_map, List.map_map]
  rfl

theorem integers_eq (env : Env) (alpha : U128) (xs : List U128) (seed0 seed1 : U128) :
    d.generateKeysIntegers env alpha xs seed0 seed1 =
      ((d.registerAll (xs.map fun _ => .uint .w128)).generateKeysIncremental env alpha
        (xs.map (uintHelper 128).toValue) seed0 seed1, d.registerAll (xs.map fun _ => .uint .w128)) :=
  span_eq d env alpha (.uint .w128) xs seed0 seed1

end Dpf

theorem Spec.Created.register {fp : FpEnv} {params : List DpfParameters} {d : Dpf}
    (h : Created fp params d) (Ts : List Ty) : Created fp params (d.registerAll Ts) := by
  obtain ⟨d0, Ts0, h1, rfl⟩ := h
  exact ⟨d0, Ts0 ++ Ts, h1, by simp [Dpf.registerAll]⟩

/-- Registering the types of the levels gives a DPF in use. -/
theorem Spec.Created.setup {fp : FpEnv} {params : List DpfParameters} {T : Nat → Ty} {d : Dpf}
    (hc : Created fp params d)
    (types : ∀ h p, params[h]? = some p → p.valueType = some (T h).helper.toValueType)
    (bytes : ∀ h k, d.blocksNeeded[h]? = some k → (T h).bytesRead ≤ 16 * k) {Ts : List Ty}
    (hT : ∀ h, h < params.length → T h ∈ Ts ∨ ∃ w, T h = .uint w) :
    Setup fp params T (d.registerAll Ts) := by
  obtain ⟨d0, Ts0, h1, rfl⟩ := hc
  refine ⟨⟨d0, Ts0 ++ Ts, h1, by simp [Dpf.registerAll], ?_⟩, types, ?_⟩
  · intro h hh
    exact (hT h hh).imp (fun h => List.mem_append_right _ h) id
  · intro h k hk
    rw [((d0.registerAll Ts0).registerAll_pv Ts).2] at hk
    exact bytes h k hk

/-- Numbers on integer levels. -/
theorem betas_integers {params : List DpfParameters} {w : Nat → Width} {beta : List U128}
    (hl : beta.length = params.length)
    (hb : ∀ h x, beta[h]? = some x → x.toNat < 2 ^ (w h).bits) :
    BetasRepresent params (fun h => .uint (w h))
      (beta.map (uintHelper 128).toValue)
      (fun h => BitVec.ofNat (w h).bits (beta.getD h 0).toNat) := by
  refine ⟨by rw [List.length_map, hl], ?_⟩
  intro h v hv
  rw [List.getElem?_map, Option.map_eq_some_iff] at hv
  obtain ⟨x, hx, rfl⟩ := hv
  obtain ⟨i, hi, hn⟩ := C20_encoded_represents (.uint .w128) x
  refine ⟨i, hi, ?_⟩
  have e : beta.getD h 0 = x := by rw [List.getD, hx, Option.getD_some]
  rw [hn]
  simp only [e]
  simp only [BitVec.toNat_ofNat, Option.some.injEq]
  rw [Nat.mod_eq_of_lt (hb h x hx)]
  rfl

theorem integers_of_betas {params : List DpfParameters} {w : Nat → Width} {beta : List U128}
    {b : (h : Nat) → (Ty.uint (w h)).den}
    (h : BetasRepresent params (fun h => .uint (w h)) (beta.map (uintHelper 128).toValue) b) :
    beta.length = params.length ∧ ∀ h x, beta[h]? = some x → x.toNat < 2 ^ (w h).bits := by
  obtain ⟨h1, h2⟩ := h
  rw [List.length_map] at h1
  refine ⟨h1, ?_⟩
  intro h x hx
  obtain ⟨i, hi, hn⟩ := C20_encoded_represents (.uint .w128) x
  obtain ⟨j, hj, hm⟩ := h2 h _ (by rw [List.getElem?_map, hx]; rfl)
  replace hj : (Ty.uint .w128).helper.toValue x = .integer j := hj
  rw [hi, Value.integer.injEq] at hj
  rw [← hj, hn, Option.some.injEq] at hm
  have := (b h).isLt
  exact Nat.lt_of_le_of_lt (Nat.le_of_eq hm) this

end Verif
