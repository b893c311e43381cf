import Verif.Lemmas.KeyGenOverloads
/-!
# C59: the overloads of key generation
-/
namespace Verif
open Res Spec

/-- The DPF `d` evaluates the keys `k0`, `k1` to shares of the point functions with values `b` at the
prefixes of `alpha`. -/
def Spec.SharesPoint (params : List DpfParameters) (T : Nat → Ty) (d : Dpf) (env : Env)
    (alpha : U128) (b : (h : Nat) → (T h).den) (k0 k1 : DpfKey) : Prop :=
  ∀ h, h < params.length → ∀ points : List U128,
    (∀ x ∈ points, x.toNat < 2 ^ logSize params h) →
    ∃ v0 v1, d.evaluateAt env (T h).helper k0 h points = ok v0 ∧
      d.evaluateAt env (T h).helper k1 h points = ok v1 ∧
      v0.length = points.length ∧ v1.length = points.length ∧
      List.zipWith (T h).helper.add v0 v1 = points.map fun x =>
        if x.toNat = alphaPrefix params alpha h then b h else (T h).helper.zero

/-- C59, variadic template: on a DPF with any registrations (possibly none), passing one element of
each level's type generates keys that the object can evaluate to shares of the point functions with
these elements, and leaves all types registered. -/
theorem C59_variadic (fp : FpEnv) (params : List DpfParameters) (T : Nat → Ty) (d : Dpf)
    (hc : Created fp params d)
    (types : ∀ h p, params[h]? = some p → p.valueType = some (T h).helper.toValueType)
    (bytes : ∀ h k, d.blocksNeeded[h]? = some k → (T h).bytesRead ≤ 16 * k)
    (env : Env) (alpha : U128) (halpha : alpha.toNat < 2 ^ lastLogSize params)
    (b : (h : Nat) → (T h).den) (x : TypedArg) (xs : List TypedArg)
    (hx : x :: xs = (List.range params.length).map fun h => ⟨T h, b h⟩) (seed0 seed1 : U128) :
    ∃ k0 k1 d', d.generateKeysVariadic env alpha x xs seed0 seed1 = (ok (k0, k1), d') ∧
      Setup fp params T d' ∧ SharesPoint params T d' env alpha b k0 k1 := by
  rw [Dpf.variadic_eq, hx, List.map_map, List.map_map]
  have hs : Setup fp params T (d.registerAll ((List.range params.length).map T)) :=
    hc.setup types bytes fun h hh => Or.inl (List.mem_map.mpr ⟨h, List.mem_range.mpr hh, rfl⟩)
  have hb : BetasRepresent params T
      ((List.range params.length).map fun h => (T h).helper.toValue (b h)) b := by
    refine ⟨by simp, ?_⟩
    intro h v hv
    rw [List.getElem?_map, Option.map_eq_some_iff] at hv
    obtain ⟨i, hi, rfl⟩ := hv
    obtain ⟨h1, h2⟩ := List.getElem?_eq_some_iff.mp hi
    rw [List.getElem_range] at h2
    subst h2
    exact C20_encoded_represents (T h) (b h)
  obtain ⟨k0, k1, hk, he⟩ := C01_point_function_partial fp params T _ hs env alpha halpha _ b hb
    seed0 seed1
  exact ⟨k0, k1, _, congrArg (·, _) hk, hs, he⟩

/-- C59, span template and single-element template, one C++ type for all levels. -/
theorem C59_span (fp : FpEnv) (params : List DpfParameters) (t : Ty) (d : Dpf)
    (hc : Created fp params d)
    (types : ∀ p ∈ params, p.valueType = some t.helper.toValueType)
    (bytes : ∀ k ∈ d.blocksNeeded, t.bytesRead ≤ 16 * k)
    (env : Env) (alpha : U128) (halpha : alpha.toNat < 2 ^ lastLogSize params)
    (b : Nat → t.den) (seed0 seed1 : U128) :
    (∃ k0 k1 d', d.generateKeysSpan env alpha t ((List.range params.length).map b) seed0 seed1 =
        (ok (k0, k1), d') ∧
      Setup fp params (fun _ => t) d' ∧ SharesPoint params (fun _ => t) d' env alpha b k0 k1) ∧
    (params.length = 1 → ∃ k0 k1 d', d.generateKeysTyped env alpha ⟨t, b 0⟩ seed0 seed1 =
        (ok (k0, k1), d') ∧
      Setup fp params (fun _ => t) d' ∧ SharesPoint params (fun _ => t) d' env alpha b k0 k1) := by
  have hty : ∀ (h : Nat) p, params[h]? = some p → p.valueType = some t.helper.toValueType :=
    fun h p hp => types p (List.mem_of_getElem? hp)
  have hby : ∀ (h : Nat) k, d.blocksNeeded[h]? = some k → t.bytesRead ≤ 16 * k :=
    fun h k hk => bytes k (List.mem_of_getElem? hk)
  have hspan : ∃ k0 k1 d',
      d.generateKeysSpan env alpha t ((List.range params.length).map b) seed0 seed1 =
        (ok (k0, k1), d') ∧
      Setup fp params (fun _ => t) d' ∧ SharesPoint params (fun _ => t) d' env alpha b k0 k1 := by
    rw [Dpf.span_eq, List.map_map, List.map_map]
    have hs : Setup fp params (fun _ => t)
        (d.registerAll ((List.range params.length).map fun _ => t)) :=
      hc.setup hty hby fun h hh => Or.inl (List.mem_map.mpr ⟨h, List.mem_range.mpr hh, rfl⟩)
    have hb : BetasRepresent params (fun _ => t)
        ((List.range params.length).map fun h => t.helper.toValue (b h)) b := by
      refine ⟨by simp, ?_⟩
      intro h v hv
      rw [List.getElem?_map, Option.map_eq_some_iff] at hv
      obtain ⟨i, hi, rfl⟩ := hv
      obtain ⟨h1, h2⟩ := List.getElem?_eq_some_iff.mp hi
      rw [List.getElem_range] at h2
      subst h2
      exact C20_encoded_represents t (b h)
    obtain ⟨k0, k1, hk, he⟩ := C01_point_function_partial fp params _ _ hs env alpha halpha _ b hb
      seed0 seed1
    exact ⟨k0, k1, _, congrArg (·, _) hk, hs, he⟩
  refine ⟨hspan, ?_⟩
  intro h1
  rw [h1, Dpf.span_eq] at hspan
  exact hspan

/-- C59, templates: INVALID_ARGUMENT for a wrong number of arguments, alpha outside the last domain, or
an element that does not match the type of its level. -/
theorem C59_templates_reject (fp : FpEnv) (params : List DpfParameters) (d : Dpf)
    (hc : Created fp params d) (env : Env) (alpha : U128) (x : TypedArg) (xs : List TypedArg)
    (seed0 seed1 : U128)
    (h : (x :: xs).length ≠ params.length ∨ 2 ^ lastLogSize params ≤ alpha.toNat ∨
      ∃ (h : Nat) (p : DpfParameters) (vt : ValueType) (t : Ty) (e : t.den), params[h]? = some p ∧
        p.valueType = some vt ∧ (x :: xs)[h]? = some ⟨t, e⟩ ∧
        ∀ v, Represents t v e → ¬ Matches vt v) :
    (d.generateKeysVariadic env alpha x xs seed0 seed1).1 = err .invalidArgument := by
  rw [Dpf.variadic_eq]
  refine C19_rejects fp params _ (hc.register _) env alpha _ seed0 seed1 ?_
  rcases h with h | h | ⟨h, p, vt, t, e, h1, h2, h3, h4⟩
  · exact Or.inl (by rwa [List.length_map])
  · exact Or.inr (Or.inr h)
  · refine Or.inr (Or.inl ⟨h, p, vt, t.helper.toValue e, h1, h2, ?_, ?_⟩)
    · rw [List.getElem?_map, h3]; rfl
    · exact h4 _ (C20_encoded_represents t e)

/-- C59, integers: if every level has an unsigned integer type, `GenerateKeysIncremental` for a vector
of `absl::uint128` succeeds exactly if there is one number for each level, each fits the type of its
level, and alpha is in the last domain; the keys are shares of the point functions with these numbers.
Everything else is INVALID_ARGUMENT. The same holds for `GenerateKeys` with one number. -/
theorem C59_integers (fp : FpEnv) (params : List DpfParameters) (w : Nat → Width) (d : Dpf)
    (hc : Created fp params d)
    (types : ∀ (h : Nat) p, params[h]? = some p → p.valueType = some (.integer (w h).bits))
    (env : Env) (alpha : U128) (beta : List U128) (seed0 seed1 : U128) :
    ((beta.length = params.length ∧ (∀ h x, beta[h]? = some x → x.toNat < 2 ^ (w h).bits) ∧
        alpha.toNat < 2 ^ lastLogSize params) →
      ∃ k0 k1 d', d.generateKeysIntegers env alpha beta seed0 seed1 = (ok (k0, k1), d') ∧
        Setup fp params (fun h => .uint (w h)) d' ∧
        SharesPoint params (fun h => .uint (w h)) d' env alpha
          (fun h => BitVec.ofNat (w h).bits (beta.getD h 0).toNat) k0 k1) ∧
    (¬ (beta.length = params.length ∧ (∀ h x, beta[h]? = some x → x.toNat < 2 ^ (w h).bits) ∧
        alpha.toNat < 2 ^ lastLogSize params) →
      (d.generateKeysIntegers env alpha beta seed0 seed1).1 = err .invalidArgument) ∧
    (∀ x, beta = [x] → d.generateKeysInteger env alpha x seed0 seed1 =
      d.generateKeysIntegers env alpha beta seed0 seed1) := by
  have hs : ∀ Ts, Setup fp params (fun h => .uint (w h)) (d.registerAll Ts) := by
    intro Ts
    obtain ⟨d0, Ts0, h1, rfl⟩ := hc
    have := Setup.of_flat (Ts := Ts0 ++ Ts) (T := fun h => .uint (w h)) h1 (fun h p hp => types h p hp)
      (fun h _ => Or.inr ⟨w h, rfl⟩) (fun h _ => Or.inl rfl)
    rwa [show d0.registerAll (Ts0 ++ Ts) = (d0.registerAll Ts0).registerAll Ts by
      simp [Dpf.registerAll]] at this
  refine ⟨?_, ?_, ?_⟩
  · rintro ⟨h1, h2, h3⟩
    rw [Dpf.integers_eq]
    have hs' := hs (beta.map fun _ => .uint .w128)
    obtain ⟨k0, k1, hk, he⟩ := C01_point_function_partial fp params _ _ hs' env alpha h3 _ _
      (betas_integers h1 h2) seed0 seed1
    exact ⟨k0, k1, _, congrArg (·, _) hk, hs', he⟩
  · intro hn
    rw [Dpf.integers_eq]
    refine (C19_registered fp params _ _ (hs _) env alpha _ seed0 seed1).2.mpr ?_
    rintro ⟨ha, b, hb⟩
    obtain ⟨h1, h2⟩ := integers_of_betas hb
    exact hn ⟨h1, h2, ha⟩
  · rintro x rfl; rfl

/-- C59, integers on other types: if some level's type is not an integer, or the number of arguments is
wrong, the integer overloads return INVALID_ARGUMENT. -/
theorem C59_integers_other (fp : FpEnv) (params : List DpfParameters) (d : Dpf)
    (hc : Created fp params d) (env : Env) (alpha : U128) (beta : List U128) (seed0 seed1 : U128)
    (h : beta.length ≠ params.length ∨ ∃ p ∈ params, ∀ k, p.valueType ≠ some (.integer k)) :
    (d.generateKeysIntegers env alpha beta seed0 seed1).1 = err .invalidArgument := by
  rw [Dpf.integers_eq]
  have hc' := hc.register (beta.map fun _ => .uint .w128)
  by_cases hl : beta.length = params.length
  · obtain ⟨p, hp, hk⟩ := h.resolve_left (fun h => h hl)
    obtain ⟨i, hi, hpi⟩ := List.mem_iff_getElem.mp hp
    have hgi : params[i]? = some p := by rw [List.getElem?_eq_getElem hi, hpi]
    have hx := List.getElem?_eq_getElem (l := beta) (i := i) (by omega)
    obtain ⟨t, ht, _⟩ : ∃ t, p.valueType = some t ∧ ValidType t := by
      obtain ⟨d0, Ts, h1, _⟩ := hc
      obtain ⟨hpv, _, _⟩ := createIncremental_spec h1
      exact (create_spec hpv).1.types p hp
    refine C19_rejects fp params _ hc' env alpha (beta.map (uintHelper 128).toValue) seed0 seed1
      (Or.inr (Or.inl ⟨i, p, t, _, hgi, ht, by rw [List.getElem?_map, hx]; rfl, ?_⟩))
    obtain ⟨j, hj, _⟩ := C20_encoded_represents (.uint .w128) (beta[i]'(by omega))
    intro hm
    replace hm : Matches t ((Ty.uint .w128).helper.toValue (beta[i]'(by omega))) := hm
    rw [hj] at hm
    cases t with
    | notSet => exact hm
    | integer k => exact hk k ht
    | xorWrapper k => obtain ⟨i, hi, _⟩ := hm; cases hi
    | intModN k m => obtain ⟨i, n, N, hi, _⟩ := hm; cases hi
    | tuple ts => obtain ⟨vs, hi, _⟩ := hm; cases hi
  · exact C19_rejects fp params _ hc' env alpha (beta.map (uintHelper 128).toValue) seed0 seed1
      (Or.inl (by rwa [List.length_map]))

/-- C59, `GenerateKeys` on an incremental DPF: all three overloads return INVALID_ARGUMENT. -/
theorem C59_single_level (fp : FpEnv) (params : List DpfParameters) (d : Dpf)
    (hc : Created fp params d) (hn : params.length ≠ 1) (env : Env) (alpha seed0 seed1 : U128) :
    (∀ x, (d.generateKeysInteger env alpha x seed0 seed1).1 = err .invalidArgument) ∧
    (∀ v, (d.generateKeysValue env alpha v seed0 seed1).1 = err .invalidArgument) ∧
    (∀ x, (d.generateKeysTyped env alpha x seed0 seed1).1 = err .invalidArgument) :=
  ⟨fun _ => C59_integers_other fp params d hc env alpha [_] seed0 seed1 (Or.inl fun h => hn h.symm),
    fun _ => C19_rejects fp params d hc env alpha _ seed0 seed1 (Or.inl fun h => hn h.symm),
    fun x => C19_rejects fp params (d.registerAll [x.1]) (hc.register _) env alpha _ seed0 seed1
      (Or.inl fun h => hn h.symm)⟩

/-- C59 on the DPF of the examples, fresh: the three elements of different types are passed to the
variadic template. -/
example : ∃ d0 k0 k1 d', Dpf.createIncremental exFp exParams = ok d0 ∧
    d0.generateKeysVariadic { aes := fun k x => k ^^^ x } 12345 ⟨exT 0, exB 0⟩ [⟨exT 1, exB 1⟩, ⟨exT 2, exB 2⟩]
      1 2 = (ok (k0, k1), d') ∧ SharesPoint exParams exT d' { aes := fun k x => k ^^^ x } 12345 exB k0 k1 := by
  obtain ⟨d, hs⟩ := exSetup
  obtain ⟨d0, Ts, hd, h2, _⟩ := hs.created
  obtain ⟨k0, k1, d', h, _, he⟩ := C59_variadic exFp exParams exT d0 ⟨d0, [], hd, rfl⟩ hs.types
    (fun h k hk => hs.bytes h k (by rw [h2, (d0.registerAll_pv Ts).2]; exact hk)) { aes := fun k x => k ^^^ x }
    12345 (by decide +kernel) exB _ _ rfl 1 2
  exact ⟨d0, k0, k1, d', hd, h, he⟩

/-- A DPF with a byte on 8 points and a 64-bit integer on 2^20 points. -/
def exParamsInts : List DpfParameters := [⟨3, some (.integer 8), .val 0⟩, ⟨20, some (.integer 64), .val 0⟩]

/-- Widths of its levels. -/
def exWidths : Nat → Width
  | 0 => .w8
  | _ => .w64

theorem exParamsInts_types : ∀ (h : Nat) p, exParamsInts[h]? = some p →
    p.valueType = some (.integer (exWidths h).bits) := by
  intro h p hp
  match h, hp with
  | 0, hp => simp [exParamsInts] at hp; rw [← hp]; rfl
  | 1, hp => simp [exParamsInts] at hp; rw [← hp]; rfl
  | h + 2, hp => simp [exParamsInts] at hp

/-- C59 on integers: 255 and 2^40 are accepted, 256 in the place of a byte is not. -/
example : ∃ d k0 k1 d', Dpf.createIncremental exFp exParamsInts = ok d ∧
    d.generateKeysIntegers { aes := fun k x => k ^^^ x } 1000000 [255, 2 ^ 40] 1 2 = (ok (k0, k1), d') ∧
    SharesPoint exParamsInts (fun h => .uint (exWidths h)) d' { aes := fun k x => k ^^^ x } 1000000
      (fun h => BitVec.ofNat _ (([255, 2 ^ 40] : List U128).getD h 0).toNat) k0 k1 ∧
    (d.generateKeysIntegers { aes := fun k x => k ^^^ x } 1000000 [256, 2 ^ 40] 1 2).1 =
      err .invalidArgument ∧
    (d.generateKeysInteger { aes := fun k x => k ^^^ x } 1000000 5 1 2).1 = err .invalidArgument := by
  have h : (match Dpf.createIncremental exFp exParamsInts with
    | .ok _ => true
    | _ => false) = true := by decide +kernel
  split at h
  · rename_i d hd
    have hc : Created exFp exParamsInts d := ⟨d, [], hd, rfl⟩
    obtain ⟨k0, k1, d', h1, _, h2⟩ := (C59_integers exFp exParamsInts exWidths d hc exParamsInts_types
      { aes := fun k x => k ^^^ x } 1000000 [255, 2 ^ 40] 1 2).1 ⟨rfl, by
        intro h x hx
        match h, hx with
        | 0, hx => simp at hx; rw [← hx]; decide
        | 1, hx => simp at hx; rw [← hx]; decide, by decide +kernel⟩
    refine ⟨d, k0, k1, d', hd, h1, h2, ?_, ?_⟩
    · refine (C59_integers exFp exParamsInts exWidths d hc exParamsInts_types
        { aes := fun k x => k ^^^ x } 1000000 [256, 2 ^ 40] 1 2).2.1 ?_
      rintro ⟨_, h2, _⟩
      exact absurd (h2 0 256 rfl) (by decide)
    · exact (C59_single_level exFp exParamsInts d hc (by decide) _ _ _ _).1 5
  · simp at h

/-- C59 on the DPF of the examples: the integer overload does not accept its tuple level; a residue
modulo 13 is not accepted in the place of an XOR-shared number. -/
example : ∃ d, Created exFp exParams d ∧
    (d.generateKeysIntegers { aes := fun k x => k ^^^ x } 12345 [1, 2, 3] 1 2).1 = err .invalidArgument ∧
    (d.generateKeysVariadic { aes := fun k x => k ^^^ x } 12345 ⟨exT 0, exB 0⟩ [⟨exT 1, exB 1⟩,
      ⟨.intModN .w32 13#128 (by decide) (by decide), ⟨12#32, by decide⟩⟩] 1 2).1 =
      err .invalidArgument := by
  obtain ⟨d, hs⟩ := exSetup
  refine ⟨d, hs.toCreated, ?_, ?_⟩
  · refine C59_integers_other _ _ _ hs.toCreated _ _ _ _ _
      (Or.inr ⟨⟨10, some (exT 1).helper.toValueType, .val 40⟩, by simp [exParams], ?_⟩)
    intro k e
    cases e
  · refine C59_templates_reject _ _ _ hs.toCreated _ _ _ _ _ _
      (Or.inr (Or.inr ⟨2, _, _, _, _, rfl, rfl, rfl, ?_⟩))
    rintro v ⟨i, rfl, _⟩ ⟨j, hj, _⟩
    cases hj

/-- C59 for one type: XOR-shared 128-bit numbers on two levels, nothing registered before. -/
example : ∃ d k0 k1 d',
    Dpf.createIncremental exFp [⟨3, some (.xorWrapper 128), .val 0⟩, ⟨20, some (.xorWrapper 128), .val 0⟩] =
      ok d ∧
    d.generateKeysSpan { aes := fun k x => k ^^^ x } 99 (.xorWrapper .w128) [5#128, 6#128] 1 2 =
      (ok (k0, k1), d') := by
  have h : (match Dpf.createIncremental exFp
      [⟨3, some (.xorWrapper 128), .val 0⟩, ⟨20, some (.xorWrapper 128), .val 0⟩] with
    | .ok d => decide (d.blocksNeeded = [1, 1])
    | _ => false) = true := by decide +kernel
  split at h
  · rename_i d hd
    obtain ⟨k0, k1, d', h1, _⟩ := (C59_span exFp _ (.xorWrapper .w128) d ⟨d, [], hd, rfl⟩ (by
        intro p hp
        simp only [List.mem_cons, List.not_mem_nil, or_false] at hp
        rcases hp with rfl | rfl <;> rfl) (by
        intro k hk
        rw [of_decide_eq_true h] at hk
        simp only [List.mem_cons, List.not_mem_nil, or_false] at hk
        rcases hk with rfl | rfl <;> decide) { aes := fun k x => k ^^^ x } 99 (by decide +kernel)
        (fun h => BitVec.ofNat 128 (5 + h)) 1 2).1
    exact ⟨d, k0, k1, d', hd, h1⟩
  · simp at h

end Verif
