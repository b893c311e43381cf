import Verif.Lemmas.WireKeys
import Verif.Lemmas.WireDeep
import Verif.Props.SparsePir
import Verif.Props.Mic
/-!
# C70: messages survive serialization

`limit` is the number of messages that the parser is willing to nest; the default of the library is 100. Messages need
less than 2^31 - 16 bytes, here `maxMessage`.
-/
namespace Verif
open Res Spec Wire

/-! ## Messages -/

/-- C70: a value can be parsed if and only if it is not nested too deeply; then the result is the same value. -/
theorem C70_value (limit : Nat) (v : Value) (hb : (wire (putValue v)).length < maxMessage) :
    parseValue limit (wire (putValue v)) = if nestingValue v ≤ limit then some v else none := by
  split
  · exact value_law v limit (by assumption) hb
  · exact value_deep v limit _ (by omega) hb

/-- A tuple in a tuple: parsed if three levels of nesting are allowed. -/
example : parseValue 10 (wire (putValue (.tuple [.integer (.u64 300), .tuple [.intModN (.u128 1 2)]]))) =
    some (.tuple [.integer (.u64 300), .tuple [.intModN (.u128 1 2)]]) := by
  rw [C70_value 10 _ (by decide +kernel), if_pos (by decide +kernel)]

/-- The hypotheses of `C70_value` on an example, with a limit that suffices and one that does not. -/
example : (wire (putValue (.tuple [.integer (.u128 1 2), .tuple [.xorWrapper (.u64 300)]]))).length < maxMessage ∧
    nestingValue (.tuple [.integer (.u128 1 2), .tuple [.xorWrapper (.u64 300)]]) = 5 ∧
    parseValue 5 (wire (putValue (.tuple [.integer (.u128 1 2), .tuple [.xorWrapper (.u64 300)]]))) =
      some (.tuple [.integer (.u128 1 2), .tuple [.xorWrapper (.u64 300)]]) ∧
    parseValue 4 (wire (putValue (.tuple [.integer (.u128 1 2), .tuple [.xorWrapper (.u64 300)]]))) = none := by
  decide +kernel

/-- C70 for value types. -/
theorem C70_type (limit : Nat) (t : ValueType) (hr : TypeInRange t) (hb : (serializeType t).length < maxMessage) :
    parseType limit (serializeType t) = if nestingType t ≤ limit then some t else none := by
  split
  · exact type_law t limit hr (by assumption) hb
  · exact type_deep t limit _ (by omega) hb

/-- C70: different value types have different serializations, so that the serialization can be used to look up the
functions for a type (/repo/dpf/distributed_point_function.cc:552-585). -/
theorem C70_type_injective (t u : ValueType) (ht : TypeInRange t) (hu : TypeInRange u)
    (hb : (serializeType t).length < maxMessage) (h : serializeType t = serializeType u) : t = u := by
  have h1 := C70_type (max (nestingType t) (nestingType u)) t ht hb
  have h2 := C70_type (max (nestingType t) (nestingType u)) u hu (h ▸ hb)
  rw [if_pos (by omega)] at h1 h2
  rw [h, h2] at h1
  exact (Option.some.inj h1).symm

/-- A type with a modulus. -/
example : parseType 10 (serializeType (.tuple [.integer 8, .intModN 64 (.u64 5)])) = some (.tuple [.integer 8, .intModN 64 (.u64 5)]) ∧
    ∀ u, TypeInRange u → serializeType (.tuple [.integer 8, .intModN 64 (.u64 5)]) = serializeType u →
      u = .tuple [.integer 8, .intModN 64 (.u64 5)] := by
  have hr : TypeInRange (.tuple [.integer 8, .intModN 64 (.u64 5)]) := by
    simp [TypeInRange, TypesInRange, IsInt32]
  constructor
  · rw [C70_type 10 _ hr (by decide +kernel), if_pos (by decide +kernel)]
  · exact fun u hu h => (C70_type_injective _ u hr hu (by decide +kernel) h).symm

/-- The types of the example DPF. -/
example : (∀ h, TypeInRange (exT h).helper.toValueType) ∧
    serializeType (exT 0).helper.toValueType = [10, 2, 8, 8] ∧
    serializeType (exT 1).helper.toValueType =
      [18, 18, 10, 4, 10, 2, 8, 64, 10, 10, 26, 8, 10, 2, 8, 32, 18, 2, 8, 11] ∧
    serializeType (exT 2).helper.toValueType = [34, 3, 8, 128, 1] := by
  refine ⟨?_, by decide +kernel, by decide +kernel, by decide +kernel⟩
  intro h
  match h with
  | 0 => exact (by decide : IsInt32 8)
  | 1 => exact (⟨by decide, by decide, trivial⟩ : IsInt32 64 ∧ IsInt32 32 ∧ True)
  | _ + 2 => exact (by decide : IsInt32 128)

/-- C70 for keys. -/
theorem C70_key (limit : Nat) (k : DpfKey) (hs : k.seed ≠ none) (hp : IsInt32 k.party)
    (hb : (serializeKey k).length < maxMessage) :
    parseKey limit (serializeKey k) = if nestingKey k ≤ limit then some k else none := by
  split
  · exact key_law hp (by assumption) hb
  · exact key_deep hs (by omega) hb _

/-- A key with all kinds of fields. -/
def exWireKey : DpfKey :=
  ⟨some (makeU128 1 300), [⟨makeU128 0 5, true, false, [.integer (.u64 7)]⟩, ⟨0, false, true, []⟩], -1,
    [.tuple [.xorWrapper (.u128 1 2), .intModN (.u64 3)]]⟩

/-- C70 on an example, with all bytes. -/
example : serializeKey exWireKey = [10, 5, 8, 1, 16, 172, 2, 18, 12, 10, 2, 16, 5, 16, 1, 42, 4, 10, 2, 8, 7, 18, 4, 10, 0,
      24, 1, 24, 255, 255, 255, 255, 255, 255, 255, 255, 255, 1, 42, 18, 18, 16, 10, 8, 34, 6, 18, 4, 8, 1, 16, 2,
      10, 4, 26, 2, 8, 3] ∧ nestingKey exWireKey = 5 ∧
    parseKey 5 (serializeKey exWireKey) = some exWireKey ∧ parseKey 4 (serializeKey exWireKey) = none := by
  have e : (serializeKey exWireKey).length < maxMessage := by decide +kernel
  have h1 := C70_key 5 exWireKey (by decide) (by decide) e
  have h2 := C70_key 4 exWireKey (by decide) (by decide) e
  rw [if_pos (by decide +kernel)] at h1
  rw [if_neg (by decide +kernel)] at h2
  exact ⟨by decide +kernel, by decide +kernel, h1, h2⟩

/-- C70 for parameters. -/
theorem C70_parameters (d : DoubleBits) (limit : Nat) (p : DpfParameters) (hd : DoubleOk d p.securityParameter)
    (hr : ParametersInRange p) (hl : nestingParameters p ≤ limit)
    (hb : (wire (putParameters d p)).length < maxMessage) :
    parseParameters d limit (wire (putParameters d p)) = some p := parameters_law hd hr hl hb

/-- The numbers 0 and 40 as `double`. -/
def exDouble : DoubleBits :=
  ⟨fun x => if x = .val 40 then 0x4044000000000000 else 0, fun n => if n = 0x4044000000000000 then .val 40 else .val 0⟩

/-- C70 on an example. -/
example : wire (putParameters exDouble ⟨10, some (.integer 64), .val 40⟩) =
      [8, 10, 26, 4, 10, 2, 8, 64, 33, 0, 0, 0, 0, 0, 0, 68, 64] ∧
    parseParameters exDouble 100 (wire (putParameters exDouble ⟨10, some (.integer 64), .val 40⟩)) =
      some ⟨10, some (.integer 64), .val 40⟩ :=
  ⟨by decide +kernel, C70_parameters exDouble 100 _ ⟨by decide +kernel, by decide +kernel, by decide +kernel⟩
    ⟨by decide, fun t ht => by cases ht; exact (by decide : IsInt32 64)⟩ (by decide +kernel) (by decide +kernel)⟩

/-- C70 for contexts. -/
theorem C70_context (d : DoubleBits) (limit : Nat) (c : EvaluationContext)
    (hd : ∀ p ∈ c.parameters, DoubleOk d p.securityParameter) (hr : ContextInRange c)
    (hl : nestingContext c ≤ limit) (hb : (wire (putContext d c)).length < maxMessage) :
    parseContext d limit (wire (putContext d c)) = some c := context_law hd hr hl hb

/-- A context with all kinds of fields. -/
def exWireContext : EvaluationContext :=
  ⟨[⟨3, some (.integer 8), .val 40⟩], some exWireKey, 2, [⟨makeU128 0 5, makeU128 6 0, true⟩, ⟨0, 0, false⟩], 1⟩

/-- C70 on an example. -/
example : (∃ l, wire (putContext exDouble exWireContext) =
      [10, 17, 8, 3, 26, 4, 10, 2, 8, 8, 33, 0, 0, 0, 0, 0, 0, 68, 64, 18, 58] ++ l ++
      [24, 2, 34, 10, 10, 2, 16, 5, 18, 2, 8, 6, 24, 1, 34, 4, 10, 0, 18, 0, 40, 1]) ∧
    parseContext exDouble 100 (wire (putContext exDouble exWireContext)) = some exWireContext :=
  ⟨⟨serializeKey exWireKey, by decide +kernel⟩, C70_context exDouble 100 _
    (fun p hp => by
      rw [List.mem_singleton.mp hp]; exact ⟨by decide +kernel, by decide +kernel, by decide +kernel⟩)
    ⟨fun p hp => by
      rw [List.mem_singleton.mp hp]
      exact ⟨by decide, fun t ht => by cases ht; exact (by decide : IsInt32 8)⟩,
      fun k hk => by cases hk; decide, by decide, by decide⟩ (by decide +kernel) (by decide +kernel)⟩

/-- C70 for keys of comparison functions. -/
theorem C70_dcfKey (limit : Nat) (k : DcfKey) (hp : IsInt32 k.party) (hl : 1 + nestingKey k ≤ limit)
    (hb : (wire (putDcfKey k)).length < maxMessage) :
    parseDcfKey limit (wire (putDcfKey k)) = some k := dcfKey_law hp hl hb

/-- C70 on an example. -/
example : wire (putDcfKey exWireKey) = [10, 58] ++ serializeKey exWireKey ∧
    parseDcfKey 100 (wire (putDcfKey exWireKey)) = some exWireKey :=
  ⟨by decide +kernel, C70_dcfKey 100 _ (by decide) (by decide +kernel) (by decide +kernel)⟩

/-- C70 for keys of gates. -/
theorem C70_micKey (limit : Nat) (k : MicKey) (hp : IsInt32 k.dcfKey.party) (hl : nestingMicKey k ≤ limit)
    (hb : (wire (putMicKey k)).length < maxMessage) :
    parseMicKey limit (wire (putMicKey k)) = some k := micKey_law hp hl hb

/-- C70 on an example. -/
example : wire (putMicKey ⟨exWireKey, [.u64 1, .u128 2 3]⟩) =
      [10, 60, 10, 58] ++ serializeKey exWireKey ++ [18, 2, 8, 1, 18, 6, 18, 4, 8, 2, 16, 3] ∧
    parseMicKey 100 (wire (putMicKey ⟨exWireKey, [.u64 1, .u128 2 3]⟩)) = some ⟨exWireKey, [.u64 1, .u128 2 3]⟩ :=
  ⟨by decide +kernel, C70_micKey 100 _ (by decide) (by decide +kernel) (by decide +kernel)⟩

/-- C70 for parameters of gates. -/
theorem C70_micParameters (limit : Nat) (p : MicParameters) (hr : IsInt32 p.logGroupSize) (hl : 3 ≤ limit)
    (hb : (wire (putMicParameters p)).length < maxMessage) :
    parseMicParameters limit (wire (putMicParameters p)) = some p := micParameters_law hr hl hb

/-- C70 on an example. -/
example : wire (putMicParameters exMicParams) =
      [8, 6, 18, 12, 10, 4, 18, 2, 16, 3, 18, 4, 18, 2, 16, 17, 18, 10, 10, 2, 18, 0, 18, 4, 18, 2, 16, 63] ∧
    parseMicParameters 100 (wire (putMicParameters exMicParams)) = some exMicParams :=
  ⟨by decide +kernel, C70_micParameters 100 _ (by decide) (by decide) (by decide +kernel)⟩

/-- C70 for requests. -/
theorem C70_request (limit : Nat) (r : PirRequest)
    (hr : ∀ d p, r = some d → requestPlain d = some p → PlainInRange p)
    (hl : ∀ d, r = some d → nestingRequest d ≤ limit) (hb : (wire (putRequest r)).length < maxMessage) :
    parseRequest limit (wire (putRequest r)) = some r := request_law hr hl hb

/-- C70 on examples: the three kinds of requests. -/
example : wire (putRequest (some (.leader (some ⟨[exWireKey], 0x01020304#32⟩) (some [7, 8])))) =
      [10, 75, 18, 73, 10, 65, 10, 58] ++ serializeKey exWireKey ++ [21, 4, 3, 2, 1, 18, 4, 10, 2, 7, 8] ∧
    parseRequest 100 (wire (putRequest (some (.leader (some ⟨[exWireKey], 0x01020304#32⟩) (some [7, 8]))))) =
      some (some (.leader (some ⟨[exWireKey], 0x01020304#32⟩) (some [7, 8]))) :=
  ⟨by decide +kernel, C70_request 100 _
    (fun d p hd hp => by
      cases hd; cases hp
      intro k hk
      rw [List.mem_singleton.mp hk]
      decide)
    (fun d hd => by cases hd; decide +kernel) (by decide +kernel)⟩

@[inherit_doc C70_request]
example : wire (putRequest (some (.encrypted [7, 8]))) = [10, 6, 26, 4, 10, 2, 7, 8] ∧
    parseRequest 100 (wire (putRequest (some (.encrypted [7, 8])))) = some (some (.encrypted [7, 8])) ∧
    wire (putRequest (some (.plain ⟨[], 0⟩))) = [10, 2, 10, 0] ∧
    parseRequest 100 (wire (putRequest (some (.plain ⟨[], 0⟩)))) = some (some (.plain ⟨[], 0⟩)) := by
  decide +kernel

/-- C70 for responses. -/
theorem C70_response (limit : Nat) (r : PirResponse) (hl : 1 ≤ limit) (hb : (wire (putResponse r)).length < maxMessage) :
    parseResponse limit (wire (putResponse r)) = some r := response_law hl hb

/-- C70 on an example: also empty answers are kept. -/
example : wire (putResponse (some [[1, 2], [], [3]])) = [10, 9, 10, 2, 1, 2, 10, 0, 10, 1, 3] ∧
    parseResponse 100 (wire (putResponse (some [[1, 2], [], [3]]))) = some (some [[1, 2], [], [3]]) :=
  ⟨by decide +kernel, C70_response 100 _ (by decide) (by decide +kernel)⟩

/-- C70 for the configuration of PIR. -/
theorem C70_config (limit : Nat) (c : PirConfig) (hr : ConfigInRange c) (hl : 1 ≤ limit)
    (hb : (wire (putConfig c)).length < maxMessage) : parseConfig limit (wire (putConfig c)) = some c :=
  config_law hr hl hb

/-- C70 on examples. -/
example : wire (putConfig (.dense 300)) = [10, 3, 8, 172, 2] ∧ wire (putConfig (.cuckoo 1 5)) = [18, 4, 8, 1, 16, 5] ∧
    wire (putConfig (.simple 1 5)) = [26, 4, 8, 1, 16, 5] ∧
    ∀ c ∈ ([.dense 300, .dense (-5), .cuckoo 1 5, .simple 1 (2 ^ 40)] : List PirConfig),
      parseConfig 100 (wire (putConfig c)) = some c := by
  refine ⟨by decide +kernel, by decide +kernel, by decide +kernel, ?_⟩
  intro c hc
  simp only [List.mem_cons, List.not_mem_nil, or_false] at hc
  rcases hc with rfl | rfl | rfl | rfl
  · exact C70_config 100 _ (by decide : IsInt64 300) (by decide) (by decide +kernel)
  · exact C70_config 100 _ (by decide : IsInt64 (-5)) (by decide) (by decide +kernel)
  · exact C70_config 100 _ (by decide : IsInt32 1 ∧ IsInt64 5) (by decide) (by decide +kernel)
  · exact C70_config 100 _ (by decide : IsInt32 1 ∧ IsInt64 (2 ^ 40)) (by decide) (by decide +kernel)

/-- C70 for the public parameters of a server. -/
theorem C70_public (limit : Nat) (c : PublicParams) (hr : PublicInRange c) (hl : 2 ≤ limit)
    (hb : (wire (putPublic c)).length < maxMessage) : parsePublic limit (wire (putPublic c)) = some c :=
  public_law hr hl hb

/-- C70 on examples. -/
example : wire (putPublic (.cuckoo (cuckooParams [9] 3 7))) = [10, 11, 10, 5, 8, 1, 18, 1, 9, 16, 3, 24, 7] ∧
    wire (putPublic (.simple (simpleParams [9] 7))) = [18, 9, 10, 5, 8, 1, 18, 1, 9, 16, 7] ∧
    parsePublic 100 (wire (putPublic (.cuckoo (cuckooParams [9] 3 7)))) = some (.cuckoo (cuckooParams [9] 3 7)) ∧
    parsePublic 100 (wire (putPublic (.simple (simpleParams [9] 7)))) = some (.simple (simpleParams [9] 7)) :=
  ⟨by decide +kernel, by decide +kernel,
    C70_public 100 _ (by decide : IsInt32 1 ∧ IsInt32 3 ∧ IsInt64 7) (by decide) (by decide +kernel),
    C70_public 100 _ (by decide : IsInt32 1 ∧ IsInt64 7) (by decide) (by decide +kernel)⟩

/-- C70 for the private state of a client. -/
theorem C70_state (limit : Nat) (c : ClientState) (hl : 1 ≤ limit) (hb : (wire (putState c)).length < maxMessage) :
    parseState limit (wire (putState c)) = some c := state_law hl hb

/-- C70 on examples. -/
example : wire (putState (.dense [5, 6])) = [10, 4, 10, 2, 5, 6] ∧
    wire (putState (.cuckoo [5] [[1], []])) = [18, 8, 10, 1, 5, 18, 1, 1, 18, 0] ∧
    parseState 100 (wire (putState (.dense [5, 6]))) = some (.dense [5, 6]) ∧
    parseState 100 (wire (putState (.cuckoo [5] [[1], []]))) = some (.cuckoo [5] [[1], []]) ∧
    parseState 100 (wire (putState (.simple [5] [[1], []]))) = some (.simple [5] [[1], []]) :=
  ⟨by decide +kernel, by decide +kernel, C70_state 100 _ (by decide) (by decide +kernel),
    C70_state 100 _ (by decide) (by decide +kernel), C70_state 100 _ (by decide) (by decide +kernel)⟩

/-! ## Generated keys -/

/-- C70: generated keys can be serialized and parsed, for all types whose values need at most a million bytes and are
not nested too deeply. -/
theorem C70_generated (limit : Nat) (fp : FpEnv) (params : List DpfParameters) (T : Nat → Ty) (d : Dpf)
    (hs : Setup fp params T d) (env : Env) (alpha : U128) (halpha : alpha.toNat < 2 ^ lastLogSize params)
    (beta : List Value) (b : (h : Nat) → (T h).den) (hb : BetasRepresent params T beta b) (seed0 seed1 : U128)
    (hl : ∀ h < params.length, nestingTy (T h) + 2 ≤ limit)
    (hsz : ∀ h < params.length, messageBytes (T h) ≤ 1000000) :
    ∃ k0 k1, d.generateKeysIncremental env alpha beta seed0 seed1 = ok (k0, k1) ∧
      parseKey limit (serializeKey k0) = some k0 ∧ parseKey limit (serializeKey k1) = some k1 := by
  obtain ⟨k0, k1, h1, b0, b1⟩ := generated_bound hs env halpha hb seed0 seed1 (nest := limit - 2) (size := 1000000)
    (by decide) (fun h hh => by have := hl h hh; omega) hsz
  have hl' : 2 ≤ limit := by
    have := hl 0 hs.params_pos
    omega
  exact ⟨k0, k1, h1, b0.parse (by decide) (by omega), b1.parse (by decide) (by omega)⟩

/-- C70 for the example with three levels. -/
example : ∃ d k0 k1, Setup exFp exParams exT d ∧
    d.generateKeysIncremental { aes := fun k x => k ^^^ x } 12345 exBeta 1 2 = ok (k0, k1) ∧
    parseKey 100 (serializeKey k0) = some k0 ∧ parseKey 100 (serializeKey k1) = some k1 := by
  obtain ⟨d, hd⟩ := exSetup
  obtain ⟨k0, k1, h⟩ := C70_generated 100 _ _ _ d hd { aes := fun k x => k ^^^ x } 12345 (by decide +kernel) exBeta exB
    exBetas 1 2 (by decide +kernel) (by decide +kernel)
  exact ⟨d, k0, k1, hd, h⟩

/-- C70 for generated keys of comparison functions. -/
theorem C70_dcf_generated (limit : Nat) (fp : FpEnv) (p : DpfParameters) (T : Ty) (c : Dcf)
    (hs : DcfSetup fp p T c) (env : Env) (alpha : U128) (halpha : alpha.toNat < 2 ^ p.logDomainSize.toNat)
    (beta : Value) (b : T.den) (hb : AcceptedBeta T alpha beta b) (seed0 seed1 : U128) (hl : nestingTy T + 3 ≤ limit)
    (hsz : messageBytes T ≤ 1000000) :
    ∃ k0 k1, c.generateKeys env alpha beta seed0 seed1 = ok (k0, k1) ∧
      parseDcfKey limit (wire (putDcfKey k0)) = some k0 ∧ parseDcfKey limit (wire (putDcfKey k1)) = some k1 := by
  obtain ⟨k0, k1, h1, b0, b1⟩ := hs.generated_bound env halpha hb seed0 seed1 (size := 1000000) (by decide) hsz
  have key : ∀ {k : DpfKey}, KeyBound (nestingTy T) 1000000 k → parseDcfKey limit (wire (putDcfKey k)) = some k := by
    intro k hk
    refine dcfKey_law hk.isInt32 (by have := hk.nesting; omega) ?_
    have h1 := hk.length (by decide)
    have h2 := Nat.mul_le_mul_right (152 + 16 * 1000000) hk.words
    have h3 := inner_length_bound (i := 1) (rs := putKey k) (L := 2080000000) (by decide) (by omega) (by decide)
    unfold putDcfKey maxMessage
    rw [wire_single_length]
    omega
  exact ⟨k0, k1, h1, key b0, key b1⟩

/-- C70 on an example. -/
example : ∃ k0 k1, exDcf.generateKeys exEnv 37 (.tuple [.integer (.u64 7), .intModN (.u64 10)]) 1 2 = ok (k0, k1) ∧
    parseDcfKey 100 (wire (putDcfKey k0)) = some k0 ∧ parseDcfKey 100 (wire (putDcfKey k1)) = some k1 :=
  C70_dcf_generated 100 exFp exDcfParams exDcfTy exDcf exDcf_setup exEnv 37 (by decide)
    (.tuple [.integer (.u64 7), .intModN (.u64 10)]) (7#8, ⟨10#32, by decide⟩)
    (Spec.Represents.accepted ⟨_, rfl, _, _, rfl, ⟨_, rfl, rfl⟩, _, rfl, _, rfl, rfl⟩) 1 2 (by decide +kernel)
    (by decide +kernel)

/-- C70 for generated keys of gates. -/
theorem C70_mic_generated (limit : Nat) (fp : FpEnv) (params : MicParameters) (g : Mic) (hs : MicSetup fp params g)
    (env : Env) (rIn : U128) (hr : rIn.toNat < 2 ^ params.logGroupSize.toNat) (rOut : List U128)
    (hlen : rOut.length = params.intervals.length) (hro : ∀ r ∈ rOut, r.toNat < 2 ^ params.logGroupSize.toNat)
    (seed0 seed1 : U128) (rand : Nat → U128) (hl : 6 ≤ limit) (hsz : params.intervals.length ≤ 2 ^ 25) :
    ∃ k0 k1 g', g.gen env rIn rOut seed0 seed1 rand = (ok (k0, k1), g') ∧
      parseMicKey limit (wire (putMicKey k0)) = some k0 ∧ parseMicKey limit (wire (putMicKey k1)) = some k1 := by
  rw [hs.gen_eq env hr hlen hro seed0 seed1 rand]
  have hs' := hs.register
  generalize hγ : ((1 : U128) <<< params.logGroupSize.toNat - 1 + rIn) % (1 : U128) <<< params.logGroupSize.toNat = γ
  obtain ⟨k0, k1, hk, b0, b1⟩ := hs'.dcfSetup.generated_bound env (alpha := γ)
    (by
      rw [← hγ, BitVec.toNat_umod, hs.N_toNat]
      exact Nat.mod_lt _ (Nat.two_pow_pos _)) (C20_encoded_represents (.uint .w128) 1).accepted seed0 seed1 (size := 30)
    (by decide) (by decide)
  have hgen : (g.dcf.generateKeysFor env (uintHelper 128) γ 1 seed0 seed1).1 = ok (k0, k1) := hk
  rw [hgen, bind_ok]
  refine ⟨_, _, _, rfl, micKey_parse b0 ?_ hl, micKey_parse b1 ?_ hl⟩ <;> simpa using hsz

/-- C70 on an example. -/
example : ∃ k0 k1 g', exMic.gen exEnv 60 [5, 63] 1 2 (fun i => BitVec.ofNat 128 i) = (ok (k0, k1), g') ∧
    parseMicKey 100 (wire (putMicKey k0)) = some k0 ∧ parseMicKey 100 (wire (putMicKey k1)) = some k1 :=
  C70_mic_generated 100 exFp exMicParams exMic exMic_setup exEnv 60 (by decide) [5, 63] rfl (by
    intro r hr
    simp only [List.mem_cons, List.not_mem_nil, or_false] at hr
    rcases hr with rfl | rfl <;> decide) 1 2 (fun i => BitVec.ofNat 128 i) (by decide) (by decide)

/-- C70 for the messages that clients send to the helper, as long as they have at most 2^19 keys. This is what the
theorems on dense and sparse PIR (C36, C46, C47) need of the serialization. -/
theorem C70_helper_message (limit keys : Nat) (hl : 6 ≤ limit) (hk : keys ≤ 2 ^ 19) (m : HelperRequest)
    (h : HelperMessage keys m) : (helperCodec limit).parse ((helperCodec limit).serialize m) = some m :=
  HelperMessage.parse h hk hl

/-- C70 on an example: a message with one key. -/
example : ∃ m, HelperMessage 1 m ∧ (helperCodec 100).parse ((helperCodec 100).serialize m) = some m := by
  have h : HelperMessage 1 ⟨some ⟨[⟨some 9, [⟨5, true, false, []⟩], 1, [.xorWrapper (.u128 3 4)]⟩], 0⟩,
      List.replicate 16 7⟩ :=
    ⟨rfl, _, rfl, rfl, fun k hk => by
      have hk := List.mem_singleton.mp hk
      subst hk
      exact ⟨nofun, Or.inr rfl, by decide, by simp, _, rfl⟩⟩
  exact ⟨_, h, C70_helper_message 100 1 (by decide) (by decide) _ h⟩

/-- C70 on an example. -/
example : (helperCodec 100).serialize ⟨some ⟨[⟨some 5, [⟨0, true, true, []⟩], 1, [.xorWrapper (.u64 3)]⟩], 7⟩,
      List.replicate 16 9⟩ =
      [10, 27, 10, 20, 10, 2, 16, 5, 18, 6, 10, 0, 16, 1, 24, 1, 24, 1, 42, 4, 34, 2, 8, 3, 21, 7, 0, 0, 0, 18, 16] ++
        List.replicate 16 9 ∧
    HelperMessage 1 ⟨some ⟨[⟨some 5, [⟨0, true, true, []⟩], 1, [.xorWrapper (.u64 3)]⟩], 7⟩, List.replicate 16 9⟩ := by
  refine ⟨by decide +kernel, by decide, _, rfl, rfl, ?_⟩
  intro k hk
  rw [List.mem_singleton.mp hk]
  exact ⟨by decide, by decide, by decide, fun w hw => by rw [List.mem_singleton.mp hw], _, rfl⟩

/-! ## Deep types -/

/-- Bytes in `n` tuples. -/
def deepTy : Nat → Ty
  | 0 => .uint .w8
  | n + 1 => .tuple (.one (deepTy n))

theorem deepTy_nesting (n : Nat) (v : Value) (x : (deepTy n).den) (h : Represents (deepTy n) v x) :
    2 * n + 1 ≤ nestingValue v := by
  induction n generalizing v with
  | zero =>
    obtain ⟨i, rfl, _⟩ := h
    rw [nestingValue]
    omega
  | succ n ih =>
    obtain ⟨vs, rfl, u, rfl, hu⟩ := h
    have := ih u x hu
    rw [nestingValue, nestingValues, nestingValues]
    omega

/-- C70 does not hold for all types: for bytes in 50 tuples there are DPFs, which generate keys, but the keys cannot be
parsed with the default limit of 100. -/
theorem C70_deep_refuted : ∃ d, Setup exFp [⟨5, some (deepTy 50).helper.toValueType, .val 0⟩] (fun _ => deepTy 50) d ∧
    ∀ (env : Env) (alpha : U128) (beta : Value) (b : (deepTy 50).den), alpha.toNat < 2 ^ 5 →
      Represents (deepTy 50) beta b → ∀ seed0 seed1, ∃ k0 k1,
        d.generateKeysIncremental env alpha [beta] seed0 seed1 = ok (k0, k1) ∧
        parseKey 100 (serializeKey k0) = none ∧ parseKey 100 (serializeKey k1) = none := by
  have h : (match Dpf.createIncremental exFp [⟨5, some (deepTy 50).helper.toValueType, .val 0⟩] with
    | .ok _ => true
    | _ => false) = true := by decide +kernel
  split at h
  · rename_i d0 hd
    have hs : Setup exFp [⟨5, some (deepTy 50).helper.toValueType, .val 0⟩] (fun _ => deepTy 50)
        (d0.registerAll [deepTy 50]) := by
      refine Setup.of_flat (Ts := [deepTy 50]) hd ?_ ?_ ?_
      · intro h p hp
        match h, hp with
        | 0, hp => simp at hp; rw [← hp]
        | h + 1, hp => simp at hp
      · exact fun _ _ => Or.inl (by simp)
      · exact fun _ _ => Or.inr (by decide +kernel)
    generalize d0.registerAll [deepTy 50] = d at hs
    refine ⟨d, hs, ?_⟩
    intro env alpha beta b halpha hb seed0 seed1
    have hb' : BetasRepresent [⟨5, some (deepTy 50).helper.toValueType, .val 0⟩] (fun _ => deepTy 50) [beta]
        (fun _ => b) := by
      refine ⟨rfl, ?_⟩
      intro h v hv
      match h, hv with
      | 0, hv => rw [← Option.some.inj hv]; exact hb
      | h + 1, hv => simp at hv
    obtain ⟨k0, k1, h1, g⟩ := C69_generateKeys _ _ _ d hs env _ hs.isDepth alpha halpha [beta] _ hb' seed0 seed1
    obtain ⟨k0', k1', h1', b0, b1⟩ := Verif.generated_bound hs env (alpha := alpha) halpha hb' seed0 seed1
      (nest := nestingTy (deepTy 50)) (size := 1000000) (by decide)
      (fun _ _ => Nat.le_refl _) (fun _ _ => by decide +kernel)
    rw [h1] at h1'
    obtain ⟨rfl, rfl⟩ : k0 = k0' ∧ k1 = k1' := by simpa using h1'
    have hlast : 100 < nestingValues k0.lastLevelValueCorrection := by
      obtain ⟨e1, e2⟩ := g.value 0 (by decide)
      have e3 : 0 < perBlock (deepTy 50) := by decide +kernel
      rw [← e1] at e3
      obtain ⟨_, _, _, _, hr⟩ := e2 0 _ (List.getElem?_eq_getElem e3)
      have h1 := deepTy_nesting 50 _ _ hr
      have h2 : 1 + nestingValue _ ≤ nestingValues k0.lastLevelValueCorrection := nestingValue_le (List.getElem_mem e3)
      omega
    have key : ∀ {k : DpfKey}, KeyBound (nestingTy (deepTy 50)) 1000000 k → k.seed ≠ none →
        100 < nestingValues k.lastLevelValueCorrection → parseKey 100 (serializeKey k) = none := by
      intro k hk h1 h2
      refine key_deep h1 ?_ ?_ _
      · unfold nestingKey; omega
      · have h1 := hk.length (by decide)
        have h2 := Nat.mul_le_mul_right (152 + 16 * 1000000) hk.words
        unfold maxMessage
        omega
    exact ⟨k0, k1, h1, key b0 (by rw [g.key0.1]; simp) hlast,
      key b1 (by rw [g.key1.1]; simp) (by rw [← g.shared.2]; exact hlast)⟩
  · simp at h

end Verif
