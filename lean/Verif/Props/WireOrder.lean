import Verif.Lemmas.WireOrder
import Verif.Props.Wire
/-!
# C95: order of the fields and unknown fields

A message written with its fields in another order, for example by an implementation in another language, or with
fields that are not in the `.proto` files, for example by a later version, is read as the same message. Records of the
same field have to keep their order. In messages with a `oneof`, records of different alternatives have to keep their
order, too.
-/
namespace Verif
open Res Spec Wire

/-! ## Fields in any order -/

/-- C95 for keys. -/
theorem C95_key (limit : Nat) (k : DpfKey) (hp : IsInt32 k.party) (hl : nestingKey k ≤ limit)
    (hb : (serializeKey k).length < maxMessage) (rs : List Record) (hr : Sendable rs)
    (h : SameFields [1, 2, 3, 5] rs (putKey k)) : parseKey limit (wire rs) = some k := by
  unfold parseKey
  rw [merge_order (key_ignores limit) (key_commutes limit) hr ⟨fits_key k, hb⟩ h]
  exact key_law hp hl hb

/-- C95 on an example: a key with the last fields first and two fields that do not exist. -/
example : ∃ rs, rs ≠ putKey exWireKey ∧ Sendable rs ∧ SameFields [1, 2, 3, 5] rs (putKey exWireKey) ∧
      parseKey 5 (wire rs) = some exWireKey := by
  refine ⟨(4, .varint 2) :: (putKey exWireKey).drop 3 ++ [inner 77 (putBlock 6)] ++
    (putKey exWireKey).take 3, by decide +kernel, ⟨by decide +kernel, by decide +kernel⟩, by decide +kernel, ?_⟩
  exact C95_key 5 exWireKey (by decide) (by decide +kernel) (by decide +kernel) _ ⟨by decide +kernel, by decide +kernel⟩
    (by decide +kernel)

/-- C95 for parameters. -/
theorem C95_parameters (d : DoubleBits) (limit : Nat) (p : DpfParameters) (hd : DoubleOk d p.securityParameter)
    (hr : ParametersInRange p) (hl : nestingParameters p ≤ limit) (hb : (wire (putParameters d p)).length < maxMessage)
    (rs : List Record) (hs : Sendable rs) (h : SameFields [1, 3, 4] rs (putParameters d p)) :
    parseParameters d limit (wire rs) = some p := by
  unfold parseParameters
  rw [merge_order (parameters_ignores d limit) (parameters_commutes d limit) hs ⟨fits_parameters d p hd, hb⟩ h]
  exact parameters_law hd hr hl hb

/-- C95 on an example, with field 2, which was in earlier versions. -/
example : parseParameters exDouble 100
    (wire [(4, .fixed64 0x4044000000000000), inner 3 (putType (.integer 64)), (2, .varint 64), (1, .varint 10)]) =
      some ⟨10, some (.integer 64), .val 40⟩ :=
  C95_parameters exDouble 100 _ ⟨by decide +kernel, by decide +kernel, by decide +kernel⟩
    ⟨by decide, fun t ht => by cases ht; exact (by decide : IsInt32 64)⟩ (by decide +kernel) (by decide +kernel) _
    ⟨by decide +kernel, by decide +kernel⟩ (by decide +kernel)

/-- C95 for contexts. -/
theorem C95_context (d : DoubleBits) (limit : Nat) (c : EvaluationContext)
    (hd : ∀ p ∈ c.parameters, DoubleOk d p.securityParameter) (hr : ContextInRange c)
    (hl : nestingContext c ≤ limit) (hb : (wire (putContext d c)).length < maxMessage)
    (rs : List Record) (hs : Sendable rs) (h : SameFields [1, 2, 3, 4, 5] rs (putContext d c)) :
    parseContext d limit (wire rs) = some c := by
  unfold parseContext
  rw [merge_order (context_ignores d limit) (context_commutes d limit) hs ⟨fits_context d c, hb⟩ h]
  exact context_law hd hr hl hb

/-- C95 on an example: the fields of a context, backwards. -/
example : parseContext exDouble 100 (wire ([(5, .varint 1)] ++
      [inner 4 (putPartial ⟨makeU128 0 5, makeU128 6 0, true⟩), inner 4 (putPartial ⟨0, 0, false⟩)] ++
      [(3, .varint 2), inner 2 (putKey exWireKey), inner 1 (putParameters exDouble ⟨3, some (.integer 8), .val 40⟩)])) =
      some exWireContext :=
  C95_context exDouble 100 _
    (fun p hp => by
      rw [List.mem_singleton.mp hp]; exact ⟨by decide +kernel, by decide +kernel, by decide +kernel⟩)
    ⟨fun p hp => by
      rw [List.mem_singleton.mp hp]
      exact ⟨by decide, fun t ht => by cases ht; exact (by decide : IsInt32 8)⟩,
      fun k hk => by cases hk; decide, by decide, by decide⟩ (by decide +kernel) (by decide +kernel) _
    ⟨by decide +kernel, by decide +kernel⟩ (by decide +kernel)

/-- C95 for keys of comparison functions and of gates, and for parameters of gates. -/
theorem C95_gates (limit : Nat) (rs : List Record) (hs : Sendable rs) :
    (∀ k : DcfKey, IsInt32 k.party → 1 + nestingKey k ≤ limit → (wire (putDcfKey k)).length < maxMessage →
      SameFields [1] rs (putDcfKey k) → parseDcfKey limit (wire rs) = some k) ∧
    (∀ k : MicKey, IsInt32 k.dcfKey.party → nestingMicKey k ≤ limit → (wire (putMicKey k)).length < maxMessage →
      SameFields [1, 2] rs (putMicKey k) → parseMicKey limit (wire rs) = some k) ∧
    (∀ p : MicParameters, IsInt32 p.logGroupSize → 3 ≤ limit → (wire (putMicParameters p)).length < maxMessage →
      SameFields [1, 2] rs (putMicParameters p) → parseMicParameters limit (wire rs) = some p) := by
  refine ⟨fun k hp hl hb h => ?_, fun k hp hl hb h => ?_, fun p hp hl hb h => ?_⟩
  · unfold parseDcfKey
    rw [merge_order (dcfKey_ignores limit) (commutes_single (dcfKey_ignores limit)) hs ⟨fits_dcfKey k, hb⟩ h]
    exact dcfKey_law hp hl hb
  · unfold parseMicKey
    rw [merge_order (micKey_ignores limit) (micKey_commutes limit) hs ⟨fits_micKey k, hb⟩ h]
    exact micKey_law hp hl hb
  · unfold parseMicParameters
    rw [merge_order (micParameters_ignores limit) (micParameters_commutes limit) hs ⟨fits_micParameters p, hb⟩ h]
    exact micParameters_law hp hl hb

/-- C95 on examples. -/
example : parseMicKey 100 (wire [inner 2 (putInteger (.u64 1)), (9, .fixed32 0), inner 1 (putDcfKey exWireKey),
      inner 2 (putInteger (.u128 2 3))]) = some ⟨exWireKey, [.u64 1, .u128 2 3]⟩ ∧
    parseMicParameters 100 (wire ((putMicParameters exMicParams).drop 1 ++ (putMicParameters exMicParams).take 1)) =
      some exMicParams :=
  ⟨(C95_gates 100 _ ⟨by decide +kernel, by decide +kernel⟩).2.1 _ (by decide) (by decide +kernel) (by decide +kernel)
    (by decide +kernel),
    (C95_gates 100 _ ⟨by decide +kernel, by decide +kernel⟩).2.2 _ (by decide) (by decide) (by decide +kernel)
      (by decide +kernel)⟩

/-- C95 for the message to the helper. -/
theorem C95_helper (limit : Nat) (r : HelperRequest) (hr : ∀ p, r.plainRequest = some p → PlainInRange p)
    (hl : ∀ p, r.plainRequest = some p → 1 + nestingPlain p ≤ limit) (hb : (wire (putHelper r)).length < maxMessage)
    (rs : List Record) (hs : Sendable rs) (h : SameFields [1, 2] rs (putHelper r)) :
    parseHelper limit (wire rs) = some r := by
  unfold parseHelper
  rw [merge_order (helper_ignores limit) (helper_commutes limit) hs ⟨fits_helper r, hb⟩ h]
  exact helper_law hr hl hb

/-- C95 on an example: the seed first. -/
example : parseHelper 100 (wire [(2, .bytes [7, 8]), (3, .bytes [9]), inner 1 (putPlain ⟨[exWireKey], 5⟩)]) =
    some ⟨some ⟨[exWireKey], 5⟩, [7, 8]⟩ :=
  C95_helper 100 _
    (fun p hp => by cases hp; intro k hk; rw [List.mem_singleton.mp hk]; decide)
    (fun p hp => by cases hp; decide +kernel) (by decide +kernel) _ ⟨by decide +kernel, by decide +kernel⟩ (by decide +kernel)

/-- C95 for messages inside messages: whatever was read before, two messages with the same records of every field are
read the same. -/
theorem C95_inner (limit : Nat) (rs rs' : List Record) (hs : Sendable rs) (hs' : Sendable rs') :
    (SameFields [1, 2] rs rs' → ∀ s, merge blockField s (wire rs) = merge blockField s (wire rs')) ∧
    (SameFields [1, 2] rs rs' → ∀ s, merge (modTypeField limit) s (wire rs) = merge (modTypeField limit) s (wire rs')) ∧
    (SameFields [1, 2, 3, 5] rs rs' → ∀ s, merge (wordField limit) s (wire rs) = merge (wordField limit) s (wire rs')) ∧
    (SameFields [1, 2, 3] rs rs' → ∀ s,
      merge (partialField limit) s (wire rs) = merge (partialField limit) s (wire rs')) ∧
    (SameFields [1, 2] rs rs' → ∀ s, merge (intervalField limit) s (wire rs) = merge (intervalField limit) s (wire rs')) ∧
    (SameFields [1, 2] rs rs' → ∀ s, merge (plainField limit) s (wire rs) = merge (plainField limit) s (wire rs')) ∧
    (SameFields [1, 2] rs rs' → ∀ s, merge (leaderField limit) s (wire rs) = merge (leaderField limit) s (wire rs')) ∧
    (SameFields [1, 2] rs rs' → ∀ s, merge hashConfigField s (wire rs) = merge hashConfigField s (wire rs')) ∧
    (SameFields [1, 2] rs rs' → ∀ s, merge familyField s (wire rs) = merge familyField s (wire rs')) ∧
    (SameFields [1, 2, 3] rs rs' → ∀ s, merge (cuckooField limit) s (wire rs) = merge (cuckooField limit) s (wire rs')) ∧
    (SameFields [1, 2] rs rs' → ∀ s, merge (simpleField limit) s (wire rs) = merge (simpleField limit) s (wire rs')) ∧
    (SameFields [1, 2] rs rs' → ∀ s, merge queriesField s (wire rs) = merge queriesField s (wire rs')) :=
  ⟨merge_order block_ignores block_commutes hs hs', merge_order (modType_ignores _) (modType_commutes _) hs hs',
    merge_order (word_ignores _) (word_commutes _) hs hs', merge_order (partial_ignores _) (partial_commutes _) hs hs',
    merge_order (interval_ignores _) (interval_commutes _) hs hs', merge_order (plain_ignores _) (plain_commutes _) hs hs',
    merge_order (leader_ignores _) (leader_commutes _) hs hs', merge_order hashConfig_ignores hashConfig_commutes hs hs',
    merge_order family_ignores family_commutes hs hs', merge_order (cuckoo_ignores _) (cuckoo_commutes _) hs hs',
    merge_order (simple_ignores _) (simple_commutes _) hs hs', merge_order queries_ignores queries_commutes hs hs'⟩

/-- C95 on examples: integers modulo 11 with the modulus first, and a request with the fingerprint first. -/
example : (∀ s, merge (modTypeField 5) s (wire (putModType 32 (.u64 11)).reverse) =
      merge (modTypeField 5) s (wire (putModType 32 (.u64 11)))) ∧
    (∀ s, merge (plainField 9) s (wire [(2, .fixed32 5), inner 1 (putKey exWireKey)]) =
      merge (plainField 9) s (wire (putPlain ⟨[exWireKey], 5⟩))) :=
  ⟨(C95_inner 5 _ _ ⟨by decide +kernel, by decide +kernel⟩ ⟨by decide +kernel, by decide +kernel⟩).2.1 (by decide +kernel),
    (C95_inner 9 _ _ ⟨by decide +kernel, by decide +kernel⟩ ⟨by decide +kernel, by decide +kernel⟩).2.2.2.2.2.1
      (by decide +kernel)⟩

/-! ## Unknown fields in messages with a `oneof` -/

/-- C95 for values and value types. -/
theorem C95_values (limit : Nat) (rs : List Record) (hs : Sendable rs) :
    (∀ v : Value, nestingValue v ≤ limit → (wire (putValue v)).length < maxMessage →
      SameRecords [1, 2, 3, 4] rs (putValue v) → parseValue limit (wire rs) = some v) ∧
    (∀ t : ValueType, TypeInRange t → nestingType t ≤ limit → (serializeType t).length < maxMessage →
      SameRecords [1, 2, 3, 4] rs (putType t) → parseType limit (wire rs) = some t) := by
  refine ⟨fun v hl hb h => ?_, fun t hr hl hb h => ?_⟩
  · unfold parseValue
    rw [merge_same (value_ignores limit) hs ⟨fits_value v, hb⟩ h]
    exact value_law v limit hl hb
  · unfold parseType
    rw [merge_same (type_ignores limit) hs ⟨fits_type t, hb⟩ h]
    exact type_law t limit hr hl hb

/-- C95 on an example: fields 5 and 6 could be further types in a later version. -/
example : parseValue 9 (wire [(6, .varint 1), inner 4 (putInteger (.u64 7)), (5, .bytes [])]) =
    some (.xorWrapper (.u64 7)) :=
  (C95_values 9 _ ⟨by decide +kernel, by decide +kernel⟩).1 _ (by decide +kernel) (by decide +kernel) (by decide +kernel)

/-- The order of alternatives matters: the last one counts. -/
example : parseValue 9 (wire [inner 1 (putInteger (.u64 7)), inner 4 (putInteger (.u64 8))]) =
      some (.xorWrapper (.u64 8)) ∧
    parseValue 9 (wire [inner 4 (putInteger (.u64 8)), inner 1 (putInteger (.u64 7))]) = some (.integer (.u64 7)) := by
  decide +kernel

/-- C95 for the messages of PIR with a `oneof`. -/
theorem C95_pir (limit : Nat) (rs : List Record) (hs : Sendable rs) :
    (∀ r : PirRequest, (∀ d p, r = some d → requestPlain d = some p → PlainInRange p) →
      (∀ d, r = some d → nestingRequest d ≤ limit) → Sendable (putRequest r) → SameRecords [1] rs (putRequest r) →
      parseRequest limit (wire rs) = some r) ∧
    (∀ r : PirResponse, 1 ≤ limit → Sendable (putResponse r) → SameRecords [1] rs (putResponse r) →
      parseResponse limit (wire rs) = some r) ∧
    (∀ c : PirConfig, ConfigInRange c → 1 ≤ limit → Sendable (putConfig c) → SameRecords [1, 2, 3] rs (putConfig c) →
      parseConfig limit (wire rs) = some c) ∧
    (∀ c : PublicParams, PublicInRange c → 2 ≤ limit → Sendable (putPublic c) → SameRecords [1, 2] rs (putPublic c) →
      parsePublic limit (wire rs) = some c) ∧
    (∀ c : ClientState, 1 ≤ limit → Sendable (putState c) → SameRecords [1, 2, 3] rs (putState c) →
      parseState limit (wire rs) = some c) := by
  refine ⟨fun r hr hl hb h => ?_, fun r hl hb h => ?_, fun c hr hl hb h => ?_, fun c hr hl hb h => ?_,
    fun c hl hb h => ?_⟩
  · unfold parseRequest
    rw [merge_same (request_ignores limit) hs hb h]
    exact request_law hr hl hb.short
  · unfold parseResponse
    rw [merge_same (response_ignores limit) hs hb h]
    exact response_law hl hb.short
  · unfold parseConfig
    rw [merge_same (config_ignores limit) hs hb h]
    exact config_law hr hl hb.short
  · unfold parsePublic
    rw [merge_same (public_ignores limit) hs hb h]
    exact public_law hr hl hb.short
  · unfold parseState
    rw [merge_same (state_ignores limit) hs hb h]
    exact state_law hl hb.short

/-- C95 on an example: a response with another field. -/
example : parseResponse 9 (wire [(2, .varint 1), inner 1 (putDpfResponse [[1, 2], []])]) = some (some [[1, 2], []]) :=
  (C95_pir 9 _ ⟨by decide +kernel, by decide +kernel⟩).2.1 _ (by decide) ⟨by decide +kernel, by decide +kernel⟩
    (by decide +kernel)

end Verif
