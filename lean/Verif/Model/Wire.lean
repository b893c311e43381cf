import Verif.Model.PirProto
import Verif.Model.Mic
import Verif.Model.SparsePir
/-!
# Serialized messages

What the generated protobuf code does for the messages in the `.proto` files of /repo, following the protobuf
documentation (encoding, proto3 defaults, `oneof`, merging of repeated occurrences, recursion limit). A serialized
message is a sequence of records, each with the number of a field and its content. Serialization writes the fields
in the order of their numbers and leaves out numbers, flags and strings equal to the default. Parsing takes fields in
any order and ignores unknown ones and those of an unexpected kind; for a repeated record of a field that can occur
once, a number or string replaces the one before, and a message is merged into the one before.

Simplified: groups (deprecated, not used in /repo) are rejected, not skipped; unknown fields are not kept; strings of
the type `bytes` only. Where the model of a message does not tell an absent message from an empty one, it is written.
-/
namespace Verif.Wire
open Verif

/-! ## Records -/

/-- Content of a record. -/
inductive Payload where
  | varint (n : Nat)
  | fixed64 (n : Nat)
  | bytes (b : Bytes)
  | fixed32 (n : Nat)
  deriving DecidableEq, Repr

/-- Number of the field and content. -/
abbrev Record := Nat × Payload

/-- `int32`, `int64`, `uint64`, `bool` and enums: groups of seven bits, lowest first; the highest bit of a byte tells
whether more follow. -/
def varint (n : Nat) : Bytes :=
  if n < 128 then [BitVec.ofNat 8 n] else BitVec.ofNat 8 (n % 128 + 128) :: varint (n / 128)

/-- Bytes of a number, least significant first. -/
def littleEndian : Nat → Nat → Bytes
  | 0, _ => []
  | k + 1, n => BitVec.ofNat 8 n :: littleEndian k (n / 256)

/-- One record: the tag (number of the field and kind of content), then the content. -/
def putRecord : Record → Bytes
  | (i, .varint n) => varint (8 * i) ++ varint n
  | (i, .fixed64 n) => varint (8 * i + 1) ++ littleEndian 8 n
  | (i, .bytes b) => varint (8 * i + 2) ++ varint b.length ++ b
  | (i, .fixed32 n) => varint (8 * i + 5) ++ littleEndian 4 n

/-- A sequence of records. -/
def wire (rs : List Record) : Bytes := rs.flatMap putRecord

/-- Reads a varint of at most `k` bytes. -/
def readVarint : Nat → Bytes → Option (Nat × Bytes)
  | 0, _ => none
  | _ + 1, [] => none
  | k + 1, b :: rest =>
    if b.toNat < 128 then some (b.toNat, rest)
    else (readVarint k rest).map fun (v, r) => (b.toNat - 128 + 128 * v, r)

/-- The first `n` bytes and the rest. -/
def splitBytes (n : Nat) (b : Bytes) : Option (Bytes × Bytes) :=
  if n ≤ b.length then some (b.take n, b.drop n) else none

/-- Reads the content of a record. Numbers have 64 bits. Strings have less than 2^31 - 16 bytes: the library rejects
lengths above `INT_MAX - 16`. -/
def readPayload (kind : Nat) (b : Bytes) : Option (Payload × Bytes) :=
  match kind with
  | 0 => (readVarint 10 b).map fun (n, r) => (.varint (n % 2 ^ 64), r)
  | 1 => (splitBytes 8 b).map fun (n, r) => (.fixed64 (leNat n), r)
  | 2 => (readVarint 5 b).bind fun (n, r) =>
      if n < 2 ^ 31 - 16 then (splitBytes n r).map fun (s, r) => (.bytes s, r) else none
  | 5 => (splitBytes 4 b).map fun (n, r) => (.fixed32 (leNat n), r)
  | _ => none

/-- Reads a record. The tag has 32 bits, and there is no field 0. -/
def readRecord (b : Bytes) : Option (Record × Bytes) :=
  (readVarint 5 b).bind fun (tag, r) =>
    let tag := tag % 2 ^ 32
    if tag / 8 = 0 then none else (readPayload (tag % 8) r).map fun (p, r) => ((tag / 8, p), r)

/-- Reads at most `fuel` records, up to the end. -/
def readRecords : Nat → Bytes → Option (List Record)
  | _, [] => some []
  | 0, _ => none
  | fuel + 1, b => (readRecord b).bind fun (r, rest) => (readRecords fuel rest).map (r :: ·)

/-- `f` is applied to every record. -/
def foldRecords {σ : Type} (f : σ → Record → Option σ) : σ → List Record → Option σ
  | s, [] => some s
  | s, r :: rs => (f s r).bind fun s => foldRecords f s rs

/-- `MergeFromString`: `f` merges one record into a message. -/
def merge {σ : Type} (f : σ → Record → Option σ) (s : σ) (b : Bytes) : Option σ :=
  (readRecords b.length b).bind (foldRecords f s)

/-! ## Numbers -/

/-- `int32` and `int64` as a varint: negative numbers have 64 bits. -/
def signed (x : Int) : Nat := (x % 2 ^ 64).toNat

/-- Reads an `int32`: the lowest 32 bits. -/
def toInt32 (n : Nat) : Int := wrapInt32 n

/-- Reads an `int64`. -/
def toInt64 (n : Nat) : Int := ((n : Int) + 2 ^ 63) % 2 ^ 64 - 2 ^ 63

/-- A number is left out if it is zero. -/
def number (i n : Nat) : List Record := if n = 0 then [] else [(i, .varint n)]

/-- A string is left out if it is empty. -/
def string (i : Nat) (b : Bytes) : List Record := if b = [] then [] else [(i, .bytes b)]

/-- A message inside a message. -/
def inner (i : Nat) (rs : List Record) : Record := (i, .bytes (wire rs))

/-! ## Messages of the DPF (/repo/dpf/distributed_point_function.proto) -/

/-- `Block` (/repo/dpf/distributed_point_function.proto:108-111). -/
def putBlock (x : U128) : List Record := number 1 (high64 x).toNat ++ number 2 (low64 x).toNat

@[inherit_doc putBlock] def blockField (x : U128) : Record → Option U128
  | (1, .varint n) => some (makeU128 (BitVec.ofNat 64 n) (low64 x))
  | (2, .varint n) => some (makeU128 (high64 x) (BitVec.ofNat 64 n))
  | _ => some x

/-- `Value.Integer` (/repo/dpf/distributed_point_function.proto:65-72). The parser may go `limit` messages deep. -/
def putInteger : IntegerP → List Record
  | .notSet => []
  | .u64 v => [(1, .varint v.toNat)]
  | .u128 hi lo => [inner 2 (putBlock (makeU128 hi lo))]

@[inherit_doc putInteger] def integerField (limit : Nat) (v : IntegerP) : Record → Option IntegerP
  | (1, .varint n) => some (.u64 (BitVec.ofNat 64 n))
  | (2, .bytes b) =>
    if limit = 0 then none else
      let old := match v with
        | .u128 hi lo => makeU128 hi lo
        | _ => 0
      (merge blockField old b).map fun x => .u128 (high64 x) (low64 x)
  | _ => some v

mutual
/-- `Value` (/repo/dpf/distributed_point_function.proto:64-85). -/
def putValue : Value → List Record
  | .notSet => []
  | .integer v => [inner 1 (putInteger v)]
  | .tuple vs => [inner 2 (putValues vs)]
  | .intModN v => [inner 3 (putInteger v)]
  | .xorWrapper v => [inner 4 (putInteger v)]
/-- `Value.Tuple` (/repo/dpf/distributed_point_function.proto:74-76). -/
def putValues : List Value → List Record
  | [] => []
  | v :: vs => inner 1 (putValue v) :: putValues vs
end

/-- The case of a `oneof` so far; another case is replaced. -/
def Value.asInteger : Value → IntegerP
  | .integer v => v
  | _ => .notSet
@[inherit_doc Value.asInteger] def Value.asTuple : Value → List Value
  | .tuple vs => vs
  | _ => []
@[inherit_doc Value.asInteger] def Value.asIntModN : Value → IntegerP
  | .intModN v => v
  | _ => .notSet
@[inherit_doc Value.asInteger] def Value.asXorWrapper : Value → IntegerP
  | .xorWrapper v => v
  | _ => .notSet

mutual
@[inherit_doc putValue] def valueField : Nat → Value → Record → Option Value
  | 0, v, (i, p) =>
    match i, p with
    | 1, .bytes _ | 2, .bytes _ | 3, .bytes _ | 4, .bytes _ => none
    | _, _ => some v
  | limit + 1, v, (i, p) =>
    match i, p with
    | 1, .bytes b => (merge (integerField limit) (Value.asInteger v) b).map .integer
    | 2, .bytes b => (merge (tupleField limit) (Value.asTuple v) b).map .tuple
    | 3, .bytes b => (merge (integerField limit) (Value.asIntModN v) b).map .intModN
    | 4, .bytes b => (merge (integerField limit) (Value.asXorWrapper v) b).map .xorWrapper
    | _, _ => some v
@[inherit_doc putValues] def tupleField : Nat → List Value → Record → Option (List Value)
  | 0, vs, (i, p) =>
    match i, p with
    | 1, .bytes _ => none
    | _, _ => some vs
  | limit + 1, vs, (i, p) =>
    match i, p with
    | 1, .bytes b => (merge (valueField limit) .notSet b).map fun v => vs ++ [v]
    | _, _ => some vs
end

/-- `ValueType.Integer` (/repo/dpf/distributed_point_function.proto:28-31). -/
def putBitsize (b : Int) : List Record := number 1 (signed b)

@[inherit_doc putBitsize] def bitsizeField (b : Int) : Record → Option Int
  | (1, .varint n) => some (toInt32 n)
  | _ => some b

/-- `ValueType.IntModN` (/repo/dpf/distributed_point_function.proto:39-44). -/
def putModType (b : Int) (m : IntegerP) : List Record := [inner 1 (putBitsize b), inner 2 (putInteger m)]

@[inherit_doc putModType] def modTypeField (limit : Nat) (t : Int × IntegerP) : Record → Option (Int × IntegerP)
  | (1, .bytes b) => if limit = 0 then none else (merge bitsizeField t.1 b).map fun x => (x, t.2)
  | (2, .bytes b) => if limit = 0 then none else (merge (integerField (limit - 1)) t.2 b).map fun x => (t.1, x)
  | _ => some t

mutual
/-- `ValueType` (/repo/dpf/distributed_point_function.proto:25-60). -/
def putType : ValueType → List Record
  | .notSet => []
  | .integer b => [inner 1 (putBitsize b)]
  | .tuple ts => [inner 2 (putTypes ts)]
  | .intModN b m => [inner 3 (putModType b m)]
  | .xorWrapper b => [inner 4 (putBitsize b)]
/-- `ValueType.Tuple` (/repo/dpf/distributed_point_function.proto:34-36). -/
def putTypes : List ValueType → List Record
  | [] => []
  | t :: ts => inner 1 (putType t) :: putTypes ts
end

@[inherit_doc Value.asInteger] def ValueType.asInteger : ValueType → Int
  | .integer b => b
  | _ => 0
@[inherit_doc Value.asInteger] def ValueType.asTuple : ValueType → List ValueType
  | .tuple ts => ts
  | _ => []
@[inherit_doc Value.asInteger] def ValueType.asIntModN : ValueType → Int × IntegerP
  | .intModN b m => (b, m)
  | _ => (0, .notSet)
@[inherit_doc Value.asInteger] def ValueType.asXorWrapper : ValueType → Int
  | .xorWrapper b => b
  | _ => 0

mutual
@[inherit_doc putType] def typeField : Nat → ValueType → Record → Option ValueType
  | 0, t, (i, p) =>
    match i, p with
    | 1, .bytes _ | 2, .bytes _ | 3, .bytes _ | 4, .bytes _ => none
    | _, _ => some t
  | limit + 1, t, (i, p) =>
    match i, p with
    | 1, .bytes b => (merge bitsizeField (ValueType.asInteger t) b).map .integer
    | 2, .bytes b => (merge (tupleTypeField limit) (ValueType.asTuple t) b).map .tuple
    | 3, .bytes b => (merge (modTypeField limit) (ValueType.asIntModN t) b).map fun x => .intModN x.1 x.2
    | 4, .bytes b => (merge bitsizeField (ValueType.asXorWrapper t) b).map .xorWrapper
    | _, _ => some t
@[inherit_doc putTypes] def tupleTypeField : Nat → List ValueType → Record → Option (List ValueType)
  | 0, ts, (i, p) =>
    match i, p with
    | 1, .bytes _ => none
    | _, _ => some ts
  | limit + 1, ts, (i, p) =>
    match i, p with
    | 1, .bytes b => (merge (typeField limit) .notSet b).map fun t => ts ++ [t]
    | _, _ => some ts
end

/-- `CorrectionWord` (/repo/dpf/distributed_point_function.proto:114-126). -/
def putWord (w : CorrectionWord) : List Record :=
  [inner 1 (putBlock w.seed)] ++ number 2 w.controlLeft.toNat ++ number 3 w.controlRight.toNat ++
    w.valueCorrection.map fun v => inner 5 (putValue v)

@[inherit_doc putWord] def wordField (limit : Nat) (w : CorrectionWord) : Record → Option CorrectionWord
  | (1, .bytes b) => if limit = 0 then none else (merge blockField w.seed b).map fun x => { w with seed := x }
  | (2, .varint n) => some { w with controlLeft := n != 0 }
  | (3, .varint n) => some { w with controlRight := n != 0 }
  | (5, .bytes b) =>
    if limit = 0 then none else
      (merge (valueField (limit - 1)) .notSet b).map fun v => { w with valueCorrection := w.valueCorrection ++ [v] }
  | _ => some w

/-- `DpfKey` (/repo/dpf/distributed_point_function.proto:129-140). -/
def putKey (k : DpfKey) : List Record :=
  (k.seed.toList.map fun x => inner 1 (putBlock x)) ++ (k.correctionWords.map fun w => inner 2 (putWord w)) ++
    number 3 (signed k.party) ++ k.lastLevelValueCorrection.map fun v => inner 5 (putValue v)

/-- A correction word without any fields. -/
def emptyWord : CorrectionWord := ⟨0, false, false, []⟩

@[inherit_doc putKey] def keyField (limit : Nat) (k : DpfKey) : Record → Option DpfKey
  | (1, .bytes b) =>
    if limit = 0 then none else (merge blockField (k.seed.getD 0) b).map fun x => { k with seed := some x }
  | (2, .bytes b) =>
    if limit = 0 then none else
      (merge (wordField (limit - 1)) emptyWord b).map fun w => { k with correctionWords := k.correctionWords ++ [w] }
  | (3, .varint n) => some { k with party := toInt32 n }
  | (5, .bytes b) =>
    if limit = 0 then none else
      (merge (valueField (limit - 1)) .notSet b).map fun v =>
        { k with lastLevelValueCorrection := k.lastLevelValueCorrection ++ [v] }
  | _ => some k

/-- Bits of a `double`, from the compiler. -/
structure DoubleBits where
  toBits : Sec → Nat
  ofBits : Nat → Sec

/-- `DpfParameters` (/repo/dpf/distributed_point_function.proto:92-105). -/
def putParameters (d : DoubleBits) (p : DpfParameters) : List Record :=
  number 1 (signed p.logDomainSize) ++ (p.valueType.toList.map fun t => inner 3 (putType t)) ++
    if d.toBits p.securityParameter = 0 then [] else [(4, .fixed64 (d.toBits p.securityParameter))]

@[inherit_doc putParameters] def parametersField (d : DoubleBits) (limit : Nat) (p : DpfParameters) :
    Record → Option DpfParameters
  | (1, .varint n) => some { p with logDomainSize := toInt32 n }
  | (3, .bytes b) =>
    if limit = 0 then none else
      (merge (typeField (limit - 1)) (p.valueType.getD .notSet) b).map fun t => { p with valueType := some t }
  | (4, .fixed64 n) => some { p with securityParameter := d.ofBits n }
  | _ => some p

/-- `PartialEvaluation` (/repo/dpf/distributed_point_function.proto:144-152). -/
def putPartial (e : PartialEvaluation) : List Record :=
  [inner 1 (putBlock e.prefix), inner 2 (putBlock e.seed)] ++ number 3 e.controlBit.toNat

@[inherit_doc putPartial] def partialField (limit : Nat) (e : PartialEvaluation) : Record → Option PartialEvaluation
  | (1, .bytes b) => if limit = 0 then none else (merge blockField e.prefix b).map fun x => { e with «prefix» := x }
  | (2, .bytes b) => if limit = 0 then none else (merge blockField e.seed b).map fun x => { e with seed := x }
  | (3, .varint n) => some { e with controlBit := n != 0 }
  | _ => some e

/-- `EvaluationContext` (/repo/dpf/distributed_point_function.proto:156-171). -/
def putContext (d : DoubleBits) (c : EvaluationContext) : List Record :=
  (c.parameters.map fun p => inner 1 (putParameters d p)) ++ (c.key.toList.map fun k => inner 2 (putKey k)) ++
    number 3 (signed c.previousHierarchyLevel) ++ (c.partialEvaluations.map fun e => inner 4 (putPartial e)) ++
    number 5 (signed c.partialEvaluationsLevel)

@[inherit_doc putContext] def contextField (d : DoubleBits) (limit : Nat) (c : EvaluationContext) :
    Record → Option EvaluationContext
  | (1, .bytes b) =>
    if limit = 0 then none else
      (merge (parametersField d (limit - 1)) ⟨0, none, .val 0⟩ b).map fun p =>
        { c with parameters := c.parameters ++ [p] }
  | (2, .bytes b) =>
    if limit = 0 then none else
      (merge (keyField (limit - 1)) (c.key.getD DpfKey.default) b).map fun k => { c with key := some k }
  | (3, .varint n) => some { c with previousHierarchyLevel := toInt32 n }
  | (4, .bytes b) =>
    if limit = 0 then none else
      (merge (partialField (limit - 1)) ⟨0, 0, false⟩ b).map fun e =>
        { c with partialEvaluations := c.partialEvaluations ++ [e] }
  | (5, .varint n) => some { c with partialEvaluationsLevel := toInt32 n }
  | _ => some c

/-- `ParseFromString` of parameters and contexts. -/
def parseParameters (d : DoubleBits) (limit : Nat) (b : Bytes) : Option DpfParameters :=
  merge (parametersField d limit) ⟨0, none, .val 0⟩ b
@[inherit_doc parseParameters] def parseContext (d : DoubleBits) (limit : Nat) (b : Bytes) :
    Option EvaluationContext :=
  merge (contextField d limit) ⟨[], none, 0, [], 0⟩ b

/-- `SerializeAsString` of a key. -/
def serializeKey (k : DpfKey) : Bytes := wire (putKey k)

/-- `ParseFromString` of a key. -/
def parseKey (limit : Nat) (b : Bytes) : Option DpfKey := merge (keyField limit) DpfKey.default b

/-- `SerializeValueTypeDeterministically` (/repo/dpf/distributed_point_function.cc:552-568), for types that fit into
2^31 - 1 bytes. -/
def serializeType (t : ValueType) : Bytes := wire (putType t)

/-- `ParseFromString` of value types and values. -/
def parseType (limit : Nat) (b : Bytes) : Option ValueType := merge (typeField limit) .notSet b
@[inherit_doc parseType] def parseValue (limit : Nat) (b : Bytes) : Option Value := merge (valueField limit) .notSet b

/-! ## Messages of comparison functions and gates -/

/-- `DcfKey` (/repo/dcf/distributed_comparison_function.proto:27-29). -/
def putDcfKey (k : DcfKey) : List Record := [inner 1 (putKey k)]

@[inherit_doc putDcfKey] def dcfKeyField (limit : Nat) (k : DcfKey) : Record → Option DcfKey
  | (1, .bytes b) => if limit = 0 then none else merge (keyField (limit - 1)) k b
  | _ => some k

/-- `MicKey` (/repo/dcf/fss_gates/multiple_interval_containment.proto:51-60). -/
def putMicKey (k : MicKey) : List Record :=
  [inner 1 (putDcfKey k.dcfKey)] ++ k.outputMaskShare.map fun v => inner 2 (putInteger v)

@[inherit_doc putMicKey] def micKeyField (limit : Nat) (k : MicKey) : Record → Option MicKey
  | (1, .bytes b) =>
    if limit = 0 then none else (merge (dcfKeyField (limit - 1)) k.dcfKey b).map fun x => { k with dcfKey := x }
  | (2, .bytes b) =>
    if limit = 0 then none else
      (merge (integerField (limit - 1)) .notSet b).map fun v => { k with outputMaskShare := k.outputMaskShare ++ [v] }
  | _ => some k

/-- `ParseFromString` of keys of comparison functions and gates. -/
def parseDcfKey (limit : Nat) (b : Bytes) : Option DcfKey := merge (dcfKeyField limit) DpfKey.default b
@[inherit_doc parseDcfKey] def parseMicKey (limit : Nat) (b : Bytes) : Option MicKey :=
  merge (micKeyField limit) ⟨DpfKey.default, []⟩ b

/-- `Interval` (/repo/dcf/fss_gates/multiple_interval_containment.proto:23-31). -/
def putInterval (v : Interval) : List Record :=
  (v.lower.toList.map fun x => inner 1 (putInteger x)) ++ v.upper.toList.map fun x => inner 2 (putInteger x)

@[inherit_doc putInterval] def intervalField (limit : Nat) (v : Interval) : Record → Option Interval
  | (1, .bytes b) =>
    if limit = 0 then none else
      (merge (integerField (limit - 1)) (v.lower.getD .notSet) b).map fun x => { v with lower := some x }
  | (2, .bytes b) =>
    if limit = 0 then none else
      (merge (integerField (limit - 1)) (v.upper.getD .notSet) b).map fun x => { v with upper := some x }
  | _ => some v

/-- `MicParameters` (/repo/dcf/fss_gates/multiple_interval_containment.proto:33-46). -/
def putMicParameters (p : MicParameters) : List Record :=
  number 1 (signed p.logGroupSize) ++ p.intervals.map fun v => inner 2 (putInterval v)

@[inherit_doc putMicParameters] def micParametersField (limit : Nat) (p : MicParameters) :
    Record → Option MicParameters
  | (1, .varint n) => some { p with logGroupSize := toInt32 n }
  | (2, .bytes b) =>
    if limit = 0 then none else
      (merge (intervalField (limit - 1)) ⟨none, none⟩ b).map fun v => { p with intervals := p.intervals ++ [v] }
  | _ => some p

@[inherit_doc parseDcfKey] def parseMicParameters (limit : Nat) (b : Bytes) : Option MicParameters :=
  merge (micParametersField limit) ⟨0, []⟩ b

/-! ## Messages of PIR (/repo/pir/private_information_retrieval.proto) -/

/-- `PlainRequest` (/repo/pir/private_information_retrieval.proto:128-134). -/
def putPlain (r : PlainRequest) : List Record :=
  (r.dpfKeys.map fun k => inner 1 (putKey k)) ++
    if r.seedFingerprint = 0 then [] else [(2, .fixed32 r.seedFingerprint.toNat)]

@[inherit_doc putPlain] def plainField (limit : Nat) (r : PlainRequest) : Record → Option PlainRequest
  | (1, .bytes b) =>
    if limit = 0 then none else
      (merge (keyField (limit - 1)) DpfKey.default b).map fun k => { r with dpfKeys := r.dpfKeys ++ [k] }
  | (2, .fixed32 n) => some { r with seedFingerprint := BitVec.ofNat 32 n }
  | _ => some r

/-- `HelperRequest` (/repo/pir/private_information_retrieval.proto:150-153). -/
def putHelper (r : HelperRequest) : List Record :=
  (r.plainRequest.toList.map fun p => inner 1 (putPlain p)) ++ string 2 r.oneTimePadSeed

@[inherit_doc putHelper] def helperField (limit : Nat) (r : HelperRequest) : Record → Option HelperRequest
  | (1, .bytes b) =>
    if limit = 0 then none else
      (merge (plainField (limit - 1)) (r.plainRequest.getD PlainRequest.default) b).map fun p =>
        { r with plainRequest := some p }
  | (2, .bytes b) => some { r with oneTimePadSeed := b }
  | _ => some r

/-- `EncryptedHelperRequest` (/repo/pir/private_information_retrieval.proto:144-146). -/
def putEncrypted (b : Bytes) : List Record := string 1 b

@[inherit_doc putEncrypted] def encryptedField (s : Bytes) : Record → Option Bytes
  | (1, .bytes b) => some b
  | _ => some s

/-- `LeaderRequest` (/repo/pir/private_information_retrieval.proto:138-141). -/
def putLeader (r : Option PlainRequest × Option Bytes) : List Record :=
  (r.1.toList.map fun p => inner 1 (putPlain p)) ++ r.2.toList.map fun b => inner 2 (putEncrypted b)

@[inherit_doc putLeader] def leaderField (limit : Nat) (r : Option PlainRequest × Option Bytes) :
    Record → Option (Option PlainRequest × Option Bytes)
  | (1, .bytes b) =>
    if limit = 0 then none else
      (merge (plainField (limit - 1)) (r.1.getD PlainRequest.default) b).map fun p => (some p, r.2)
  | (2, .bytes b) => if limit = 0 then none else (merge encryptedField (r.2.getD []) b).map fun e => (r.1, some e)
  | _ => some r

/-- `DpfPirRequest` (/repo/pir/private_information_retrieval.proto:126-160). -/
def putDpfRequest : DpfPirRequest → List Record
  | .notSet => []
  | .plain r => [inner 1 (putPlain r)]
  | .leader p e => [inner 2 (putLeader (p, e))]
  | .encrypted b => [inner 3 (putEncrypted b)]

@[inherit_doc putDpfRequest] def dpfRequestField (limit : Nat) (r : DpfPirRequest) : Record → Option DpfPirRequest
  | (1, .bytes b) =>
    if limit = 0 then none else
      let old := match r with
        | .plain r => r
        | _ => PlainRequest.default
      (merge (plainField (limit - 1)) old b).map .plain
  | (2, .bytes b) =>
    if limit = 0 then none else
      let old := match r with
        | .leader p e => (p, e)
        | _ => (none, none)
      (merge (leaderField (limit - 1)) old b).map fun x => .leader x.1 x.2
  | (3, .bytes b) =>
    if limit = 0 then none else
      let old := match r with
        | .encrypted b => b
        | _ => []
      (merge encryptedField old b).map .encrypted
  | _ => some r

/-- `PirRequest` (/repo/pir/private_information_retrieval.proto:65-69). -/
def putRequest (r : PirRequest) : List Record := r.toList.map fun d => inner 1 (putDpfRequest d)

@[inherit_doc putRequest] def requestField (limit : Nat) (r : PirRequest) : Record → Option PirRequest
  | (1, .bytes b) =>
    if limit = 0 then none else (merge (dpfRequestField (limit - 1)) (r.getD .notSet) b).map some
  | _ => some r

/-- `DpfPirResponse` (/repo/pir/private_information_retrieval.proto:183-185). -/
def putDpfResponse (r : List Bytes) : List Record := r.map fun b => (1, .bytes b)

@[inherit_doc putDpfResponse] def dpfResponseField (r : List Bytes) : Record → Option (List Bytes)
  | (1, .bytes b) => some (r ++ [b])
  | _ => some r

/-- `PirResponse` (/repo/pir/private_information_retrieval.proto:73-77). -/
def putResponse (r : PirResponse) : List Record := r.toList.map fun d => inner 1 (putDpfResponse d)

@[inherit_doc putResponse] def responseField (limit : Nat) (r : PirResponse) : Record → Option PirResponse
  | (1, .bytes b) => if limit = 0 then none else (merge dpfResponseField (r.getD []) b).map some
  | _ => some r

/-- `DenseDpfPirConfig` (/repo/pir/private_information_retrieval.proto:84-87). -/
def putDenseConfig (n : Int) : List Record := number 1 (signed n)

@[inherit_doc putDenseConfig] def denseConfigField (n : Int) : Record → Option Int
  | (1, .varint x) => some (toInt64 x)
  | _ => some n

/-- `CuckooHashingSparseDpfPirConfig` and `SimpleHashingSparseDpfPirConfig`
(/repo/pir/private_information_retrieval.proto:90-99). -/
def putHashConfig (c : Int × Int) : List Record := number 1 (signed c.1) ++ number 2 (signed c.2)

@[inherit_doc putHashConfig] def hashConfigField (c : Int × Int) : Record → Option (Int × Int)
  | (1, .varint n) => some (toInt32 n, c.2)
  | (2, .varint n) => some (c.1, toInt64 n)
  | _ => some c

/-- `PirConfig` (/repo/pir/private_information_retrieval.proto:31-37). -/
def putConfig : PirConfig → List Record
  | .notSet => []
  | .dense n => [inner 1 (putDenseConfig n)]
  | .cuckoo f n => [inner 2 (putHashConfig (f, n))]
  | .simple f n => [inner 3 (putHashConfig (f, n))]

@[inherit_doc putConfig] def configField (limit : Nat) (c : PirConfig) : Record → Option PirConfig
  | (1, .bytes b) =>
    if limit = 0 then none else
      let old := match c with
        | .dense n => n
        | _ => 0
      (merge denseConfigField old b).map .dense
  | (2, .bytes b) =>
    if limit = 0 then none else
      let old := match c with
        | .cuckoo f n => (f, n)
        | _ => (0, 0)
      (merge hashConfigField old b).map fun x => .cuckoo x.1 x.2
  | (3, .bytes b) =>
    if limit = 0 then none else
      let old := match c with
        | .simple f n => (f, n)
        | _ => (0, 0)
      (merge hashConfigField old b).map fun x => .simple x.1 x.2
  | _ => some c

/-- `HashFamilyConfig` (/repo/pir/hashing/hash_family_config.proto:25-35). -/
def putFamily (c : HashFamilyConfig) : List Record := number 1 (signed c.hashFamily) ++ string 2 c.seed

@[inherit_doc putFamily] def familyField (c : HashFamilyConfig) : Record → Option HashFamilyConfig
  | (1, .varint n) => some { c with hashFamily := toInt32 n }
  | (2, .bytes b) => some { c with seed := b }
  | _ => some c

/-- `CuckooHashingParams` (/repo/pir/private_information_retrieval.proto:102-109). -/
def putCuckoo (p : CuckooParams) : List Record :=
  [inner 1 (putFamily p.hashFamilyConfig)] ++ number 2 (signed p.numHashFunctions) ++ number 3 (signed p.numBuckets)

@[inherit_doc putCuckoo] def cuckooField (limit : Nat) (p : CuckooParams) : Record → Option CuckooParams
  | (1, .bytes b) =>
    if limit = 0 then none else
      (merge familyField p.hashFamilyConfig b).map fun c => { p with hashFamilyConfig := c }
  | (2, .varint n) => some { p with numHashFunctions := toInt32 n }
  | (3, .varint n) => some { p with numBuckets := toInt64 n }
  | _ => some p

/-- `SimpleHashingParams` (/repo/pir/private_information_retrieval.proto:112-117). -/
def putSimple (p : SimpleParams) : List Record :=
  [inner 1 (putFamily p.hashFamilyConfig)] ++ number 2 (signed p.numBuckets)

@[inherit_doc putSimple] def simpleField (limit : Nat) (p : SimpleParams) : Record → Option SimpleParams
  | (1, .bytes b) =>
    if limit = 0 then none else
      (merge familyField p.hashFamilyConfig b).map fun c => { p with hashFamilyConfig := c }
  | (2, .varint n) => some { p with numBuckets := toInt64 n }
  | _ => some p

/-- `PirServerPublicParams` (/repo/pir/private_information_retrieval.proto:57-62). -/
def putPublic : PublicParams → List Record
  | .notSet => []
  | .cuckoo p => [inner 1 (putCuckoo p)]
  | .simple p => [inner 2 (putSimple p)]

@[inherit_doc putPublic] def publicField (limit : Nat) (c : PublicParams) : Record → Option PublicParams
  | (1, .bytes b) =>
    if limit = 0 then none else
      let old := match c with
        | .cuckoo p => p
        | _ => ⟨⟨0, []⟩, 0, 0⟩
      (merge (cuckooField (limit - 1)) old b).map .cuckoo
  | (2, .bytes b) =>
    if limit = 0 then none else
      let old := match c with
        | .simple p => p
        | _ => ⟨⟨0, []⟩, 0⟩
      (merge (simpleField (limit - 1)) old b).map .simple
  | _ => some c

/-- `CuckooHashingSparseDpfPirRequestClientState` and `SimpleHashingSparseDpfPirRequestClientState`
(/repo/pir/private_information_retrieval.proto:169-179); `DenseDpfPirRequestClientState` (163-165) has no queries. -/
def putQueries (s : Bytes × List Bytes) : List Record := string 1 s.1 ++ s.2.map fun q => (2, .bytes q)

@[inherit_doc putQueries] def queriesField (s : Bytes × List Bytes) : Record → Option (Bytes × List Bytes)
  | (1, .bytes b) => some (b, s.2)
  | (2, .bytes b) => some (s.1, s.2 ++ [b])
  | _ => some s

@[inherit_doc putQueries] def seedField (s : Bytes) : Record → Option Bytes
  | (1, .bytes b) => some b
  | _ => some s

/-- `PirRequestClientState` (/repo/pir/private_information_retrieval.proto:45-53). -/
def putState : ClientState → List Record
  | .notSet => []
  | .dense s => [inner 1 (string 1 s)]
  | .cuckoo s qs => [inner 2 (putQueries (s, qs))]
  | .simple s qs => [inner 3 (putQueries (s, qs))]

@[inherit_doc putState] def stateField (limit : Nat) (c : ClientState) : Record → Option ClientState
  | (1, .bytes b) =>
    if limit = 0 then none else
      let old := match c with
        | .dense s => s
        | _ => []
      (merge seedField old b).map .dense
  | (2, .bytes b) =>
    if limit = 0 then none else
      let old := match c with
        | .cuckoo s qs => (s, qs)
        | _ => ([], [])
      (merge queriesField old b).map fun x => .cuckoo x.1 x.2
  | (3, .bytes b) =>
    if limit = 0 then none else
      let old := match c with
        | .simple s qs => (s, qs)
        | _ => ([], [])
      (merge queriesField old b).map fun x => .simple x.1 x.2
  | _ => some c

@[inherit_doc parseKey] def parseConfig (limit : Nat) (b : Bytes) : Option PirConfig :=
  merge (configField limit) .notSet b
@[inherit_doc parseKey] def parsePublic (limit : Nat) (b : Bytes) : Option PublicParams :=
  merge (publicField limit) .notSet b
@[inherit_doc parseKey] def parseState (limit : Nat) (b : Bytes) : Option ClientState :=
  merge (stateField limit) .notSet b

/-- `ParseFromString` of the messages between client, leader and helper. -/
def parseHelper (limit : Nat) (b : Bytes) : Option HelperRequest := merge (helperField limit) ⟨none, []⟩ b
@[inherit_doc parseHelper] def parseRequest (limit : Nat) (b : Bytes) : Option PirRequest :=
  merge (requestField limit) none b
@[inherit_doc parseHelper] def parseResponse (limit : Nat) (b : Bytes) : Option PirResponse :=
  merge (responseField limit) none b

/-- The protobuf library for `HelperRequest` (/repo/pir/dpf_pir_client.h:110, /repo/pir/dpf_pir_server.cc:168-172). -/
def helperCodec (limit : Nat) : HelperCodec := ⟨fun m => wire (putHelper m), parseHelper limit⟩

end Verif.Wire
